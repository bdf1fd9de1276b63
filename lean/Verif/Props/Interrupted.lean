import Verif.Proofs.Interrupted
import Verif.Props.ConvertRun

/-!
# C136, C137: runs and conversions that are interrupted
-/

set_option autoImplicit false
set_option linter.unusedSectionVars false

namespace WindMult
open Function
variable {K T : Type} [Zero K] [One K] [Mul K] [Max K]

/-! ### C136 -/

/-- **C136** At every moment of a run, finished or not: outside the output folder nothing is changed;
before the folder is emptied nothing is changed in it either; from then on every file in it is a
temporary raster of one of the tiles or holds exactly what it is to hold in the end.  Nothing of an
earlier run is left, no matter how this one ends. -/
theorem C136_any_moment (c : RunCfg K T) (hc : c.Good) (st0 : Store K T) (k : ℕ) (s : RunState K T)
    (hrun : RunSteps c k (c.start st0) s) :
    (∀ p, ¬ c.below <+: p → s.store p = st0 p) ∧
    (s.pos 0 = 0 → s.store = st0) ∧
    (1 ≤ s.pos 0 → ∀ p x, c.below <+: p → s.store p = some x → c.Right p x) := by
  rw [below_eq]
  exact ⟨run_outside hc hrun, fun h => ((runInv hc hrun).work.p0 h).1,
    fun h p x hp hx => allRight hc hrun h p hp x hx⟩

/-- **C136** A run that was interrupted at any moment can be repeated, with any number of processes: the
result is that of a run that was not interrupted. -/
theorem C136_repeat (c c' c'' : RunCfg K T) (hc : c.Good) (hout : c'.out = c.out) (hout' : c''.out = c.out)
    (htiles : c'.tiles.Perm c.tiles) (htiles' : c''.tiles.Perm c.tiles)
    (hpar : c'.empty = c.empty ∧ c'.noLand = c.noLand ∧ c'.files = c.files)
    (hpar' : c''.empty = c.empty ∧ c''.noLand = c.noLand ∧ c''.files = c.files)
    (st0 : Store K T) (k k' k'' : ℕ) (s s' s'' : RunState K T)
    (hrun : RunSteps c k (c.start st0) s)
    (hrun' : RunSteps c' k' (c'.start s.store) s') (hdone' : c'.Done s')
    (hrun'' : RunSteps c'' k'' (c''.start st0) s'') (hdone'' : c''.Done s'') :
    (∀ p, p ≠ c.vrt → p ≠ c.vrtMax → s'.store p = s''.store p) ∧
    ∃ l l' : List (List Char), l.Perm l' ∧
      s''.store c.vrt = some (.vrt (l.map c.m3)) ∧ s''.store c.vrtMax = some (.vrt (l.map c.m3Max)) ∧
      s'.store c.vrt = some (.vrt (l'.map c.m3)) ∧
      s'.store c.vrtMax = some (.vrt (l'.map c.m3Max)) := by
  have hg : c''.Good := ⟨by rw [hout']; exact hc.out,
    fun t ht => hc.names t (htiles'.mem_iff.mp ht), htiles'.nodup_iff.mpr hc.nodup⟩
  have h := same_outcome c'' c' hg (hout.trans hout'.symm) (htiles.trans htiles'.symm)
    ⟨hpar.1.trans hpar'.1.symm, hpar.2.1.trans hpar'.2.1.symm, hpar.2.2.trans hpar'.2.2.symm⟩
    st0 s.store (fun p hp => (C136_any_moment c hc st0 k s hrun).1 p (by
      rw [below_eq] at hp ⊢; rw [← hout']; exact hp)) k'' k' s'' s' hrun'' hdone'' hrun' hdone'
  have e1 : c''.m3 = c.m3 := by funext t; unfold RunCfg.m3; rw [hout']
  have e2 : c''.m3Max = c.m3Max := by funext t; unfold RunCfg.m3Max; rw [hout']
  have e3 : c''.vrt = c.vrt := by unfold RunCfg.vrt; rw [hout']
  have e4 : c''.vrtMax = c.vrtMax := by unfold RunCfg.vrtMax; rw [hout']
  rw [e1, e2, e3, e4] at h
  exact h

/-- At every moment of a conversion: the tiles named and the multipliers found are those of the start. -/
theorem during_conv {c : ConvCfg} {st0 : Store K T} {k : ℕ} {s : ConvState K T}
    (hrun : ConvSteps c k (.start st0) s) :
    (∀ p, (∀ t, c.Named st0 t → p ≠ c.m3 t ∧ p ≠ c.m3Max t) → p ≠ c.vrt → p ≠ c.vrtMax →
      s.store p = st0 p) ∧
    (∀ t, c.Named s.store t ↔ c.Named st0 t) ∧ ∀ t, c.found s.store t = c.found st0 t := by
  obtain ⟨h0, h1⟩ := aloneInv rfl hrun
  have hrest : ∀ p, (∀ t, c.Named st0 t → p ≠ c.m3 t ∧ p ≠ c.m3Max t) → p ≠ c.vrt → p ≠ c.vrtMax →
      s.store p = st0 p := by
    by_cases hp : s.pos 0 = 0
    · intro p _ _ _
      exact congrFun (h0 hp).store p
    · exact (h1 (by omega)).rest
  have hin : ∀ (m : Mult) q, s.store (withSlash c.out ++ (m.folder ++ q)) =
      st0 (withSlash c.out ++ (m.folder ++ q)) := fun m q => by
    obtain ⟨h1, h2, h3⟩ := c.written_M m q rfl
    exact hrest _ (fun t _ => h1 t) h2 h3
  refine ⟨hrest, fun t => ?_, fun t => ?_⟩
  · unfold ConvCfg.Named
    simp only [hin]
  · funext m d
    unfold ConvCfg.found
    rw [hin]

/-- **C136** A conversion that was interrupted at any moment can be repeated, with any number of
processes: the result is that of one that was not interrupted. -/
theorem C136_convert_repeat (c c' c'' : ConvCfg) (hout : c'.out = c.out) (hout' : c''.out = c.out)
    (st0 : Store K T) (k k' k'' : ℕ) (s s' s'' : ConvState K T) (hrun : ConvSteps c k (.start st0) s)
    (hrun' : ConvSteps c' k' (.start s.store) s') (hdone' : c'.Done s')
    (hrun'' : ConvSteps c'' k'' (.start st0) s'') (hdone'' : c''.Done s'') :
    (∀ p, p ≠ c.vrtAt → p ≠ c.vrtMaxAt → s'.store p = s''.store p) ∧
    ∃ l l' : List (List Char), l.Perm l' ∧
      s''.store c.vrtAt = some (.vrt (l.map c.tifAt)) ∧
      s''.store c.vrtMaxAt = some (.vrt (l.map c.maxAt)) ∧
      s'.store c.vrtAt = some (.vrt (l'.map c.tifAt)) ∧
      s'.store c.vrtMaxAt = some (.vrt (l'.map c.maxAt)) := by
  obtain ⟨out, nW⟩ := c
  obtain ⟨out', nW'⟩ := c'
  obtain ⟨out'', nW''⟩ := c''
  simp only at hout hout'
  subst hout hout'
  obtain ⟨hr, hn, hf⟩ := during_conv hrun
  obtain ⟨a1, ⟨l, a2, a3, a4, a5⟩, a6⟩ := C135_outcome _ st0 k'' s'' hrun'' hdone''
  obtain ⟨b1, ⟨l', b2, b3, b4, b5⟩, b6⟩ := C135_outcome _ s.store k' s' hrun' hdone'
  refine ⟨fun p hv hm => ?_, l, l', ?_, a4, a5, b4, b5⟩
  · by_cases hp : ∃ t, ConvCfg.Named ⟨out'', nW⟩ st0 t ∧
      (p = ConvCfg.tifAt ⟨out'', nW⟩ t ∨ p = ConvCfg.maxAt ⟨out'', nW⟩ t)
    · obtain ⟨t, ht, hp⟩ := hp
      obtain ⟨x, mx, ⟨h1, h2⟩, h3, h4⟩ := a1 t ht
      obtain ⟨x', mx', ⟨h1', h2'⟩, h3', h4'⟩ := b1 t ((hn t).mpr ht)
      have h1' : processTile (ConvCfg.found ⟨out'', nW⟩ s.store t) = .ok x' := h1'
      rw [hf t] at h1'
      have e : x' = x := Except.ok.inj (h1'.symm.trans h1)
      subst e
      have e : mx' = mx := Except.ok.inj (h2'.symm.trans h2)
      subst e
      rcases hp with rfl | rfl
      · exact h3'.trans h3.symm
      · exact h4'.trans h4.symm
    · have hno : ∀ t, ConvCfg.Named ⟨out'', nW⟩ st0 t →
          p ≠ ConvCfg.tifAt ⟨out'', nW⟩ t ∧ p ≠ ConvCfg.maxAt ⟨out'', nW⟩ t :=
        fun t ht => ⟨fun e => hp ⟨t, ht, .inl e⟩, fun e => hp ⟨t, ht, .inr e⟩⟩
      rw [b6 p (fun t ht => hno t ((hn t).mp ht)) hv hm]
      refine (hr p ?_ ?_ ?_).trans (a6 p hno hv hm).symm
      · rw [← ConvCfg.tifAt_eq, ← ConvCfg.maxAt_eq]; exact hno
      · rw [← ConvCfg.vrtAt_eq]; exact hv
      · rw [← ConvCfg.vrtMaxAt_eq]; exact hm
  · rw [List.perm_ext_iff_of_nodup a2 b2]
    exact fun t => (a3 t).trans ((hn t).symm.trans (b3 t).symm)

/-! ### C137 -/

theorem right_opened {c : RunCfg K T} (hc : c.Good) {t : List Char} (ht : t ∈ c.tiles) {m : Mult} {d : Dir}
    {x : Content K T} (h : c.Right (openedNc c.out t d m) x) : ∃ r, x = .mult r ∧ c.seen t m d = some r := by
  have hn := hc.names t ht
  rw [← savedNc_eq_openedNc hc.out hn] at h
  have ho : Owned c.out t (savedNc c.out t d m) := ⟨hn, .inr (.inr (.inr ⟨d, m, rfl⟩))⟩
  cases x with
  | scratch =>
    obtain ⟨t', ht', h⟩ := h
    have ho' : Owned c.out t' (savedNc c.out t d m) := ⟨hc.names t' ht', by tauto⟩
    obtain rfl := owned_unique hc.out ho ho'
    obtain ⟨h1, h2, h3⟩ := (temps_distinct hc.out hn).2.2.2 d m
    tauto
  | mult r =>
    obtain ⟨t', ht', m', d', h, hs⟩ := h
    rw [← savedNc_eq_openedNc hc.out (hc.names t' ht')] at h
    have ho' : Owned c.out t' (savedNc c.out t d m) :=
      ⟨hc.names t' ht', .inr (.inr (.inr ⟨d', m', h⟩))⟩
    obtain rfl := owned_unique hc.out ho ho'
    obtain ⟨rfl, rfl⟩ := savedNc_inj hc.out hn h
    exact ⟨r, rfl, hs⟩
  | tif y =>
    obtain ⟨t', -, -, h, -⟩ := h
    rw [h] at ho
    exact absurd ho (m3_not_owned c hc.out _ _)
  | maxTif y =>
    obtain ⟨t', -, -, h, -⟩ := h
    rw [h] at ho
    exact absurd ho (m3Max_not_owned c hc.out _ _)
  | vrt l =>
    obtain ⟨l', -, ⟨h, -⟩ | ⟨h, -⟩⟩ := h
    · rw [h] at ho
      exact absurd ho (vrt_not_owned c hc.out _)
    · rw [h] at ho
      exact absurd ho (vrtMax_not_owned c hc.out _)

/-- **C137** (full statement, false: `C137_unfinished`) If a run is interrupted at any moment after the
output folder was emptied and the files it left are converted with `mpi_runner.py`, every GeoTIFF
that is made is that of a completed run.

Partial: for every tile all of whose multiplier files were there.  Missing: the tiles that were being
computed.  Their missing terrain and topographic multipliers count as 1. -/
theorem C137_converted_partial (c : RunCfg K T) (hc : c.Good) (st0 : Store K T) (k : ℕ) (s : RunState K T)
    (hrun : RunSteps c k (c.start st0) s) (h1 : 1 ≤ s.pos 0) (c' : ConvCfg) (hout : c'.out = c.out)
    (k' : ℕ) (s' : ConvState K T) (hrun' : ConvSteps c' k' (.start s.store) s') (hdone' : c'.Done s')
    (t : List Char) (ht : t ∈ c.tiles) (he : c.empty t = false)
    (hall : ∀ m d, c.seen t m d ≠ none → s.store (openedNc c.out t d m) ≠ none) :
    ∃ x mx, processTile (c.seen t) = .ok x ∧ processMaxTile x = .ok mx ∧
      s'.store (c.m3 t) = some (.tif x) ∧ s'.store (c.m3Max t) = some (.maxTif mx) := by
  have hn := hc.names t ht
  have hright := allRight hc hrun h1
  have hbelow : ∀ m d, withSlash c.out <+: openedNc c.out t d m := fun m d => by
    rw [← savedNc_eq_openedNc hc.out hn, savedNc_rel hc.out hn]
    exact List.prefix_append _ _
  have hfound : c'.found s.store t = c.seen t := by
    funext m d
    rw [← c'.found_eq s.store hn.1, hout, readMult]
    cases hs : s.store (openedNc c.out t d m) with
    | none =>
      cases hse : c.seen t m d with
      | none => rfl
      | some r => exact absurd hs (hall m d (by rw [hse]; simp))
    | some x =>
      obtain ⟨r, rfl, hse⟩ := right_opened hc ht (hright _ (hbelow m d) x hs)
      rw [hse]
  have hms : c.seen t .ms .n ≠ none := by
    unfold RunCfg.seen
    rw [if_pos ⟨he, by simp⟩]; simp
  have hnamed : c'.Named s.store t := by
    refine ⟨hn.2.1, hn.1, .inr ⟨Mult.ms.unit ++ '_' :: (Dir.n.letters ++ ['.', 'n', 'c']), by decide, ?_⟩⟩
    rw [← c'.opened_eq hn.1, hout]
    exact hall .ms .n hms
  obtain ⟨x, mx, ⟨h2, h3⟩, h4, h5⟩ := (C135_outcome c' s.store k' s' hrun' hdone').1 t hnamed
  rw [hfound] at h2
  refine ⟨x, mx, h2, h3, ?_, ?_⟩
  · rw [← h4, c'.tifAt_eq]; unfold ConvCfg.m3 RunCfg.m3; rw [hout]
  · rw [← h5, c'.maxAt_eq]; unfold ConvCfg.m3Max RunCfg.m3Max; rw [hout]

/-- **C137** In particular, for a tile whose computation was finished. -/
theorem C137_finished_tile (c : RunCfg K T) (hc : c.Good) (st0 : Store K T) (k : ℕ) (s : RunState K T)
    (hrun : RunSteps c k (c.start st0) s) (h1 : 1 ≤ s.pos 0) (t : List Char) (ht : t ∈ c.tiles)
    (hrem : s.rem t = []) (m : Mult) (d : Dir) :
    s.store (openedNc c.out t d m) = (c.seen t m d).map .mult := by
  have hn := hc.names t ht
  have hi := runInv hc hrun
  have ho : Owned c.out t (savedNc c.out t d m) := ⟨hn, .inr (.inr (.inr ⟨d, m, rfl⟩))⟩
  rw [← savedNc_eq_openedNc hc.out hn, ← left_saved c hc.out hn]
  by_cases h4 : s.pos 0 ≤ 4
  · exact tileStore_end hc (wipe_below c st0) (hi.work.t1 h1 h4) ht hrem _ ho
  · exact (hi.conv (by omega)).own t ht _ ho

/-! ### The witness: a run stopped before the topographic step -/

/-- One square tile; the topographic multipliers are 3, the others 1. -/
def stoppedRun : RunCfg ℚ Unit where
  out := ['/', 'o']
  tiles := [['a']]
  nW := 0
  empty := fun _ => false
  noLand := fun _ => false
  files := fun _ m _ => ⟨⟨2, 2, fun _ _ => if m = .mt then 3 else 1⟩, ()⟩

/-- Its file operations before those of the topographic step. -/
def stoppedOps : List FileOp := (tileOps ['/', 'o'] ['a'] false false).take 27

theorem stoppedRun_good : stoppedRun.Good where
  out := show ¬ ['/', '/'] <:+ ['/', 'o'] by decide
  names := by
    intro t ht
    obtain rfl := List.mem_singleton.mp ht
    exact ⟨by decide, by decide, _, List.mem_singleton_self _, by decide⟩
  nodup := List.nodup_singleton _

theorem execAll_new {w : List Char → Content K T} (as : List FileOp) : ∀ {st st' : Store K T},
    execAll w st as = .ok st' → ∀ p, st' p ≠ none → st p = none → FileOp.create p ∈ as := by
  induction as with
  | nil => intro st st' h p h1 h2; cases h; exact absurd h2 h1
  | cons a as ih =>
    intro st st' h p h1 h2
    simp only [execAll] at h
    match hx : a.exec w st with
    | .error e => rw [hx] at h; cases h
    | .ok st1 =>
      rw [hx] at h
      by_cases h3 : st1 p = none
      · exact List.mem_cons_of_mem _ (ih h p h1 h3)
      · rcases exec_new hx p with h4 | h4 | ⟨rfl, -⟩
        · exact absurd h4 h3
        · exact absurd (h4.trans h2) h3
        · exact List.mem_cons_self

theorem serial_prefix {c : RunCfg K T} {t : List Char} (hn : c.nW = 0) (ht : c.tiles[0]? = some t) {s0 : RunState K T}
    (as rest : List FileOp) : ∀ {k : ℕ} {s : RunState K T}, RunSteps c k s0 s → s.pos 0 = 2 →
    s.rem t = as ++ rest → ∀ {g}, execAll (c.written t) s.store as = .ok g →
    ∃ k' s', RunSteps c k' s0 s' ∧ s'.pos 0 = 2 ∧ s'.rem t = rest ∧ s'.store = g ∧
      ∀ t', t' ≠ t → s'.rem t' = s.rem t' := by
  induction as with
  | nil =>
    intro k s h hp hr g hg
    cases hg
    exact ⟨k, s, h, hp, hr, rfl, fun _ _ => rfl⟩
  | cons a as ih =>
    intro k s h hp hr g hg
    simp only [execAll] at hg
    match hx : a.exec (c.written t) s.store with
    | .error e => rw [hx] at hg; cases hg
    | .ok st =>
      rw [hx] at hg
      have hs := RunStep.serialOp s 0 t a (as ++ rest) st hn hp ht
        (fun j _ hj => absurd hj (by omega)) hr hx
      obtain ⟨k', s', h1, h2, h3, h4, h5⟩ := ih (.step h hs) hp (by simp) hg
      exact ⟨k', s', h1, h2, h3, h4, fun t' ht' => (h5 t' ht').trans (update_of_ne ht' _ _)⟩

/-- After operations on tile `a` alone, in a folder that was empty, the converter finds tile `a` alone. -/
theorem named_after_ops {w : List Char → Content K T} (ops : List FileOp)
    (hops : (ops.all fun a => match a with
      | .create p => !decide (['/', 'o', '/', 's', 'h', 'i', 'e', 'l', 'd', 'i', 'n', 'g', '/'] <+: p) ||
        decide (tileOfFile (p.drop 13) = ['a'])
      | _ => true) = true) {st g : Store K T} (hst : ∀ p, st p = none) (hg : execAll w st ops = .ok g)
    (hs : g (savedNc ['/', 'o'] ['a'] .n .ms) ≠ none) (t : List Char) :
    t ∈ [['a']] ↔ ConvCfg.Named ⟨['/', 'o'], 0⟩ g t := by
  rw [← ConvCfg.listed, List.mem_singleton]
  constructor
  · rintro rfl
    exact ⟨['a', '_', 'm', 's', '_', 'n', '.', 'n', 'c'], by decide, by decide, hs, by decide⟩
  · rintro ⟨f, h0, hf, hg', rfl⟩
    have hc := execAll_new _ hg _ hg' (hst _)
    rw [ConvCfg.shieldFile_eq ⟨['/', 'o'], 0⟩ hf] at hc
    have h := List.all_eq_true.mp hops _ hc
    dsimp only at h
    rw [Bool.or_eq_true, Bool.not_eq_true', decide_eq_false_iff_not, decide_eq_true_eq] at h
    exact h.resolve_left (not_not.mpr (List.prefix_append _ f))

/-- C137 is false: a run that is stopped before its topographic step; the converter makes of its files a
GeoTIFF (with an entry in the log only), with 1 where a completed run has 3. -/
theorem C137_unfinished : ∃ (k : ℕ) (s : RunState ℚ Unit) (k' : ℕ) (s' : ConvState ℚ Unit)
    (x y : TileTif ℚ Unit),
    RunSteps stoppedRun k (stoppedRun.start fun _ => none) s ∧ 1 ≤ s.pos 0 ∧
    ConvSteps ⟨['/', 'o'], 0⟩ k' (.start s.store) s' ∧ ConvCfg.Done ⟨['/', 'o'], 0⟩ s' ∧
    s'.store (stoppedRun.m3 ['a']) = some (.tif x) ∧
    processTile (stoppedRun.seen ['a']) = .ok y ∧
    x.bands.map (fun b => b.2.val 0 0) = List.replicate 8 1 ∧
    y.bands.map (fun b => b.2.val 0 0) = List.replicate 8 3 := by
  obtain ⟨g, x, hg, hx, hb, hmx, hs⟩ : ∃ g x, execAll (stoppedRun.written ['a'])
      (stoppedRun.wipe fun _ => none) stoppedOps = .ok g ∧
      processTile (ConvCfg.found ⟨['/', 'o'], 0⟩ g ['a']) = .ok x ∧
      x.bands.map (fun b => b.2.val 0 0) = List.replicate 8 1 ∧ (processMaxTile x).isOk ∧
      g (savedNc ['/', 'o'] ['a'] .n .ms) ≠ none := by
    have hd : (match execAll (stoppedRun.written ['a']) (stoppedRun.wipe fun _ => none) stoppedOps with
        | .error _ => false
        | .ok g =>
          match processTile (ConvCfg.found ⟨['/', 'o'], 0⟩ g ['a']) with
          | .error _ => false
          | .ok x => decide (x.bands.map (fun b => b.2.val 0 0) = List.replicate 8 1) &&
            (processMaxTile x).isOk && (g (savedNc ['/', 'o'] ['a'] .n .ms)).isSome) = true := by
      decide +kernel
    match hg : execAll (stoppedRun.written ['a']) (stoppedRun.wipe fun _ => none) stoppedOps with
    | .error _ => rw [hg] at hd; cases hd
    | .ok g =>
      rw [hg] at hd
      dsimp only at hd
      match hx : processTile (ConvCfg.found ⟨['/', 'o'], 0⟩ g ['a']) with
      | .error _ => rw [hx] at hd; cases hd
      | .ok x =>
        rw [hx] at hd
        simp only [Bool.and_eq_true, decide_eq_true_eq, Option.isSome_iff_ne_none] at hd
        exact ⟨g, x, rfl, hx, hd.1.1, hd.1.2, hd.2⟩
  obtain ⟨y, hy, hyb⟩ : ∃ y, processTile (stoppedRun.seen ['a']) = .ok y ∧
      y.bands.map (fun b => b.2.val 0 0) = List.replicate 8 3 := by
    have hd : (match processTile (stoppedRun.seen ['a']) with
        | .error _ => false
        | .ok y => decide (y.bands.map (fun b => b.2.val 0 0) = List.replicate 8 3)) = true := by
      decide +kernel
    match hy : processTile (stoppedRun.seen ['a']) with
    | .error _ => rw [hy] at hd; cases hd
    | .ok y => rw [hy] at hd; exact ⟨y, rfl, of_decide_eq_true hd⟩
  have hr0 : RunSteps stoppedRun 0 (stoppedRun.start fun _ => none) (stoppedRun.start fun _ => none) := .refl _
  have hr1 := RunSteps.step hr0 (.prepare _ rfl)
  have hr2 := RunSteps.step hr1 (.leave1 _ 0 (Nat.zero_le _) rfl (fun q hq => by
    obtain rfl : q = 0 := Nat.le_zero.mp hq
    exact le_rfl))
  obtain ⟨k, s, hrun, hp, -, rfl, -⟩ := serial_prefix rfl rfl stoppedOps _ hr2 rfl
    (List.take_append_drop 27 _).symm hg
  obtain ⟨mx, hmx⟩ : ∃ mx, processMaxTile x = .ok mx := by
    match h : processMaxTile x with
    | .error _ => rw [h] at hmx; cases hmx
    | .ok mx => exact ⟨mx, rfl⟩
  have hnamed : ∀ t, t ∈ [['a']] ↔ ConvCfg.Named ⟨['/', 'o'], 0⟩ s.store t :=
    named_after_ops stoppedOps (by decide +kernel) (by simp [RunCfg.wipe]) hg hs
  obtain ⟨k', s', hrun', -, hdone'⟩ := C135_completes ⟨['/', 'o'], 0⟩ s.store [['a']]
    (List.nodup_singleton _) hnamed (fun t ht => by
      obtain rfl := List.mem_singleton.mp ht
      exact ⟨x, mx, hx, hmx⟩) 0 _ (.refl _)
  obtain ⟨x', mx', ⟨h2, -⟩, h4, -⟩ :=
    (C135_outcome _ s.store k' s' hrun' hdone').1 ['a'] ((hnamed _).mp (by simp))
  have e : x' = x := Except.ok.inj (h2.symm.trans hx)
  subst e
  exact ⟨k, s, k', s', x', y, hrun, by omega, hrun', hdone', h4, hy, hb, hyb⟩

/-! ### Examples -/

/-- A run of three tiles with two workers is interrupted after its first two steps; repeated by one process
it makes of the tiles what a run with two workers makes that was not interrupted. -/
example (st0 : Store ℚ Unit) : ∃ s k' s' k'' s'',
    RunSteps (sampleRun 2) 2 ((sampleRun 2).start st0) s ∧ ¬ (sampleRun 2).Done s ∧ s.store ≠ s'.store ∧
    RunSteps (sampleRun 0) k' ((sampleRun 0).start s.store) s' ∧ (sampleRun 0).Done s' ∧
    RunSteps (sampleRun 2) k'' ((sampleRun 2).start st0) s'' ∧ (sampleRun 2).Done s'' ∧
    s'.store ['/', 'o', '/', 'M', '3', '/', 'a', '.', 't', 'i', 'f'] =
      s''.store ['/', 'o', '/', 'M', '3', '/', 'a', '.', 't', 'i', 'f'] := by
  have hr0 : RunSteps (sampleRun 2) 0 ((sampleRun 2).start st0) ((sampleRun 2).start st0) := .refl _
  have hr1 := RunSteps.step hr0 (.prepare _ rfl)
  have hr2 := RunSteps.step hr1 (.skip _ 1 le_rfl (by show 1 ≤ 2; omega) rfl)
  obtain ⟨k', s', h1, -, h2⟩ :=
    C94_completes _ (sampleRun_good 0) (sampleRun_shapes 0) ((sampleRun 2).wipe st0) 0 _ (.refl _)
  obtain ⟨k'', s'', h3, -, h4⟩ := C94_completes _ (sampleRun_good 2) (sampleRun_shapes 2) st0 0 _ (.refl _)
  have h5 := C136_repeat (sampleRun 2) (sampleRun 0) (sampleRun 2) (sampleRun_good 2) rfl rfl (.refl _) (.refl _)
    ⟨rfl, rfl, rfl⟩ ⟨rfl, rfl, rfl⟩ st0 _ k' k'' _ s' s'' hr2 h1 h2 h3 h4
  refine ⟨_, k', s', k'', s'', hr2, fun h => ?_, fun h => ?_, h1, h2, h3, h4, h5.1 _ (by decide) (by decide)⟩
  · have := h 2 le_rfl
    exact absurd this (by show ¬ update (update (fun _ => 0) 0 1) 1 1 2 = 7; decide)
  · obtain ⟨l, l', -, -, -, h6, -⟩ := h5.2
    have h7 : (sampleRun 2).wipe st0 (sampleRun 2).vrt = none := by
      unfold RunCfg.wipe
      rw [if_pos (by decide)]
    have h8 : s'.store (sampleRun 2).vrt = none := (congrFun h _).symm.trans h7
    rw [h8] at h6
    cases h6

/-- Files of an earlier run do not outlive the first step: whatever the folder held, it is empty. -/
example (st0 : Store ℚ Unit) : ∃ s, RunSteps (sampleRun 2) 1 ((sampleRun 2).start st0) s ∧
    ∀ p, (sampleRun 2).below <+: p → s.store p = none := by
  have hr0 : RunSteps (sampleRun 2) 0 ((sampleRun 2).start st0) ((sampleRun 2).start st0) := .refl _
  exact ⟨_, .step hr0 (.prepare _ rfl), fun p hp => if_pos hp⟩

theorem stoppedRun_shapes : stoppedRun.Shapes :=
  fun _ _ _ => ⟨2, 2, fun _ => rfl, fun _ _ => ⟨rfl, rfl⟩⟩

/-- The converter is interrupted after writing the GeoTIFF of the tile, before the maxima; it can be started
again. -/
example (st0 : Store ℚ Unit) : ∃ k s s1 k' s' k'' s'',
    RunSteps stoppedRun k (stoppedRun.start st0) s ∧ stoppedRun.Done s ∧
    ConvSteps ⟨['/', 'o'], 0⟩ 2 (.start s.store) s1 ∧ ¬ ConvCfg.Done ⟨['/', 'o'], 0⟩ s1 ∧
    ConvSteps ⟨['/', 'o'], 3⟩ k' (.start s1.store) s' ∧ ConvCfg.Done ⟨['/', 'o'], 3⟩ s' ∧
    ConvSteps ⟨['/', 'o'], 1⟩ k'' (.start s.store) s'' ∧ ConvCfg.Done ⟨['/', 'o'], 1⟩ s'' ∧
    s'.store ['/', 'o', '/', 'M', '3', '/', 'a', '.', 't', 'i', 'f'] =
      s''.store ['/', 'o', '/', 'M', '3', '/', 'a', '.', 't', 'i', 'f'] := by
  obtain ⟨k, s, h1, -, h2⟩ := C94_completes _ stoppedRun_good stoppedRun_shapes st0 0 _ (.refl _)
  have hn : ∀ nW t, ConvCfg.Named ⟨['/', 'o'], nW⟩ s.store t ↔ t ∈ [['a']] := fun nW t => by
    rw [run_named _ stoppedRun_good st0 k s h1 h2 ⟨['/', 'o'], nW⟩ rfl]
    exact and_iff_left rfl
  obtain ⟨x, mx, hx, hmx, -⟩ := (C93_outcome _ stoppedRun_good st0 k s h1 h2).2.1 ['a'] (by simp [stoppedRun]) rfl
  have hf : ∀ nW, ConvCfg.found ⟨['/', 'o'], nW⟩ s.store ['a'] = stoppedRun.seen ['a'] := fun nW =>
    run_found _ stoppedRun_good st0 k s h1 h2 ⟨['/', 'o'], nW⟩ rfl (by simp [stoppedRun])
  have hr0 : ConvSteps ⟨['/', 'o'], 0⟩ 0 (.start s.store) (.start s.store) := .refl _
  have hr1 := ConvSteps.step hr0 (.list _ [['a']] rfl (List.nodup_singleton _) fun t => by
    rw [ConvCfg.listed]; exact (hn 0 t).symm)
  have hr2 := ConvSteps.step hr1 (.convert _ 0 ['a'] [] x le_rfl rfl rfl rfl (by
    rw [← hx, ← hf 0]
    congr 1
    funext m d
    exact ConvCfg.found_eq ⟨['/', 'o'], 0⟩ s.store (t := ['a']) (by decide) m d))
  obtain ⟨-, hn1, hf1⟩ := during_conv hr2
  obtain ⟨k', s', h3, -, h4⟩ := C135_completes ⟨['/', 'o'], 3⟩ _ [['a']] (List.nodup_singleton _)
    (fun t => ((hn1 t).trans (hn 0 t)).symm) (fun t ht => by
      obtain rfl := List.mem_singleton.mp ht
      exact ⟨x, mx, by rw [← hx, ← hf 0, ← hf1]; rfl, hmx⟩) 0 _ (.refl _)
  obtain ⟨k'', s'', h5, h6⟩ := C135_run_completes _ stoppedRun_good st0 k s h1 h2 ⟨['/', 'o'], 1⟩ rfl
  refine ⟨k, s, _, k', s', k'', s'', h1, h2, hr2, fun h => ?_, h3, h4, h5, h6,
    (C136_convert_repeat ⟨['/', 'o'], 0⟩ ⟨['/', 'o'], 3⟩ ⟨['/', 'o'], 1⟩ rfl rfl s.store _ _ _ _ s' s''
      hr2 h3 h4 h5 h6).1 _ (by decide) (by decide)⟩
  exact absurd (h 0 le_rfl) (by show ¬ update (fun _ => 0) 0 1 0 = 2; decide)

/-- One process has computed tile `a` and not begun tile `c`, and is interrupted; the converter then makes the
GeoTIFF of `a` a completed run makes. -/
example : ∃ k s k' s' x, RunSteps (sampleRun 0) k ((sampleRun 0).start fun _ => none) s ∧
    s.rem ['c'] ≠ [] ∧ ConvSteps ⟨['/', 'o'], 0⟩ k' (.start s.store) s' ∧ ConvCfg.Done ⟨['/', 'o'], 0⟩ s' ∧
    processTile ((sampleRun 0).seen ['a']) = .ok x ∧ s'.store ((sampleRun 0).m3 ['a']) = some (.tif x) := by
  have hgood := sampleRun_good 0
  obtain ⟨g, hg, hs⟩ : ∃ g, execAll ((sampleRun 0).written ['a']) ((sampleRun 0).wipe fun _ => none)
      (tileOps ['/', 'o'] ['a'] false false) = .ok g ∧ g (savedNc ['/', 'o'] ['a'] .n .ms) ≠ none := by
    have hd : (match execAll ((sampleRun 0).written ['a']) ((sampleRun 0).wipe fun _ => none)
        (tileOps ['/', 'o'] ['a'] false false) with
        | .error _ => false
        | .ok g => (g (savedNc ['/', 'o'] ['a'] .n .ms)).isSome) = true := by decide +kernel
    match hg : execAll ((sampleRun 0).written ['a']) ((sampleRun 0).wipe fun _ => none)
        (tileOps ['/', 'o'] ['a'] false false) with
    | .error _ => rw [hg] at hd; cases hd
    | .ok g => rw [hg] at hd; exact ⟨g, rfl, Option.isSome_iff_ne_none.mp hd⟩
  have hr0 : RunSteps (sampleRun 0) 0 ((sampleRun 0).start fun _ => none) ((sampleRun 0).start fun _ => none) :=
    .refl _
  have hr1 := RunSteps.step hr0 (.prepare _ rfl)
  have hr2 := RunSteps.step hr1 (.leave1 _ 0 (Nat.zero_le _) rfl (fun q hq => by
    obtain rfl : q = 0 := Nat.le_zero.mp hq
    exact le_rfl))
  obtain ⟨k, s, hrun, hp, hrem, rfl, hoth⟩ := serial_prefix (t := ['a']) rfl rfl _ [] hr2 rfl
    (List.append_nil _).symm hg
  have hall := C137_finished_tile _ hgood _ k s hrun (by omega) ['a'] (by simp [sampleRun]) hrem
  have hnamed := named_after_ops _ (by decide +kernel) (by simp [RunCfg.wipe]) hg hs
  have hfound : ConvCfg.found ⟨['/', 'o'], 0⟩ s.store ['a'] = (sampleRun 0).seen ['a'] := by
    funext m d
    rw [← ConvCfg.found_eq ⟨['/', 'o'], 0⟩ s.store (t := ['a']) (by decide), readMult]
    have := hall m d
    rw [show openedNc (sampleRun 0).out ['a'] d m = openedNc ['/', 'o'] ['a'] d m from rfl] at this
    rw [this]
    cases (sampleRun 0).seen ['a'] m d <;> rfl
  obtain ⟨x, mx, hx, hmx⟩ : ∃ x mx, processTile ((sampleRun 0).seen ['a']) = .ok x ∧
      processMaxTile x = .ok mx := by
    obtain ⟨k, s, h1, -, h2⟩ := C94_completes _ hgood (sampleRun_shapes 0) (fun _ => none) 0 _ (.refl _)
    obtain ⟨x, mx, hx, hmx, -⟩ := (C93_outcome _ hgood _ k s h1 h2).2.1 ['a'] (by simp [sampleRun]) rfl
    exact ⟨x, mx, hx, hmx⟩
  obtain ⟨k', s', h3, -, h4⟩ := C135_completes ⟨['/', 'o'], 0⟩ s.store [['a']] (List.nodup_singleton _)
    hnamed (fun t ht => by
      obtain rfl := List.mem_singleton.mp ht
      exact ⟨x, mx, by rw [← hx, ← hfound], hmx⟩) 0 _ (.refl _)
  obtain ⟨x', mx', hx', -, h5, -⟩ := C137_converted_partial _ hgood _ k s hrun (by omega) ⟨['/', 'o'], 0⟩ rfl
    k' s' h3 h4 ['a'] (by simp [sampleRun]) rfl (fun m d h => by
      rw [hall m d]; simpa using h)
  refine ⟨k, s, k', s', x', hrun, ?_, h3, h4, hx', h5⟩
  rw [hoth ['c'] (by decide)]
  show tileOps ['/', 'o'] ['c'] _ _ ≠ []
  simp [tileOps]

end WindMult
