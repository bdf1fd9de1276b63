import Verif.Proofs.RunProgress
import Verif.Props.ConvertNan

/-!
# C93, C94, C95: whole runs
-/

set_option autoImplicit false
set_option linter.unusedSectionVars false

namespace WindMult
open Spec
variable {K T : Type} [Zero K] [One K] [Mul K] [Max K]

/-- **C93** Whatever the interleaving of the processes and their number: after a completed run there
are, below the output folder, exactly

* the multipliers of every non-empty tile, each in its file (no terrain files if the land cover is
  unknown throughout),
* for every non-empty tile the GeoTIFF the converter makes of exactly these multipliers, and that of
  its maxima,
* the two virtual rasters, which list these GeoTIFFs, each once and both in the same order;

no temporary file and nothing of an earlier run.  Outside the output folder nothing is changed. -/
theorem C93_outcome (c : RunCfg K T) (hc : c.Good) (st0 : Store K T) (k : ℕ) (s : RunState K T)
    (hrun : RunSteps c k (c.start st0) s) (hdone : c.Done s) :
    (∀ t ∈ c.tiles, ∀ m d, s.store (openedNc c.out t d m) = (c.seen t m d).map .mult) ∧
    (∀ t ∈ c.tiles, c.empty t = false → ∃ x mx, processTile (c.seen t) = .ok x ∧
      processMaxTile x = .ok mx ∧ s.store (c.m3 t) = some (.tif x) ∧
      s.store (c.m3Max t) = some (.maxTif mx)) ∧
    (∃ l : List (List Char), l.Perm (c.tiles.filter fun t => c.empty t = false) ∧
      s.store c.vrt = some (.vrt (l.map c.m3)) ∧ s.store c.vrtMax = some (.vrt (l.map c.m3Max))) ∧
    (∀ p, c.below <+: p → s.store p ≠ none →
      (∃ t ∈ c.tiles, c.empty t = false ∧
        ((∃ m d, p = openedNc c.out t d m) ∨ p = c.m3 t ∨ p = c.m3Max t)) ∨
      p = c.vrt ∨ p = c.vrtMax) ∧
    ∀ p, ¬ c.below <+: p → s.store p = st0 p := by
  have h := runInv hc hrun
  have h7 := hdone 0 (Nat.zero_le _)
  have hcv := h.conv (by omega)
  have hmult : ∀ t ∈ c.tiles, ∀ m d, s.store (openedNc c.out t d m) = (c.seen t m d).map .mult := by
    intro t ht m d
    have hn := hc.names t ht
    rw [← savedNc_eq_openedNc hc.out hn,
      hcv.own t ht _ ⟨hn, .inr (.inr (.inr ⟨_, _, rfl⟩))⟩, left_saved c hc.out hn]
  refine ⟨hmult, fun t ht he => hcv.fin t ht he fun r hr => ?_, ⟨s.handed c, ?_, hcv.vrt (by omega)⟩,
    fun p hp hne => ?_, fun p hp => ?_⟩
  · rw [hcv.over r hr (by have := hdone r hr; omega)]; exact List.not_mem_nil
  · rw [List.perm_ext_iff_of_nodup hcv.nodup (hc.nodup.filter _)]
    intro t
    rw [hcv.mem, List.mem_filter, decide_eq_true_eq]
  · by_cases how : ∃ t ∈ c.tiles, Owned c.out t p
    · obtain ⟨t, ht, ho⟩ := how
      rw [hcv.own t ht p ho] at hne
      unfold RunCfg.left at hne
      split_ifs at hne with hl
      · obtain ⟨d, m, e, hl⟩ := hl
        refine .inl ⟨t, ht, hl.1, .inl ⟨m, d, ?_⟩⟩
        rw [e, savedNc_eq_openedNc hc.out (hc.names t ht)]
      · exact absurd rfl hne
    · by_contra hnot
      refine hne ?_
      rw [hcv.rest p (fun t ht ho => how ⟨t, ht, ho⟩) (fun t ht he => ⟨?_, ?_⟩)
        (fun e => hnot (.inr (.inl e))) (fun e => hnot (.inr (.inr e)))]
      · rw [RunCfg.wipe, if_pos hp]
      · exact fun e => hnot (.inl ⟨t, ht, he, .inr (.inl e)⟩)
      · exact fun e => hnot (.inl ⟨t, ht, he, .inr (.inr e)⟩)
  · rw [hcv.rest p, RunCfg.wipe, if_neg hp]
    · intro t ht ho
      exact hp (by rw [below_eq]; exact owned_prefix hc.out ho)
    · intro t ht he
      exact ⟨fun e => hp (by rw [e, below_eq, m3_eq]; exact List.prefix_append _ _),
        fun e => hp (by rw [e, below_eq, m3Max_eq]; exact List.prefix_append _ _)⟩
    · exact fun e => hp (by rw [e, below_eq, vrt_eq]; exact List.prefix_append _ _)
    · exact fun e => hp (by rw [e, below_eq, vrtMax_eq]; exact List.prefix_append _ _)

/-- **C93** The master waits: at the moment the virtual raster is written, the GeoTIFFs of all the tiles and those of
their maxima are there, whichever process makes them. -/
theorem C93_waits (c : RunCfg K T) (hc : c.Good) (st0 : Store K T) (k : ℕ) (s s' : RunState K T)
    (hrun : RunSteps c k (c.start st0) s) (hstep : RunStep c s s') (v : List Char) (hv : v = c.vrt ∨ v = c.vrtMax)
    (hnew : s'.store v ≠ none) (hvrt : s'.store v ≠ s.store v) (t : List Char) (ht : t ∈ c.tiles)
    (he : c.empty t = false) :
    ∃ x mx, processTile (c.seen t) = .ok x ∧ processMaxTile x = .ok mx ∧ s.store (c.m3 t) = some (.tif x) ∧
      s.store (c.m3Max t) = some (.maxTif mx) := by
  have hi := runInv hc hrun
  have hi' := runInv hc (.step hrun hstep)
  have hpre : withSlash c.out <+: v := by
    rcases hv with rfl | rfl
    · rw [vrt_eq]; exact List.prefix_append _ _
    · rw [vrtMax_eq]; exact List.prefix_append _ _
  have hown : ∀ t ∈ c.tiles, ¬ Owned c.out t v := by
    intro t _
    rcases hv with rfl | rfl
    · rw [vrt_eq]; exact not_owned_of_M hc.out (by simp) rfl
    · rw [vrtMax_eq]; exact not_owned_of_M hc.out (by simp) rfl
  have early : 1 ≤ s'.pos 0 → s'.pos 0 ≤ 4 → False := fun h1 h4 => hnew (by
    rw [(hi'.work.t1 h1 h4).rest v hown]; exact wipe_below c st0 v hpre)
  have late : ∀ d, d ≤ c.nW → s.pos d = 2 → 1 ≤ s.pos 0 ∧ s.pos 0 ≤ 4 := fun d hd h2 => by
    refine ⟨hi.pos.b1 d hd (by omega) 0 (Nat.zero_le _), ?_⟩
    by_contra h5
    have := hi.pos.b2 0 (Nat.zero_le _) (by omega) d hd
    omega
  cases hstep with
  | prepare => exact absurd (wipe_below c s.store v hpre) hnew
  | masterOp t o os st hn h2 => exact (early (late 0 (Nat.zero_le _) h2).1 (late 0 (Nat.zero_le _) h2).2).elim
  | workerOp d t o os st hd1 hd h2 => exact (early (late d hd h2).1 (late d hd h2).2).elim
  | serialOp i t o os st hn h2 => exact (early (late 0 (Nat.zero_le _) h2).1 (late 0 (Nat.zero_le _) h2).2).elim
  | convert r t' =>
    refine absurd ?_ hvrt
    rcases hv with rfl | rfl
    · exact Function.update_of_ne (m3_ne_vrt c t').1.symm _ _
    · exact Function.update_of_ne (m3_ne_vrt c t').2.symm _ _
  | convertMax r t' =>
    refine absurd ?_ hvrt
    rcases hv with rfl | rfl
    · exact Function.update_of_ne (m3Max_ne_vrt c t').1.symm _ _
    · exact Function.update_of_ne (m3Max_ne_vrt c t').2.symm _ _
  | gather h htodo hall =>
    have hcv := hi.conv (by omega)
    refine hcv.fin t ht he fun r hr => ?_
    rcases Nat.eq_zero_or_pos r with rfl | h1
    · rw [htodo]; exact List.not_mem_nil
    · rw [hcv.over r hr (hall r h1 hr)]; exact List.not_mem_nil
  | _ => exact absurd rfl hvrt

theorem shapes_convert {c : RunCfg K T} (hsh : c.Shapes) {t : List Char} (ht : t ∈ c.tiles)
    (he : c.empty t = false) :
    ∃ x mx, processTile (c.seen t) = .ok x ∧ processMaxTile x = .ok mx := by
  obtain ⟨nx, ny, hsq, hsz⟩ := hsh t ht he
  have hms : ∀ d, c.seen t .ms d = some (c.files t .ms d) := fun d => by
    unfold RunCfg.seen; rw [if_pos ⟨he, by simp⟩]
  have hshape : TileShape (c.seen t) nx ny := by
    intro m d r hr
    unfold RunCfg.seen at hr
    split_ifs at hr
    cases hr
    exact hsz m d
  obtain ⟨x, mx, h1, h2, -⟩ := processMaxTile_ok hshape (by rw [hms]; rfl) (by rw [hms]; rfl) (by
    rintro ⟨m, d, hm⟩
    refine hsq ?_
    by_contra hnl
    unfold RunCfg.seen at hm
    rw [if_pos ⟨he, fun _ => by simpa using hnl⟩] at hm
    cases hm)
  exact ⟨x, mx, h1, h2⟩

/-- **C94** A run always finishes: no execution has more than `45 T + 9 W + 9` steps (`T` tiles, `W`
workers), and as long as not all ranks have passed the last barrier some process can take a step –
no process waits forever and no file operation fails. -/
theorem C94_finishes (c : RunCfg K T) (hc : c.Good) (hsh : c.Shapes) (st0 : Store K T) (k : ℕ)
    (s : RunState K T) (hrun : RunSteps c k (c.start st0) s) :
    k ≤ 45 * c.tiles.length + 9 * c.nW + 9 ∧ (¬ c.Done s → ∃ s', RunStep c s s') := by
  refine ⟨by have := left_run hc hrun; omega, fun hnot => ?_⟩
  refine progress hc (fun t ht he => shapes_convert hsh ht he) (runInv hc hrun) ?_
  unfold RunCfg.Done at hnot
  push Not at hnot
  exact hnot

/-- **C94** Every started run can be completed. -/
theorem C94_completes (c : RunCfg K T) (hc : c.Good) (hsh : c.Shapes) (st0 : Store K T) (k : ℕ)
    (s : RunState K T) (hrun : RunSteps c k (c.start st0) s) :
    ∃ k' s', RunSteps c k' (c.start st0) s' ∧ k ≤ k' ∧ c.Done s' := by
  have main : ∀ n k s, 45 * c.tiles.length + 9 * c.nW + 9 - k = n →
      RunSteps c k (c.start st0) s → ∃ k' s', RunSteps c k' (c.start st0) s' ∧ k ≤ k' ∧ c.Done s' := by
    intro n
    induction n with
    | zero =>
      intro k s hn hr
      by_cases hd : c.Done s
      · exact ⟨k, s, hr, le_rfl, hd⟩
      · obtain ⟨s', hs'⟩ := (C94_finishes c hc hsh st0 k s hr).2 hd
        have := (C94_finishes c hc hsh st0 _ s' (.step hr hs')).1
        omega
    | succ n ih =>
      intro k s hn hr
      by_cases hd : c.Done s
      · exact ⟨k, s, hr, le_rfl, hd⟩
      · obtain ⟨s', hs'⟩ := (C94_finishes c hc hsh st0 k s hr).2 hd
        obtain ⟨k', s'', h1, h2, h3⟩ := ih (k + 1) s' (by omega) (.step hr hs')
        exact ⟨k', s'', h1, by omega, h3⟩
  exact main _ k s rfl hrun

/-- **C94** (the hypothesis is needed) If the conversion of some non-empty tile fails – for example
because its land cover is unknown throughout and it is not square – then no run ever completes: the
other processes wait for the one that failed. -/
theorem C94_hangs (c : RunCfg K T) (hc : c.Good) (st0 : Store K T) (t : List Char) (ht : t ∈ c.tiles)
    (he : c.empty t = false) (e : PyErr) (hfail : processTile (c.seen t) = .error e) (k : ℕ)
    (s : RunState K T) (hrun : RunSteps c k (c.start st0) s) : ¬ c.Done s := by
  intro hd
  obtain ⟨x, mx, hx, -⟩ := (C93_outcome c hc st0 k s hrun hd).2.1 t ht he
  rw [hfail] at hx
  cases hx

/-- Two completed runs over the same tiles, whatever the output folder held before: the same contents
everywhere, but for the order in the virtual rasters. -/
theorem same_outcome (c c' : RunCfg K T) (hc : c.Good) (hout : c'.out = c.out)
    (htiles : c'.tiles.Perm c.tiles)
    (hpar : c'.empty = c.empty ∧ c'.noLand = c.noLand ∧ c'.files = c.files) (st0 st0' : Store K T)
    (hst : ∀ p, ¬ c.below <+: p → st0' p = st0 p)
    (k k' : ℕ) (s s' : RunState K T)
    (hrun : RunSteps c k (c.start st0) s) (hdone : c.Done s)
    (hrun' : RunSteps c' k' (c'.start st0') s') (hdone' : c'.Done s') :
    (∀ p, p ≠ c.vrt → p ≠ c.vrtMax → s'.store p = s.store p) ∧
    ∃ l l' : List (List Char), l.Perm l' ∧
      s.store c.vrt = some (.vrt (l.map c.m3)) ∧ s.store c.vrtMax = some (.vrt (l.map c.m3Max)) ∧
      s'.store c.vrt = some (.vrt (l'.map c.m3)) ∧
      s'.store c.vrtMax = some (.vrt (l'.map c.m3Max)) := by
  obtain ⟨out, tiles, nW, empty, noLand, files⟩ := c
  obtain ⟨out', tiles', nW', empty', noLand', files'⟩ := c'
  simp only at hout htiles hpar hst
  obtain ⟨rfl, rfl, rfl⟩ := hpar
  subst hout
  have hc' : RunCfg.Good ⟨out', tiles', nW', empty', noLand', files'⟩ :=
    ⟨hc.out, fun t ht => hc.names t (htiles.mem_iff.mp ht), htiles.nodup_iff.mpr hc.nodup⟩
  obtain ⟨a1, a2, ⟨l, a3, a4, a5⟩, a6, a7⟩ := C93_outcome _ hc st0 k s hrun hdone
  obtain ⟨b1, b2, ⟨l', b3, b4, b5⟩, b6, b7⟩ := C93_outcome _ hc' st0' k' s' hrun' hdone'
  refine ⟨fun p hv hm => ?_, l, l', a3.trans ((htiles.filter _).symm.trans b3.symm), a4, a5, b4, b5⟩
  by_cases hp : RunCfg.below ⟨out', tiles, nW, empty', noLand', files'⟩ <+: p
  swap
  · rw [a7 p hp, b7 p hp, hst p hp]
  have hknown : ∀ t ∈ tiles, empty' t = false →
      (∃ m d, p = openedNc out' t d m) ∨ p = pjoin out' (m3File t) ∨ p = pjoin out' (m3MaxFile t) →
      s'.store p = s.store p := by
    intro t ht he h
    rcases h with ⟨m, d, rfl⟩ | rfl | rfl
    · rw [a1 t ht m d, b1 t (htiles.mem_iff.mpr ht) m d]; rfl
    · obtain ⟨x, mx, h1, h2, h3, h4⟩ := a2 t ht he
      obtain ⟨x', mx', h1', h2', h3', h4'⟩ := b2 t (htiles.mem_iff.mpr ht) he
      have e : x' = x := Except.ok.inj (h1'.symm.trans h1)
      subst e
      exact h3'.trans h3.symm
    · obtain ⟨x, mx, h1, h2, h3, h4⟩ := a2 t ht he
      obtain ⟨x', mx', h1', h2', h3', h4'⟩ := b2 t (htiles.mem_iff.mpr ht) he
      have e : x' = x := Except.ok.inj (h1'.symm.trans h1)
      subst e
      have e : mx' = mx := Except.ok.inj (h2'.symm.trans h2)
      subst e
      exact h4'.trans h4.symm
  by_cases h1 : s.store p = none
  · by_cases h2 : s'.store p = none
    · rw [h1, h2]
    · rcases b6 p hp h2 with ⟨t, ht, he, h⟩ | h | h
      · exact hknown t (htiles.mem_iff.mp ht) he h
      · exact absurd h hv
      · exact absurd h hm
  · rcases a6 p hp h1 with ⟨t, ht, he, h⟩ | h | h
    · exact hknown t ht he h
    · exact absurd h hv
    · exact absurd h hm

/-- **C95** The result does not depend on the schedule, on the number of processes or on the order of
the tiles: two completed runs over the same tiles leave the same contents at every path, except that
the virtual rasters may list the tiles in different orders. -/
theorem C95_same_result (c c' : RunCfg K T) (hc : c.Good) (hout : c'.out = c.out)
    (htiles : c'.tiles.Perm c.tiles)
    (hpar : c'.empty = c.empty ∧ c'.noLand = c.noLand ∧ c'.files = c.files) (st0 : Store K T)
    (k k' : ℕ) (s s' : RunState K T)
    (hrun : RunSteps c k (c.start st0) s) (hdone : c.Done s)
    (hrun' : RunSteps c' k' (c'.start st0) s') (hdone' : c'.Done s') :
    (∀ p, p ≠ c.vrt → p ≠ c.vrtMax → s'.store p = s.store p) ∧
    ∃ l l' : List (List Char), l.Perm l' ∧
      s.store c.vrt = some (.vrt (l.map c.m3)) ∧ s.store c.vrtMax = some (.vrt (l.map c.m3Max)) ∧
      s'.store c.vrt = some (.vrt (l'.map c.m3)) ∧
      s'.store c.vrtMax = some (.vrt (l'.map c.m3Max)) :=
  same_outcome c c' hc hout htiles hpar st0 st0 (fun _ _ => rfl) k k' s s' hrun hdone hrun' hdone'

/-! ### The hypotheses can be met -/

/-- Three tiles, one of them empty, one without land cover; two workers. -/
def sampleRun (nW : ℕ) : RunCfg ℚ Unit where
  out := ['/', 'o']
  tiles := [['a'], ['b'], ['c']]
  nW := nW
  empty := fun t => t = ['b']
  noLand := fun t => t = ['c']
  files := fun _ m d => ⟨⟨2, 2, fun i j => i + 2 * j + (if m = .ms then 1 else 3) +
    (if d = .n then 5 else 0)⟩, ()⟩

theorem sampleRun_good (nW : ℕ) : (sampleRun nW).Good where
  out := show ¬ ['/', '/'] <:+ ['/', 'o'] by decide
  names := by
    intro t ht
    simp only [sampleRun, List.mem_cons, List.not_mem_nil, or_false] at ht
    rcases ht with rfl | rfl | rfl <;> exact ⟨by decide, by decide, _, List.mem_singleton_self _, by decide⟩
  nodup := show [['a'], ['b'], ['c']].Nodup by decide

theorem sampleRun_shapes (nW : ℕ) : (sampleRun nW).Shapes :=
  fun _ _ _ => ⟨2, 2, fun _ => rfl, fun _ _ => ⟨rfl, rfl⟩⟩

/-- A completed run with two workers: no temporary file is left. -/
example (st0 : Store ℚ Unit) : ∃ k s, RunSteps (sampleRun 2) k ((sampleRun 2).start st0) s ∧
    (sampleRun 2).Done s ∧ s.store ['/', 'o', '/', 'b', '_', 'd', 'e', 'm', '.', 'i', 'm', 'g'] = none ∧
    ∃ r, s.store ((sampleRun 2).m3Max ['c']) = some (.maxTif r) := by
  obtain ⟨k, s, h1, -, h2⟩ := C94_completes _ (sampleRun_good 2) (sampleRun_shapes 2) st0 0 _ (.refl _)
  refine ⟨k, s, h1, h2, ?_, ?_⟩
  · obtain ⟨-, -, -, h, -⟩ := C93_outcome _ (sampleRun_good 2) st0 k s h1 h2
    by_contra hne
    rcases h _ (by decide) hne with ⟨t, ht, he, h⟩ | h | h
    · simp only [sampleRun, List.mem_cons, List.not_mem_nil, or_false] at ht
      rcases ht with rfl | rfl | rfl
      · rcases h with ⟨m, d, h⟩ | h | h
        · revert h; cases m <;> cases d <;> decide
        · revert h; decide
        · revert h; decide
      · cases he
      · rcases h with ⟨m, d, h⟩ | h | h
        · revert h; cases m <;> cases d <;> decide
        · revert h; decide
        · revert h; decide
    · revert h; decide
    · revert h; decide
  · obtain ⟨-, h, -⟩ := C93_outcome _ (sampleRun_good 2) st0 k s h1 h2
    obtain ⟨x, mx, -, -, -, h⟩ := h ['c'] (by simp [sampleRun]) (by decide)
    exact ⟨mx, h⟩

/-- Some step makes a file that there was not at first. -/
theorem run_makes {c : RunCfg K T} {k : ℕ} {s0 s : RunState K T} (h : RunSteps c k s0 s) {v : List Char}
    (h0 : s0.store v = none) (h1 : s.store v ≠ none) : ∃ j a b, RunSteps c j s0 a ∧ RunStep c a b ∧
      b.store v ≠ none ∧ b.store v ≠ a.store v := by
  induction h with
  | refl => exact absurd h0 h1
  | @step j s0 a b ha hb ih =>
    by_cases h : a.store v = none
    · exact ⟨j, a, b, ha, hb, h1, by rw [h]; exact h1⟩
    · exact ih h0 h

/-- A run in which the virtual raster is written, with all the GeoTIFFs there. -/
example : ∃ k s s' x mx, RunSteps (sampleRun 2) k ((sampleRun 2).start fun _ => none) s ∧ RunStep (sampleRun 2) s s' ∧
    s.store ((sampleRun 2).m3 ['a']) = some (.tif x) ∧ s.store ((sampleRun 2).m3Max ['a']) = some (.maxTif mx) := by
  obtain ⟨k, s, h1, -, h2⟩ :=
    C94_completes _ (sampleRun_good 2) (sampleRun_shapes 2) (fun _ => none : Store ℚ Unit) 0 _ (.refl _)
  obtain ⟨-, -, ⟨l, -, h3, -⟩, -⟩ := C93_outcome _ (sampleRun_good 2) _ k s h1 h2
  obtain ⟨j, a, b, ha, hb, h4, h5⟩ := run_makes h1 (v := (sampleRun 2).vrt) rfl (by rw [h3]; simp)
  obtain ⟨x, mx, -, -, h6, h7⟩ := C93_waits _ (sampleRun_good 2) _ j a b ha hb _ (.inl rfl) h4 h5 ['a']
    (by decide +kernel) (by decide +kernel)
  exact ⟨j, a, b, x, mx, ha, hb, h6, h7⟩

/-- The result with two workers is that of a run without workers. -/
example (st0 : Store ℚ Unit) : ∃ k s k' s', RunSteps (sampleRun 2) k ((sampleRun 2).start st0) s ∧
    (sampleRun 2).Done s ∧ RunSteps (sampleRun 0) k' ((sampleRun 0).start st0) s' ∧
    (sampleRun 0).Done s' ∧
    s'.store ((sampleRun 2).m3 ['a']) = s.store ((sampleRun 2).m3 ['a']) := by
  obtain ⟨k, s, h1, -, h2⟩ := C94_completes _ (sampleRun_good 2) (sampleRun_shapes 2) st0 0 _ (.refl _)
  obtain ⟨k', s', h1', -, h2'⟩ :=
    C94_completes _ (sampleRun_good 0) (sampleRun_shapes 0) st0 0 _ (.refl _)
  exact ⟨k, s, k', s', h1, h2, h1', h2',
    (C95_same_result (sampleRun 2) (sampleRun 0) (sampleRun_good 2) rfl (.refl _) ⟨rfl, rfl, rfl⟩ st0 k k' s s' h1 h2 h1'
      h2').1 _ (by decide) (by decide)⟩

/-- A tile of 1 × 2 cells without land cover: the run hangs. -/
def hangingRun : RunCfg ℚ Unit where
  out := ['/', 'o']
  tiles := [['a']]
  nW := 3
  empty := fun _ => false
  noLand := fun _ => true
  files := fun _ _ _ => ⟨⟨1, 2, fun _ _ => 1⟩, ()⟩

example (st0 : Store ℚ Unit) (k : ℕ) (s : RunState ℚ Unit)
    (h : RunSteps hangingRun k (hangingRun.start st0) s) : ¬ hangingRun.Done s := by
  have hf : ∃ e, processTile (hangingRun.seen ['a']) = .error e := by
    match hx : processTile (hangingRun.seen ['a']) with
    | .error e => exact ⟨e, rfl⟩
    | .ok x =>
      have : (processTile (hangingRun.seen ['a'])).isOk = false := by decide +kernel
      rw [hx] at this
      cases this
  obtain ⟨e, he⟩ := hf
  exact C94_hangs hangingRun ⟨show ¬ ['/', '/'] <:+ ['/', 'o'] by decide, by
      intro t ht
      obtain rfl := List.mem_singleton.mp ht
      exact ⟨by decide, by decide, _, List.mem_singleton_self _, by decide⟩,
    List.nodup_singleton _⟩ st0 ['a'] (List.mem_singleton_self _) rfl e he k s h

end WindMult
