import Verif.Proofs.ConvertRun
import Verif.Props.Run

/-!
# C135: the converter run on its own
-/

set_option autoImplicit false
set_option linter.unusedSectionVars false

namespace WindMult
open Function
variable {K T : Type} [Zero K] [One K] [Mul K] [Max K]

theorem ConvCfg.tifAt_eq (c : ConvCfg) : c.tifAt = c.m3 := funext fun t => (c.m3_eq t).symm

theorem ConvCfg.maxAt_eq (c : ConvCfg) : c.maxAt = c.m3Max := funext fun t => (c.m3Max_eq t).symm

theorem ConvCfg.vrtAt_eq (c : ConvCfg) : c.vrtAt = c.vrt := c.vrt_eq.symm

theorem ConvCfg.vrtMaxAt_eq (c : ConvCfg) : c.vrtMaxAt = c.vrtMax := c.vrtMax_eq.symm

theorem done_inv {c : ConvCfg} {st0 : Store K T} {k : ℕ} {s : ConvState K T}
    (hrun : ConvSteps c k (.start st0) s) (hdone : c.Done s) : AloneInv c st0 s :=
  (aloneInv rfl hrun).2 (by have := hdone 0 (Nat.zero_le _); omega)

/-- **C135** Whatever the folder held before, the number of processes and their interleaving: after a
completed conversion

* every tile that some file of the shielding folder names has its GeoTIFF, made of exactly the
  multipliers the folder held at the start, and that of its maxima;
* the two virtual rasters list these tiles, each once and both in the same order;
* no other file is changed, made or removed. -/
theorem C135_outcome (c : ConvCfg) (st0 : Store K T) (k : ℕ) (s : ConvState K T)
    (hrun : ConvSteps c k (.start st0) s) (hdone : c.Done s) :
    (∀ t, c.Named st0 t → ∃ x mx, c.Makes st0 t x mx ∧ s.store (c.tifAt t) = some (.tif x) ∧
      s.store (c.maxAt t) = some (.maxTif mx)) ∧
    (∃ l : List (List Char), l.Nodup ∧ (∀ t, t ∈ l ↔ c.Named st0 t) ∧
      s.store c.vrtAt = some (.vrt (l.map c.tifAt)) ∧
      s.store c.vrtMaxAt = some (.vrt (l.map c.maxAt))) ∧
    ∀ p, (∀ t, c.Named st0 t → p ≠ c.tifAt t ∧ p ≠ c.maxAt t) → p ≠ c.vrtAt → p ≠ c.vrtMaxAt →
      s.store p = st0 p := by
  have h := done_inv hrun hdone
  rw [c.tifAt_eq, c.maxAt_eq, c.vrtAt_eq, c.vrtMaxAt_eq]
  refine ⟨fun t ht => h.fin t ht fun r hr => ?_, ⟨s.handed c, h.nodup, h.mem,
    h.vrt (by have := hdone 0 (Nat.zero_le _); omega)⟩, h.rest⟩
  rw [h.over r hr (by have := hdone r hr; omega)]
  exact List.not_mem_nil

/-- **C135** The master waits: at the moment the virtual raster is written, the GeoTIFFs of all the tiles and those of
their maxima are there, whichever process makes them. -/
theorem C135_waits (c : ConvCfg) (st0 : Store K T) (k : ℕ) (s s' : ConvState K T)
    (hrun : ConvSteps c k (.start st0) s) (hstep : ConvStep c s s')
    (hvrt : s'.store c.vrtAt ≠ s.store c.vrtAt ∨ s'.store c.vrtMaxAt ≠ s.store c.vrtMaxAt) (t : List Char)
    (ht : c.Named st0 t) :
    ∃ x mx, c.Makes st0 t x mx ∧ s.store (c.tifAt t) = some (.tif x) ∧ s.store (c.maxAt t) = some (.maxTif mx) := by
  rw [c.vrtAt_eq, c.vrtMaxAt_eq] at hvrt
  rw [c.tifAt_eq, c.maxAt_eq]
  cases hstep with
  | list => simp at hvrt
  | receive => simp at hvrt
  | send => simp at hvrt
  | convert r t' =>
    simp only [ne_eq, update_of_ne (c.m3_ne_vrt t').symm, update_of_ne (c.m3_ne_vrtMax t').symm, not_true_eq_false,
      or_self] at hvrt
  | convertMax r t' =>
    simp only [ne_eq, update_of_ne (c.m3Max_ne_vrt t').symm, update_of_ne (c.m3Max_ne_vrtMax t').symm,
      not_true_eq_false, or_self] at hvrt
  | gather h htodo hall =>
    have hi := (aloneInv rfl hrun).2 (by omega)
    refine hi.fin t ht fun r hr => ?_
    rcases Nat.eq_zero_or_pos r with rfl | h1
    · rw [htodo]; exact List.not_mem_nil
    · rw [hi.over r hr (hall r h1 hr)]; exact List.not_mem_nil

/-- **C135** The result depends on the schedule and on the number of processes only in the order in
which the virtual rasters list the tiles. -/
theorem C135_same_result (c c' : ConvCfg) (hout : c'.out = c.out) (st0 : Store K T) (k k' : ℕ)
    (s s' : ConvState K T) (hrun : ConvSteps c k (.start st0) s) (hdone : c.Done s)
    (hrun' : ConvSteps c' k' (.start st0) s') (hdone' : c'.Done s') :
    (∀ p, p ≠ c.vrtAt → p ≠ c.vrtMaxAt → s'.store p = s.store p) ∧
    ∃ l l' : List (List Char), l.Perm l' ∧
      s.store c.vrtAt = some (.vrt (l.map c.tifAt)) ∧
      s.store c.vrtMaxAt = some (.vrt (l.map c.maxAt)) ∧
      s'.store c.vrtAt = some (.vrt (l'.map c.tifAt)) ∧
      s'.store c.vrtMaxAt = some (.vrt (l'.map c.maxAt)) := by
  obtain ⟨out, nW⟩ := c
  obtain ⟨out', nW'⟩ := c'
  simp only at hout
  subst hout
  obtain ⟨a1, ⟨l, a2, a3, a4, a5⟩, a6⟩ := C135_outcome _ st0 k s hrun hdone
  obtain ⟨b1, ⟨l', b2, b3, b4, b5⟩, b6⟩ := C135_outcome _ st0 k' s' hrun' hdone'
  refine ⟨fun p hv hm => ?_, l, l', ?_, a4, a5, b4, b5⟩
  · by_cases hp : ∃ t, ConvCfg.Named ⟨out', nW⟩ st0 t ∧
      (p = ConvCfg.tifAt ⟨out', nW⟩ t ∨ p = ConvCfg.maxAt ⟨out', nW⟩ t)
    · obtain ⟨t, ht, hp⟩ := hp
      obtain ⟨x, mx, ⟨h1, h2⟩, h3, h4⟩ := a1 t ht
      obtain ⟨x', mx', ⟨h1', h2'⟩, h3', h4'⟩ := b1 t ht
      have e : x' = x := Except.ok.inj (h1'.symm.trans h1)
      subst e
      have e : mx' = mx := Except.ok.inj (h2'.symm.trans h2)
      subst e
      rcases hp with rfl | rfl
      · exact h3'.trans h3.symm
      · exact h4'.trans h4.symm
    · have hno : ∀ t, ConvCfg.Named ⟨out', nW⟩ st0 t →
          p ≠ ConvCfg.tifAt ⟨out', nW⟩ t ∧ p ≠ ConvCfg.maxAt ⟨out', nW⟩ t :=
        fun t ht => ⟨fun e => hp ⟨t, ht, .inl e⟩, fun e => hp ⟨t, ht, .inr e⟩⟩
      rw [a6 p hno hv hm]
      exact b6 p hno hv hm
  · rw [List.perm_ext_iff_of_nodup a2 b2]
    exact fun t => (a3 t).trans (b3 t).symm

/-- The tiles named and the multipliers found are those of before. -/
theorem after_conv {c : ConvCfg} {st0 : Store K T} {k : ℕ} {s : ConvState K T}
    (hrun : ConvSteps c k (.start st0) s) (hdone : c.Done s) :
    (∀ t, c.Named s.store t ↔ c.Named st0 t) ∧ ∀ t, c.found s.store t = c.found st0 t := by
  have hin : ∀ (m : Mult) q, s.store (withSlash c.out ++ (m.folder ++ q)) =
      st0 (withSlash c.out ++ (m.folder ++ q)) := fun m q => by
    obtain ⟨h1, h2, h3⟩ := c.written_M m q rfl
    exact (done_inv hrun hdone).rest _ (fun t _ => h1 t) h2 h3
  constructor
  · intro t
    unfold ConvCfg.Named
    simp only [hin]
  · intro t
    funext m d
    unfold ConvCfg.found
    rw [hin]

/-- **C135** Converting the folder a second time, with any number of processes, gives the same files
again, except for the order in the virtual rasters. -/
theorem C135_again (c c' : ConvCfg) (hout : c'.out = c.out) (st0 : Store K T) (k k' : ℕ)
    (s s' : ConvState K T) (hrun : ConvSteps c k (.start st0) s) (hdone : c.Done s)
    (hrun' : ConvSteps c' k' (.start s.store) s') (hdone' : c'.Done s') :
    (∀ p, p ≠ c.vrtAt → p ≠ c.vrtMaxAt → s'.store p = s.store p) ∧
    ∃ l l' : List (List Char), l.Perm l' ∧
      s.store c.vrtAt = some (.vrt (l.map c.tifAt)) ∧
      s.store c.vrtMaxAt = some (.vrt (l.map c.maxAt)) ∧
      s'.store c.vrtAt = some (.vrt (l'.map c.tifAt)) ∧
      s'.store c.vrtMaxAt = some (.vrt (l'.map c.maxAt)) := by
  obtain ⟨out, nW⟩ := c
  obtain ⟨out', nW'⟩ := c'
  simp only at hout
  subst hout
  obtain ⟨hn, hf⟩ := after_conv hrun hdone
  obtain ⟨a1, ⟨l, a2, a3, a4, a5⟩, a6⟩ := C135_outcome _ st0 k s hrun hdone
  obtain ⟨b1, ⟨l', b2, b3, b4, b5⟩, b6⟩ := C135_outcome _ s.store k' s' hrun' hdone'
  refine ⟨fun p hv hm => ?_, l, l', ?_, a4, a5, b4, b5⟩
  · by_cases hp : ∃ t, ConvCfg.Named ⟨out', nW⟩ st0 t ∧
      (p = ConvCfg.tifAt ⟨out', nW⟩ t ∨ p = ConvCfg.maxAt ⟨out', nW⟩ t)
    · obtain ⟨t, ht, hp⟩ := hp
      obtain ⟨x, mx, ⟨h1, h2⟩, h3, h4⟩ := a1 t ht
      obtain ⟨x', mx', ⟨h1', h2'⟩, h3', h4'⟩ := b1 t ((hn t).mpr ht)
      have h1' : processTile (ConvCfg.found ⟨out', nW⟩ s.store t) = .ok x' := h1'
      rw [hf t] at h1'
      have e : x' = x := Except.ok.inj (h1'.symm.trans h1)
      subst e
      have e : mx' = mx := Except.ok.inj (h2'.symm.trans h2)
      subst e
      rcases hp with rfl | rfl
      · exact h3'.trans h3.symm
      · exact h4'.trans h4.symm
    · exact b6 p (fun t ht => ⟨fun e => hp ⟨t, (hn t).mp ht, .inl e⟩,
        fun e => hp ⟨t, (hn t).mp ht, .inr e⟩⟩) hv hm
  · rw [List.perm_ext_iff_of_nodup a2 b2]
    exact fun t => (a3 t).trans ((hn t).symm.trans (b3 t).symm)

/-- After a completed run the shielding folder names the non-empty tiles. -/
theorem run_named (c : RunCfg K T) (hc : c.Good) (st0 : Store K T) (k : ℕ) (s : RunState K T)
    (hrun : RunSteps c k (c.start st0) s) (hdone : c.Done s) (c' : ConvCfg) (hout : c'.out = c.out)
    (t : List Char) : c'.Named s.store t ↔ t ∈ c.tiles ∧ c.empty t = false := by
  have hcv := (runInv hc hrun).conv (by have := hdone 0 (Nat.zero_le _); omega)
  obtain ⟨-, -, -, a6, -⟩ := C93_outcome c hc st0 k s hrun hdone
  have e1 : c'.m3 = c.m3 := by funext t; unfold ConvCfg.m3 RunCfg.m3; rw [hout]
  have e2 : c'.m3Max = c.m3Max := by funext t; unfold ConvCfg.m3Max RunCfg.m3Max; rw [hout]
  have e3 : c'.vrt = c.vrt := by unfold ConvCfg.vrt RunCfg.vrt; rw [hout]
  have e4 : c'.vrtMax = c.vrtMax := by unfold ConvCfg.vrtMax RunCfg.vrtMax; rw [hout]
  have e5 : c'.shieldDir = c.shieldDir := by unfold ConvCfg.shieldDir RunCfg.shieldDir; rw [hout]
  classical
  have key := listed_iff hc (st := fun p => if ∃ u ∈ c.tiles, Owned c.out u p then s.store p else none)
    (fun u hu p hp => by
      show (if _ then _ else _) = _
      rw [if_pos ⟨u, hu, hp⟩]
      exact hcv.own u hu p hp)
    (fun p hp _ => if_neg fun ⟨u, hu, ho⟩ => hp u hu ho) t
  rw [← key, ← c'.listed, e5]
  refine exists_congr fun f => and_congr_right fun _ => and_congr_right fun hf =>
    and_congr_left fun _ => not_congr ?_
  show _ ↔ (if _ then _ else _) = _
  split_ifs with ho
  · rfl
  · refine iff_of_true ?_ rfl
    by_contra hne
    have hsh := shieldFile_eq c hf
    have hM := c'.written_M .ms ('/' :: f) (p := pjoin c.shieldDir f) (by rw [hsh, hout])
    rw [e1, e2, e3, e4] at hM
    rcases a6 _ (by rw [below_eq, hsh]; exact List.prefix_append _ _) hne with
      ⟨u, hu, -, ⟨m, d, e⟩ | e | e⟩ | e | e
    · refine ho ⟨u, hu, hc.names u hu, .inr (.inr (.inr ⟨d, m, ?_⟩))⟩
      rw [e, savedNc_eq_openedNc hc.out (hc.names u hu)]
    · exact (hM.1 u).1 e
    · exact (hM.1 u).2 e
    · exact hM.2.1 e
    · exact hM.2.2 e

/-- The multipliers the converter finds are those of the run. -/
theorem run_found (c : RunCfg K T) (hc : c.Good) (st0 : Store K T) (k : ℕ) (s : RunState K T)
    (hrun : RunSteps c k (c.start st0) s) (hdone : c.Done s) (c' : ConvCfg) (hout : c'.out = c.out)
    {t : List Char} (ht : t ∈ c.tiles) : c'.found s.store t = c.seen t := by
  have hcv := (runInv hc hrun).conv (by have := hdone 0 (Nat.zero_le _); omega)
  funext m d
  rw [← c'.found_eq s.store (hc.names t ht).1, hout]
  exact readMult_left hc ht (hcv.own t ht) m d

/-- **C135** Converting the output folder of a completed run of `all_multipliers.py` once more changes
no file, except for the order in the virtual rasters. -/
theorem C135_after_run (c : RunCfg K T) (hc : c.Good) (st0 : Store K T) (k : ℕ) (s : RunState K T)
    (hrun : RunSteps c k (c.start st0) s) (hdone : c.Done s) (c' : ConvCfg) (hout : c'.out = c.out)
    (k' : ℕ) (s' : ConvState K T) (hrun' : ConvSteps c' k' (.start s.store) s')
    (hdone' : c'.Done s') :
    (∀ p, p ≠ c.vrt → p ≠ c.vrtMax → s'.store p = s.store p) ∧
    ∃ l l' : List (List Char), l.Perm l' ∧
      s.store c.vrt = some (.vrt (l.map c.m3)) ∧ s.store c.vrtMax = some (.vrt (l.map c.m3Max)) ∧
      s'.store c.vrt = some (.vrt (l'.map c.m3)) ∧
      s'.store c.vrtMax = some (.vrt (l'.map c.m3Max)) := by
  obtain ⟨-, a2, ⟨l, a3, a4, a5⟩, a6, -⟩ := C93_outcome c hc st0 k s hrun hdone
  obtain ⟨b1, ⟨l', b2, b3, b4, b5⟩, b6⟩ := C135_outcome c' s.store k' s' hrun' hdone'
  have e1 : c'.m3 = c.m3 := by funext t; unfold ConvCfg.m3 RunCfg.m3; rw [hout]
  have e2 : c'.m3Max = c.m3Max := by funext t; unfold ConvCfg.m3Max RunCfg.m3Max; rw [hout]
  have e3 : c'.vrt = c.vrt := by unfold ConvCfg.vrt RunCfg.vrt; rw [hout]
  have e4 : c'.vrtMax = c.vrtMax := by unfold ConvCfg.vrtMax RunCfg.vrtMax; rw [hout]
  rw [c'.tifAt_eq, e1] at b1 b4 b6
  rw [c'.maxAt_eq, e2] at b1 b5 b6
  rw [c'.vrtAt_eq, e3] at b4 b6
  rw [c'.vrtMaxAt_eq, e4] at b5 b6
  have hnamed := run_named c hc st0 k s hrun hdone c' hout
  refine ⟨fun p hv hm => ?_, l, l', ?_, a4, a5, b4, b5⟩
  · by_cases hp : ∃ t, c'.Named s.store t ∧ (p = c.m3 t ∨ p = c.m3Max t)
    · obtain ⟨t, ht, hp⟩ := hp
      obtain ⟨hmem, he⟩ := (hnamed t).mp ht
      obtain ⟨x, mx, h1, h2, h3, h4⟩ := a2 t hmem he
      obtain ⟨x', mx', ⟨h1', h2'⟩, h3', h4'⟩ := b1 t ht
      rw [run_found c hc st0 k s hrun hdone c' hout hmem] at h1'
      have e : x' = x := Except.ok.inj (h1'.symm.trans h1)
      subst e
      have e : mx' = mx := Except.ok.inj (h2'.symm.trans h2)
      subst e
      rcases hp with rfl | rfl
      · exact h3'.trans h3.symm
      · exact h4'.trans h4.symm
    · exact b6 p (fun t ht => ⟨fun e => hp ⟨t, ht, .inl e⟩, fun e => hp ⟨t, ht, .inr e⟩⟩) hv hm
  · refine a3.trans ?_
    rw [List.perm_ext_iff_of_nodup (hc.nodup.filter _) b2]
    intro t
    rw [b3, hnamed, List.mem_filter, decide_eq_true_eq]

/-- **C135** (what happens otherwise) If some file in the shielding folder names a tile that cannot be
converted – say, a note that somebody put there – the conversion never completes: the other
processes wait for the one that failed. -/
theorem C135_hangs (c : ConvCfg) (st0 : Store K T) (t : List Char) (ht : c.Named st0 t)
    (hfail : ¬ ∃ x mx, c.Makes st0 t x mx) (k : ℕ) (s : ConvState K T)
    (hrun : ConvSteps c k (.start st0) s) : ¬ c.Done s := by
  intro hd
  obtain ⟨x, mx, h, -⟩ := (C135_outcome c st0 k s hrun hd).1 t ht
  exact hfail ⟨x, mx, h⟩

theorem conv_progress {c : ConvCfg} {st0 : Store K T} {l : List (List Char)} (hnd : l.Nodup)
    (hl : ∀ t, t ∈ l ↔ c.Named st0 t) (hall : ∀ t ∈ l, ∃ x mx, c.Makes st0 t x mx) {k : ℕ}
    {s : ConvState K T} (hrun : ConvSteps c k (.start st0) s) (hnot : ¬ c.Done s) :
    ∃ s', ConvStep c s s' := by
  obtain ⟨h0, h1⟩ := aloneInv rfl hrun
  by_cases hp : s.pos 0 = 0
  · refine ⟨_, .list s l hp hnd fun t => ?_⟩
    rw [(h0 hp).store, hl t]
    exact (c.listed st0 t).symm
  have h := h1 (by omega)
  -- a rank that is converting can go on
  have work : ∀ r, r ≤ c.nW → s.pos r = 1 → s.todo r ≠ [] → ∃ s', ConvStep c s s' := by
    intro r hr h1 ht
    obtain ⟨t, ts, htodo⟩ := List.exists_cons_of_ne_nil ht
    have hnm := h.named hr htodo
    obtain ⟨x, mx, hx, hmx⟩ := hall t ((hl t).mpr hnm)
    cases hh : s.half r
    · exact ⟨_, .convert s r t ts x hr h1 htodo hh (by rw [h.reads hnm.2.1]; exact hx)⟩
    · obtain ⟨t', ts', y, e1, e2, e3⟩ := h.half r hr hh
      rw [htodo] at e1
      cases e1
      rw [hx] at e2
      cases e2
      exact ⟨_, .convertMax s r t ts x mx hr h1 htodo hh e3 hmx⟩
  by_cases hw : ∃ r, 1 ≤ r ∧ r ≤ c.nW ∧ s.pos r ≠ 2
  · obtain ⟨r, hr1, hr, hpr⟩ := hw
    have hle := pos_le rfl hrun r
    by_cases e0 : s.pos r = 0
    · exact ⟨_, .receive s r hr1 hr e0 (by omega)⟩
    · by_cases ht : s.todo r = []
      · exact ⟨_, .send s r hr1 hr (by omega) ht⟩
      · exact work r hr (by omega) ht
  · push Not at hw
    have hle := pos_le rfl hrun 0
    have hp1 : s.pos 0 = 1 := by
      by_contra hne
      refine hnot fun r hr => ?_
      by_cases e : r = 0
      · subst e; omega
      · exact hw r (by omega) hr
    by_cases ht : s.todo 0 = []
    · exact ⟨_, .gather s hp1 ht fun r h1 h2 => by rw [hw r h1 h2]⟩
    · exact work 0 (by omega) hp1 ht

/-- **C135** The conversion finishes: with `n` tiles named in the folder no execution has more than
`2 n + 2 P` steps (`P` processes), and if every one of these tiles can be converted, some process can
take a step as long as not all have finished. -/
theorem C135_finishes (c : ConvCfg) (st0 : Store K T) (l : List (List Char)) (hnd : l.Nodup)
    (hl : ∀ t, t ∈ l ↔ c.Named st0 t) (k : ℕ) (s : ConvState K T)
    (hrun : ConvSteps c k (.start st0) s) :
    k ≤ 2 * l.length + 2 * (c.nW + 1) ∧
    ((∀ t ∈ l, ∃ x mx, c.Makes st0 t x mx) → ¬ c.Done s → ∃ s', ConvStep c s s') := by
  refine ⟨?_, fun hall hnot => conv_progress hnd hl hall hrun hnot⟩
  have h := total_le hrun
  obtain ⟨h0, h1⟩ := aloneInv rfl hrun
  have : (s.handed c).length ≤ l.length := by
    by_cases hp : s.pos 0 = 0
    · unfold ConvState.handed
      rw [show s.share = fun _ => [] from funext (h0 hp).share]
      simp
    · have h := h1 (by omega)
      refine le_of_eq (List.Perm.length_eq ?_)
      rw [List.perm_ext_iff_of_nodup h.nodup hnd]
      exact fun t => (h.mem t).trans (hl t).symm
  omega

/-- **C135** Every conversion of a folder whose tiles can be converted can be completed. -/
theorem C135_completes (c : ConvCfg) (st0 : Store K T) (l : List (List Char)) (hnd : l.Nodup)
    (hl : ∀ t, t ∈ l ↔ c.Named st0 t) (hall : ∀ t ∈ l, ∃ x mx, c.Makes st0 t x mx) (k : ℕ)
    (s : ConvState K T) (hrun : ConvSteps c k (.start st0) s) :
    ∃ k' s', ConvSteps c k' (.start st0) s' ∧ k ≤ k' ∧ c.Done s' := by
  have main : ∀ n k s, 2 * l.length + 2 * (c.nW + 1) - k = n → ConvSteps c k (.start st0) s →
      ∃ k' s', ConvSteps c k' (.start st0) s' ∧ k ≤ k' ∧ c.Done s' := by
    intro n
    induction n with
    | zero =>
      intro k s hn hr
      by_cases hd : c.Done s
      · exact ⟨k, s, hr, le_rfl, hd⟩
      · obtain ⟨s', hs'⟩ := (C135_finishes c st0 l hnd hl k s hr).2 hall hd
        have := (C135_finishes c st0 l hnd hl _ s' (.step hr hs')).1
        omega
    | succ n ih =>
      intro k s hn hr
      by_cases hd : c.Done s
      · exact ⟨k, s, hr, le_rfl, hd⟩
      · obtain ⟨s', hs'⟩ := (C135_finishes c st0 l hnd hl k s hr).2 hall hd
        obtain ⟨k', s'', h1, h2, h3⟩ := ih (k + 1) s' (by omega) (.step hr hs')
        exact ⟨k', s'', h1, by omega, h3⟩
  exact main _ k s rfl hrun

/-- **C135** The output folder of a completed run can be converted once more. -/
theorem C135_run_completes (c : RunCfg K T) (hc : c.Good) (st0 : Store K T) (k : ℕ) (s : RunState K T)
    (hrun : RunSteps c k (c.start st0) s) (hdone : c.Done s) (c' : ConvCfg) (hout : c'.out = c.out) :
    ∃ k' s', ConvSteps c' k' (.start s.store) s' ∧ c'.Done s' := by
  have hn := run_named c hc st0 k s hrun hdone c' hout
  obtain ⟨k', s', h1, -, h2⟩ := C135_completes c' s.store (c.tiles.filter fun t => c.empty t = false)
    (hc.nodup.filter _) (fun t => by rw [hn, List.mem_filter, decide_eq_true_eq]) (fun t ht => by
      rw [List.mem_filter, decide_eq_true_eq] at ht
      obtain ⟨x, mx, h1, h2, -⟩ := (C93_outcome c hc st0 k s hrun hdone).2.1 t ht.1 ht.2
      refine ⟨x, mx, ?_, h2⟩
      rw [run_found c hc st0 k s hrun hdone c' hout ht.1]
      exact h1) 0 _ (.refl _)
  exact ⟨k', s', h1, h2⟩

/-! ### The hypotheses can be met -/

/-- A run with two workers, then a conversion by four processes and another by one: the GeoTIFF of the
tile `a` is as before. -/
example (st0 : Store ℚ Unit) : ∃ k s k' s' k'' s'',
    RunSteps (sampleRun 2) k ((sampleRun 2).start st0) s ∧ (sampleRun 2).Done s ∧
    ConvSteps ⟨['/', 'o'], 3⟩ k' (.start s.store) s' ∧ ConvCfg.Done ⟨['/', 'o'], 3⟩ s' ∧
    ConvSteps ⟨['/', 'o'], 0⟩ k'' (.start s.store) s'' ∧ ConvCfg.Done ⟨['/', 'o'], 0⟩ s'' ∧
    s'.store ['/', 'o', '/', 'M', '3', '/', 'a', '.', 't', 'i', 'f'] =
      s.store ['/', 'o', '/', 'M', '3', '/', 'a', '.', 't', 'i', 'f'] ∧
    s'.store ['/', 'o', '/', 'M', '3', '/', 'a', '.', 't', 'i', 'f'] ≠ none ∧
    s''.store ['/', 'o', '/', 'M', '3', '/', 'a', '.', 't', 'i', 'f'] =
      s'.store ['/', 'o', '/', 'M', '3', '/', 'a', '.', 't', 'i', 'f'] := by
  obtain ⟨k, s, h1, -, h2⟩ := C94_completes _ (sampleRun_good 2) (sampleRun_shapes 2) st0 0 _ (.refl _)
  obtain ⟨k', s', h3, h4⟩ :=
    C135_run_completes _ (sampleRun_good 2) st0 k s h1 h2 ⟨['/', 'o'], 3⟩ rfl
  obtain ⟨k'', s'', h5, h6⟩ :=
    C135_run_completes _ (sampleRun_good 2) st0 k s h1 h2 ⟨['/', 'o'], 0⟩ rfl
  refine ⟨k, s, k', s', k'', s'', h1, h2, h3, h4, h5, h6,
    (C135_after_run _ (sampleRun_good 2) st0 k s h1 h2 _ rfl k' s' h3 h4).1 _ (by decide) (by decide), ?_,
    (C135_same_result ⟨['/', 'o'], 3⟩ ⟨['/', 'o'], 0⟩ rfl s.store k' k'' s' s'' h3 h4 h5 h6).1 _ (by decide) (by decide)⟩
  obtain ⟨x, mx, -, h, -⟩ := (C135_outcome _ s.store k' s' h3 h4).1 ['a']
    ((run_named _ (sampleRun_good 2) st0 k s h1 h2 ⟨['/', 'o'], 3⟩ rfl _).mpr
      ⟨by simp [sampleRun], by decide⟩)
  intro h'
  exact absurd (h'.symm.trans h) (by simp)

/-- Some step of the converter makes a file that there was not at first. -/
theorem conv_makes {c : ConvCfg} {k : ℕ} {s0 s : ConvState K T} (h : ConvSteps c k s0 s) {v : List Char}
    (h0 : s0.store v ≠ s.store v) : ∃ j a b, ConvSteps c j s0 a ∧ ConvStep c a b ∧ b.store v ≠ a.store v := by
  induction h with
  | refl => exact absurd rfl h0
  | @step j s0 a b ha hb ih =>
    by_cases h : b.store v = a.store v
    · exact ih (by rw [← h]; exact h0)
    · exact ⟨j, a, b, ha, hb, h⟩

/-- After a run whose virtual raster was removed: it is written again, when all the GeoTIFFs are there. -/
example (st0 : Store ℚ Unit) : ∃ (st : Store ℚ Unit) (k : ℕ) (s s' : ConvState ℚ Unit) (x : TileTif ℚ Unit),
    ConvSteps ⟨['/', 'o'], 3⟩ k (.start st) s ∧
    ConvStep ⟨['/', 'o'], 3⟩ s s' ∧ (st (ConvCfg.vrtAt ⟨['/', 'o'], 3⟩) = none) ∧
    s'.store (ConvCfg.vrtAt ⟨['/', 'o'], 3⟩) ≠ s.store (ConvCfg.vrtAt ⟨['/', 'o'], 3⟩) ∧
    s.store ['/', 'o', '/', 'M', '3', '/', 'a', '.', 't', 'i', 'f'] = some (.tif x) := by
  obtain ⟨k, s, h1, -, h2⟩ := C94_completes _ (sampleRun_good 2) (sampleRun_shapes 2) st0 0 _ (.refl _)
  have hn := run_named _ (sampleRun_good 2) st0 k s h1 h2 ⟨['/', 'o'], 3⟩ rfl
  obtain ⟨k', s', h3, h4⟩ :=
    C135_run_completes _ (sampleRun_good 2) st0 k s h1 h2 ⟨['/', 'o'], 3⟩ rfl
  have ho := (C135_outcome _ s.store k' s' h3 h4).1
  set st : Store ℚ Unit := update s.store (ConvCfg.vrtAt ⟨['/', 'o'], 3⟩) none with hst
  have hne : ∀ m : Mult, ∀ q, st (withSlash ['/', 'o'] ++ (m.folder ++ q)) =
      s.store (withSlash ['/', 'o'] ++ (m.folder ++ q)) := by
    intro m q
    refine update_of_ne ?_ _ _
    intro h
    have h := List.append_cancel_left h
    cases m <;> simp [Mult.folder] at h
  have hnamed : ∀ t, ConvCfg.Named ⟨['/', 'o'], 3⟩ st t ↔ ConvCfg.Named ⟨['/', 'o'], 3⟩ s.store t := by
    intro t
    unfold ConvCfg.Named
    simp only [hne]
  have hfound : ∀ t, ConvCfg.found ⟨['/', 'o'], 3⟩ st t = ConvCfg.found ⟨['/', 'o'], 3⟩ s.store t := by
    intro t
    funext m d
    unfold ConvCfg.found
    simp only [hne]
  have hl : ∀ t, t ∈ [['a'], ['c']] ↔ ConvCfg.Named ⟨['/', 'o'], 3⟩ st t := by
    intro t
    rw [hnamed, hn]
    simp only [sampleRun, List.mem_cons, List.not_mem_nil, or_false, decide_eq_false_iff_not]
    constructor
    · rintro (rfl | rfl) <;> decide
    · rintro ⟨rfl | rfl | rfl, h⟩
      · exact .inl rfl
      · exact absurd rfl h
      · exact .inr rfl
  obtain ⟨j, e, h5, -, h6⟩ := C135_completes ⟨['/', 'o'], 3⟩ st [['a'], ['c']] (by decide) hl (fun t ht => by
    obtain ⟨x, mx, h, -⟩ := ho t ((hnamed t).mp ((hl t).mp ht))
    exact ⟨x, mx, by rw [ConvCfg.Makes, hfound]; exact h⟩) 0 _ (.refl _)
  obtain ⟨-, ⟨l, -, -, h7, -⟩, -⟩ := C135_outcome _ st j e h5 h6
  have h0 : st (ConvCfg.vrtAt ⟨['/', 'o'], 3⟩) = none := update_self _ _ _
  obtain ⟨i, a, b, ha, hb, h8⟩ := conv_makes h5 (v := ConvCfg.vrtAt ⟨['/', 'o'], 3⟩) (by
    rw [h7, show (ConvState.start st).store = st from rfl, h0]; simp)
  obtain ⟨x, mx, -, h9, -⟩ := C135_waits _ st i a b ha hb (.inl h8) ['a'] ((hl _).mp (by simp))
  exact ⟨st, i, a, b, x, ha, hb, h0, h8, h9⟩

/-- A folder with a note in the shielding folder and no multipliers. -/
def noteStore : Store ℚ Unit := fun p =>
  if p = ['/', 'o', '/', 's', 'h', 'i', 'e', 'l', 'd', 'i', 'n', 'g', '/', 'n', 'o', 't', 'e'] then some .scratch
  else none

theorem noteStore_named (nW : ℕ) : ConvCfg.Named ⟨['/', 'o'], nW⟩ noteStore ['n', 'o', 't', 'e'] :=
  ⟨by decide, by decide, .inl ⟨by decide, by
    show noteStore ['/', 'o', '/', 's', 'h', 'i', 'e', 'l', 'd', 'i', 'n', 'g', '/', 'n', 'o', 't', 'e'] ≠ none
    rw [noteStore, if_pos rfl]; simp⟩⟩

/-- The conversion of the folder with the note never completes. -/
example (nW k : ℕ) (s : ConvState ℚ Unit) (h : ConvSteps ⟨['/', 'o'], nW⟩ k (.start noteStore) s) :
    ¬ ConvCfg.Done ⟨['/', 'o'], nW⟩ s := by
  refine C135_hangs _ noteStore ['n', 'o', 't', 'e'] (noteStore_named nW) ?_ k s h
  rintro ⟨x, mx, hx, -⟩
  have hf : ConvCfg.found ⟨['/', 'o'], nW⟩ noteStore ['n', 'o', 't', 'e'] = fun _ _ => none := by
    funext m d
    unfold ConvCfg.found noteStore
    rw [if_neg]
    show ¬ withSlash ['/', 'o'] ++ _ = _
    cases m <;> cases d <;> decide
  rw [hf] at hx
  have : (processTile (fun _ _ => none : Mult → Dir → Option (Raster ℚ Unit))).isOk = false := by
    decide +kernel
  rw [hx] at this
  cases this

/-- An empty folder is converted by three processes in 6 steps at most. -/
example : ∃ k s, ConvSteps ⟨['/', 'o'], 2⟩ k (.start (fun _ => none : Store ℚ Unit)) s ∧
    ConvCfg.Done ⟨['/', 'o'], 2⟩ s ∧ k ≤ 6 := by
  have hl : ∀ t, t ∈ ([] : List (List Char)) ↔
      ConvCfg.Named ⟨['/', 'o'], 2⟩ (fun _ => none : Store ℚ Unit) t := fun t => by
    simp [ConvCfg.Named]
  obtain ⟨k, s, h1, -, h2⟩ := C135_completes ⟨['/', 'o'], 2⟩ (fun _ => none : Store ℚ Unit) []
    List.nodup_nil hl (by simp) 0 _ (.refl _)
  exact ⟨k, s, h1, h2, (C135_finishes _ _ [] List.nodup_nil hl k s h1).1⟩

end WindMult
