import Verif.Proofs.Dispatch

/-!
# C08–C11: the parallel tile computation
-/

set_option linter.unusedSectionVars false
set_option autoImplicit false

namespace WindMult
open Finset Function
variable {T : Type}

/-- Specification: the state in which everything is over: the master has returned, every worker
has returned, and no message is undelivered. -/
def DState.AllDone (nW : ℕ) (s : DState T) : Prop :=
  s.phase = .returned ∧
  ∀ d, 1 ≤ d → d ≤ nW → s.wk d = .finished ∧ s.work d = [] ∧ s.results d = 0

theorem pend_eq_zero_of_owing {l : WLocal T} (hs : Shape l) (h : owing l = 0) : pend l = 0 := by
  cases hs <;> simp_all [owing, pend]

/-- **C08** When the master returns from the tile computation – whatever the schedule, the number
of workers and whether workers may crash – the tiles computed are exactly the given tiles, each as
often as given (a permutation of the list handed in). -/
theorem C08_each_tile_exactly_once (tiles : List T) (nW : ℕ) (hnW : 1 ≤ nW) (crashes : Prop)
    (k : ℕ) (s : DState T) (hrun : DRun tiles nW crashes k (DState.start nW) s)
    (hret : s.phase = .returned) : s.computed.Perm tiles := by
  have h := inv_run hnW hrun
  obtain ⟨h1, h2, -⟩ := h.phaseRet hret
  have hz : ∑ d ∈ Icc 1 nW, pend (s.loc d) = 0 := by
    apply Finset.sum_eq_zero
    intro d hd
    have hd' := mem_Icc.mp hd
    exact pend_eq_zero_of_owing (h.shape d hd'.1 hd'.2) ((Finset.sum_eq_zero_iff.mp h2) d hd)
  have := h.tilesEq
  rw [hz, add_zero, h1, List.take_length] at this
  exact Multiset.coe_eq_coe.mp this

/-- **C08** At every moment of every execution the tiles computed so far, the tiles being computed
and the tiles in transit together are an initial part of the given list, each once; in particular
no tile has been computed more often than it was given. -/
theorem C08_never_twice (tiles : List T) (nW : ℕ) (hnW : 1 ≤ nW) (crashes : Prop)
    (k : ℕ) (s : DState T) (hrun : DRun tiles nW crashes k (DState.start nW) s) :
    (s.computed : Multiset T) ≤ (tiles : Multiset T) := by
  have h := inv_run hnW hrun
  calc (s.computed : Multiset T) ≤ s.computed + ∑ d ∈ Icc 1 nW, pend (s.loc d) :=
        Multiset.le_add_right _ _
    _ = ((tiles.take s.w : List T) : Multiset T) := h.tilesEq
    _ ≤ tiles := Multiset.coe_le.mpr (List.take_sublist _ _).subperm

/-- **C08** With tiles that are pairwise different, no tile is ever computed twice. -/
theorem C08_nodup (tiles : List T) (hnd : tiles.Nodup) (nW : ℕ) (hnW : 1 ≤ nW) (crashes : Prop)
    (k : ℕ) (s : DState T) (hrun : DRun tiles nW crashes k (DState.start nW) s) :
    s.computed.Nodup := by
  have := C08_never_twice tiles nW hnW crashes k s hrun
  exact Multiset.coe_nodup.mp (Multiset.nodup_of_le this (Multiset.coe_nodup.mpr hnd))

/-- **C09** Every execution is finite, crashes or not: it has at most `6·tiles + 2·workers + 2`
steps. -/
theorem C09_terminates (tiles : List T) (nW : ℕ) (hnW : 1 ≤ nW) (crashes : Prop)
    (k : ℕ) (s : DState T) (hrun : DRun tiles nW crashes k (DState.start nW) s) :
    k ≤ 6 * tiles.length + 2 * nW + 2 := by
  have := measure_run hnW hrun
  omega

/-- **C09** If no worker has crashed, the system can only stop when everything is over: no
deadlock, no lost message, no worker left waiting. -/
theorem C09_no_deadlock (tiles : List T) (nW : ℕ) (hnW : 1 ≤ nW) (crashes : Prop)
    (k : ℕ) (s : DState T) (hrun : DRun tiles nW crashes k (DState.start nW) s)
    (hnc : ∀ d, 1 ≤ d → d ≤ nW → ∀ t, s.wk d ≠ .crashed t)
    (hstuck : ¬ ∃ s', DStep tiles nW crashes s s') : s.AllDone nW := by
  have h := inv_run hnW hrun
  cases hph : s.phase with
  | init d =>
    exfalso; apply hstuck
    by_cases hd : d ≤ nW
    · by_cases hw : s.w < tiles.length
      · exact ⟨_, .dispatch s d _ hph hd (List.getElem?_eq_getElem hw)⟩
      · exact ⟨_, .dispatchNone s d hph hd (by omega)⟩
    · exact ⟨_, .endInit s d hph (by omega)⟩
  | loop j =>
    exfalso; apply hstuck
    by_cases hj : s.p ≤ j
    · exact ⟨_, .masterReturn s j hph hj⟩
    · obtain ⟨h1, h2, h3, h4, h5⟩ := h.phaseLoop j hph
      have hpos : ∑ e ∈ Icc 1 nW, owing (s.loc e) ≠ 0 := by omega
      obtain ⟨d, hd, hod⟩ := Finset.exists_ne_zero_of_sum_ne_zero hpos
      obtain ⟨hd1, hd2⟩ := mem_Icc.mp hd
      have hsh := h.shape d hd1 hd2
      have ework : (s.loc d).work = s.work d := rfl
      have eres : (s.loc d).results = s.results d := rfl
      have ewk : (s.loc d).wk = s.wk d := rfl
      generalize s.loc d = l at *
      cases hsh with
      | idle => simp [owing] at hod
      | sent t => exact ⟨_, .workerTake s d t [] hd1 hd2 ewk.symm ework.symm⟩
      | busy t => exact ⟨_, .workerDone s d t hd1 hd2 ewk.symm⟩
      | replied =>
        have : 0 < s.results d := by rw [← eres]; exact Nat.one_pos
        by_cases hw : s.w < tiles.length
        · exact ⟨_, .recvMore s d j _ hph (by omega) hd1 hd2 this (List.getElem?_eq_getElem hw)⟩
        · exact ⟨_, .recvLast s d j hph (by omega) hd1 hd2 this (by omega)⟩
      | stopSent => simp [owing] at hod
      | finished => simp [owing] at hod
      | crashed t => exact absurd ewk.symm (hnc d hd1 hd2 t)
  | returned =>
    refine ⟨hph, ?_⟩
    intro d hd1 hd2
    obtain ⟨h1, h2, h3⟩ := h.phaseRet hph
    have hod := (Finset.sum_eq_zero_iff.mp h2) d (mem_Icc.mpr ⟨hd1, hd2⟩)
    have hne := h3 d hd1 hd2
    have hsh := h.shape d hd1 hd2
    have ework : (s.loc d).work = s.work d := rfl
    have eres : (s.loc d).results = s.results d := rfl
    have ewk : (s.loc d).wk = s.wk d := rfl
    generalize s.loc d = l at *
    cases hsh with
    | idle => exact absurd rfl hne
    | sent t => simp [owing] at hod
    | busy t => simp [owing] at hod
    | replied => simp [owing] at hod
    | stopSent => exact absurd ⟨_, .workerStop s d [] hd1 hd2 ewk.symm ework.symm⟩ hstuck
    | finished => exact ⟨ewk.symm, ework.symm, eres.symm⟩
    | crashed t => exact absurd ewk.symm (hnc d hd1 hd2 t)

/-- A crash-free system never crashes. -/
theorem no_crash_of_run {tiles : List T} {nW k : ℕ} {s : DState T}
    (hrun : DRun tiles nW False k (DState.start nW) s) : ∀ d t, s.wk d ≠ .crashed t := by
  generalize h0 : DState.start nW = s0 at hrun
  induction hrun with
  | refl s => subst h0; intro d t; simp [DState.start]
  | step _ h' ih =>
    have ih := ih h0
    intro d t
    cases h' with
    | workerTake e t' q _ _ hwk hq =>
      simp only [update_apply]; split_ifs <;> simp [ih]
    | workerStop e q _ _ hwk hq =>
      simp only [update_apply]; split_ifs <;> simp [ih]
    | workerDone e t' _ _ hwk =>
      simp only [update_apply]; split_ifs <;> simp [ih]
    | workerCrash e t' hc => exact absurd hc id
    | _ => exact ih d t

/-- **C09** Every execution of a crash-free system can be continued until everything is over, and
then all tiles have been computed (so the hypotheses of the theorems above are met by real
executions for every tile list and every number of workers). -/
theorem C09_completes (tiles : List T) (nW : ℕ) (hnW : 1 ≤ nW) (k : ℕ) (s : DState T)
    (hrun : DRun tiles nW False k (DState.start nW) s) :
    ∃ k' s', k ≤ k' ∧ DRun tiles nW False k' (DState.start nW) s' ∧ s'.AllDone nW ∧
      s'.computed.Perm tiles := by
  by_cases hst : ∃ s', DStep tiles nW False s s'
  · obtain ⟨s', hs'⟩ := hst
    have hrun' := DRun.step hrun hs'
    have hle := measure_run hnW hrun'
    obtain ⟨k'', s'', h1, h2, h3⟩ := C09_completes tiles nW hnW (k + 1) s' hrun'
    exact ⟨k'', s'', by omega, h2, h3⟩
  · have hd := C09_no_deadlock tiles nW hnW False k s hrun
      (fun d _ _ t => no_crash_of_run hrun d t) hst
    exact ⟨k, s, le_refl _, hrun, hd, C08_each_tile_exactly_once tiles nW hnW False k s hrun hd.1⟩
termination_by 6 * tiles.length + 2 * nW + 2 - k
decreasing_by omega

/-- Executions reaching the end exist, e.g. three tiles on two workers, or one tile on three. -/
example : (∃ k s, DRun ["a", "b", "c"] 2 False k (DState.start 2) s ∧ s.phase = .returned) ∧
    (∃ k s, DRun ["a"] 3 False k (DState.start 3) s ∧ s.phase = .returned) := by
  constructor
  · obtain ⟨k, s, -, h, hd, -⟩ := C09_completes ["a", "b", "c"] 2 (by norm_num) 0 _ (.refl _)
    exact ⟨k, s, h, hd.1⟩
  · obtain ⟨k, s, -, h, hd, -⟩ := C09_completes ["a"] 3 (by norm_num) 0 _ (.refl _)
    exact ⟨k, s, h, hd.1⟩

/-- **C10** In every execution in which some worker has died while computing a tile, the master
has not returned – neither now nor in any continuation (the statement is about every reachable
state and a dead worker stays dead, see `C10_crash_is_permanent`). -/
theorem C10_crash_never_success (tiles : List T) (nW : ℕ) (hnW : 1 ≤ nW) (crashes : Prop)
    (k : ℕ) (s : DState T) (hrun : DRun tiles nW crashes k (DState.start nW) s)
    (d : ℕ) (hd1 : 1 ≤ d) (hd : d ≤ nW) (t : T) (hcr : s.wk d = .crashed t) :
    s.phase ≠ .returned := by
  intro hret
  have h := inv_run hnW hrun
  obtain ⟨-, h2, -⟩ := h.phaseRet hret
  have hod := (Finset.sum_eq_zero_iff.mp h2) d (mem_Icc.mpr ⟨hd1, hd⟩)
  have ewk : (s.loc d).wk = s.wk d := rfl
  have hsh := h.shape d hd1 hd
  rw [hcr] at ewk
  generalize s.loc d = l at *
  cases hsh <;> simp_all [owing]

/-- A dead worker stays dead. -/
theorem C10_crash_is_permanent (tiles : List T) (nW : ℕ) (crashes : Prop) (s s' : DState T)
    (h : DStep tiles nW crashes s s') (d : ℕ) (t : T) (hcr : s.wk d = .crashed t) :
    s'.wk d = .crashed t := by
  cases h with
  | workerTake e t' q _ _ hwk hq =>
    have : d ≠ e := by rintro rfl; rw [hcr] at hwk; cases hwk
    simp [this, hcr]
  | workerStop e q _ _ hwk hq =>
    have : d ≠ e := by rintro rfl; rw [hcr] at hwk; cases hwk
    simp [this, hcr]
  | workerDone e t' _ _ hwk =>
    have : d ≠ e := by rintro rfl; rw [hcr] at hwk; cases hwk
    simp [this, hcr]
  | workerCrash e t' hc _ _ hwk =>
    have : d ≠ e := by rintro rfl; rw [hcr] at hwk; cases hwk
    simp [this, hcr]
  | _ => exact hcr

/-- A crashing execution: one tile, one worker. -/
example : ∃ k s, DRun ["a"] 1 True k (DState.start 1) s ∧ s.wk 1 = .crashed "a" := by
  refine ⟨3, _, .step (.step (.step (.refl _) (.dispatch _ 1 "a" rfl (le_refl _) rfl))
    (.workerTake _ 1 "a" [] (le_refl _) (le_refl _) rfl (by simp [DState.start])))
    (.workerCrash _ 1 "a" trivial (le_refl _) (le_refl _) (by simp)), by simp⟩

/-- **C11** The single-process run computes the tiles in the given order, each once … -/
theorem C11_serial_order (tiles : List T) : serialRun tiles = tiles := by
  have : ∀ (l acc : List T), l.foldl (fun log t => log ++ [t]) acc = acc ++ l := by
    intro l
    induction l with
    | nil => simp
    | cons a l ih => intro acc; simp [ih]
  simp [serialRun, this]

/-- … so it computes the same tiles as every completed parallel run. -/
theorem C11_serial_same_as_parallel (tiles : List T) (nW : ℕ) (hnW : 1 ≤ nW) (crashes : Prop)
    (k : ℕ) (s : DState T) (hrun : DRun tiles nW crashes k (DState.start nW) s)
    (hret : s.phase = .returned) : s.computed.Perm (serialRun tiles) := by
  rw [C11_serial_order]
  exact C08_each_tile_exactly_once tiles nW hnW crashes k s hrun hret

end WindMult
