import Verif.Model.Terrain
import Verif.Spec.Compass
import Verif.Proofs.Basic
import Mathlib.Algebra.BigOperators.Intervals

set_option linter.unusedSectionVars false
set_option autoImplicit false

namespace WindMult
open Finset
variable {K : Type} [Field K] [LinearOrder K] [IsStrictOrderedRing K] [FloorRing K]

/-- The neighbour count is the reach to the raster edge minus the lag. -/
theorem inRaster_iff_reach (d : Dir) {rows cols i j t : ℕ} (hi : i < rows) (hj : j < cols)
    (ht : 1 ≤ t) (lag : ℤ) :
    InRaster rows cols (d.rowUp i t) (d.colUp j t) ↔
      (t : ℤ) ≤ allNeighb d i j rows cols lag + lag := by
  cases d <;> simp only [InRaster, Dir.rowUp, Dir.colUp, Dir.north, Dir.east, allNeighb] <;>
    constructor <;> intro h <;> omega

theorem pointR_eq (d : Dir) (i m lag : ℤ) : pointR d i m lag = d.rowUp i (lag + 1 + m) := by
  cases d <;> simp only [pointR, Dir.rowUp, Dir.north] <;> ring

theorem pointC_eq (d : Dir) (j m lag : ℤ) : pointC d j m lag = d.colUp j (lag + 1 + m) := by
  cases d <;> simp only [pointC, Dir.colUp, Dir.east] <;> ring

theorem upwindDistances_eq (d : Dir) {rows cols i j : ℕ} (hi : i < rows) (hj : j < cols)
    (width lag : ℕ) :
    upwindDistances rows cols d width lag i j =
      Ico (lag + 1) (lag + 1 + (min (allNeighb d i j rows cols lag) width).toNat) := by
  ext t
  simp only [upwindDistances, mem_filter, mem_Icc, mem_Ico]
  constructor
  · rintro ⟨⟨h1, h2⟩, h3⟩
    have := (inRaster_iff_reach d hi hj (by omega) lag).mp h3
    omega
  · rintro ⟨h1, h2⟩
    have := (inRaster_iff_reach d (t := t) hi hj (by omega) lag).mpr (by omega)
    exact ⟨by omega, this⟩

theorem neighbourSum_ok (d : Dir) (data : Grid K) (lag i jj : ℕ) (ms : List ℕ) (acc : K)
    (h : ∀ m ∈ ms, InRaster data.rows data.cols (d.rowUp i ((lag + 1 + m : ℕ) : ℤ))
      (d.colUp jj ((lag + 1 + m : ℕ) : ℤ))) :
    neighbourSum d data lag i jj ms acc =
      .ok (acc + (ms.map fun m => data.upwind d i jj (lag + 1 + m)).sum) := by
  induction ms generalizing acc with
  | nil => simp [neighbourSum]
  | cons m ms ih =>
    have hm := h m (by simp)
    unfold neighbourSum
    rw [pointR_eq, pointC_eq]
    have e : ((lag : ℤ) + 1 + (m : ℤ)) = ((lag + 1 + m : ℕ) : ℤ) := by push_cast; ring
    rw [e, Grid.pyGet_of_mem data hm.1 hm.2.1 hm.2.2.1 hm.2.2.2]
    simp only [bind, Except.bind]
    rw [ih _ (fun m' hm' => h m' (by simp [hm'])), List.map_cons, List.sum_cons]
    congr 1
    rw [← add_assoc]
    rfl

/-- One cell of `convo` without an upwind cell beyond the lag. -/
theorem convoCell_none (d : Dir) (data : Grid K) (avg : ℤ) (lag i j : ℕ) (hi : i < data.rows)
    (hj : j < data.cols) (h : allNeighb d i j data.rows data.cols lag ≤ 0) :
    convoCell d data avg lag i j = .ok (data.val i j) := by
  unfold convoCell
  simp only [if_neg (not_lt.mpr h)]
  rw [Grid.pyGet_of_mem data (by omega) (by omega) (by omega) (by omega)]
  simp

theorem convoCell_zero (d : Dir) (data : Grid K) (lag i j : ℕ)
    (h : 0 < allNeighb d i j data.rows data.cols lag) :
    convoCell d data 0 lag i j = .error .zeroDivisionError := by
  unfold convoCell
  simp [if_pos h, not_lt.mpr h.le, neighbourSum, bind, Except.bind]

/-- One cell of `convo` computes the upwind mean. -/
theorem convoCell_ok (d : Dir) (data : Grid K) (width lag i j : ℕ) (hw : 1 ≤ width)
    (hi : i < data.rows) (hj : j < data.cols) :
    convoCell d data width lag i j = .ok (upwindMean data d width lag i j) := by
  by_cases hall : 0 < allNeighb d i j data.rows data.cols lag
  · have hmx : (if allNeighb d i j data.rows data.cols lag < (width : ℤ)
        then allNeighb d i j data.rows data.cols lag else (width : ℤ))
        = min (allNeighb d i j data.rows data.cols lag) width := by
      split_ifs <;> omega
    unfold convoCell
    simp only [if_pos hall, hmx]
    have hS := upwindDistances_eq d hi hj width lag
    generalize hmxd : min (allNeighb d i j data.rows data.cols lag) (width : ℤ) = mx at *
    have hmx1 : 1 ≤ mx := by omega
    obtain ⟨n, rfl⟩ : ∃ n : ℕ, mx = n := ⟨mx.toNat, by omega⟩
    simp only [Int.toNat_natCast] at *
    have hmem : ∀ m ∈ List.range n, InRaster data.rows data.cols
        (d.rowUp i ((lag + 1 + m : ℕ) : ℤ)) (d.colUp j ((lag + 1 + m : ℕ) : ℤ)) := by
      intro m hm
      have hm' := List.mem_range.mp hm
      have : lag + 1 + m ∈ upwindDistances data.rows data.cols d width lag i j := by
        rw [hS, mem_Ico]; omega
      exact (mem_filter.mp this).2
    rw [neighbourSum_ok d data lag i j (List.range n) 0 hmem]
    have hn : ((n : ℤ) : K) ≠ 0 := by
      have : (0 : ℤ) < n := by omega
      exact_mod_cast this.ne'
    simp only [bind, Except.bind, if_neg hn, pure, Except.pure, zero_add]
    congr 1
    unfold upwindMean
    rw [hS, if_pos (by rw [nonempty_Ico]; omega), Finset.sum_Ico_eq_sum_range]
    simp only [Nat.card_Ico, Nat.add_sub_cancel_left, Int.cast_natCast]
    congr 1
  · rw [convoCell_none d data width lag i j hi hj (not_lt.mp hall)]
    congr 1
    unfold upwindMean
    rw [if_neg]
    rw [upwindDistances_eq d hi hj, not_nonempty_iff_eq_empty]
    rw [show (min (allNeighb d i j data.rows data.cols lag) (width : ℤ)).toNat = 0 by omega]
    simp

/-! ### Raster loops -/

theorem forM_ok_iff {α : Type} (l : List α) (f : α → Except PyErr Unit) :
    l.forM f = .ok () ↔ ∀ a ∈ l, f a = .ok () := by
  induction l with
  | nil => simp [List.forM, pure, Except.pure]
  | cons a l ih =>
    rw [show (a :: l).forM f = (f a >>= fun _ => l.forM f) from rfl]
    cases h : f a with
    | ok u =>
      simp only [bind, Except.bind, List.mem_cons, forall_eq_or_imp, h, true_and]
      exact ih
    | error e => simp [bind, Except.bind, h]

theorem forM_error {α : Type} (l : List α) (f : α → Except PyErr Unit) (e : PyErr)
    (h : l.forM f = .error e) : ∃ a ∈ l, f a = .error e := by
  induction l with
  | nil => simp [List.forM, pure, Except.pure] at h
  | cons a l ih =>
    rw [show (a :: l).forM f = (f a >>= fun _ => l.forM f) from rfl] at h
    cases h' : f a with
    | ok u =>
      rw [h'] at h
      simp only [bind, Except.bind] at h
      obtain ⟨b, hb, hb'⟩ := ih h
      exact ⟨b, by simp [hb], hb'⟩
    | error e' =>
      rw [h'] at h
      simp only [bind, Except.bind, Except.error.injEq] at h
      exact ⟨a, by simp, by rw [h', h]⟩

theorem tabulateM_ok {α : Type} (junk : α) (rows cols : ℕ) (f : ℕ → ℕ → Except PyErr α)
    (v : ℕ → ℕ → α) (h : ∀ i < rows, ∀ j < cols, f i j = .ok (v i j)) :
    ∃ g, Grid.tabulateM junk rows cols f = .ok g ∧ g.rows = rows ∧ g.cols = cols ∧
      ∀ i < rows, ∀ j < cols, g.val i j = v i j := by
  unfold Grid.tabulateM
  have : ((List.range rows).forM fun i => (List.range cols).forM fun j =>
      (do let _ ← f i j; return ())) = Except.ok () := by
    rw [forM_ok_iff]
    intro i hi
    rw [forM_ok_iff]
    intro j hj
    rw [h i (List.mem_range.mp hi) j (List.mem_range.mp hj)]
    rfl
  rw [this]
  refine ⟨_, rfl, rfl, rfl, ?_⟩
  intro i hi j hj
  simp only [h i hi j hj]

theorem tabulateM_ok_iff {α : Type} (junk : α) (rows cols : ℕ) (f : ℕ → ℕ → Except PyErr α) :
    (∃ g, Grid.tabulateM junk rows cols f = .ok g) ↔ ∀ i < rows, ∀ j < cols, ∃ v, f i j = .ok v := by
  constructor
  · rintro ⟨g, hg⟩ i hi j hj
    unfold Grid.tabulateM at hg
    cases hf : ((List.range rows).forM fun i => (List.range cols).forM fun j =>
      (do let _ ← f i j; return ()) : Except PyErr Unit) with
    | error e => rw [hf] at hg; simp [bind, Except.bind] at hg
    | ok u =>
      rw [forM_ok_iff] at hf
      have h1 := hf i (List.mem_range.mpr hi)
      rw [forM_ok_iff] at h1
      have h2 := h1 j (List.mem_range.mpr hj)
      cases hv : f i j with
      | ok v => exact ⟨v, rfl⟩
      | error e => rw [hv] at h2; simp [bind, Except.bind] at h2
  · intro h
    have : ∀ i j, ∃ v, (i < rows → j < cols → f i j = .ok v) := by
      intro i j
      by_cases hh : i < rows ∧ j < cols
      · obtain ⟨v, hv⟩ := h i hh.1 j hh.2
        exact ⟨v, fun _ _ => hv⟩
      · exact ⟨junk, fun h1 h2 => absurd ⟨h1, h2⟩ hh⟩
    choose v hv using this
    obtain ⟨g, hg, -⟩ := tabulateM_ok junk rows cols f v (fun i hi j hj => hv i j hi hj)
    exact ⟨g, hg⟩

theorem tabulateM_error {α : Type} (junk : α) (rows cols : ℕ) (f : ℕ → ℕ → Except PyErr α)
    (e : PyErr) (h : Grid.tabulateM junk rows cols f = .error e) :
    ∃ i < rows, ∃ j < cols, f i j = .error e := by
  unfold Grid.tabulateM at h
  cases hf : ((List.range rows).forM fun i => (List.range cols).forM fun j =>
      (do let _ ← f i j; return ()) : Except PyErr Unit) with
  | ok u => rw [hf] at h; simp [bind, Except.bind, pure, Except.pure] at h
  | error e' =>
    rw [hf] at h
    simp only [bind, Except.bind, Except.error.injEq] at h
    subst h
    obtain ⟨i, hi, hi'⟩ := forM_error _ _ _ hf
    obtain ⟨j, hj, hj'⟩ := forM_error _ _ _ hi'
    refine ⟨i, List.mem_range.mp hi, j, List.mem_range.mp hj, ?_⟩
    cases hv : f i j with
    | ok v => rw [hv] at hj'; simp [bind, Except.bind, pure, Except.pure] at hj'
    | error e'' => rw [hv] at hj'; simp [bind, Except.bind] at hj'; rw [hj']

end WindMult
