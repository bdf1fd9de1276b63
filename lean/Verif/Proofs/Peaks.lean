import Verif.Spec.Topo
import Mathlib.Data.List.Sort
import Mathlib.Data.Nat.Count
import Mathlib.Tactic.Linarith
import Mathlib.Tactic.Ring
import Mathlib.Tactic.Push

/-!
# Ridges and valleys: helper lemmas
-/

set_option linter.unusedSectionVars false
set_option autoImplicit false

namespace WindMult
variable {K : Type} [Field K] [LinearOrder K] [IsStrictOrderedRing K] [FloorRing K]

theorem range_filter_pairwise (n : ℕ) (p : ℕ → Bool) :
    ((List.range n).filter p).Pairwise (· < ·) :=
  List.Pairwise.filter p (List.pairwise_lt_range)

theorem compressDiff_eq (prev : ℕ) (xs : List ℕ)
    (h : ∀ l1 a b l2, prev :: xs = l1 ++ a :: b :: l2 → b ≠ a + 1) : compressDiff prev xs = xs := by
  induction xs generalizing prev with
  | nil => rfl
  | cons x xs ih =>
    have h1 : x ≠ prev + 1 := h [] prev x xs rfl
    simp only [compressDiff]
    rw [if_pos (by omega), ih]
    intro l1 a b l2 he
    exact h (prev :: l1) a b l2 (by rw [he]; rfl)

/-- The raw candidates of `findpeaks`. -/
def candidate (y : Line K) (i : ℕ) : Prop :=
  i < y.size ∧ (i + 1 < y.size → y.val (i + 1) ≤ y.val i) ∧ (i ≠ 0 → y.val (i - 1) < y.val i)

theorem candidate_after_rise (y : Line K) (k : ℕ) (hk : k + 1 < y.size)
    (h : y.val k < y.val (k + 1)) : ∃ i, k < i ∧ candidate y i := by
  induction hm : y.size - k using Nat.strong_induction_on generalizing k with
  | _ m ih =>
    by_cases hn : k + 1 + 1 < y.size ∧ y.val (k + 1) < y.val (k + 1 + 1)
    · obtain ⟨i, hi, hc⟩ := ih (y.size - (k + 1)) (by omega) (k + 1) hn.1 hn.2 rfl
      exact ⟨i, by omega, hc⟩
    · refine ⟨k + 1, by omega, hk, ?_, ?_⟩
      · intro h1
        by_contra hc
        exact hn ⟨h1, not_le.mp hc⟩
      · intro _
        simpa using h

/-- What `findpeaks` returns on a line of at least two points that is not flat. -/
theorem findpeaks_spec (y : Line K) (hn : 2 ≤ y.size) (hflat : ¬ y.Flat) :
    ∃ l, findpeaks y = .ok l ∧ l.Pairwise (· < ·) ∧ ∀ i, i ∈ l ↔ y.IsRidge i := by
  set ind0 := peakCandidates y with hind0
  have hsorted : ind0.Pairwise (· < ·) := range_filter_pairwise _ _
  have hmem : ∀ i, i ∈ ind0 ↔ candidate y i := by
    intro i
    rw [hind0, peakCandidates, List.mem_filter, List.mem_range]
    simp only [Bool.and_eq_true, decide_eq_true_eq, candidate]
    unfold Line.dy
    constructor
    · rintro ⟨h1, h2, h3⟩
      refine ⟨h1, fun h => ?_, fun h => ?_⟩
      · rw [if_pos (by omega)] at h2; linarith
      · rw [if_neg h] at h3
        have : i - 1 + 1 = i := by omega
        rw [this] at h3
        linarith
    · rintro ⟨h1, h2, h3⟩
      refine ⟨h1, ?_, ?_⟩
      · split_ifs with h
        · have := h2 (by omega); linarith
        · exact le_rfl
      · split_ifs with h
        · exact one_pos
        · have := h3 h
          have e : i - 1 + 1 = i := by omega
          rw [e]
          linarith
  -- the first change
  set nonZero := changes y with hnz
  have hnzmem : ∀ i, i ∈ nonZero ↔ i + 1 < y.size ∧ y.val (i + 1) ≠ y.val i := by
    intro i
    rw [hnz, changes, List.mem_filter, List.mem_range]
    simp only [decide_eq_true_eq]
    unfold Line.dy
    constructor
    · rintro ⟨h1, h2⟩; exact ⟨by omega, fun h => h2 (by rw [h]; ring)⟩
    · rintro ⟨h1, h2⟩; exact ⟨by omega, fun h => h2 (by linarith)⟩
  have hnzs : nonZero.Pairwise (· < ·) := range_filter_pairwise _ _
  have hnzne : nonZero ≠ [] := by
    intro h
    apply hflat
    intro i hi
    by_contra hc
    have := (hnzmem i).mpr ⟨hi, hc⟩
    rw [h] at this
    simp at this
  obtain ⟨k0, nzt, hk0⟩ := List.exists_cons_of_ne_nil hnzne
  have hk0mem := (hnzmem k0).mp (by rw [hk0]; exact List.mem_cons_self)
  have hk0first : ∀ k' < k0, y.val (k' + 1) = y.val k' := by
    intro k' hk'
    by_contra hc
    have hm := (hnzmem k').mpr ⟨by omega, hc⟩
    rw [hk0] at hm hnzs
    rcases List.mem_cons.mp hm with h | h
    · omega
    · have := (List.pairwise_cons.mp hnzs).1 k' h
      omega
  have hfalls : y.FallsFirst ↔ y.val (k0 + 1) < y.val k0 := by
    constructor
    · rintro ⟨k, h1, h2, h3⟩
      rcases lt_trichotomy k k0 with h | h | h
      · exact absurd (hk0first k h) h2.ne
      · exact h ▸ h2
      · exact absurd (h3 k0 h) hk0mem.2
    · intro h
      exact ⟨k0, hk0mem.1, h, hk0first⟩
  -- characterisation of ridges by candidates
  have hridge : ∀ i, y.IsRidge i ↔ candidate y i ∧ (i = 0 → y.val (k0 + 1) < y.val k0) := by
    intro i
    unfold Line.IsRidge candidate
    by_cases h0 : i = 0
    · subst h0
      simp only [if_true, hfalls, ne_eq, not_true_eq_false, false_implies, and_true, true_implies]
      tauto
    · simp only [h0, if_false, ne_eq, not_false_eq_true, true_implies, false_implies, and_true]
  -- the last part of the function is the identity
  have hfinal : ∀ ind : List ℕ, ind ≠ [] → ind.Pairwise (· < ·) → (∀ i ∈ ind, candidate y i) →
      (do let ind' ← trimEnd y ind; return compressInd ind') = .ok ind := by
    intro ind hne hs hc
    obtain ⟨x, xs, rfl⟩ := List.exists_cons_of_ne_nil hne
    cases hl : (x :: xs).getLast? with
    | none => simp at hl
    | some l =>
      have hlmem : l ∈ x :: xs := List.mem_of_getLast? hl
      have hlt := (hc l hlmem).1
      have hcd : compressDiff x xs = xs := by
        apply compressDiff_eq
        intro l1 a b l2 he hab
        have ha := hc a (by rw [he]; simp)
        have hb := hc b (by rw [he]; simp)
        have h1 := ha.2.1 (by have := hb.1; omega)
        have h2 := hb.2.2 (by omega)
        subst hab
        have : a + 1 - 1 = a := by omega
        rw [this] at h2
        linarith
      have ht : trimEnd y (x :: xs) = .ok (x :: xs) := by
        unfold trimEnd
        rw [hl]
        simp only
        rw [if_neg (by omega)]
      rw [ht]
      show Except.ok (x :: compressDiff x xs) = _
      rw [hcd]
  have hunfold : ind0 ≠ [] → findpeaks y =
      (do let ind ← trimStart y ind0; let ind' ← trimEnd y ind; return compressInd ind') := by
    intro hne
    unfold findpeaks
    rw [if_neg (by omega), if_neg (by omega), if_neg hnzne, if_neg hne]
  cases hcase : ind0 with
  | nil =>
    refine ⟨[], ?_, List.Pairwise.nil, fun i => ?_⟩
    · unfold findpeaks
      rw [if_neg (by omega), if_neg (by omega), if_neg hnzne, if_pos hcase]
    · rw [hridge, ← hmem, hcase]
      simp
  | cons i0 rest =>
    have hs' : (i0 :: rest).Pairwise (· < ·) := hcase ▸ hsorted
    have hstart : ∀ l, trimStart y ind0 = .ok l → l ≠ [] → l.Pairwise (· < ·) →
        (∀ i ∈ l, candidate y i) → findpeaks y = .ok l := by
      intro l h1 h2 h3 h4
      rw [hunfold (by rw [hcase]; simp), h1]
      exact hfinal l h2 h3 h4
    by_cases hp : i0 = 0 ∧ y.dy 0 = 0
    · obtain ⟨rfl, hd0⟩ := hp
      have htrim : trimStart y ind0 = .ok (if 0 < y.dy k0 then rest else 0 :: rest) := by
        rw [hcase]
        show (if 0 = 0 ∧ y.dy 0 = 0 then _ else _) = _
        rw [if_pos ⟨rfl, hd0⟩, ← hnz, hk0]
      by_cases hup : 0 < y.dy k0
      · -- the start plateau is a valley
        have hup' : y.val k0 < y.val (k0 + 1) := by unfold Line.dy at hup; linarith
        have hrestmem : ∀ i, i ∈ rest ↔ y.IsRidge i := by
          intro i
          rw [hridge, ← hmem, hcase]
          constructor
          · intro h
            have := (List.pairwise_cons.mp hs').1 i h
            exact ⟨List.mem_cons_of_mem _ h, fun h0 => by omega⟩
          · rintro ⟨h, h0⟩
            rcases List.mem_cons.mp h with h | h
            · exact absurd (h0 h) (not_lt.mpr hup'.le)
            · exact h
        have hrne : rest ≠ [] := by
          obtain ⟨i, hi, hc⟩ := candidate_after_rise y k0 hk0mem.1 hup'
          intro he
          have := (hrestmem i).mpr ((hridge i).mpr ⟨hc, fun h => by omega⟩)
          rw [he] at this
          simp at this
        rw [if_pos hup] at htrim
        exact ⟨rest, hstart rest htrim hrne (List.pairwise_cons.mp hs').2
          (fun i hi => ((hridge i).mp ((hrestmem i).mp hi)).1), (List.pairwise_cons.mp hs').2,
          hrestmem⟩
      · have hdn : y.val (k0 + 1) < y.val k0 := by
          unfold Line.dy at hup
          exact lt_of_le_of_ne (by linarith) hk0mem.2
        rw [if_neg hup] at htrim
        refine ⟨0 :: rest, hstart _ htrim (by simp) hs' (fun i hi => (hmem i).mp (hcase ▸ hi)), hs',
          fun i => ?_⟩
        rw [hridge, ← hmem, hcase]
        exact ⟨fun h => ⟨h, fun _ => hdn⟩, fun h => h.1⟩
    · have htrim : trimStart y ind0 = .ok (i0 :: rest) := by
        rw [hcase]
        show (if i0 = 0 ∧ y.dy 0 = 0 then _ else _) = _
        rw [if_neg hp]
      refine ⟨i0 :: rest, hstart _ htrim (by simp) hs' (fun i hi => (hmem i).mp (hcase ▸ hi)), hs',
        fun i => ?_⟩
      rw [hridge, ← hmem, hcase]
      refine ⟨fun h => ⟨h, fun h0 => ?_⟩, fun h => h.1⟩
      subst h0
      have hc : candidate y 0 := (hmem 0).mp (hcase ▸ h)
      have h2 := hc.2.1 (by omega)
      have hi0 : i0 = 0 := by
        rcases List.mem_cons.mp h with h | h
        · exact h.symm
        · have := (List.pairwise_cons.mp hs').1 0 h
          omega
      have hdy : y.dy 0 ≠ 0 := fun h => hp ⟨hi0, h⟩
      have hne : y.val (0 + 1) ≠ y.val 0 := by
        intro h; apply hdy; unfold Line.dy; rw [h]; ring
      have hk : k0 = 0 := by
        by_contra hk
        exact hne (hk0first 0 (by omega))
      rw [hk]
      exact lt_of_le_of_ne h2 hne

end WindMult
