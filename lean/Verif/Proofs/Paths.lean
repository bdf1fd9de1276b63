import Verif.Model.TopoGrid
import Verif.Spec.Transect
import Verif.Proofs.Hills
import Mathlib.Data.List.Dedup
import Mathlib.Data.List.Nodup
import Mathlib.Tactic.Linarith
import Mathlib.Tactic.Ring

/-!
# Paths across a raster: helper lemmas
-/

set_option linter.unusedSectionVars false
set_option autoImplicit false

namespace WindMult
variable {K : Type} [Field K] [LinearOrder K] [IsStrictOrderedRing K] [FloorRing K]

theorem iIncr_eq (d : Dir) : iIncr d = d.north := by cases d <;> decide
theorem jIncr_eq (d : Dir) : jIncr d = - d.east := by cases d <;> decide

theorem pathLoop_spec (nr nc di dj : ℤ) : ∀ (fuel : ℕ) (i j : ℤ),
    ¬ ((i + fuel * di ≤ nr ∧ 1 ≤ i + fuel * di) ∧ (j + fuel * dj ≤ nc ∧ 1 ≤ j + fuel * dj)) →
    ∃ L : ℕ, pathLoop nr nc di dj fuel i j =
        (List.range L).map (fun t : ℕ => (i + t * di) + (j + t * dj - 1) * nr - 1) ∧
      (∀ t : ℕ, t < L → (i + t * di ≤ nr ∧ 1 ≤ i + t * di) ∧ (j + t * dj ≤ nc ∧ 1 ≤ j + t * dj)) ∧
      ¬ ((i + L * di ≤ nr ∧ 1 ≤ i + L * di) ∧ (j + L * dj ≤ nc ∧ 1 ≤ j + L * dj)) := by
  intro fuel
  induction fuel with
  | zero =>
    intro i j h
    exact ⟨0, rfl, by simp, h⟩
  | succ fuel ih =>
    intro i j h
    unfold pathLoop
    by_cases hin : (i ≤ nr ∧ 1 ≤ i) ∧ (j ≤ nc ∧ 1 ≤ j)
    · rw [if_pos hin]
      have e : ∀ (x dx : ℤ) (t : ℕ), x + dx + t * dx = x + ((t + 1 : ℕ) : ℤ) * dx := by
        intro x dx t; push_cast; ring
      obtain ⟨L, h1, h2, h3⟩ := ih (i + di) (j + dj) (by rw [e, e]; exact h)
      refine ⟨L + 1, ?_, ?_, ?_⟩
      · rw [h1, List.range_succ_eq_map, List.map_cons, List.map_map]
        congr 1
        · simp
        · apply List.map_congr_left
          intro t _
          simp only [Function.comp_apply, e]
      · intro t ht
        cases t with
        | zero => simpa using hin
        | succ t =>
          have := h2 t (by omega)
          rw [e, e] at this
          exact this
      · rw [e, e] at h3
        exact h3
    · rw [if_neg hin]
      exact ⟨0, rfl, by simp, by simpa using hin⟩

theorem cell_div_mod (nr r c : ℕ) (h : r < nr) : (r + c * nr) % nr = r ∧ (r + c * nr) / nr = c := by
  constructor
  · rw [Nat.add_mul_mod_self_right, Nat.mod_eq_of_lt h]
  · rw [Nat.add_mul_div_right _ _ (by omega), Nat.div_eq_of_lt h, Nat.zero_add]

/-- `make_path` from a cell of the raster. -/
theorem makePath_spec (nr nc r c : ℕ) (hr : r < nr) (hc : c < nc) (d : Dir) :
    ∃ L : ℕ, 0 < L ∧ makePath nr nc (r + c * nr) d =
        (List.range L).map (fun t : ℕ => cellIndex nr (d.rowUp r (-t)) (d.colUp c (-t))) ∧
      (∀ t : ℕ, t < L → InRaster nr nc (d.rowUp r (-t)) (d.colUp c (-t))) ∧
      ¬ InRaster nr nc (d.rowUp r (-L)) (d.colUp c (-L)) := by
  have hi : (((r + c * nr : ℕ) : ℤ) % nr + 1) = r + 1 := by
    rw [← Int.natCast_mod, (cell_div_mod nr r c hr).1]
  have hj : ((((r + c * nr : ℕ) : ℤ) + 1 - (r + 1)) / nr + 1) = c + 1 := by
    have : (((r + c * nr : ℕ) : ℤ) + 1 - (r + 1)) = c * nr := by push_cast; ring
    rw [this, Int.mul_ediv_cancel _ (by omega)]
  have hfuel : ¬ ((((r : ℤ) + 1) + (nr + nc : ℕ) * iIncr d ≤ nr ∧ 1 ≤ ((r : ℤ) + 1) + (nr + nc : ℕ) * iIncr d) ∧
      (((c : ℤ) + 1) + (nr + nc : ℕ) * jIncr d ≤ nc ∧ 1 ≤ ((c : ℤ) + 1) + (nr + nc : ℕ) * jIncr d)) := by
    rw [iIncr_eq, jIncr_eq]
    push_cast
    cases d <;> simp only [Dir.north, Dir.east] <;> omega
  obtain ⟨L, h1, h2, h3⟩ := pathLoop_spec nr nc (iIncr d) (jIncr d) (nr + nc) (r + 1) (c + 1) hfuel
  have er : ∀ t : ℤ, d.rowUp r (-t) = (r : ℤ) + 1 + t * iIncr d - 1 := by
    intro t; rw [iIncr_eq]; unfold Dir.rowUp; ring
  have ec : ∀ t : ℤ, d.colUp c (-t) = (c : ℤ) + 1 + t * jIncr d - 1 := by
    intro t; rw [jIncr_eq]; unfold Dir.colUp; ring
  have hconv : ∀ t : ℤ, InRaster nr nc (d.rowUp r (-t)) (d.colUp c (-t)) ↔
      ((((r : ℤ) + 1) + t * iIncr d ≤ nr ∧ 1 ≤ ((r : ℤ) + 1) + t * iIncr d) ∧
      (((c : ℤ) + 1) + t * jIncr d ≤ nc ∧ 1 ≤ ((c : ℤ) + 1) + t * jIncr d)) := by
    intro t
    rw [er, ec]
    unfold InRaster
    omega
  refine ⟨L, ?_, ?_, ?_, ?_⟩
  · rcases Nat.eq_zero_or_pos L with h0 | h0
    · exfalso
      subst h0
      apply h3
      simp
      omega
    · exact h0
  · unfold makePath
    simp only [hi, hj]
    rw [h1]
    apply List.map_congr_left
    intro t _
    unfold cellIndex
    rw [er, ec]
    ring
  · intro t ht
    exact (hconv t).mpr (h2 t ht)
  · exact fun h => h3 ((hconv L).mp h)

theorem mem_natRangeStep (a b s k : ℕ) (hs : 0 < s) :
    k ∈ natRangeStep a b s ↔ ∃ t, a + s * t < b ∧ k = a + s * t := by
  unfold natRangeStep
  rw [List.mem_map]
  have key : ∀ t, t < (b - a + s - 1) / s ↔ a + s * t < b := by
    intro t
    rw [Nat.lt_iff_add_one_le, Nat.le_div_iff_mul_le hs]
    have : (t + 1) * s = s * t + s := by ring
    rw [this]
    omega
  constructor
  · rintro ⟨t, ht, rfl⟩
    rw [List.mem_range] at ht
    exact ⟨t, (key t).mp ht, rfl⟩
  · rintro ⟨t, ht, rfl⟩
    exact ⟨t, List.mem_range.mpr ((key t).mpr ht), rfl⟩

theorem memN (nr nc k : ℕ) (hr : 0 < nr) :
    k ∈ natRangeStep 0 (nr * nc) nr ↔ ∃ c < nc, k = 0 + c * nr := by
  rw [mem_natRangeStep _ _ _ _ hr]
  constructor
  · rintro ⟨t, ht, rfl⟩
    rw [Nat.zero_add] at ht
    exact ⟨t, lt_of_mul_lt_mul_left ht (Nat.zero_le _), by ring⟩
  · rintro ⟨c, hc, rfl⟩
    exact ⟨c, by rw [Nat.zero_add]; exact Nat.mul_lt_mul_of_pos_left hc hr, by ring⟩

theorem memS (nr nc k : ℕ) (hr : 0 < nr) :
    k ∈ natRangeStep (nr - 1) (nr * nc) nr ↔ ∃ c < nc, k = (nr - 1) + c * nr := by
  rw [mem_natRangeStep _ _ _ _ hr]
  constructor
  · rintro ⟨t, ht, rfl⟩
    refine ⟨t, ?_, by ring⟩
    by_contra hcon
    have := Nat.mul_le_mul_left nr (not_lt.mp hcon)
    omega
  · rintro ⟨c, hc, rfl⟩
    refine ⟨c, ?_, by ring⟩
    have h1 : nr * (c + 1) ≤ nr * nc := Nat.mul_le_mul_left nr hc
    have h2 : nr * (c + 1) = nr * c + nr := by ring
    omega

theorem memE (nr nc k : ℕ) (hc : 0 < nc) :
    k ∈ natRangeStep ((nc - 1) * nr) (nr * nc) 1 ↔ ∃ r < nr, k = r + (nc - 1) * nr := by
  rw [mem_natRangeStep _ _ _ _ one_pos]
  have h1 : nr * nc = (nc - 1) * nr + nr := by
    obtain ⟨m, rfl⟩ : ∃ m, nc = m + 1 := ⟨nc - 1, by omega⟩
    simp only [Nat.add_sub_cancel]
    ring
  constructor
  · rintro ⟨t, ht, rfl⟩
    exact ⟨t, by omega, by ring⟩
  · rintro ⟨r, hr, rfl⟩
    exact ⟨r, by omega, by ring⟩

theorem memW (nr k : ℕ) : k ∈ natRangeStep 0 nr 1 ↔ ∃ r < nr, k = r + 0 := by
  rw [mem_natRangeStep _ _ _ _ one_pos]
  constructor
  · rintro ⟨t, ht, rfl⟩
    exact ⟨t, by omega, by ring⟩
  · rintro ⟨r, hr, h⟩
    exact ⟨r, by omega, by omega⟩

/-- The starting positions are the cells without an upwind neighbour. -/
theorem mem_startIdx (nr nc : ℕ) (hr : 0 < nr) (hc : 0 < nc) (d : Dir) (k : ℕ) :
    k ∈ startIdx nr nc d ↔ ∃ r c : ℕ, r < nr ∧ c < nc ∧ k = r + c * nr ∧
      ¬ InRaster nr nc (d.rowUp r 1) (d.colUp c 1) := by
  unfold startIdx
  simp only [List.mem_dedup, List.mem_insertionSort]
  have main : ∀ (P : ℕ → ℕ → Prop) (N S E W : Prop) [Decidable N] [Decidable S] [Decidable E]
      [Decidable W], (∀ r c : ℕ, r < nr → c < nc →
        (P r c ↔ (N ∧ r = 0) ∨ (S ∧ r = nr - 1) ∨ (E ∧ c = nc - 1) ∨ (W ∧ c = 0))) →
      ((k ∈ (let s0 : List ℕ := []
        let s1 := if N then s0 ++ natRangeStep 0 (nr * nc) nr else s0
        let s2 := if S then s1 ++ natRangeStep (nr - 1) (nr * nc) nr else s1
        let s3 := if E then s2 ++ natRangeStep ((nc - 1) * nr) (nr * nc) 1 else s2
        if W then s3 ++ natRangeStep 0 nr 1 else s3)) ↔
        ∃ r c : ℕ, r < nr ∧ c < nc ∧ k = r + c * nr ∧ P r c) := by
    intro P N S E W _ _ _ _ hP
    have hmem : (k ∈ (let s0 : List ℕ := []
        let s1 := if N then s0 ++ natRangeStep 0 (nr * nc) nr else s0
        let s2 := if S then s1 ++ natRangeStep (nr - 1) (nr * nc) nr else s1
        let s3 := if E then s2 ++ natRangeStep ((nc - 1) * nr) (nr * nc) 1 else s2
        if W then s3 ++ natRangeStep 0 nr 1 else s3)) ↔
        (N ∧ ∃ c < nc, k = 0 + c * nr) ∨ (S ∧ ∃ c < nc, k = (nr - 1) + c * nr) ∨
        (E ∧ ∃ r < nr, k = r + (nc - 1) * nr) ∨ (W ∧ ∃ r < nr, k = r + 0) := by
      rw [← memN nr nc k hr, ← memS nr nc k hr, ← memE nr nc k hc, ← memW nr k]
      simp only
      by_cases hN : N <;> by_cases hS : S <;> by_cases hE : E <;> by_cases hW : W <;>
        simp [hN, hS, hE, hW]
    rw [hmem]
    constructor
    · rintro (⟨hN, c, h1, h2⟩ | ⟨hS, c, h1, h2⟩ | ⟨hE, r, h1, h2⟩ | ⟨hW, r, h1, h2⟩)
      · exact ⟨0, c, hr, h1, h2, (hP _ _ hr h1).mpr (Or.inl ⟨hN, rfl⟩)⟩
      · exact ⟨nr - 1, c, by omega, h1, h2, (hP _ _ (by omega) h1).mpr (Or.inr (Or.inl ⟨hS, rfl⟩))⟩
      · exact ⟨r, nc - 1, h1, by omega, h2,
          (hP _ _ h1 (by omega)).mpr (Or.inr (Or.inr (Or.inl ⟨hE, rfl⟩)))⟩
      · exact ⟨r, 0, h1, hc, by simpa using h2,
          (hP _ _ h1 hc).mpr (Or.inr (Or.inr (Or.inr ⟨hW, rfl⟩)))⟩
    · rintro ⟨r, c, h1, h2, h3, h4⟩
      rcases (hP r c h1 h2).mp h4 with ⟨h, e⟩ | ⟨h, e⟩ | ⟨h, e⟩ | ⟨h, e⟩
      · exact Or.inl ⟨h, c, h2, by rw [h3, e]⟩
      · exact Or.inr (Or.inl ⟨h, c, h2, by rw [h3, e]⟩)
      · exact Or.inr (Or.inr (Or.inl ⟨h, r, h1, by rw [h3, e]⟩))
      · exact Or.inr (Or.inr (Or.inr ⟨h, r, h1, by rw [h3, e]; simp⟩))
  refine main (fun r c => ¬ InRaster nr nc (d.rowUp r 1) (d.colUp c 1)) _ _ _ _ ?_
  intro r c h1 h2
  cases d <;> simp only [Dir.letters, Dir.rowUp, Dir.colUp, Dir.north, Dir.east, InRaster] <;>
    simp <;> omega

/-! ### Every cell lies on exactly one path -/

theorem rowUp_add (d : Dir) (r s t : ℤ) : d.rowUp (d.rowUp r s) t = d.rowUp r (s + t) := by
  unfold Dir.rowUp; ring
theorem colUp_add (d : Dir) (c s t : ℤ) : d.colUp (d.colUp c s) t = d.colUp c (s + t) := by
  unfold Dir.colUp; ring
theorem rowUp_zero (d : Dir) (r : ℤ) : d.rowUp r 0 = r := by unfold Dir.rowUp; ring
theorem colUp_zero (d : Dir) (c : ℤ) : d.colUp c 0 = c := by unfold Dir.colUp; ring

theorem far_out (nr nc : ℕ) (d : Dir) (r c t : ℤ) (h : InRaster nr nc r c)
    (ht : (nr : ℤ) + nc ≤ |t|) : ¬ InRaster nr nc (d.rowUp r t) (d.colUp c t) := by
  unfold InRaster at *
  rcases abs_cases t with ⟨h1, h2⟩ | ⟨h1, h2⟩ <;>
  cases d <;> simp only [Dir.rowUp, Dir.colUp, Dir.north, Dir.east] <;> omega

/-- There is a transect through every cell. -/
theorem transect_exists (nr nc : ℕ) (d : Dir) (r c : ℤ) (h : InRaster nr nc r c) :
    ∃ u n, IsTransect nr nc d r c u n := by
  have hup : ∃ t : ℕ, ¬ InRaster nr nc (d.rowUp r (t : ℤ)) (d.colUp c (t : ℤ)) :=
    ⟨nr + nc, far_out nr nc d r c _ h (by push_cast; rw [abs_of_nonneg (by positivity)])⟩
  have hdn : ∃ t : ℕ, ¬ InRaster nr nc (d.rowUp r (-(t : ℤ))) (d.colUp c (-(t : ℤ))) :=
    ⟨nr + nc, far_out nr nc d r c _ h (by push_cast; rw [abs_neg, abs_of_nonneg (by positivity)])⟩
  classical
  have h1 := Nat.find_spec hup
  have h1' : ∀ m : ℕ, m < Nat.find hup → InRaster nr nc (d.rowUp r (m : ℤ)) (d.colUp c (m : ℤ)) :=
    fun m hm => not_not.mp (Nat.find_min hup hm)
  have h2 := Nat.find_spec hdn
  have h2' : ∀ m : ℕ, m < Nat.find hdn →
      InRaster nr nc (d.rowUp r (-(m : ℤ))) (d.colUp c (-(m : ℤ))) :=
    fun m hm => not_not.mp (Nat.find_min hdn hm)
  have p1 : 0 < Nat.find hup := by
    rcases Nat.eq_zero_or_pos (Nat.find hup) with e | e
    · rw [e] at h1
      simp [rowUp_zero, colUp_zero] at h1
      exact absurd h h1
    · exact e
  have p2 : 0 < Nat.find hdn := by
    rcases Nat.eq_zero_or_pos (Nat.find hdn) with e | e
    · rw [e] at h2
      simp [rowUp_zero, colUp_zero] at h2
      exact absurd h h2
    · exact e
  generalize Nat.find hup = a at *
  generalize Nat.find hdn = b at *
  refine ⟨a - 1, a - 1 + b, by omega, ?_, ?_, ?_⟩
  · intro t ht
    rcases Nat.lt_or_ge (a - 1) t with hlt | hge
    · have := h2' (t - (a - 1)) (by omega)
      have e : -(((t - (a - 1) : ℕ) : ℤ)) = ((a - 1 : ℕ) : ℤ) - t := by omega
      rw [e] at this
      exact this
    · have := h1' (a - 1 - t) (by omega)
      have e : ((a - 1 - t : ℕ) : ℤ) = ((a - 1 : ℕ) : ℤ) - t := by omega
      rw [e] at this
      exact this
  · have e : ((a - 1 : ℕ) : ℤ) + 1 = a := by omega
    rw [e]; exact h1
  · have e : ((a - 1 : ℕ) : ℤ) - ((a - 1 + b : ℕ) : ℤ) = -(b : ℤ) := by omega
    rw [e]; exact h2

theorem transect_in (nr nc : ℕ) (d : Dir) (r c : ℤ) (u n : ℕ) (h : IsTransect nr nc d r c u n) :
    InRaster nr nc r c := by
  have := h.2.1 u h.1
  rwa [sub_self, rowUp_zero, colUp_zero] at this

/-- The transect through a cell is unique. -/
theorem transect_unique (nr nc : ℕ) (d : Dir) (r c : ℤ) (u n u' n' : ℕ)
    (h : IsTransect nr nc d r c u n) (h' : IsTransect nr nc d r c u' n') : u = u' ∧ n = n' := by
  have key : ∀ a m b k : ℕ, IsTransect nr nc d r c a m → IsTransect nr nc d r c b k → ¬ a < b := by
    intro a m b k ha hb hlt
    have := hb.2.1 (b - (a + 1)) (by have := hb.1; omega)
    have e : (b : ℤ) - ((b - (a + 1) : ℕ) : ℤ) = (a : ℤ) + 1 := by omega
    rw [e] at this
    exact ha.2.2.1 this
  have hu : u = u' := by
    have := key u n u' n' h h'
    have := key u' n' u n h' h
    omega
  subst hu
  refine ⟨rfl, ?_⟩
  rcases lt_trichotomy n n' with hlt | he | hlt
  · exact absurd (h'.2.1 n hlt) h.2.2.2
  · exact he
  · exact absurd (h.2.1 n' hlt) h'.2.2.2

/-- The path started at the upwind end of a transect runs along it. -/
theorem makePath_transect (nr nc : ℕ) (d : Dir) (r c : ℤ) (u n : ℕ)
    (h : IsTransect nr nc d r c u n) :
    ∃ s ∈ startIdx nr nc d, makePath nr nc s d =
      (List.range n).map fun t : ℕ =>
        cellIndex nr (d.rowUp r ((u : ℤ) - t)) (d.colUp c ((u : ℤ) - t)) := by
  have h0 := h.2.1 0 (by have := h.1; omega)
  simp only [Nat.cast_zero, sub_zero] at h0
  obtain ⟨a1, a2, a3, a4⟩ := h0
  obtain ⟨r0, hr0⟩ : ∃ r0 : ℕ, d.rowUp r u = r0 := ⟨_, (Int.toNat_of_nonneg a1).symm⟩
  obtain ⟨c0, hc0⟩ : ∃ c0 : ℕ, d.colUp c u = c0 := ⟨_, (Int.toNat_of_nonneg a3).symm⟩
  rw [hr0] at a2
  rw [hc0] at a4
  have a2' : r0 < nr := by exact_mod_cast a2
  have a4' : c0 < nc := by exact_mod_cast a4
  refine ⟨r0 + c0 * nr, ?_, ?_⟩
  · rw [mem_startIdx nr nc (by omega) (by omega)]
    refine ⟨r0, c0, a2', a4', rfl, ?_⟩
    rw [← hr0, ← hc0, rowUp_add, colUp_add]
    exact h.2.2.1
  · obtain ⟨L, h1, h2, h3, h4⟩ := makePath_spec nr nc r0 c0 a2' a4' d
    have er : ∀ t : ℤ, d.rowUp r0 (-t) = d.rowUp r ((u : ℤ) - t) := by
      intro t; rw [← hr0, rowUp_add]; rfl
    have ec : ∀ t : ℤ, d.colUp c0 (-t) = d.colUp c ((u : ℤ) - t) := by
      intro t; rw [← hc0, colUp_add]; rfl
    simp only [er, ec] at h2 h3 h4
    have hL : L = n := by
      rcases lt_trichotomy L n with hlt | he | hlt
      · exact absurd (h.2.1 L hlt) h4
      · exact he
      · exact absurd (h3 n hlt) h.2.2.2
    rw [h2, hL]

theorem cellIndex_inj (nr nc : ℕ) (r c r' c' : ℤ) (h : InRaster nr nc r c)
    (h' : InRaster nr nc r' c') (he : cellIndex nr r c = cellIndex nr r' c') : r = r' ∧ c = c' := by
  unfold cellIndex InRaster at *
  have hc : c = c' := by
    rcases lt_trichotomy c c' with hlt | he' | hlt
    · exfalso
      have : (c + 1) * (nr : ℤ) ≤ c' * nr := mul_le_mul_of_nonneg_right (by omega) (by omega)
      have e : (c + 1) * (nr : ℤ) = c * nr + nr := by ring
      omega
    · exact he'
    · exfalso
      have : (c' + 1) * (nr : ℤ) ≤ c * nr := mul_le_mul_of_nonneg_right (by omega) (by omega)
      have e : (c' + 1) * (nr : ℤ) = c' * nr + nr := by ring
      omega
  subst hc
  exact ⟨by omega, rfl⟩

theorem cellIndex_range (nr nc : ℕ) (r c : ℤ) (h : InRaster nr nc r c) :
    0 ≤ cellIndex nr r c ∧ cellIndex nr r c < (nr * nc : ℕ) := by
  unfold cellIndex InRaster at *
  have h1 : 0 ≤ c * (nr : ℤ) := mul_nonneg (by omega) (by omega)
  have h2 : (c + 1) * (nr : ℤ) ≤ nc * nr := mul_le_mul_of_nonneg_right (by omega) (by omega)
  have e : (c + 1) * (nr : ℤ) = c * nr + nr := by ring
  have e2 : (nc : ℤ) * nr = ((nr * nc : ℕ) : ℤ) := by push_cast; ring
  constructor <;> omega

/-- Every path from a starting position is the transect through any of its cells. -/
theorem startIdx_path (nr nc : ℕ) (hr : 0 < nr) (hc : 0 < nc) (d : Dir) (s : ℕ)
    (hs : s ∈ startIdx nr nc d) :
    ∃ (r c : ℕ) (n : ℕ), s = r + c * nr ∧ r < nr ∧ c < nc ∧ IsTransect nr nc d r c 0 n ∧
      makePath nr nc s d = (List.range n).map fun t : ℕ =>
        cellIndex nr (d.rowUp r (-(t : ℤ))) (d.colUp c (-(t : ℤ))) := by
  rw [mem_startIdx nr nc hr hc] at hs
  obtain ⟨r, c, h1, h2, rfl, h3⟩ := hs
  obtain ⟨L, g1, g2, g3, g4⟩ := makePath_spec nr nc r c h1 h2 d
  refine ⟨r, c, L, rfl, h1, h2, ⟨g1, ?_, ?_, ?_⟩, g2⟩
  · intro t ht
    have := g3 t ht
    simpa using this
  · simpa using h3
  · simpa using g4

theorem transect_shift (nr nc : ℕ) (d : Dir) (r c : ℤ) (n t : ℕ) (ht : t < n)
    (h : IsTransect nr nc d r c 0 n) :
    IsTransect nr nc d (d.rowUp r (-(t : ℤ))) (d.colUp c (-(t : ℤ))) t n := by
  refine ⟨ht, ?_, ?_, ?_⟩
  · intro k hk
    rw [rowUp_add, colUp_add]
    have := h.2.1 k hk
    have e : -(t : ℤ) + ((t : ℤ) - k) = ((0 : ℕ) : ℤ) - k := by push_cast; ring
    rw [e]; exact this
  · rw [rowUp_add, colUp_add]
    have e : -(t : ℤ) + ((t : ℤ) + 1) = ((0 : ℕ) : ℤ) + 1 := by push_cast; ring
    rw [e]; exact h.2.2.1
  · rw [rowUp_add, colUp_add]
    have e : -(t : ℤ) + ((t : ℤ) - n) = ((0 : ℕ) : ℤ) - n := by push_cast; ring
    rw [e]; exact h.2.2.2

/-- A cell met at step `t` of the path from `s` and at step `t'` of the path from `s'`: same path,
same step. -/
theorem path_cell_unique (nr nc : ℕ) (hr : 0 < nr) (hc : 0 < nc) (d : Dir) (s s' : ℕ)
    (hs : s ∈ startIdx nr nc d) (hs' : s' ∈ startIdx nr nc d) (t t' : ℕ)
    (ht : t < (makePath nr nc s d).length) (ht' : t' < (makePath nr nc s' d).length)
    (he : (makePath nr nc s d)[t] = (makePath nr nc s' d)[t']) : s = s' ∧ t = t' := by
  obtain ⟨r, c, n, rfl, h1, h2, h3, h4⟩ := startIdx_path nr nc hr hc d s hs
  obtain ⟨r', c', n', rfl, h1', h2', h3', h4'⟩ := startIdx_path nr nc hr hc d s' hs'
  have hn : t < n := by rw [h4] at ht; simpa using ht
  have hn' : t' < n' := by rw [h4'] at ht'; simpa using ht'
  simp only [h4, h4', List.getElem_map, List.getElem_range] at he
  have i1 := h3.2.1 t hn
  have i2 := h3'.2.1 t' hn'
  simp only [Nat.cast_zero, zero_sub] at i1 i2
  obtain ⟨e1, e2⟩ := cellIndex_inj nr nc _ _ _ _ i1 i2 he
  have T1 := transect_shift nr nc d r c n t hn h3
  have T2 := transect_shift nr nc d r' c' n' t' hn' h3'
  rw [e1, e2] at T1
  obtain ⟨rfl, rfl⟩ := transect_unique nr nc d _ _ _ _ _ _ T1 T2
  refine ⟨?_, rfl⟩
  have er : (r : ℤ) = r' := by
    have := congrArg (fun x => d.rowUp x (t : ℤ)) e1
    simpa [rowUp_add, rowUp_zero] using this
  have ec : (c : ℤ) = c' := by
    have := congrArg (fun x => d.colUp x (t : ℤ)) e2
    simpa [colUp_add, colUp_zero] using this
  have : r = r' := by exact_mod_cast er
  have : c = c' := by exact_mod_cast ec
  subst_vars
  rfl

end WindMult
