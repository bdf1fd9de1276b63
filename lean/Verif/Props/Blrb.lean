import Verif.Proofs.Blrb
import Mathlib.Algebra.BigOperators.Group.Finset.Sigma
import Mathlib.Data.Rat.Floor
import Mathlib.Tactic.NormNum
import Mathlib.Tactic.Positivity
import Mathlib.Tactic.LinearCombination

/-!
# C55–C57: bilinear interpolation of pixel sizes
-/

set_option linter.unusedSectionVars false

set_option autoImplicit false

namespace WindMult
variable {K : Type} [Field K] [LinearOrder K] [IsStrictOrderedRing K] [FloorRing K]

/-! ### C55 -/

theorem bilinear_val {nr nc : K} (hr : nr - 1 ≠ 0) (hc : nc - 1 ≠ 0) (fUL fUR fLR fLL : K)
    (i j : ℕ) : (bilinear nr nc fUL fUR fLR fLL).val i j =
      some ((i / (nr - 1)) * ((j / (nc - 1)) * fLR + (1 - (j / (nc - 1))) * fLL) +
        (1 - (i / (nr - 1))) * ((j / (nc - 1)) * fUR + (1 - (j / (nc - 1))) * fUL)) := by
  simp only [bilinear, blrbWeight, if_neg hr, if_neg hc]

theorem natCast_sub_one_pos {n : ℕ} (hn : 2 ≤ n) : (0 : K) < (n : K) - 1 := by
  have : (2 : K) ≤ n := by exact_mod_cast hn
  linarith

/-- C55: a block of at least 2 × 2 cells takes the four given values in its corners. -/
theorem C55_corners (n m : ℕ) (hn : 2 ≤ n) (hm : 2 ≤ m) (fUL fUR fLR fLL : K) :
    (bilinear (n : K) m fUL fUR fLR fLL).rows = n ∧ (bilinear (n : K) m fUL fUR fLR fLL).cols = m ∧
    (bilinear (n : K) m fUL fUR fLR fLL).val 0 0 = some fUL ∧
    (bilinear (n : K) m fUL fUR fLR fLL).val 0 (m - 1) = some fUR ∧
    (bilinear (n : K) m fUL fUR fLR fLL).val (n - 1) (m - 1) = some fLR ∧
    (bilinear (n : K) m fUL fUR fLR fLL).val (n - 1) 0 = some fLL := by
  have hr := (natCast_sub_one_pos (K := K) hn).ne'
  have hc := (natCast_sub_one_pos (K := K) hm).ne'
  have en : ((n - 1 : ℕ) : K) / ((n : K) - 1) = 1 := by
    rw [Nat.cast_sub (by omega), Nat.cast_one, div_self hr]
  have em : ((m - 1 : ℕ) : K) / ((m : K) - 1) = 1 := by
    rw [Nat.cast_sub (by omega), Nat.cast_one, div_self hc]
  refine ⟨by simp [bilinear], by simp [bilinear], ?_, ?_, ?_, ?_⟩ <;>
    rw [bilinear_val hr hc] <;> simp [en, em]

/-- C55: the interpolated values lie between the smallest and the largest corner value. -/
theorem C55_bounds (n m : ℕ) (hn : 2 ≤ n) (hm : 2 ≤ m) (fUL fUR fLR fLL lo hi : K)
    (hlo : lo ≤ fUL ∧ lo ≤ fUR ∧ lo ≤ fLR ∧ lo ≤ fLL)
    (hhi : fUL ≤ hi ∧ fUR ≤ hi ∧ fLR ≤ hi ∧ fLL ≤ hi) (i j : ℕ) (hi' : i < n) (hj : j < m) :
    ∃ v, (bilinear (n : K) m fUL fUR fLR fLL).val i j = some v ∧ lo ≤ v ∧ v ≤ hi := by
  have hr := natCast_sub_one_pos (K := K) hn
  have hc := natCast_sub_one_pos (K := K) hm
  refine ⟨_, bilinear_val hr.ne' hc.ne' _ _ _ _ _ _, ?_⟩
  have hs0 : (0 : K) ≤ i / ((n : K) - 1) := by positivity
  have ht0 : (0 : K) ≤ j / ((m : K) - 1) := by positivity
  have hs1 : (i : K) / ((n : K) - 1) ≤ 1 := by
    rw [div_le_one hr]
    have : ((i + 1 : ℕ) : K) ≤ n := by exact_mod_cast hi'
    push_cast at this; linarith
  have ht1 : (j : K) / ((m : K) - 1) ≤ 1 := by
    rw [div_le_one hc]
    have : ((j + 1 : ℕ) : K) ≤ m := by exact_mod_cast hj
    push_cast at this; linarith
  generalize (i : K) / ((n : K) - 1) = s at *
  generalize (j : K) / ((m : K) - 1) = t at *
  obtain ⟨a1, a2, a3, a4⟩ := hlo
  obtain ⟨b1, b2, b3, b4⟩ := hhi
  have conv : ∀ u p q : K, 0 ≤ u → u ≤ 1 → lo ≤ p → lo ≤ q → p ≤ hi → q ≤ hi →
      lo ≤ u * p + (1 - u) * q ∧ u * p + (1 - u) * q ≤ hi := by
    intro u p q h0 h1 hp hq hp' hq'
    constructor <;> nlinarith
  obtain ⟨l1, u1⟩ := conv t fLR fLL ht0 ht1 a3 a4 b3 b4
  obtain ⟨l2, u2⟩ := conv t fUR fUL ht0 ht1 a2 a1 b2 b1
  exact conv s _ _ hs0 hs1 l1 l2 u1 u2

/-- C55: values that are affine in row and column, and even with a mixed term, are reproduced
exactly in every cell. -/
theorem C55_exact (n m : ℕ) (hn : 2 ≤ n) (hm : 2 ≤ m) (a b c d : K) (i j : ℕ) :
    let f : ℕ → ℕ → K := fun i j => a + b * i + c * j + d * i * j
    (bilinear (n : K) m (f 0 0) (f 0 (m - 1)) (f (n - 1) (m - 1)) (f (n - 1) 0)).val i j =
      some (f i j) := by
  have hr := (natCast_sub_one_pos (K := K) hn).ne'
  have hc := (natCast_sub_one_pos (K := K) hm).ne'
  intro f
  rw [bilinear_val hr hc]
  congr 1
  simp only [f]
  rw [Nat.cast_sub (show 1 ≤ n by omega), Nat.cast_sub (show 1 ≤ m by omega)]
  push_cast
  field_simp
  ring

example : ((bilinear (3 : ℚ) 2 1 2 4 3).val 1 1 = some 3) := by decide +kernel

/-! ### C56 -/

theorem blockValue_eq (eval : ℤ → ℤ → K) {n m : ℕ} (hn : 3 ≤ n) (hm : 3 ≤ m) (b c : Bool)
    (i j : ℕ) : blockValue eval n m b c i j = some
      (((i - axLo n b : ℕ) : K) / (axSize n b - 1) * (((j - axLo m c : ℕ) : K) / (axSize m c - 1) *
          eval (axHi n b) (axHi m c) + (1 - ((j - axLo m c : ℕ) : K) / (axSize m c - 1)) *
          eval (axHi n b) (axLo m c)) +
        (1 - ((i - axLo n b : ℕ) : K) / (axSize n b - 1)) *
        (((j - axLo m c : ℕ) : K) / (axSize m c - 1) * eval (axLo n b) (axHi m c) +
          (1 - ((j - axLo m c : ℕ) : K) / (axSize m c - 1)) * eval (axLo n b) (axLo m c))) := by
  have key : ∀ (k : ℕ) (b : Bool), 3 ≤ k → (axSize k b : K) - 1 ≠ 0 := by
    intro k b hk
    have : (3 : K) ≤ k := by exact_mod_cast hk
    apply ne_of_gt
    cases b <;> simp only [axSize, Bool.false_eq_true, ↓reduceIte] <;> linarith
  exact bilinear_val (key n b hn) (key m c hm) _ _ _ _ _ _

/-- C56: on a grid of at least 3 × 3 cells one level of bisection succeeds (the shapes of the
blocks agree with the slices they are written to) and writes a number to every cell. -/
theorem C56_total (eval : ℤ → ℤ → K) (n m : ℕ) (hn : 3 ≤ n) (hm : 3 ≤ m) :
    ∃ out, interpolateGrid (fun i j => .ok (eval i j)) 1 0 0 n m ⟨n, m, fun _ _ => none⟩ = .ok out ∧
      out.rows = n ∧ out.cols = m ∧ ∀ i < n, ∀ j < m, (out.val i j).isSome := by
  obtain ⟨out, h1, h2, h3, h4⟩ := interpolateGrid_one (fun i j => .ok (eval i j)) eval n m (by omega) (by omega) (fun _ _ _ _ => rfl)
    ⟨n, m, fun _ _ => none⟩ rfl rfl
  refine ⟨out, h1, h2, h3, ?_⟩
  intro i hi j hj
  rw [h4 i hi j hj, blockValue_eq eval hn hm]
  rfl

/-- C56: for even sizes from 4 on, values that are affine in row and column (also with a mixed
term) are reproduced exactly, whatever the grid held before. -/
theorem C56_even_exact (k l : ℕ) (hk : 2 ≤ k) (hl : 2 ≤ l) (a b c d : K) (g : Grid (Option K))
    (hr : g.rows = 2 * k) (hc : g.cols = 2 * l) :
    let eval : ℤ → ℤ → K := fun i j => a + b * i + c * j + d * i * j
    ∃ out, interpolateGrid (fun i j => .ok (eval i j)) 1 0 0 ((2 * k : ℕ) : K) ((2 * l : ℕ) : K) g = .ok out ∧
      out.rows = 2 * k ∧ out.cols = 2 * l ∧
      ∀ i < 2 * k, ∀ j < 2 * l, out.val i j = some (eval i j) := by
  intro eval
  obtain ⟨out, h1, h2, h3, h4⟩ := interpolateGrid_one (fun i j => .ok (eval i j)) eval (2 * k) (2 * l) (by omega) (by omega)
    (fun _ _ _ _ => rfl)
    g hr hc
  refine ⟨out, h1, h2, h3, ?_⟩
  intro i hi j hj
  rw [h4 i hi j hj, blockValue_eq eval (by omega) (by omega)]
  congr 1
  have key : ∀ (p r : ℕ), 2 ≤ p → r < 2 * p →
      ((r - axLo (2 * p) (lastHalf (2 * p) r) : ℕ) : K) / (axSize (2 * p) (lastHalf (2 * p) r) - 1) *
        (((axHi (2 * p) (lastHalf (2 * p) r) : ℤ) : K) - ((axLo (2 * p) (lastHalf (2 * p) r) : ℤ) : K)) =
      (r : K) - ((axLo (2 * p) (lastHalf (2 * p) r) : ℤ) : K) := by
    intro p r hp hr
    have hp0 : (2 : K) ≤ p := by exact_mod_cast hp
    by_cases h : 2 * p / 2 ≤ r
    · have e : lastHalf (2 * p) r = true := by simpa [lastHalf] using h
      have e2 : 2 * p / 2 = p := by omega
      rw [e]
      simp only [axLo, axHi, axSize, ↓reduceIte, e2]
      rw [e2] at h
      rw [Nat.cast_sub h, Int.cast_natCast, Int.cast_natCast, Nat.cast_sub (by omega)]
      have e3 : ((2 * p : ℕ) : K) / 2 - 1 = p - 1 := by push_cast; ring
      have e4 : (p : K) - 1 ≠ 0 := by apply ne_of_gt; linarith
      rw [e3]
      push_cast
      field_simp
      ring
    · have e : lastHalf (2 * p) r = false := by simpa [lastHalf] using h
      have e2 : (2 * p + 1) / 2 = p := by omega
      rw [e]
      simp only [axLo, axHi, axSize, Bool.false_eq_true, ↓reduceIte, e2, Nat.sub_zero]
      have e3 : ((2 * p : ℕ) : K) / 2 + 1 - 1 = p := by push_cast; ring
      have e4 : (p : K) ≠ 0 := by apply ne_of_gt; linarith
      rw [e3]
      push_cast
      field_simp
      ring
  have ki := key k i hk hi
  have kj := key l j hl hj
  simp only [eval]
  generalize ((i - axLo (2 * k) (lastHalf (2 * k) i) : ℕ) : K) /
    (axSize (2 * k) (lastHalf (2 * k) i) - 1) = s at *
  generalize ((j - axLo (2 * l) (lastHalf (2 * l) j) : ℕ) : K) /
    (axSize (2 * l) (lastHalf (2 * l) j) - 1) = t at *
  generalize ((axHi (2 * k) (lastHalf (2 * k) i) : ℤ) : K) = i1 at *
  generalize ((axLo (2 * k) (lastHalf (2 * k) i) : ℤ) : K) = i0 at *
  generalize ((axHi (2 * l) (lastHalf (2 * l) j) : ℤ) : K) = j1 at *
  generalize ((axLo (2 * l) (lastHalf (2 * l) j) : ℤ) : K) = j0 at *
  have hi' : (i : K) = i0 + s * (i1 - i0) := by linear_combination -ki
  have hj' : (j : K) = j0 + t * (j1 - j0) := by linear_combination -kj
  push_cast
  rw [hi', hj']
  ring

/-- C56: for an odd number of rows `2k + 1` the interpolation overshoots: of values that grow by one
per row, the last row gets `2k + k / (2k - 1)` instead of `2k`, outside the range of the values
interpolated. -/
theorem C56_odd_overshoots (k m : ℕ) (hk : 1 ≤ k) (hm : 3 ≤ m) (j : ℕ) (hj : j < m) :
    ∃ out, interpolateGrid (fun i _ => .ok (i : K)) 1 0 0 ((2 * k + 1 : ℕ) : K) m
        ⟨2 * k + 1, m, fun _ _ => none⟩ = .ok out ∧
      out.val (2 * k) j = some (2 * (k : K) + k / (2 * k - 1)) ∧
      2 * (k : K) < 2 * k + k / (2 * k - 1) := by
  obtain ⟨out, h1, h2, h3, h4⟩ := interpolateGrid_one (fun i _ => .ok (i : K)) (fun i _ => (i : K)) (2 * k + 1) m
    (by omega) (by omega) (fun _ _ _ _ => rfl) ⟨2 * k + 1, m, fun _ _ => none⟩ rfl rfl
  have hk0 : (1 : K) ≤ k := by exact_mod_cast hk
  have hpos : (0 : K) < 2 * k - 1 := by linarith
  refine ⟨out, h1, ?_, ?_⟩
  · rw [h4 (2 * k) (by omega) j hj, blockValue_eq _ (by omega) hm]
    have e : lastHalf (2 * k + 1) (2 * k) = true := by simp [lastHalf]; omega
    have e2 : (2 * k + 1) / 2 = k := by omega
    have e3 : 2 * k - k = k := by omega
    rw [e]
    simp only [axLo, axHi, axSize, ↓reduceIte, e2, e3, Nat.add_sub_cancel]
    congr 1
    push_cast
    have h2 : (2 * (k : K) + 1) / 2 - 1 = (2 * k - 1) / 2 := by ring
    have h5 : (2 * (k : K) - 1) ≠ 0 := hpos.ne'
    rw [h2]
    generalize hd : 2 * (k : K) - 1 = d at *
    have h6 : (k : K) = (d + 1) / 2 := by rw [← hd]; ring
    rw [h6]
    field_simp
    ring
  · have : (0 : K) < k / (2 * k - 1) := div_pos (by linarith) hpos
    linarith

/-- C56: a grid with a single row or column is rejected: the blocks have two rows. -/
theorem C56_size_one (eval : ℤ → ℤ → K) (n m : ℕ) (h : n = 1 ∨ m = 1)
    (g : Grid (Option K)) (hr : g.rows = n) (hc : g.cols = m) :
    interpolateGrid (fun i j => .ok (eval i j)) 1 0 0 (n : K) (m : K) g = .error .valueError := by
  have first : interpolateBlock (fun i j => .ok (eval i j)) (axOrigin n false) (axOrigin m false) (axSize n false)
      (axSize m false) g = .error .valueError := by
    unfold interpolateBlock
    show assignBlock _ _ _ _ _ (bilinear _ _ _ _ _ _) = _
    unfold assignBlock
    simp only
    have big : ∀ k : ℕ, k = 1 → (⌈(axSize k false : K)⌉.toNat = 2 ∧ ∀ x : ℤ, ∀ s : ℕ,
        Grid.sliceBound k x - s ≤ 1) := by
      rintro k rfl
      constructor
      · have : ⌈(axSize 1 false : K)⌉ = 2 := by
          rw [Int.ceil_eq_iff]
          simp only [axSize, Bool.false_eq_true, ↓reduceIte]
          norm_num
        rw [this]; rfl
      · intro x s
        unfold Grid.sliceBound
        split_ifs <;> omega
    rw [if_neg]
    rintro ⟨h1, h2⟩
    simp only [bilinear] at h1 h2
    rw [hr] at h1
    rw [hc] at h2
    rcases h with h | h
    · obtain ⟨b1, b2⟩ := big n h
      rw [b1] at h1
      have := b2 (⌈(axOrigin n false : K) + axSize n false - 1⌉ + 1)
        (Grid.sliceBound n ⌊(axOrigin n false : K)⌋)
      omega
    · obtain ⟨b1, b2⟩ := big m h
      rw [b1] at h2
      have := b2 (⌈(axOrigin m false : K) + axSize m false - 1⌉ + 1)
        (Grid.sliceBound m ⌊(axOrigin m false : K)⌋)
      omega
  rw [interpolateGrid, subdivide_eq]
  simp only [List.foldlM, interpolateGrid]
  rw [first]
  rfl

/-- C56: with two rows the second row is NaN throughout. -/
theorem C56_size_two (eval : ℤ → ℤ → K) (m : ℕ) (hm : 2 ≤ m) (g : Grid (Option K))
    (hr : g.rows = 2) (hc : g.cols = m) :
    ∃ out, interpolateGrid (fun i j => .ok (eval i j)) 1 0 0 ((2 : ℕ) : K) (m : K) g = .ok out ∧
      ∀ j < m, out.val 1 j = none := by
  obtain ⟨out, h1, h2, h3, h4⟩ := interpolateGrid_one (fun i j => .ok (eval i j)) eval 2 m (by omega) hm (fun _ _ _ _ => rfl) g hr hc
  refine ⟨out, h1, ?_⟩
  intro j hj
  rw [h4 1 (by omega) j hj]
  have e : lastHalf 2 1 = true := by decide
  have e2 : (axSize 2 true : K) - 1 = 0 := by simp [axSize]
  rw [e]
  simp only [blockValue, bilinear, blrbWeight, if_pos e2]

example : ∃ out, interpolateGrid (fun i j => .ok ((1 : ℚ) + 2 * i + 3 * j + 0 * i * j)) 1 0 0
      ((2 * 2 : ℕ) : ℚ) ((2 * 3 : ℕ) : ℚ) ⟨4, 6, fun _ _ => none⟩ = .ok out ∧ out.rows = 2 * 2 ∧
      out.cols = 2 * 3 ∧ ∀ i < 2 * 2, ∀ j < 2 * 3,
        out.val i j = some ((fun i j : ℤ => (1 : ℚ) + 2 * i + 3 * j + 0 * i * j) i j) :=
  C56_even_exact 2 3 (by decide) (by decide) 1 2 3 0 _ rfl rfl

example : ∃ out, interpolateGrid (fun i _ => .ok (i : ℚ)) 1 0 0 ((2 * 1 + 1 : ℕ) : ℚ) (4 : ℕ)
        ⟨2 * 1 + 1, 4, fun _ _ => none⟩ = .ok out ∧
      out.val (2 * 1) 3 = some (2 * ((1 : ℕ) : ℚ) + (1 : ℕ) / (2 * (1 : ℕ) - 1)) ∧
      2 * ((1 : ℕ) : ℚ) < 2 * (1 : ℕ) + (1 : ℕ) / (2 * (1 : ℕ) - 1) :=
  C56_odd_overshoots 1 4 (by decide) (by decide) 3 (by decide)

/-! ### C57 -/

/-- C57, the part that holds: for a *square* raster the grid is the mirror image (rows and columns
exchanged) of the grid of the pixels' own sizes, so its mean is the right one.  The full statement
is that the cell in row `r` and column `c` belongs to the pixel in column `c` and row `r`, that is,
that the grid equals `own`; it is false, see `C57_false`. -/
theorem C57_partial (size : ℤ → ℤ → K) (n : ℕ) (hn : 3 ≤ n) :
    ∃ out own, pixelSizeGrid (fun x y => .ok (size x y)) n n = .ok out ∧
      interpolateGrid (fun row col => .ok (size col row)) 1 0 0 n n ⟨n, n, fun _ _ => some 0⟩ = .ok own ∧
      (∀ i < n, ∀ j < n, out.val i j = own.val j i) ∧
      ∑ i ∈ Finset.range n, ∑ j ∈ Finset.range n, (out.val i j).getD 0 =
        ∑ i ∈ Finset.range n, ∑ j ∈ Finset.range n, (own.val i j).getD 0 := by
  obtain ⟨out, h1, -, -, h4⟩ := interpolateGrid_one (fun x y => .ok (size x y)) size n n (by omega) (by omega)
    (fun _ _ _ _ => rfl)
    ⟨n, n, fun _ _ => some 0⟩ rfl rfl
  obtain ⟨own, g1, -, -, g4⟩ := interpolateGrid_one (fun row col => .ok (size col row))
    (fun row col => size col row) n n (by omega) (by omega) (fun _ _ _ _ => rfl) ⟨n, n, fun _ _ => some 0⟩ rfl rfl
  have htr : ∀ i < n, ∀ j < n, out.val i j = own.val j i := by
    intro i hi j hj
    rw [h4 i hi j hj, g4 j hj i hi, blockValue_eq _ hn hn, blockValue_eq _ hn hn]
    congr 1
    ring
  refine ⟨out, own, h1, g1, htr, ?_⟩
  rw [Finset.sum_comm]
  refine Finset.sum_congr rfl fun i hi => Finset.sum_congr rfl fun j hj => ?_
  rw [htr j (Finset.mem_range.mp hj) i (Finset.mem_range.mp hi)]

/-- C57 is false for every raster with an even number of rows and columns and sizes that are affine
in the pixel's position: the cell in row `i`, column `j` holds the size of the pixel in *column*
`i` and *row* `j`. -/
theorem C57_transposed (k l : ℕ) (hk : 2 ≤ k) (hl : 2 ≤ l) (a b c d : K) :
    let size : ℤ → ℤ → K := fun x y => a + b * x + c * y + d * x * y
    ∃ out, pixelSizeGrid (fun x y => .ok (size x y)) (2 * k) (2 * l) = .ok out ∧
      ∀ i < 2 * k, ∀ j < 2 * l, out.val i j = some (size i j) := by
  intro size
  obtain ⟨out, h1, -, -, h4⟩ := C56_even_exact k l hk hl a b c d
    ⟨2 * k, 2 * l, fun _ _ => some 0⟩ rfl rfl
  exact ⟨out, h1, h4⟩

/-- C57 is false: if the size of a pixel depends only on its row (its latitude), all rows of the
grid are nevertheless equal. -/
theorem C57_rows_equal (lat : ℤ → K) (n m : ℕ) (hn : 3 ≤ n) (hm : 3 ≤ m) :
    ∃ out, pixelSizeGrid (fun _ y => .ok (lat y)) n m = .ok out ∧
      ∀ i < n, ∀ i' < n, ∀ j < m, out.val i j = out.val i' j := by
  obtain ⟨out, h1, -, -, h4⟩ := interpolateGrid_one (fun _ y => .ok (lat y)) (fun _ y => lat y) n m (by omega)
    (by omega) (fun _ _ _ _ => rfl)
    ⟨n, m, fun _ _ => some 0⟩ rfl rfl
  refine ⟨out, h1, ?_⟩
  intro i hi i' hi' j hj
  rw [h4 i hi j hj, h4 i' hi' j hj, blockValue_eq _ hn hm, blockValue_eq _ hn hm]
  congr 1
  ring

/-- The full statement of C57 is false: in a 4 × 4 raster whose pixels shrink by one metre per row,
the first column of the grid does not. -/
theorem C57_false : ¬ ∀ (size : ℤ → ℤ → ℚ) (n m : ℕ), 3 ≤ n → 3 ≤ m → ∀ out,
    pixelSizeGrid (fun x y => .ok (size x y)) n m = .ok out → ∀ i < n, ∀ j < m,
      (i = 0 ∨ i = n - 1) → (j = 0 ∨ j = m - 1) → out.val i j = some (size j i) := by
  intro h
  obtain ⟨out, h1, h2⟩ := C57_transposed (K := ℚ) 2 2 (by decide) (by decide) 100 0 (-1) 0
  have e1 := h _ 4 4 (by decide) (by decide) out h1 3 (by decide) 0 (by decide) (by decide) (by decide)
  rw [h2 3 (by decide) 0 (by decide)] at e1
  norm_num at e1

example : ∃ out own, pixelSizeGrid (fun x y => .ok ((90 : ℚ) - y + 2 * x)) 5 5 = .ok out ∧
      interpolateGrid (fun row col => .ok ((90 : ℚ) - row + 2 * col)) 1 0 0 ((5 : ℕ) : ℚ) ((5 : ℕ) : ℚ)
        ⟨5, 5, fun _ _ => some 0⟩ = .ok own ∧
      ∀ i < 5, ∀ j < 5, out.val i j = own.val j i := by
  obtain ⟨out, own, h1, h2, h3, -⟩ := C57_partial (fun x y => (90 : ℚ) - y + 2 * x) 5 (by decide)
  exact ⟨out, own, h1, h2, h3⟩

end WindMult
