import Verif.Model.Blrb
import Mathlib.Tactic.Linarith
import Mathlib.Tactic.FieldSimp
import Mathlib.Tactic.Ring
import Mathlib.Tactic.Push
import Mathlib.Algebra.Order.Floor.Semiring

/-!
# Lemmas about one level of bisection
-/

set_option linter.unusedSectionVars false

set_option autoImplicit false

namespace WindMult
variable {K : Type} [Field K] [LinearOrder K] [IsStrictOrderedRing K] [FloorRing K]

theorem floor_half (n : ℕ) : ⌊(n : K) / 2⌋ = ((n / 2 : ℕ) : ℤ) := by
  rcases Nat.even_or_odd' n with ⟨k, rfl | rfl⟩
  · have h1 : ((2 * k : ℕ) : K) / 2 = ((k : ℕ) : ℤ) := by push_cast; field_simp
    rw [h1, Int.floor_intCast]
    congr 1; omega
  · have e : (2 * k + 1) / 2 = k := by omega
    rw [e, Int.floor_eq_iff]
    push_cast
    constructor <;> linarith

theorem ceil_half (n : ℕ) : ⌈(n : K) / 2⌉ = (((n + 1) / 2 : ℕ) : ℤ) := by
  rcases Nat.even_or_odd' n with ⟨k, rfl | rfl⟩
  · have h1 : ((2 * k : ℕ) : K) / 2 = ((k : ℕ) : ℤ) := by push_cast; field_simp
    rw [h1, Int.ceil_intCast]
    congr 1; omega
  · have e : (2 * k + 1 + 1) / 2 = k + 1 := by omega
    rw [e, Int.ceil_eq_iff]
    push_cast
    constructor <;> linarith

/-- What one pass over an axis writes: the block of the upper half has origin `0` and size
`n / 2 + 1`, that of the lower half origin `n / 2` and size `n / 2`. -/
def axOrigin (n : ℕ) (lower : Bool) : K := if lower then (n : K) / 2 else 0

def axSize (n : ℕ) (lower : Bool) : K := if lower then (n : K) / 2 else (n : K) / 2 + 1

def axLo (n : ℕ) (lower : Bool) : ℕ := if lower then n / 2 else 0

def axHi (n : ℕ) (lower : Bool) : ℕ := if lower then n - 1 else (n + 1) / 2

theorem ax_floor (n : ℕ) (b : Bool) : ⌊(axOrigin n b : K)⌋ = (axLo n b : ℤ) := by
  cases b
  · simp [axOrigin, axLo]
  · exact floor_half n

theorem ax_ceil (n : ℕ) (hn : 1 ≤ n) (b : Bool) :
    ⌈(axOrigin n b : K) + axSize n b - 1⌉ = (axHi n b : ℤ) := by
  cases b
  · have : (axOrigin n false : K) + axSize n false - 1 = (n : K) / 2 := by
      simp [axOrigin, axSize]
    rw [this]; exact ceil_half n
  · have : (axOrigin n true : K) + axSize n true - 1 = (((n - 1 : ℕ) : ℤ) : K) := by
      simp only [axOrigin, axSize, ↓reduceIte]
      rw [Int.cast_natCast, Nat.cast_sub hn, Nat.cast_one]; ring
    rw [this, Int.ceil_intCast]; rfl

theorem ax_count (n : ℕ) (hn : 2 ≤ n) (b : Bool) :
    ⌈(axSize n b : K)⌉.toNat = axHi n b + 1 - axLo n b := by
  cases b
  · simp only [axSize, axHi, axLo, Bool.false_eq_true, ↓reduceIte]
    rw [Int.ceil_add_one, ceil_half]; omega
  · simp only [axSize, axHi, axLo, ↓reduceIte]
    rw [ceil_half]; omega

theorem subdivide_eq (n m : ℕ) : subdivide (0 : K) 0 n m =
    [((axOrigin n false, axOrigin m false), (axSize n false, axSize m false)),
     ((axOrigin n true, axOrigin m false), (axSize n true, axSize m false)),
     ((axOrigin n false, axOrigin m true), (axSize n false, axSize m true)),
     ((axOrigin n true, axOrigin m true), (axSize n true, axSize m true))] := by
  have e1 : ∀ k : ℕ, (k : K) - 1 - (k / 2) + 1 = (k : K) / 2 := by intro k; ring
  have e2 : ∀ k : ℕ, (k : K) / 2 - 0 + 1 = (k : K) / 2 + 1 := by intro k; ring
  simp only [subdivide, axOrigin, axSize, Bool.false_eq_true, ↓reduceIte, zero_add, e1, e2]

/-- The value a block gives to a row and column. -/
def blockValue (eval : ℤ → ℤ → K) (n m : ℕ) (b c : Bool) (i j : ℕ) : Option K :=
  (bilinear (axSize n b) (axSize m c) (eval (axLo n b) (axLo m c)) (eval (axLo n b) (axHi m c))
    (eval (axHi n b) (axHi m c)) (eval (axHi n b) (axLo m c))).val (i - axLo n b) (j - axLo m c)

def inAx (n : ℕ) (b : Bool) (i : ℕ) : Prop := axLo n b ≤ i ∧ i ≤ axHi n b

instance (n : ℕ) (b : Bool) (i : ℕ) : Decidable (inAx n b i) := by unfold inAx; infer_instance

theorem axHi_lt (n : ℕ) (hn : 2 ≤ n) (b : Bool) : axHi n b < n := by
  cases b <;> simp [axHi] <;> omega

theorem axLo_le (n : ℕ) (hn : 2 ≤ n) (b : Bool) : axLo n b ≤ axHi n b := by
  cases b <;> simp only [axLo, axHi, Bool.false_eq_true, ↓reduceIte] <;> omega

/-- One block, for axes of length at least two. -/
theorem interpolateBlock_eq (ev : ℤ → ℤ → Except PyErr K) (eval : ℤ → ℤ → K) (n m : ℕ) (hn : 2 ≤ n)
    (hm : 2 ≤ m) (he : ∀ i < n, ∀ j < m, ev i j = .ok (eval i j)) (b c : Bool)
    (g : Grid (Option K)) (hr : g.rows = n) (hc : g.cols = m) :
    interpolateBlock ev (axOrigin n b) (axOrigin m c) (axSize n b) (axSize m c) g =
      .ok ⟨n, m, fun i j => if inAx n b i ∧ inAx m c j then blockValue eval n m b c i j
        else g.val i j⟩ := by
  unfold interpolateBlock
  simp only
  have in0 : ∀ (k : ℕ) (b : Bool), 2 ≤ k → axLo k b < k := by
    intro k b hk
    have := axHi_lt k hk b
    have := axLo_le k hk b
    omega
  rw [ax_floor, ax_floor, ax_ceil n (by omega), ax_ceil m (by omega),
    he _ (in0 n b hn) _ (in0 m c hm), he _ (axHi_lt n hn b) _ (in0 m c hm),
    he _ (in0 n b hn) _ (axHi_lt m hm c), he _ (axHi_lt n hn b) _ (axHi_lt m hm c)]
  show assignBlock _ _ _ _ _ (bilinear _ _ _ _ _ _) = _
  unfold assignBlock
  have s0 : ∀ (k : ℕ) (b : Bool), 2 ≤ k → Grid.sliceBound k (axLo k b : ℤ) = axLo k b := by
    intro k b hk
    unfold Grid.sliceBound
    rw [if_pos (by omega), Int.toNat_natCast]
    have := axHi_lt k hk b
    have := axLo_le k hk b
    omega
  have s1 : ∀ (k : ℕ) (b : Bool), 2 ≤ k → Grid.sliceBound k ((axHi k b : ℤ) + 1) = axHi k b + 1 := by
    intro k b hk
    unfold Grid.sliceBound
    rw [if_pos (by omega)]
    have := axHi_lt k hk b
    omega
  rw [hr, hc]
  simp only [s0 n b hn, s0 m c hm, s1 n b hn, s1 m c hm]
  have r0 : (bilinear (axSize n b) (axSize m c) (eval (axLo n b) (axLo m c))
      (eval (axLo n b) (axHi m c)) (eval (axHi n b) (axHi m c)) (eval (axHi n b) (axLo m c))).rows =
      axHi n b + 1 - axLo n b := ax_count n hn b
  have c0 : (bilinear (axSize n b) (axSize m c) (eval (axLo n b) (axLo m c))
      (eval (axLo n b) (axHi m c)) (eval (axHi n b) (axHi m c)) (eval (axHi n b) (axLo m c))).cols =
      axHi m c + 1 - axLo m c := ax_count m hm c
  rw [r0, c0, if_pos ⟨.inl rfl, .inl rfl⟩]
  congr 1
  congr 1
  funext i j
  by_cases h : inAx n b i ∧ inAx m c j
  · rw [if_pos h, if_pos (by unfold inAx at h; omega)]
    unfold blockValue
    unfold inAx at h
    congr 1
    · split_ifs <;> omega
    · split_ifs <;> omega
  · rw [if_neg h, if_neg (by unfold inAx at h; omega)]

/-- Which half decides row `r`: the lower one from the middle row on. -/
def lastHalf (n r : ℕ) : Bool := decide (n / 2 ≤ r)

/-- One level of bisection, for axes of length at least two. -/
theorem interpolateGrid_one (ev : ℤ → ℤ → Except PyErr K) (eval : ℤ → ℤ → K) (n m : ℕ) (hn : 2 ≤ n)
    (hm : 2 ≤ m) (he : ∀ i < n, ∀ j < m, ev i j = .ok (eval i j))
    (g : Grid (Option K)) (hr : g.rows = n) (hc : g.cols = m) :
    ∃ out, interpolateGrid ev 1 0 0 n m g = .ok out ∧ out.rows = n ∧ out.cols = m ∧
      ∀ i < n, ∀ j < m, out.val i j = blockValue eval n m (lastHalf n i) (lastHalf m j) i j := by
  have e : interpolateGrid ev 1 0 0 n m g = .ok ⟨n, m, fun i j =>
      if inAx n true i ∧ inAx m true j then blockValue eval n m true true i j
      else if inAx n false i ∧ inAx m true j then blockValue eval n m false true i j
      else if inAx n true i ∧ inAx m false j then blockValue eval n m true false i j
      else if inAx n false i ∧ inAx m false j then blockValue eval n m false false i j
      else g.val i j⟩ := by
    rw [interpolateGrid, subdivide_eq]
    simp only [List.foldlM, interpolateGrid]
    rw [interpolateBlock_eq ev eval n m hn hm he false false g hr hc]
    show (interpolateBlock _ _ _ _ _ _ >>= _) = _
    rw [interpolateBlock_eq ev eval n m hn hm he true false _ rfl rfl]
    show (interpolateBlock _ _ _ _ _ _ >>= _) = _
    rw [interpolateBlock_eq ev eval n m hn hm he false true _ rfl rfl]
    show (interpolateBlock _ _ _ _ _ _ >>= _) = _
    rw [interpolateBlock_eq ev eval n m hn hm he true true _ rfl rfl]
    rfl
  refine ⟨_, e, rfl, rfl, ?_⟩
  intro i hi j hj
  have key : ∀ k r : ℕ, 2 ≤ k → r < k → (k / 2 ≤ r ∧ inAx k true r) ∨
      (¬ k / 2 ≤ r ∧ ¬ inAx k true r ∧ inAx k false r) := by
    intro k r hk hr
    unfold inAx axLo axHi
    simp only [Bool.false_eq_true, ↓reduceIte]
    omega
  simp only [lastHalf]
  rcases key n i hn hi with ⟨h1, h2⟩ | ⟨h1, h2, h3⟩ <;>
    rcases key m j hm hj with ⟨g1, g2⟩ | ⟨g1, g2, g3⟩
  · simp only [h1, g1, h2, g2, and_self, ↓reduceIte, decide_true]
  · simp only [h1, g1, h2, g2, g3, and_self, and_false, ↓reduceIte, decide_true, decide_false]
  · simp only [h1, g1, h2, h3, g2, and_self, false_and, ↓reduceIte, decide_true, decide_false]
  · simp only [h1, g1, h2, h3, g2, g3, and_self, false_and, and_false, ↓reduceIte, decide_false]

end WindMult
