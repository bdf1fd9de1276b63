import Mathlib.Algebra.Order.Floor.Ring
import Mathlib.Algebra.Order.Field.Basic

/-!
# Python / numpy basics used by all models

`K` is any linearly ordered field with a floor function (ℚ, ℝ).  Floating-point rounding
is not modelled.
-/

set_option autoImplicit false

namespace WindMult

/-- Python exceptions raised by the modelled code.  `noEnd` is not an exception: it stands for a loop
that has not ended within the number of iterations given to the model (`Model/PixelSize.lean`). For
example `/repo/all_multipliers.py` 63, 573, `/repo/utilities/nctools.py` 238-265. -/
inductive PyErr
  | indexError
  | zeroDivisionError
  | valueError
  | keyError
  | nameError
  | runtimeError
  | osError
  | noEnd
  deriving DecidableEq, Repr

section Num
variable {K : Type} [Field K] [LinearOrder K] [IsStrictOrderedRing K] [FloorRing K]

/-- Python `int(x)` on a finite float (e.g. `/repo/all_multipliers.py` lines 93-99):
truncation toward zero. -/
def pyInt (x : K) : ℤ := if 0 ≤ x then ⌊x⌋ else ⌈x⌉

/-- `numpy.around(x)` with no decimals (e.g. `/repo/utilities/nctools.py` lines 39-43):
round to nearest, ties to the even integer. -/
def around (x : K) : ℤ :=
  if x - (⌊x⌋ : K) < 1 / 2 then ⌊x⌋
  else if 1 / 2 < x - (⌊x⌋ : K) then ⌊x⌋ + 1
  else if ⌊x⌋ % 2 = 0 then ⌊x⌋ else ⌊x⌋ + 1

end Num

/-- A two-dimensional numpy array: a shape and its cells.  Cells outside the shape are
irrelevant (junk); reads through `Grid.pyGet` never see them.
E.g. `data`, `/repo/terrain/terrain_mult.py` 74. -/
structure Grid (α : Type) where
  rows : ℕ
  cols : ℕ
  val : ℕ → ℕ → α

namespace Grid
variable {α β : Type}

/-- Normalisation of one Python index into an axis of length `n`: negative indices count
from the end; `none` is `IndexError`. Used wherever an array is indexed, e.g.
`/repo/terrain/terrain_mult.py` 240. -/
def pyIndex (n : ℕ) (i : ℤ) : Option ℕ :=
  if 0 ≤ i then (if i < n then some i.toNat else none)
  else (if 0 ≤ i + n then some (i + n).toNat else none)

/-- numpy scalar read `a[r, c]` with Python index semantics. E.g. `data[point_row, point_col]`,
`/repo/terrain/terrain_mult.py` 240. -/
def pyGet (g : Grid α) (r c : ℤ) : Except PyErr α :=
  match pyIndex g.rows r, pyIndex g.cols c with
  | some i, some j => .ok (g.val i j)
  | _, _ => .error .indexError

/-- Normalisation of a Python slice bound for an axis of length `n`. E.g. the bounds in `clip_array`,
`/repo/utilities/nctools.py` 39-48. -/
def sliceBound (n : ℕ) (i : ℤ) : ℕ :=
  if 0 ≤ i then min i.toNat n else (max 0 (i + n)).toNat

/-- numpy slice `a[r0:r1, c0:c1]` (basic slicing, step 1). E.g. in `clip_array`,
`/repo/utilities/nctools.py` 39-48. -/
def slice (g : Grid α) (r0 r1 c0 c1 : ℤ) : Grid α where
  rows := sliceBound g.rows r1 - sliceBound g.rows r0
  cols := sliceBound g.cols c1 - sliceBound g.cols c0
  val := fun i j => g.val (sliceBound g.rows r0 + i) (sliceBound g.cols c0 + j)

/-- Cellwise map. Elementwise numpy operations, e.g. `/repo/terrain/terrain_mult.py` 91-95. -/
def map (f : α → β) (g : Grid α) : Grid β := ⟨g.rows, g.cols, fun i j => f (g.val i j)⟩

/-- Two arrays are equal as numpy arrays: same shape, same cells inside the shape. A notion for
statements about the arrays of, e.g., `/repo/terrain/terrain_mult.py` 199-248. -/
def Same (g h : Grid α) : Prop :=
  g.rows = h.rows ∧ g.cols = h.cols ∧ ∀ i < g.rows, ∀ j < g.cols, g.val i j = h.val i j

end Grid

end WindMult
