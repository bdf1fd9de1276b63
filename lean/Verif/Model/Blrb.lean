import Verif.Model.Basic

/-!
# Bilinear recursive bisection (`/repo/utilities/blrb.py`) and the pixel-size grids
(`/repo/utilities/get_pixel_size_grid.py`)

Block origins and block shapes are numbers, not integers: `subdivide` divides by `2` with true
division.
-/

set_option autoImplicit false

namespace WindMult
variable {K : Type} [Field K] [LinearOrder K] [IsStrictOrderedRing K] [FloorRing K]

/-- The interpolation weight `s` (or `t`) of the `r`-th row (column) of a block of (possibly
fractional) size `n` (`/repo/utilities/blrb.py` 50-53): `r / (n - 1.0)`, NaN when the block has size
one (`0 / 0`). -/
def blrbWeight (n : K) (r : ℕ) : Option K :=
  if n - 1 = 0 then none else some ((r : K) / (n - 1))

/-- `bilinear` (`/repo/utilities/blrb.py` 24-56).  `numpy.ogrid[0:n]` has `⌈n⌉` entries also for a
fractional `n`.  A cell is NaN if one of its weights is. -/
def bilinear (nr nc : K) (fUL fUR fLR fLL : K) : Grid (Option K) where
  rows := ⌈nr⌉.toNat
  cols := ⌈nc⌉.toNat
  val := fun i j =>
    match blrbWeight nr i, blrbWeight nc j with
    | some s, some t =>
      some (s * (t * fLR + (1 - t) * fLL) + (1 - s) * (t * fUR + (1 - t) * fUL))
    | _, _ => none

/-- numpy assignment `grid[i0:i1 + 1, j0:j1 + 1] = a` for non-negative bounds
(`/repo/utilities/blrb.py` 150): the slice is clipped to the grid; `ValueError` unless the shapes
agree or the array has extent 1 in the axis where they differ. -/
def assignBlock (grid : Grid (Option K)) (i0 i1 j0 j1 : ℤ) (a : Grid (Option K)) :
    Except PyErr (Grid (Option K)) :=
  let r0 := Grid.sliceBound grid.rows i0
  let r1 := Grid.sliceBound grid.rows (i1 + 1)
  let c0 := Grid.sliceBound grid.cols j0
  let c1 := Grid.sliceBound grid.cols (j1 + 1)
  if (a.rows = r1 - r0 ∨ a.rows = 1) ∧ (a.cols = c1 - c0 ∨ a.cols = 1) then
    .ok ⟨grid.rows, grid.cols, fun i j =>
      if (r0 ≤ i ∧ i < r1) ∧ (c0 ≤ j ∧ j < c1) then
        a.val (if a.rows = 1 then 0 else i - r0) (if a.cols = 1 then 0 else j - c0)
      else grid.val i j⟩
  else .error .valueError

/-- `interpolate_block` with a grid (`/repo/utilities/blrb.py` 108-150), `indices` (60-74) inlined.
The evaluator may raise an exception. -/
def interpolateBlock (eval : ℤ → ℤ → Except PyErr K) (oi oj ni nj : K) (grid : Grid (Option K)) :
    Except PyErr (Grid (Option K)) := do
  let i0 := ⌊oi⌋
  let j0 := ⌊oj⌋
  let i1 := ⌈oi + ni - 1⌉
  let j1 := ⌈oj + nj - 1⌉
  let fUL ← eval i0 j0
  let fLL ← eval i1 j0
  let fUR ← eval i0 j1
  let fLR ← eval i1 j1
  assignBlock grid i0 i1 j0 j1 (bilinear ni nj fUL fUR fLR fLL)

/-- The blocks of `subdivide` (`/repo/utilities/blrb.py` 78-104) in dictionary order
(UL, LL, UR, LR), each as origin and shape as `interpolate_grid` computes it (197). -/
def subdivide (oi oj ni nj : K) : List ((K × K) × (K × K)) :=
  let ie := oi + ni - 1
  let je := oj + nj - 1
  let ic := oi + ni / 2
  let jc := oj + nj / 2
  [((oi, oj), (ic - oi + 1, jc - oj + 1)),
   ((ic, oj), (ie - ic + 1, jc - oj + 1)),
   ((oi, jc), (ic - oi + 1, je - jc + 1)),
   ((ic, jc), (ie - ic + 1, je - jc + 1))]

/-- `interpolate_grid` (`/repo/utilities/blrb.py` 154-198). -/
def interpolateGrid (eval : ℤ → ℤ → Except PyErr K) : ℕ → K → K → K → K → Grid (Option K) →
    Except PyErr (Grid (Option K))
  | 0, oi, oj, ni, nj, grid => interpolateBlock eval oi oj ni nj grid
  | depth + 1, oi, oj, ni, nj, grid =>
    (subdivide oi oj ni nj).foldlM
      (fun g b => interpolateGrid eval depth b.1.1 b.1.2 b.2.1 b.2.2 g) grid

/-- One of the two grids of `get_pixel_size_grids` (`/repo/utilities/get_pixel_size_grid.py` 114-155)
for a data set with `rows` rows and `cols` columns.  `size x y` is the size in metres of the pixel
in column `x` and row `y` (`get_pixel_size(dataset, (x, y))`, 53-111).  `interpolate_grid` calls its
evaluator with (row, column), and the evaluators pass their arguments on as `(x, y)` (123-143). -/
def pixelSizeGrid (size : ℤ → ℤ → Except PyErr K) (rows cols : ℕ) : Except PyErr (Grid (Option K)) :=
  interpolateGrid (fun x y => size x y) 1 0 0 rows cols ⟨rows, cols, fun _ _ => some 0⟩

end WindMult
