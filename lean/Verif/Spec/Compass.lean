import Verif.Model.Basic
import Verif.Model.Dir
import Mathlib.Order.Interval.Finset.Nat
import Mathlib.Algebra.BigOperators.Group.Finset.Basic
import Mathlib.Data.Int.Interval

/-!
# Compass vocabulary of the specifications

Rows are numbered from north to south, columns from west to east.
-/

set_option autoImplicit false

namespace WindMult

/-- One step towards where wind of direction `d` comes from, in rows (southward). -/
def Dir.north : Dir → ℤ
  | .n => 1
  | .ne => 1
  | .nw => 1
  | .s => -1
  | .se => -1
  | .sw => -1
  | _ => 0

/-- One step towards where wind of direction `d` comes from, in columns (eastward). -/
def Dir.east : Dir → ℤ
  | .e => 1
  | .ne => 1
  | .se => 1
  | .w => -1
  | .nw => -1
  | .sw => -1
  | _ => 0

/-- Row of the cell `t` steps upwind of row `i` (going north lowers the row number). -/
def Dir.rowUp (d : Dir) (i t : ℤ) : ℤ := i - t * d.north

/-- Column of the cell `t` steps upwind of column `j`. -/
def Dir.colUp (d : Dir) (j t : ℤ) : ℤ := j + t * d.east

/-- The cell is inside a raster of the given shape. -/
def InRaster (rows cols : ℕ) (r c : ℤ) : Prop := 0 ≤ r ∧ r < rows ∧ 0 ≤ c ∧ c < cols

instance (rows cols : ℕ) (r c : ℤ) : Decidable (InRaster rows cols r c) := by
  unfold InRaster; infer_instance

/-- Distances `t` in `lag+1 … lag+width` at which cell `(i, j)` has an upwind cell in the
raster. -/
def upwindDistances (rows cols : ℕ) (d : Dir) (width lag : ℕ) (i j : ℕ) : Finset ℕ :=
  (Finset.Icc (lag + 1) (lag + width)).filter fun t =>
    InRaster rows cols (d.rowUp i t) (d.colUp j t)

/-- Value of an array `t` steps upwind. -/
def Grid.upwind {α : Type} (g : Grid α) (d : Dir) (i j t : ℕ) : α :=
  g.val (d.rowUp i t).toNat (d.colUp j t).toNat

/-- Specification of the moving average: mean of the existing upwind cells at distances
`lag+1 … lag+width`, the cell itself if there is none. -/
def upwindMean {K : Type} [Field K] (g : Grid K) (d : Dir) (width lag : ℕ) (i j : ℕ) : K :=
  if (upwindDistances g.rows g.cols d width lag i j).Nonempty then
    (∑ t ∈ upwindDistances g.rows g.cols d width lag i j, g.upwind d i j t) /
      ((upwindDistances g.rows g.cols d width lag i j).card : K)
  else g.val i j

end WindMult
