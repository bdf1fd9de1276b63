import Verif.Spec.Compass
import Verif.Spec.Topo

/-!
# Transects of a raster

Rows and columns are in the vocabulary of `Spec/Compass.lean`: `d.rowUp r t`, `d.colUp c t` is the
cell `t` steps upwind of `(r, c)` for wind from `d` (downwind for negative `t`).
-/

set_option autoImplicit false

namespace WindMult
variable {K : Type} [Field K] [LinearOrder K] [IsStrictOrderedRing K] [FloorRing K]

/-- Position of a cell in the column-by-column numbering of a raster of `rows` rows. -/
def cellIndex (rows : ℕ) (r c : ℤ) : ℤ := r + c * rows

/-- The transect along wind direction `d` through `(r, c)` consists of `n` cells and begins `u` steps
upwind of it: all its cells are in the raster, the next ones at both ends are not. -/
def IsTransect (rows cols : ℕ) (d : Dir) (r c : ℤ) (u n : ℕ) : Prop :=
  u < n ∧ (∀ t : ℕ, t < n → InRaster rows cols (d.rowUp r ((u : ℤ) - t)) (d.colUp c ((u : ℤ) - t))) ∧
    ¬ InRaster rows cols (d.rowUp r ((u : ℤ) + 1)) (d.colUp c ((u : ℤ) + 1)) ∧
    ¬ InRaster rows cols (d.rowUp r ((u : ℤ) - n)) (d.colUp c ((u : ℤ) - n))

/-- The elevations along a transect, from the upwind end to the downwind end; a missing elevation
counts as 0. -/
def transectLine (dem : Grid (Option K)) (d : Dir) (r c : ℤ) (u n : ℕ) : Line K :=
  ⟨n, fun t =>
    if t < n then (dem.val (d.rowUp r ((u : ℤ) - t)).toNat (d.colUp c ((u : ℤ) - t)).toNat).getD 0
    else 0⟩

end WindMult
