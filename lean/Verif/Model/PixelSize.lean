import Verif.Model.Vincenty
import Verif.Model.Blrb
import Verif.Model.TileGrid

/-!
# Pixel sizes in metres (`/repo/utilities/get_pixel_size_grid.py`)

Over ℝ; rasters in geographic coordinates.
-/

set_option autoImplicit false

noncomputable section

namespace WindMult

/-- `RADIANS_PER_DEGREE` (`/repo/utilities/get_pixel_size_grid.py` 17). -/
def radPerDeg : ℝ := 0.01745329251994329576923690768489

/-- `Earth.A` (`/repo/utilities/get_pixel_size_grid.py` 38). -/
def earthA : ℝ := 6378137

/-- `Earth.F` (`/repo/utilities/get_pixel_size_grid.py` 38-40). -/
def earthF : ℝ := (6378137 - 6356752.3142) / 6378137

/-- The result of `vinc_dist`; `noEnd` if the loop is still running after the iterations granted.
`/repo/utilities/get_pixel_size_grid.py` 94-108. -/
def ended {α : Type} : Option (Except PyErr α) → Except PyErr α
  | none => .error .noEnd
  | some r => r

/-- `get_pixel_size` (`/repo/utilities/get_pixel_size_grid.py` 53-111) for column `x` and row `y`.  The
raster has geographic coordinates, so the geographic coordinate system cloned from its own is the same
and the transformation between them the identity; longitude is the first coordinate.  `fuel` bounds the
iterations of `vinc_dist`. -/
def getPixelSize (fuel : ℕ) (r : RasterInfo ℝ) (x y : ℤ) : Except PyErr (ℝ × ℝ) := do
  let xw := r.gt0 + x * r.gt1
  let yn := r.gt3 + y * r.gt5
  let xc := r.gt0 + (x + 1 / 2) * r.gt1
  let yc := r.gt3 + (y + 1 / 2) * r.gt5
  let xe := r.gt0 + (x + 1) * r.gt1
  let ys := r.gt3 + (y + 1) * r.gt5
  let sx ← ended (vincDist fuel earthF earthA (yc * radPerDeg) (xw * radPerDeg) (yc * radPerDeg)
    (xe * radPerDeg))
  let sy ← ended (vincDist fuel earthF earthA (yn * radPerDeg) (xc * radPerDeg) (ys * radPerDeg)
    (xc * radPerDeg))
  return (sx.1, sy.1)

/-- `get_pixel_size_grids` (`/repo/utilities/get_pixel_size_grid.py` 114-155).  The rounding to
`float32` is not modelled; cells that are NaN (only in rasters with two rows or columns, see
`C56_size_two`) are 0 here. -/
def pixelSizes (fuel : ℕ) (r : RasterInfo ℝ) : Except PyErr (Grid ℝ × Grid ℝ) := do
  let gx ← pixelSizeGrid (fun x y => (getPixelSize fuel r x y).map Prod.fst) r.yDim r.xDim
  let gy ← pixelSizeGrid (fun x y => (getPixelSize fuel r x y).map Prod.snd) r.yDim r.xDim
  return (gx.map (·.getD 0), gy.map (·.getD 0))

end WindMult
