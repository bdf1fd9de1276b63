import Verif.Model.Reproject
import Verif.Model.GeoClip
import Mathlib.Algebra.Order.Archimedean.Real.Basic
import Mathlib.Data.Int.Log

/-!
# The geometry of the tiles in floating-point arithmetic

The functions of `Model/TileGrid`, `Model/GeoClip` and `Model/Reproject` once more, with every
operation on floats rounded.  Geotransform and buffer length are floats, that is real numbers.
-/

set_option autoImplicit false

namespace WindMult

/-- Rounding of IEEE 754 double precision, as far as it is used: the relative error is at most
`2⁻⁵³`, integers up to `2⁵³` are exact, order and sign are preserved.  Overflow, underflow and NaN are
not modelled. The arithmetic of `/repo/all_multipliers.py` 93-106, 201-259, 348-351. -/
structure Rounding where
  rnd : ℝ → ℝ
  near : ∀ x, |rnd x - x| ≤ |x| / 2 ^ 53
  int : ∀ n : ℤ, |n| ≤ 2 ^ 53 → rnd n = n
  mono : Monotone rnd

/-- `TileGrid.__init__` (`/repo/all_multipliers.py` 48-114) with the quotients of 93, 94, 98, 99, 103
and 104 rounded; the other operations are on integers or change a sign. -/
noncomputable def TileGrid.initFl (R : Rounding) (upwindLength : ℝ) (r : RasterInfo ℝ) : TileGrid ℝ :=
  let pixelwidth := r.gt1
  let pixelheight := -r.gt5
  let xStep : ℤ := ⌈R.rnd (1 / pixelwidth)⌉
  let yStep : ℤ := ⌈R.rnd (1 / pixelheight)⌉
  let xBuffer := pyInt (R.rnd (upwindLength / pixelwidth))
  let yBuffer := pyInt (R.rnd (upwindLength / pixelheight))
  let maxcols : ℤ := ⌈R.rnd ((r.xDim : ℝ) / (xStep : ℝ))⌉
  let maxrows : ℤ := ⌈R.rnd ((r.yDim : ℝ) / (yStep : ℝ))⌉
  { xDim := r.xDim
    yDim := r.yDim
    xLeft := r.gt0
    yUpper := -r.gt3
    pixelwidth, pixelheight, xStep, yStep, xBuffer, yBuffer
    tiles := tileGridLoop maxcols.toNat maxrows.toNat xStep yStep xBuffer yBuffer
      r.xDim r.yDim }

/-- `get_tile_extent` and `get_tile_extent_buffer` (`/repo/all_multipliers.py` 233-239, 253-259) for the
limits `l`. -/
noncomputable def TileGrid.extentFl (R : Rounding) (g : TileGrid ℝ) (l : Limits) : Extent ℝ :=
  { xStart := R.rnd (g.xLeft + R.rnd (l.x1 * g.pixelwidth))
    yStart := -R.rnd (g.yUpper + R.rnd (l.y1 * g.pixelheight))
    xEnd := R.rnd (g.xLeft + R.rnd (l.x2 * g.pixelwidth))
    yEnd := -R.rnd (g.yUpper + R.rnd (l.y2 * g.pixelheight)) }

/-- Size and geotransform of the file made by `clip_dataset` (`/repo/all_multipliers.py` 348-357). -/
noncomputable def clipInfoFl (R : Rounding) (r : RasterInfo ℝ) (extent : Extent ℝ) : RasterInfo ℝ where
  xDim := (around (R.rnd (R.rnd (extent.xEnd - extent.xStart) / r.gt1))).toNat
  yDim := (around (R.rnd (R.rnd (extent.yStart - extent.yEnd) / (-r.gt5)))).toNat
  gt0 := extent.xStart
  gt1 := r.gt1
  gt3 := extent.yStart
  gt5 := -(-r.gt5)

/-- `cut_dem` (`/repo/all_multipliers.py` 306-365).  The arithmetic inside GDAL is taken as exact. -/
noncomputable def cutDemFl {α : Type} (R : Rounding) (r : RasterInfo ℝ) (dem : Grid (Option α))
    (extent : Extent ℝ) (fill : α) : Grid α :=
  reprojectNearest r dem (clipInfoFl R r extent) fill

/-- `clip_array` (`/repo/utilities/nctools.py` 22-50). -/
noncomputable def clipArrayFl {α : Type} (R : Rounding) (data : Grid α)
    (xLeft yUpper pixelwidth pixelheight : ℝ) (e : Extent ℝ) : Grid α :=
  let lonStart := around (R.rnd (R.rnd (e.xStart - xLeft) / pixelwidth))
  let latStart := around (R.rnd (R.rnd (-yUpper - e.yStart) / pixelheight))
  let cols := around (R.rnd (R.rnd (e.xEnd - e.xStart) / pixelwidth))
  let rows := around (R.rnd (R.rnd (e.yStart - e.yEnd) / pixelheight))
  data.slice latStart (latStart + rows) lonStart (lonStart + cols)

/-- `get_lat_lon` (`/repo/utilities/nctools.py` 53-80); returns `(lon, lat)`. -/
noncomputable def getLatLonFl (R : Rounding) (e : Extent ℝ) (pixelwidth pixelheight : ℝ) :
    List ℝ × List ℝ :=
  let xLeft := e.xStart
  let yUpper := -e.yStart
  let cols := around (R.rnd (R.rnd (e.xEnd - e.xStart) / pixelwidth))
  let rows := around (R.rnd (R.rnd (e.yStart - e.yEnd) / pixelheight))
  ((List.range cols.toNat).map fun (x : ℕ) =>
      R.rnd (R.rnd (xLeft + R.rnd (1 / 2 * pixelwidth)) + R.rnd (x * pixelwidth)),
   (List.range rows.toNat).map fun (y : ℕ) =>
      R.rnd (R.rnd (-yUpper - R.rnd (1 / 2 * pixelheight)) - R.rnd (y * pixelheight)))

end WindMult
