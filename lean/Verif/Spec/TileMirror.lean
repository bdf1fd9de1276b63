import Verif.Spec.Pipeline
import Verif.Props.ShieldMirror

/-!
# Vocabulary for a run on a mirrored country
-/

set_option autoImplicit false

namespace WindMult

/-- The area of a raster, as the extent of a tile. -/
def RasterInfo.area (r : RasterInfo ℝ) : Extent ℝ :=
  ⟨r.gt0, r.gt3, r.gt0 + r.xDim * r.gt1, r.gt3 + r.yDim * r.gt5⟩

/-- The country with east and west exchanged, in the same place. -/
def Inputs.mirrorEW (c : Inputs) : Inputs := { c with dem := c.dem.mirrorEW, lcv := c.lcv.mirrorEW }
/-- The country with north and south exchanged, in the same place. -/
def Inputs.mirrorNS (c : Inputs) : Inputs := { c with dem := c.dem.mirrorNS, lcv := c.lcv.mirrorNS }

/-- A DEM and a land cover on the same grid, computed as one tile.  `xm` and `ym` are the pixel sizes in metres. -/
structure OneTile (c : Inputs) (xm ym : Grid ℝ) : Prop where
  /-- pixels run eastward and southward -/
  pw : 0 < c.r.gt1
  ph : c.r.gt5 < 0
  someRows : 0 < c.r.yDim
  someCols : 0 < c.r.xDim
  demRows : c.dem.rows = c.r.yDim
  demCols : c.dem.cols = c.r.xDim
  grid : c.lr = c.r
  landRows : c.lcv.rows = c.r.yDim
  landCols : c.lcv.cols = c.r.xDim
  sizes : c.pixelSizes c.r = .ok (xm, ym)
  gwPos : 0 < gridWidth xm ym
  /-- grids coarser than 100 m are the subject of C70 -/
  gwFine : gridWidth xm ym ≤ 100
  /-- the tile is not taken for empty -/
  notEmpty : c.checksum (cutDem c.r c.dem c.r.area 0) ≠ 0

/-- The pixel of a file is not subject to the slope, or subject to it in the same way as its counterpart: the sizes in
metres of the two pixels are the same, and the heading of the ground, where it matters, is not exactly on the boundary
of two sectors.  `e` are the elevations, `(i, j)` the pixel and `(i', j')` its counterpart. -/
def SameGround (e xm ym : Grid ℝ) (i j i' j' : ℕ) : Prop :=
  xm.val i' j' = xm.val i j ∧ ym.val i' j' = ym.val i j ∧ HeadingClear e xm ym i j

/-- The land cover, 0 where it has no data. -/
def Inputs.land (c : Inputs) : Grid ℤ := c.lcv.map (·.getD 0)

end WindMult
