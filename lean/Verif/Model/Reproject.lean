import Verif.Model.TileGrid

/-!
# Cutting the input rasters for a tile (`/repo/all_multipliers.py` 311-365, 586-673)
-/

set_option autoImplicit false

namespace WindMult
variable {K : Type} [Field K] [LinearOrder K] [IsStrictOrderedRing K] [FloorRing K]

/-- `gdal.ReprojectImage(src, dst, proj, proj)` between rasters of the same projection, nearest
neighbour (`/repo/all_multipliers.py` 361, 662).  What GDAL does is assumed: every destination pixel
takes the value of the source pixel that contains its centre.  Where there is no such pixel, or it
holds the source's no-data value (`none`), the destination keeps what it was created with; `fill`
stands for that (0 for a new file). -/
def reprojectNearest {α : Type} (src : RasterInfo K) (cells : Grid (Option α)) (dst : RasterInfo K)
    (fill : α) : Grid α where
  rows := dst.yDim
  cols := dst.xDim
  val := fun i j =>
    let x := dst.gt0 + ((j : K) + 1 / 2) * dst.gt1
    let y := dst.gt3 + ((i : K) + 1 / 2) * dst.gt5
    let c := ⌊(x - src.gt0) / src.gt1⌋
    let r := ⌊(y - src.gt3) / src.gt5⌋
    if 0 ≤ c ∧ c < src.xDim ∧ 0 ≤ r ∧ r < src.yDim then (cells.val r.toNat c.toNat).getD fill
    else fill

/-- Size and geotransform of the file made by `clip_dataset` (`/repo/all_multipliers.py` 347-357):
`pixelwidth` and `pixelheight` are those of the DEM (`open_dem`, 302-304), so the last entry is
`-(-gt5)`. -/
def clipInfo (r : RasterInfo K) (extent : Extent K) : RasterInfo K where
  xDim := (around ((extent.xEnd - extent.xStart) / r.gt1)).toNat
  yDim := (around ((extent.yStart - extent.yEnd) / (-r.gt5))).toNat
  gt0 := extent.xStart
  gt1 := r.gt1
  gt3 := extent.yStart
  gt5 := -(-r.gt5)

/-- `cut_dem` and `clip_dataset` (`/repo/all_multipliers.py` 311-365): the DEM tile.  The no-data
value is not set on the new file, so the cells are plain numbers.  The data type (`Int32` or
`Float32`) is added in `Model/DataTypes.lean`; a negative size would be an error of GDAL and does not occur (C78). -/
def cutDem {α : Type} (r : RasterInfo K) (dem : Grid (Option α)) (extent : Extent K) (fill : α) :
    Grid α :=
  reprojectNearest r dem (clipInfo r extent) fill

/-- `reproject_dataset(lcv, dem_tile, …)` (`/repo/all_multipliers.py` 587-673, called in 398): the
land-cover tile on the grid of the DEM tile, which the caller passes as an open data set.  The
projections are assumed to be the same. -/
def cutLandcover {α : Type} (lcv : RasterInfo K) (cells : Grid (Option α)) (demTile : RasterInfo K)
    (fill : α) : Grid α :=
  reprojectNearest lcv cells demTile fill

end WindMult
