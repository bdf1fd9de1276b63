import Verif.Model.Reproject
import Verif.Model.GeoClip
import Verif.Model.Terrain
import Verif.Model.TerrainFormula
import Verif.Model.SlopeAspect
import Verif.Model.TopoGrid
import Verif.Model.Convert

/-!
# One tile from the input rasters to the converted GeoTIFF

Puts the steps of `multipliers_calculate` (`/repo/all_multipliers.py` 367-427) together, over ℝ.
-/

set_option autoImplicit false

namespace WindMult

/-- What a run reads: DEM and land cover (cells without data are `none`), the two tables of the
configuration, and two functions that are parameters here: the pixel-size grids in metres of a data
set (`get_pixel_size_grids`, `/repo/utilities/get_pixel_size_grid.py` 114-155, the subject of
`Model/Blrb.lean`; sizes that are NaN are left out) and GDAL's checksum of a band. -/
structure Inputs where
  r : RasterInfo ℝ
  dem : Grid (Option ℝ)
  lr : RasterInfo ℝ
  lcv : Grid (Option ℤ)
  terrainTable : List (TerrainRow ℤ ℝ)
  shieldTable : List (ℤ × ℝ)
  pixelSizes : RasterInfo ℝ → Except PyErr (Grid ℝ × Grid ℝ)
  checksum : Grid ℝ → ℕ

/-- `np.mean` of an array. `/repo/terrain/terrain_mult.py` 67, `/repo/shielding/shield_mult.py` 283,
`/repo/topographic/topo_mult.py` 75. -/
noncomputable def Grid.mean (g : Grid ℝ) : ℝ := g.cells.sum / ((g.rows * g.cols : ℕ) : ℝ)

/-- `gridwidth`, `cellsize`: `0.5 * (np.mean(x_m_array) + np.mean(y_m_array))`
(`/repo/terrain/terrain_mult.py` 67, `/repo/shielding/shield_mult.py` 283,
`/repo/topographic/topo_mult.py` 75). -/
noncomputable def gridWidth (xm ym : Grid ℝ) : ℝ := 1 / 2 * (xm.mean + ym.mean)

/-- The multiplier arrays saved for a tile, in the order of saving. `/repo/terrain/terrain_mult.py` 149,
`/repo/shielding/shield_mult.py` 328, `/repo/topographic/topo_mult.py` 148. -/
structure TileFiles where
  mz : List (Dir × Grid (Option ℝ))
  ms : List (Dir × Grid (Option ℝ))
  mt : List (Dir × Grid (Option ℝ))

/-- `cut_dem` and `multipliers_calculate` for one tile (`/repo/all_multipliers.py` 311-427): what is
saved and how the computation ended.  `EB` and `E` are the tile's extents with and without buffer.
The DEM tile, the land-cover tile and the shielding raster have the same size and geotransform
(`info`), so their pixel-size grids are the same; they are computed once here.  The tile files have
no no-data value (`clip_dataset` and `reproject_dataset` set none), so the DEM is read as plain
numbers and `terrain_class2ms_orig` gets `none`.  The data types of the rasters are
added in `Model/DataTypes.lean`; the re-reading of the shielding raster as float32 is not modelled. -/
noncomputable def tileStep (c : Inputs) (EB E : Extent ℝ) : TileFiles × Except PyErr Unit :=
  let info := clipInfo c.r EB
  let dem := cutDem c.r c.dem EB 0
  if c.checksum dem = 0 then (⟨[], [], []⟩, .ok ())
  else
    match c.pixelSizes info with
    | .error e => (⟨[], [], []⟩, .error e)
    | .ok (xm, ym) =>
      let land := cutLandcover c.lr c.lcv info 0
      let gw := gridWidth xm ym
      let clip := fun g => clipArray g info.gt0 (-info.gt3) info.gt1 (-info.gt5) E
      match terrain mzFormula gw land c.terrainTable clip with
      | (mz, .error e) => (⟨mz, [], []⟩, .error e)
      | (mz, .ok ()) =>
        let sa := fun i j => slopeAspect (dem.map some) |info.gt1| |info.gt5| (xm.val i j)
          (ym.val i j) i j
        let ms := convoCombine gw (class2ms none c.shieldTable land)
          ⟨dem.rows, dem.cols, fun i j => (sa i j).1⟩ ⟨dem.rows, dem.cols, fun i j => (sa i j).2⟩
          clip
        match topomult (dem.map some) gw (√2) info.gt0 (-info.gt3) clip Dir.topoOrder [] with
        | (mt, res) => (⟨mz, ms, mt⟩, res)

/-- NaN of the arrays as NaN of the converter. `/repo/utilities/convert.py` 126-128. -/
def toNanNum {K : Type} : Option K → NanNum K
  | none => .nan
  | some x => .num x

/-- A multiplier file as the converter reads it back: the array and, standing for the geotransform
that GDAL derives from them, the coordinate vectors saved with it
(`save_multiplier`, `/repo/utilities/nctools.py` 290-375; `lon, lat` from `get_lat_lon`).  No files of
an earlier run are assumed to be there. -/
def savedFile (coords : List ℝ × List ℝ) (saved : List (Dir × Grid (Option ℝ))) (d : Dir) :
    Option (Raster (NanNum ℝ) (List ℝ × List ℝ)) :=
  (saved.lookup d).map fun g => ⟨g.map toNanNum, coords⟩

/-- The 24 multiplier files of a tile (`/repo/utilities/convert.py` 113-117). -/
noncomputable def tileFiles (c : Inputs) (EB E : Extent ℝ) (m : Mult) (d : Dir) :
    Option (Raster (NanNum ℝ) (List ℝ × List ℝ)) :=
  let coords := getLatLon E (clipInfo c.r EB).gt1 (-(clipInfo c.r EB).gt5)
  match m with
  | .mz => savedFile coords (tileStep c EB E).1.mz d
  | .ms => savedFile coords (tileStep c EB E).1.ms d
  | .mt => savedFile coords (tileStep c EB E).1.mt d

end WindMult
