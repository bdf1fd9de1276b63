import Verif.Model.Pipeline
import Verif.Model.FloatDigits

/-!
# The data types of the tile rasters (`/repo/all_multipliers.py` 302-303, 343-346, 621-627)
-/

set_option autoImplicit false

namespace WindMult

/-- The types of GDAL's bands that `ReadAsArray().dtype` can name (`/repo/all_multipliers.py` 303, 622).  Complex types
and the 8- and 64-bit integers of newer versions of GDAL are left out. -/
inductive BandType
  | uint8
  | uint16
  | int16
  | uint32
  | int32
  | float32
  | float64
  deriving DecidableEq, Repr

/-- `if self.dem_type == 'int32': dst_type = GDT_Int32 else: dst_type = GDT_Float32` (`/repo/all_multipliers.py`
343-346) and the same for the land cover (624-627): the type of the tile made from a raster. -/
def BandType.tile (t : BandType) : BandType := if t = .int32 then .int32 else .float32

/-- An elevation as it is stored in the tile (`gdal.ReprojectImage`, `/repo/all_multipliers.py` 361): unchanged in an
`Int32` tile, whose source is of the same type, rounded to 24 binary digits in a `Float32` tile.  Elevations too large
or too small for the exponent of `float32` are left out. -/
noncomputable def BandType.stored (t : BandType) (x : ℝ) : ℝ := if t.tile = .int32 then x else roundDigits 24 x

/-- A land-cover code as it is stored in the tile (`gdal.ReprojectImage`, `/repo/all_multipliers.py` 662).  A whole
number rounded to 24 digits is a whole number, so the codes of the `Float32` tile are integers here as well; a code
that is not whole is left out. -/
noncomputable def BandType.storedCode (t : BandType) (n : ℤ) : ℤ :=
  if t.tile = .int32 then n else around (roundDigits 24 (n : ℝ))

/-- `tileStep` with the data types of the two rasters (`/repo/all_multipliers.py` 311-427).  The topographic step
assigns `np.nan` to the array of elevations as it was read (`/repo/topographic/topo_mult.py` 64-69).  In an array of
integers numpy has to convert NaN to an integer, which is a `ValueError`; this happens before the (empty) selection of
cells is looked at.  What numpy does here is an assumption.  `get_slope_aspect` converts the elevations to float before
its own assignment (`/repo/shielding/shield_mult.py` 112-119), so the shielding step does not fail. -/
noncomputable def tileStepTyped (demT lcvT : BandType) (c : Inputs) (EB E : Extent ℝ) : TileFiles × Except PyErr Unit :=
  let info := clipInfo c.r EB
  let dem := (cutDem c.r c.dem EB 0).map demT.stored
  if c.checksum dem = 0 then (⟨[], [], []⟩, .ok ())
  else
    match c.pixelSizes info with
    | .error e => (⟨[], [], []⟩, .error e)
    | .ok (xm, ym) =>
      let land := (cutLandcover c.lr c.lcv info 0).map lcvT.storedCode
      let gw := gridWidth xm ym
      let clip := fun g => clipArray g info.gt0 (-info.gt3) info.gt1 (-info.gt5) E
      match terrain mzFormula gw land c.terrainTable clip with
      | (mz, .error e) => (⟨mz, [], []⟩, .error e)
      | (mz, .ok ()) =>
        let sa := fun i j => slopeAspect (dem.map some) |info.gt1| |info.gt5| (xm.val i j)
          (ym.val i j) i j
        let ms := convoCombine gw (class2ms none c.shieldTable land)
          ⟨dem.rows, dem.cols, fun i j => (sa i j).1⟩ ⟨dem.rows, dem.cols, fun i j => (sa i j).2⟩
          clip
        if demT.tile = .int32 then (⟨mz, ms, []⟩, .error .valueError)
        else
          match topomult (dem.map some) gw (√2) info.gt0 (-info.gt3) clip Dir.topoOrder [] with
          | (mt, res) => (⟨mz, ms, mt⟩, res)

end WindMult
