import Verif.Model.PreProcess
import Verif.Model.Reproject
import Verif.Model.Metadata

/-!
# The command-line tool `rasterize.py` (`/repo/rasterize.py`)
-/

set_option autoImplicit false

namespace WindMult

/-- A file as the tool sees it (`/repo/rasterize.py` 32-52).  A raster: its grid, its values and its no-data value.
A shape file: the names of its fields and its features, each with its values and its geometry; only fields of
numbers matter here, and null values are not modelled.  Anything else is not a data set for GDAL, OGR and fiona. -/
inductive GeoFile
  | raster (info : RasterInfo ℝ) (cells : Grid ℝ) (noData : Option ℝ)
  | shapes (fields : List String) (features : List ((String → ℕ) × Region))
  | other (bytes : List ℕ)

/-- The files by name (`/repo/rasterize.py` 32-52). -/
abbrev GeoDisk := List Char → Option GeoFile

/-- A file is written (`/repo/rasterize.py` 37, 46, 48; `/repo/pre_process.py` 70): one of the same name is replaced.
What the libraries keep beside a data set (`.aux.xml` files) is left out. -/
def GeoDisk.write (disk : GeoDisk) (name : List Char) (f : GeoFile) : GeoDisk :=
  fun n => if n = name then some f else disk n

/-- The arguments (`/repo/rasterize.py` 10-26). -/
structure RasterizeArgs where
  input : List Char
  attr : String
  topography : List Char
  crop : Option (List Char)

/-- The cutline of `gdal.Warp` (`/repo/rasterize.py` 39, 50): all features of the file together; GDAL reports an error
if there is no such file or no feature in it. -/
def cutline (f : Option GeoFile) : Option Region :=
  match f with
  | some (.shapes _ (g :: gs)) => some (Region.unionAll ((g :: gs).map Prod.snd))
  | _ => none

open Classical in
/-- `gdal.Warp(dst, src, cutlineDSName=mask, cropToCutline=True, dstNodata=0)` (`/repo/rasterize.py` 37-41, 48-52).
What GDAL does is assumed: `cut` gives the grid of the result; a pixel whose centre is in the cutline takes the value
of the source pixel that contains it (nothing where that is no data), all others are 0.  On an error GDAL returns
nothing and writes nothing; the script does not look at the returned value (exceptions of GDAL are not switched on). -/
noncomputable def warpCrop (cut : RasterInfo ℝ → Region → RasterInfo ℝ) (disk : GeoDisk) (dst src mask : List Char) :
    GeoDisk :=
  match disk src, cutline (disk mask) with
  | some (.raster r cells nd), some m =>
    let g := reprojectNearest r ⟨cells.rows, cells.cols, fun i j =>
      if nd = some (cells.val i j) then none else some (cells.val i j)⟩ (cut r m) 0
    disk.write dst (.raster (cut r m) ⟨g.rows, g.cols, fun i j =>
      if ((cut r m).gt0 + (j + 1 / 2) * (cut r m).gt1, (cut r m).gt3 + (i + 1 / 2) * (cut r m).gt5) ∈ m
      then g.val i j else 0⟩ (some 0))
  | _, _ => disk

/-- The file that `rasterize` writes (`/repo/pre_process.py` 47-80, called in `/repo/rasterize.py` 46): `rasterize` of
`Model/PreProcess.lean` with the field `CAT`.  Without that field GDAL reports an error and the raster stays 0
(assumed).  Values above 65535 (type UInt16, 71) are not modelled. -/
noncomputable def catRaster (r : RasterInfo ℝ) (fields : List String) (features : List ((String → ℕ) × Region)) :
    GeoFile :=
  let g := rasterize r (if "CAT" ∈ fields then features.map fun f => (f.2, f.1 "CAT") else [])
  .raster r ⟨g.rows, g.cols, fun i j => (g.val i j : ℝ)⟩ (some 0)

/-- The name of the cropped elevations (`/repo/rasterize.py` 34-35). -/
def cropName (topography : List Char) : List Char :=
  splitextRoot topography ++ "_crop".toList ++ splitextExt topography

/-- The script (`/repo/rasterize.py` 29-53): how it ends and the files afterwards.  `--crop ''` is no crop (33, 47).
`read` (32) fails if the input is no shape file.  A DEM that cannot be opened is an `AttributeError` in `rasterize`
(`/repo/pre_process.py` 50), here `runtimeError`.  The printing (30) is left out, and that `read` (32) skips features
without geometry (nothing it reads is used). -/
noncomputable def rasterizeTool (cut : RasterInfo ℝ → Region → RasterInfo ℝ) (a : RasterizeArgs) (disk : GeoDisk) :
    Except PyErr Unit × GeoDisk :=
  match disk a.input with
  | some (.shapes _ _) =>
    let mask := a.crop.filter (· ≠ [])
    let topofile := if mask.isSome then cropName a.topography else a.topography
    let disk1 := match mask with
      | some m => warpCrop cut disk topofile a.topography m
      | none => disk
    match disk1 a.input, disk1 topofile with
    | some (.shapes fields features), some (.raster r _ _) =>
      let disk2 := disk1.write "test.tiff".toList (catRaster r fields features)
      match mask with
      | some m => (.ok (), warpCrop cut disk2 "test_crop.tiff".toList "test.tiff".toList m)
      | none => (.ok (), disk2)
    | _, _ => (.error .runtimeError, disk1)
  | _ => (.error .osError, disk)

end WindMult
