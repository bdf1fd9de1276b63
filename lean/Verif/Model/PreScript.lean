import Verif.Model.PreProcess
import Verif.Model.ConfigText

/-!
# The script `pre_process.py` from its configuration to its files (`/repo/pre_process.py` 197-219)
-/

set_option autoImplicit false

namespace WindMult

/-- A file as the script sees it (`/repo/pre_process.py` 197-219): a text (the configuration), a shape file with its
features (some without geometry), a shape file written by the script (features with their code `CAT`; its other
attributes are left out), a raster. -/
inductive PreFile
  | text (chars : List Char)
  | shapes (features : List (ShpAttr × Option Region))
  | coded (features : List (Region × ℕ))
  | raster (info : RasterInfo ℝ) (cells : Grid ℝ)

/-- The files by name (`/repo/pre_process.py` 197-219). -/
abbrev PreDisk := String → Option PreFile

/-- A file is written (`/repo/utilities/shapefiles.py` 30, `/repo/pre_process.py` 70): one of the same name is
replaced. -/
def PreDisk.write (disk : PreDisk) (name : String) (f : PreFile) : PreDisk :=
  fun n => if n = name then some f else disk n

/-- What the script takes from the configuration (`/repo/pre_process.py` 202-213). -/
structure PreSettings where
  settlementData : String
  settlementCat : String
  landUseData : String
  landUseCat : String
  cropMask : String
  outShapes : String
  outRaster : String
  topo : String

/-- Reading the configuration (`/repo/pre_process.py` 199-213); `disk arg` is the file given with `-c`, `st` the
configuration after the import of `/repo/utilities/config.py`.  A file that is no text is an error. -/
def preSettings (disk : PreDisk) (arg : String) (st : CfgState) : Except PyErr PreSettings := do
  let st ← match disk arg with
    | none => setConfigText none st
    | some (.text t) => setConfigText (some t) st
    | _ => .error .valueError
  let sd ← configGet st "Preprocessing" "settlement_data"
  let sc ← configGet st "Preprocessing" "settlement_cat"
  let ld ← configGet st "Preprocessing" "land_use_data"
  let lc ← configGet st "Preprocessing" "land_use_cat"
  let mask ← configGet st "Preprocessing" "crop_mask"
  let os ← configGet st "Preprocessing" "output_shapefile"
  let or ← configGet st "Preprocessing" "output_rasterized"
  let topo ← configGet st "Preprocessing" "input_topo"
  let topo ← if topo = "True" then configGet st "inputValues" "dem_data" else .ok topo
  .ok ⟨sd, sc, ld, lc, mask, os, or, topo⟩

/-- `shp_file.read` (`/repo/utilities/shapefiles.py` 19-28): features without geometry are skipped.  Anything that is
no shape file is an error of fiona (here `osError`).  A shape file of the script can be read, too; its attributes
are not modelled, so this is left out (also an error here). -/
def readShapes (disk : PreDisk) (name : String) : Except PyErr (List (ShpAttr × Region)) :=
  match disk name with
  | some (.shapes l) => .ok (l.filterMap fun f => f.2.map fun g => (f.1, g))
  | _ => .error .osError

/-- The script (`/repo/pre_process.py` 197-219): how it ends, and the files afterwards.  `query` and `finish` as in
`PreCfg`.  The mask is read (140-142) after the settlements are dissolved; in the model before.  `rasterize` reads the
shape file that has just been written (48); a DEM that cannot be opened is an `AttributeError` (51), here
`runtimeError`.  The log file `shapefile_converter.log` is left out. -/
noncomputable def preScript (query : List Region → Region → List ℕ) (finish : ℕ → List ℕ) (arg : String)
    (st : CfgState) (disk : PreDisk) : Except PyErr Unit × PreDisk :=
  let features := do
    let s ← preSettings disk arg st
    let sett ← readShapes disk s.settlementData
    let land ← readShapes disk s.landUseData
    let mask ← if s.cropMask = "None" then .ok none
      else do .ok (some ((← readShapes disk s.cropMask).map Prod.snd))
    let out ← preProcess ⟨sett, s.settlementCat, land, s.landUseCat, mask, query, finish⟩
    .ok (s, out)
  match features with
  | .error e => (.error e, disk)
  | .ok (s, out) =>
    let disk1 := disk.write s.outShapes (.coded out)
    match disk1 s.topo with
    | some (.raster r _) =>
      let g := rasterize r out
      (.ok (), disk1.write s.outRaster (.raster r ⟨g.rows, g.cols, fun i j => (g.val i j : ℝ)⟩))
    | _ => (.error .runtimeError, disk1)

end WindMult
