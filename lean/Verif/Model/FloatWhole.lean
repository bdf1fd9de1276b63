import Verif.Model.FloatRun
import Verif.Model.FloatGeo

/-!
# A whole run with rounded arithmetic, also in the geometry of the tiles

As `Model/FloatRun.lean`, with the limits, extents, names, clipped arrays and coordinates of the tiles computed as in
`Model/FloatGeo.lean`.
-/

set_option autoImplicit false

namespace WindMult

namespace TileGrid

/-- `get_startcord` (`/repo/all_multipliers.py` 191-204). -/
noncomputable def getStartcordFl (R : Rounding) (g : TileGrid ℝ) (k : ℕ) : Except PyErr (ℝ × ℝ) := do
  let l ← g.getGridlimit k
  return (R.rnd (g.xLeft + R.rnd (l.x1 * g.pixelwidth)), R.rnd (g.yUpper + R.rnd (l.y1 * g.pixelheight)))

/-- `get_tilename` (`/repo/all_multipliers.py` 206-219). -/
noncomputable def getTilenameFl (R : Rounding) (str : ℝ → List Char) (g : TileGrid ℝ) (k : ℕ) :
    Except PyErr (List Char) := do
  let s ← g.getStartcordFl R k
  return ['e'] ++ (str s.1).take 8 ++ ['s'] ++ (str s.2).take 7

/-- `get_tile_extent_buffer` (`/repo/all_multipliers.py` 221-239). -/
noncomputable def getTileExtentBufferFl (R : Rounding) (g : TileGrid ℝ) (k : ℕ) : Except PyErr (Extent ℝ) := do
  let l ← g.getGridlimitBuffer k
  return g.extentFl R l

/-- `get_tile_extent` (`/repo/all_multipliers.py` 241-259). -/
noncomputable def getTileExtentFl (R : Rounding) (g : TileGrid ℝ) (k : ℕ) : Except PyErr (Extent ℝ) := do
  let l ← g.getGridlimit k
  return g.extentFl R l

/-- `get_tiles`, `get_tileinfo` (`/repo/all_multipliers.py` 502-529), as `getTiles`. -/
noncomputable def getTilesFl (R : Rounding) (str : ℝ → List Char) (g : TileGrid ℝ) :
    Except PyErr (List (List Char × Extent ℝ × Extent ℝ)) :=
  (List.range g.numTiles).mapM fun t => do
    let n ← g.getTilenameFl R str t
    let eb ← g.getTileExtentBufferFl R t
    let e ← g.getTileExtentFl R t
    return (n, eb, e)

end TileGrid

/-- `cut_dem` and `multipliers_calculate` for one tile (`/repo/all_multipliers.py` 311-427), as `tileStepFl`, with
sizes of the tile and offsets of its clipped part from rounded quotients.  Which land-cover pixel GDAL finds for the
centre of a cell is not rounded, but taken at the rounded corner of the tile. -/
noncomputable def tileStepGeo (R : Rounding) (N : TileFp) (c : Inputs) (EB E : Extent ℝ) :
    TileFiles × Except PyErr Unit :=
  let info := clipInfoFl R c.r EB
  let dem := cutDemFl R c.r c.dem EB 0
  if c.checksum dem = 0 then (⟨[], [], []⟩, .ok ())
  else
    match c.pixelSizes info with
    | .error e => (⟨[], [], []⟩, .error e)
    | .ok (xm, ym) =>
      let land := cutLandcover c.lr c.lcv info 0
      let gw := N.gridWidth xm ym
      let clip := fun g => clipArrayFl R g info.gt0 (-info.gt3) info.gt1 (-info.gt5) E
      match terrainFl N.terr gw land c.terrainTable clip with
      | (mz, .error e) => (⟨mz, [], []⟩, .error e)
      | (mz, .ok ()) =>
        let sa := fun i j => slopeAspectFl N.wide N.trig (dem.map some) |info.gt1| |info.gt5| (xm.val i j)
          (ym.val i j) i j
        let ms := convoCombineFl N.ms N.wide N.terr.quot gw (class2msFl N.ms N.wide none c.shieldTable land)
          ⟨dem.rows, dem.cols, fun i j => (sa i j).1⟩ ⟨dem.rows, dem.cols, fun i j => (sa i j).2⟩ clip
        match topomultFl (roundDigits N.P) (dem.map some) (roundDigits N.P gw) info.gt0 (-info.gt3) clip
            Dir.topoOrder [] with
        | (mt, res) => (⟨mz, ms, mt⟩, res)

/-- The 24 multiplier files of a tile (`/repo/utilities/convert.py` 113-117), as `tileFilesFl`, with the coordinates
that `get_lat_lon` computes (`/repo/utilities/nctools.py` 53-80). -/
noncomputable def tileFilesGeo (R : Rounding) (N : TileFp) (c : Inputs) (EB E : Extent ℝ) (m : Mult) (d : Dir) :
    Option (Raster (NanNum (Fl N.file)) (List ℝ × List ℝ)) :=
  let coords := getLatLonFl R E (clipInfoFl R c.r EB).gt1 (-(clipInfoFl R c.r EB).gt5)
  match m with
  | .mz => savedFileFl N.file coords (tileStepGeo R N c EB E).1.mz d
  | .ms => savedFileFl N.file coords (tileStepGeo R N c EB E).1.ms d
  | .mt => savedFileFl N.file coords (tileStepGeo R N c EB E).1.mt d

/-- The run (`/repo/all_multipliers.py` 756-777) on the inputs `c`, as `Inputs.runCfgFl`. -/
noncomputable def Inputs.runCfgGeo (R : Rounding) (N : TileFp) (c : Inputs) (out : List Char) (nW : ℕ)
    (tiles : List (List Char × Extent ℝ × Extent ℝ)) : RunCfg (NanNum (Fl N.file)) (List ℝ × List ℝ) where
  out := out
  tiles := tiles.map Prod.fst
  nW := nW
  empty := fun t =>
    match tiles.lookup t with
    | some (EB, _) => decide (c.checksum (cutDemFl R c.r c.dem EB 0) = 0)
    | none => true
  noLand := fun t =>
    match tiles.lookup t with
    | some (EB, E) => (tileStepGeo R N c EB E).1.mz.isEmpty
    | none => true
  files := fun t m d =>
    match tiles.lookup t with
    | some (EB, E) => (tileFilesGeo R N c EB E m d).getD ⟨⟨0, 0, fun _ _ => .nan⟩, ([], [])⟩
    | none => ⟨⟨0, 0, fun _ _ => .nan⟩, ([], [])⟩

end WindMult
