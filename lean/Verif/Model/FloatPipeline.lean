import Verif.Model.FloatDriver
import Verif.Model.FloatSlope
import Verif.Model.FloatTopo
import Verif.Model.FloatDigits

/-!
# One tile from the input rasters to the converted GeoTIFF, with rounded arithmetic

As `Model/Pipeline.lean`, with the rounded steps of `Model/FloatDriver.lean`, `Model/FloatShield.lean`,
`Model/FloatSlope.lean` and `Model/FloatTopo.lean`.  The arithmetic on coordinates (extents, clipping) is exact here;
what happens when it is not is said in C06, C07, C57 and C87.
-/

set_option autoImplicit false

namespace WindMult
variable {u w : ℝ}

/-- `outdata[data == category] = Ms / 100.` (`/repo/shielding/shield_mult.py` 209-218): the quotient is rounded by `W`
and stored in the `float32` array by `S`; see `class2msCell`.  Writing to the temporary `float32` raster and reading
it again changes nothing. -/
noncomputable def class2msCellFl (S : FpRound u) (W : FpRound w) (nodata : Option ℤ) (table : List (ℤ × ℝ)) (cat : ℤ) :
    Option ℝ :=
  let data := if nodata = some cat then -99 else cat
  let out := table.foldl (fun out row => if data = row.1 then S.rnd (W.rnd (row.2 / 100)) else out) (1 : ℝ)
  if data = -99 then none else some out

/-- `terrain_class2ms_orig` (`/repo/shielding/shield_mult.py` 167-241) on the array. -/
noncomputable def class2msFl (S : FpRound u) (W : FpRound w) (nodata : Option ℤ) (table : List (ℤ × ℝ))
    (data : Grid ℤ) : Grid (Option ℝ) :=
  data.map (class2msCellFl S W nodata table)

/-- The direction loop of `convo_combine` (`/repo/shielding/shield_mult.py` 292-330), as `convoCombineLoop`. -/
noncomputable def convoCombineLoopFl (S : FpRound u) (W : FpRound w) (kernelSize : ℤ) (slope : Grid (Option ℝ))
    (aspect : Grid ℕ) (clip : Grid (Option ℝ) → Grid (Option ℝ)) :
    List Dir → Grid (Option ℝ) → List (Dir × Grid (Option ℝ))
  | [], _ => []
  | d :: ds, data =>
    if 0 < kernelSize then
      let result := combineFl S W d (blurImageFl S W data (kernFl W d kernelSize.toNat)) slope aspect
      (d, clip result) :: convoCombineLoopFl S W kernelSize slope aspect clip ds data
    else
      let result := combineFl S W d data slope aspect
      (d, clip result) :: convoCombineLoopFl S W kernelSize slope aspect clip ds result

/-- `convo_combine` (`/repo/shielding/shield_mult.py` 244-330); `Q` rounds the quotient in the kernel size. -/
noncomputable def convoCombineFl (S : FpRound u) (W : FpRound w) (Q : FpRound u) (gw : ℝ) (data slope : Grid (Option ℝ))
    (aspect : Grid ℕ) (clip : Grid (Option ℝ) → Grid (Option ℝ)) : List (Dir × Grid (Option ℝ)) :=
  convoCombineLoopFl S W (kernelSizeFl Q gw) slope aspect clip Dir.terrainOrder data

/-- `data_spacing` (`/repo/topographic/topo_mult.py` 87-90): square root and product are rounded. -/
noncomputable def spacingFl (fl : ℝ → ℝ) (d : Dir) (cellsize : ℝ) : ℝ :=
  if d.isCardinal then cellsize else fl (cellsize * fl (√2))

/-- The direction loop of `topomult` (`/repo/topographic/topo_mult.py` 84-151), as `topomult`. -/
noncomputable def topomultFl (fl : ℝ → ℝ) (dem : Grid (Option ℝ)) (cellsize xLeft yUpper : ℝ)
    (clip : Grid (Option ℝ) → Grid (Option ℝ)) :
    List Dir → List (Dir × Grid (Option ℝ)) → List (Dir × Grid (Option ℝ)) × Except PyErr Unit
  | [], saved => (saved, .ok ())
  | d :: ds, saved =>
    match topoDirFl fl dem (spacingFl fl d cellsize) xLeft yUpper d with
    | .error e => (saved, .error e)
    | .ok g => topomultFl fl dem cellsize xLeft yUpper clip ds (saved ++ [(d, clip g)])

/-- The number formats of a run and its library functions.  `terr` are the formats of the terrain step and of the cell
size; `ms` that of the shielding arrays; `wide` and `trig` those of slope and aspect; the topographic step computes
with `P` binary digits (see `roundDigits`); `file` is the format of the multiplier files; `tree` is the order in which
`np.mean` adds up an array of a given shape. `/repo/all_multipliers.py` 367-427. -/
structure TileFp where
  terr : TerrainFp (1 / 2 ^ 24) (1 / 2 ^ 53)
  ms : FpRound (1 / 2 ^ 24)
  wide : FpRound (1 / 2 ^ 53)
  trig : FpTrig (1 / 2 ^ 53)
  P : ℕ
  file : FpRound (1 / 2 ^ 24)
  tree : ℕ → ℕ → SumTree

/-- `gridwidth`, `cellsize`: `0.5 * (np.mean(x_m_array) + np.mean(y_m_array))` of the stored pixel sizes
(`/repo/terrain/terrain_mult.py` 67, `/repo/shielding/shield_mult.py` 283, `/repo/topographic/topo_mult.py` 75); the
same in all three steps. -/
noncomputable def TileFp.gridWidth (N : TileFp) (xm ym : Grid ℝ) : ℝ :=
  gridWidthFl N.terr.sum N.terr.quot N.terr.store (N.tree xm.rows xm.cols) xm ym

/-- `cut_dem` and `multipliers_calculate` for one tile (`/repo/all_multipliers.py` 311-427), as `tileStep`, with
rounded arithmetic.  The tables of `c` are those read from the files, and `c.pixelSizes` gives the arrays as stored.
The cell size of the topographic step is rounded to the format in which that step computes. -/
noncomputable def tileStepFl (N : TileFp) (c : Inputs) (EB E : Extent ℝ) : TileFiles × Except PyErr Unit :=
  let info := clipInfo c.r EB
  let dem := cutDem c.r c.dem EB 0
  if c.checksum dem = 0 then (⟨[], [], []⟩, .ok ())
  else
    match c.pixelSizes info with
    | .error e => (⟨[], [], []⟩, .error e)
    | .ok (xm, ym) =>
      let land := cutLandcover c.lr c.lcv info 0
      let gw := N.gridWidth xm ym
      let clip := fun g => clipArray g info.gt0 (-info.gt3) info.gt1 (-info.gt5) E
      match terrainFl N.terr gw land c.terrainTable clip with
      | (mz, .error e) => (⟨mz, [], []⟩, .error e)
      | (mz, .ok ()) =>
        let sa := fun i j => slopeAspectFl N.wide N.trig (dem.map some) |info.gt1| |info.gt5| (xm.val i j)
          (ym.val i j) i j
        let ms := convoCombineFl N.ms N.wide N.terr.quot gw (class2msFl N.ms N.wide none c.shieldTable land)
          ⟨dem.rows, dem.cols, fun i j => (sa i j).1⟩ ⟨dem.rows, dem.cols, fun i j => (sa i j).2⟩ clip
        match topomultFl (roundDigits N.P) (dem.map some) (roundDigits N.P gw) info.gt0 (-info.gt3) clip
            Dir.topoOrder [] with
        | (mt, res) => (⟨mz, ms, mt⟩, res)

/-- A multiplier file as the converter reads it back, as `savedFile`: the numbers are stored in the format of the file
(variable type `f`, `/repo/utilities/nctools.py` 393). -/
noncomputable def savedFileFl (R : FpRound u) (coords : List ℝ × List ℝ) (saved : List (Dir × Grid (Option ℝ)))
    (d : Dir) : Option (Raster (NanNum (Fl R)) (List ℝ × List ℝ)) :=
  (saved.lookup d).map fun g => ⟨g.map fun x => toNanNum (x.map fun v => ⟨R.rnd v⟩), coords⟩

/-- The 24 multiplier files of a tile (`/repo/utilities/convert.py` 113-117), as `tileFiles`. -/
noncomputable def tileFilesFl (N : TileFp) (c : Inputs) (EB E : Extent ℝ) (m : Mult) (d : Dir) :
    Option (Raster (NanNum (Fl N.file)) (List ℝ × List ℝ)) :=
  let coords := getLatLon E (clipInfo c.r EB).gt1 (-(clipInfo c.r EB).gt5)
  match m with
  | .mz => savedFileFl N.file coords (tileStepFl N c EB E).1.mz d
  | .ms => savedFileFl N.file coords (tileStepFl N c EB E).1.ms d
  | .mt => savedFileFl N.file coords (tileStepFl N c EB E).1.mt d

end WindMult
