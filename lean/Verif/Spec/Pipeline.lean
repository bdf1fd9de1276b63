import Verif.Model.Pipeline
import Verif.Props.Tiles
import Verif.Props.GeoClip
import Verif.Props.Reproject
import Verif.Spec.Shield
import Verif.Spec.Ground
import Verif.Spec.Transect

/-!
# Vocabulary of the end-to-end specifications

Everything is said of the whole rasters; of the model only the types of the inputs, the limits and the
extents of a tile, and the size and geotransform of the tile files occur.
-/

set_option autoImplicit false

namespace WindMult

/-- `cat` is the land cover on the grid of the DEM: the category of the land-cover pixel under the
centre of each DEM pixel; 0 outside the land cover and where it has no data. -/
def IsLandcover (c : Inputs) (cat : Grid ℤ) : Prop :=
  cat.rows = c.r.yDim ∧ cat.cols = c.r.xDim ∧
  ∀ px py : ℕ, px < c.r.xDim → py < c.r.yDim →
    (∀ col row : ℕ, col < c.lr.xDim → row < c.lr.yDim →
      c.lr.PixelAt (c.r.lonCentre px) (c.r.latCentre py) col row →
      cat.val py px = (c.lcv.val row col).getD 0) ∧
    ((∀ col row : ℕ, col < c.lr.xDim → row < c.lr.yDim →
      ¬ c.lr.PixelAt (c.r.lonCentre px) (c.r.latCentre py) col row) → cat.val py px = 0)

/-- The elevations, 0 where the DEM has none. -/
def Inputs.elevation (c : Inputs) : Grid ℝ :=
  ⟨c.r.yDim, c.r.xDim, fun i j => (c.dem.val i j).getD 0⟩

/-- Terrain multiplier of ground of roughness length `z0` (metres). -/
noncomputable def roughnessMz (z0 : ℝ) : ℝ :=
  1.0762 - 0.2827 * Real.log (3.734 + 0.4554 * Real.log z0)

/-- Terrain multiplier of a category: that of the last row of the table with this category; 0 if there
is none. -/
noncomputable def classMz (table : List (TerrainRow ℤ ℝ)) (cat : ℤ) : ℝ :=
  match table.reverse.find? (fun row => row.category = cat) with
  | none => 0
  | some row => roughnessMz row.roughness

/-- The terrain multipliers that are averaged: 1 (water) where there is no class. -/
noncomputable def waterMz (table : List (TerrainRow ℤ ℝ)) (cat : Grid ℤ) : Grid ℝ :=
  cat.map fun k => if classMz table k = 0 then 1 else classMz table k

/-- Shielding of a category: the percentage of the last row of the table with this category, 1 if
there is none; unknown for the category -99. -/
noncomputable def classMs (table : List (ℤ × ℝ)) (cat : ℤ) : Option ℝ :=
  if cat = -99 then none
  else match table.reverse.find? (fun row => row.1 = cat) with
    | none => some 1
    | some row => some (row.2 / 100)

/-- Final shielding value: below 0.9 it is multiplied by 0.9, from 0.9 on it is squared. -/
noncomputable def finalMs (v : ℝ) : ℝ := if v < 0.9 then v * 0.9 else v ^ 2

/-- A line with the elevations rounded down to whole metres. -/
noncomputable def Line.wholeMetres (y : Line ℝ) : Line ℝ := ⟨y.size, fun i => (⌊y.val i⌋ : ℝ)⟩

/-- Topographic multiplier of point `p` of a line: the largest of 1 and what the hills that count
contribute.  The last point is special: out of reach of a hill in front of it, it gets what the hill
contributes one step before the start of the line. -/
def IsLineMultiplier (y : Line ℝ) (ds : ℝ) (p : ℕ) (x : ℝ) : Prop :=
  IsGreatest (insert 1 {t | ∃ v r, y.IsHill v r ∧
    hillCounts (y.val r - y.val v) (halfWidth v r ds) ds ∧
    t = if p + 1 = y.size ∧ r < p ∧ y.escarpment v r *
        (4 * max (0.36 * halfWidth v r ds) (0.4 * (y.val r - y.val v))) ≤ ((p : ℝ) - r) * ds
      then y.hillValue v r ds (-1) else y.hillValue v r ds p}) x

/-- Corrections of the topographic multiplier `x` of a cell of elevation `z`: values above 1 are
reduced; in Tasmania the elevation counts above 500 m. -/
noncomputable def adjustedMt (tasmania : Prop) [Decidable tasmania] (z x : ℝ) : ℝ :=
  let y := if x ≤ 1 then x else if x < 1.4 then x * (1.25 - 0.25 * x) else 0.9 * x
  if tasmania ∧ 500 < z then y * (1 + 0.00015 * z) else y

/-- `x` is the topographic multiplier before smoothing at integer coordinates of an elevation raster,
for points `ds` metres apart along the transects; 0 outside. -/
def IsRawMt (dem : Grid ℝ) (d : Dir) (ds : ℝ) (tasmania : Prop) [Decidable tasmania] (r c : ℤ)
    (x : ℝ) : Prop :=
  (InRaster dem.rows dem.cols r c → ∃ u n y, IsTransect dem.rows dem.cols d r c u n ∧
    IsLineMultiplier (transectLine (dem.map some) d r c u n).wholeMetres ds u y ∧
    x = adjustedMt tasmania (dem.val r.toNat c.toNat) y) ∧
  (¬ InRaster dem.rows dem.cols r c → x = 0)

/-- Distance between neighbouring points of a transect. -/
noncomputable def stepLength (d : Dir) (gw : ℝ) : ℝ :=
  if d.north = 0 ∨ d.east = 0 then gw else √2 * gw

/-- A tile of a run, with what has to hold for its multipliers to be computed as documented.
`L`, `B` are its limits without and with buffer, `E`, `EB` its extents, `xm`, `ym` the pixel sizes in
metres of its grid and `gw` their mean. -/
structure TileCase (c : Inputs) (up : ℝ) (k : ℕ) (L B : Limits) (E EB : Extent ℝ) (xm ym : Grid ℝ)
    (gw : ℝ) (cat : Grid ℤ) : Prop where
  /-- pixels run eastward and southward -/
  pw : 0 < c.r.gt1
  ph : c.r.gt5 < 0
  lw : 0 < c.lr.gt1
  lh : c.lr.gt5 < 0
  upPos : 0 ≤ up
  limits : (TileGrid.init up c.r).getGridlimit k = .ok L
  limitsB : (TileGrid.init up c.r).getGridlimitBuffer k = .ok B
  extent : (TileGrid.init up c.r).getTileExtent k = .ok E
  extentB : (TileGrid.init up c.r).getTileExtentBuffer k = .ok EB
  land : IsLandcover c cat
  sizes : c.pixelSizes (clipInfo c.r EB) = .ok (xm, ym)
  width : gw = gridWidth xm ym
  gwPos : 0 < gw
  sizesPos : ∀ i j : ℕ, (i : ℤ) < B.y2 - B.y1 → (j : ℤ) < B.x2 - B.x1 → 0 < xm.val i j ∧ 0 < ym.val i j
  /-- grids coarser than 100 m are the subject of C70 -/
  gwFine : gw ≤ 100
  /-- the buffer is 700 m (averaging distance and lag) and a cell -/
  bufferX : 700 / gw + 1 ≤ (TileGrid.init up c.r).xBuffer
  bufferY : 700 / gw + 1 ≤ (TileGrid.init up c.r).yBuffer
  /-- so is the height of the raster -/
  height : 700 / gw + 1 ≤ c.r.yDim
  /-- the tile is not taken for empty -/
  notEmpty : c.checksum (cutDem c.r c.dem EB 0) ≠ 0
  /-- there is land in the buffered tile -/
  someLand : ∃ px py : ℕ, B.Has px py ∧ 0 < classMz c.terrainTable (cat.val py px)
  /-- the formula of the terrain multiplier is defined for the roughness lengths of the table -/
  roughness : ∀ row ∈ c.terrainTable, 0 < row.roughness ∧
    0 < 3.734 + 0.4554 * Real.log row.roughness

end WindMult
