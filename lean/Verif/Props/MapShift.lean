import Verif.Spec.MapShift
import Verif.Props.TileMirrorFalse

/-!
# C139: the same country further east or west
-/

set_option autoImplicit false
set_option linter.unusedSectionVars false

namespace WindMult
open Spec

/-! ### Tiles -/

section
variable {K : Type} [Field K] [LinearOrder K] [IsStrictOrderedRing K] [FloorRing K]

/-- **C139** (tiles) The map is cut into the same tiles wherever it lies: as many, of the same rows and columns, and
their areas move with the map. -/
theorem C139_tiles (up : K) (r : RasterInfo K) (east : K) :
    (TileGrid.init up (movedRaster east r)).numTiles = (TileGrid.init up r).numTiles ∧
    ∀ k, (TileGrid.init up (movedRaster east r)).getGridlimit k = (TileGrid.init up r).getGridlimit k ∧
      (TileGrid.init up (movedRaster east r)).getGridlimitBuffer k = (TileGrid.init up r).getGridlimitBuffer k ∧
      (TileGrid.init up (movedRaster east r)).getTileExtent k =
        ((TileGrid.init up r).getTileExtent k).map (movedExtent east) ∧
      (TileGrid.init up (movedRaster east r)).getTileExtentBuffer k =
        ((TileGrid.init up r).getTileExtentBuffer k).map (movedExtent east) := by
  have key : ∀ l, (TileGrid.init up (movedRaster east r)).extentOf l =
      movedExtent east ((TileGrid.init up r).extentOf l) := fun l => by
    simp only [TileGrid.extentOf, TileGrid.init, movedRaster, movedExtent, Extent.mk.injEq, and_true, true_and]
    constructor <;> ring
  have h1 : ∀ k, (TileGrid.init up (movedRaster east r)).getGridlimit k = (TileGrid.init up r).getGridlimit k :=
    fun k => rfl
  have h2 : ∀ k, (TileGrid.init up (movedRaster east r)).getGridlimitBuffer k =
    (TileGrid.init up r).getGridlimitBuffer k := fun k => rfl
  refine ⟨rfl, fun k => ⟨h1 k, h2 k, ?_, ?_⟩⟩
  · unfold TileGrid.getTileExtent
    rw [h1 k]
    cases (TileGrid.init up r).getGridlimit k with
    | error x => rfl
    | ok l => exact congrArg Except.ok (key l)
  · unfold TileGrid.getTileExtentBuffer
    rw [h2 k]
    cases (TileGrid.init up r).getGridlimitBuffer k with
    | error x => rfl
    | ok l => exact congrArg Except.ok (key l)

theorem reproject_moved {α : Type} (src dst : RasterInfo K) (cells : Grid (Option α)) (fill : α) (east : K) :
    reprojectNearest (movedRaster east src) cells (movedRaster east dst) fill =
      reprojectNearest src cells dst fill := by
  unfold reprojectNearest movedRaster
  simp only [Grid.mk.injEq, true_and]
  funext i j
  rw [show dst.gt0 + east + ((j : K) + 1 / 2) * dst.gt1 - (src.gt0 + east) =
    dst.gt0 + ((j : K) + 1 / 2) * dst.gt1 - src.gt0 by ring]

theorem clipInfo_moved (r : RasterInfo K) (x : Extent K) (east : K) :
    clipInfo (movedRaster east r) (movedExtent east x) = movedRaster east (clipInfo r x) := by
  unfold clipInfo movedRaster movedExtent
  simp only [add_sub_add_right_eq_sub]

theorem clipArray_moved {α : Type} (g : Grid α) (xl yu pw ph : K) (x : Extent K) (east : K) :
    clipArray g (xl + east) yu pw ph (movedExtent east x) = clipArray g xl yu pw ph x := by
  unfold clipArray movedExtent
  simp only [add_sub_add_right_eq_sub]

/-- Only the side of 143° E and 40° S matters to the topographic step. -/
theorem topoDir_moved (dem : Grid (Option K)) (cs r2 xl xl' yu yu' : K) (d : Dir)
    (h : 143 < xl ∧ 40 < yu ↔ 143 < xl' ∧ 40 < yu') : topoDir dem cs r2 xl yu d = topoDir dem cs r2 xl' yu' d := by
  unfold topoDir topoRaw
  simp only [h]

theorem topomult_moved (dem : Grid (Option K)) (cs r2 xl xl' yu yu' : K) (clip : Grid (Option K) → Grid (Option K))
    (h : 143 < xl ∧ 40 < yu ↔ 143 < xl' ∧ 40 < yu') (ds : List Dir) (acc : List (Dir × Grid (Option K))) :
    topomult dem cs r2 xl yu clip ds acc = topomult dem cs r2 xl' yu' clip ds acc := by
  induction ds generalizing acc with
  | nil => rfl
  | cons d ds ih =>
    unfold topomult
    rw [topoDir_moved dem cs r2 xl xl' yu yu' d h]
    cases topoDir dem cs r2 xl' yu' d with
    | error x => rfl
    | ok g => exact ih _

end

/-! ### Pixel sizes -/

theorem vincDist_moved (fuel : ℕ) (f a p1 l1 p2 l2 l1' l2' : ℝ) (h : l2' - l1' = l2 - l1) :
    vincDist fuel f a p1 l1' p2 l2' = vincDist fuel f a p1 l1 p2 l2 := by
  unfold vincDist
  rw [h]

/-- **C139** (pixel sizes) The sizes in metres of the pixels are the same wherever the map lies on its parallels. -/
theorem C139_pixel_sizes (fuel : ℕ) (r : RasterInfo ℝ) (east : ℝ) :
    pixelSizes fuel (movedRaster east r) = pixelSizes fuel r := by
  have key : getPixelSize fuel (movedRaster east r) = getPixelSize fuel r := by
    funext x y
    unfold getPixelSize movedRaster
    simp only
    rw [vincDist_moved fuel earthF earthA ((r.gt3 + ((y : ℝ) + 1 / 2) * r.gt5) * radPerDeg)
        ((r.gt0 + (x : ℝ) * r.gt1) * radPerDeg) ((r.gt3 + ((y : ℝ) + 1 / 2) * r.gt5) * radPerDeg)
        ((r.gt0 + ((x : ℝ) + 1) * r.gt1) * radPerDeg) _ _ (by ring),
      vincDist_moved fuel earthF earthA ((r.gt3 + (y : ℝ) * r.gt5) * radPerDeg)
        ((r.gt0 + ((x : ℝ) + 1 / 2) * r.gt1) * radPerDeg) ((r.gt3 + ((y : ℝ) + 1) * r.gt5) * radPerDeg)
        ((r.gt0 + ((x : ℝ) + 1 / 2) * r.gt1) * radPerDeg) _ _ (by ring)]
  unfold pixelSizes
  rw [key]
  rfl

/-! ### The files of a tile -/

/-- **C139** *Full claim:* the same country further east or west has the same multipliers, with the longitudes moved.
False because of the correction of the topographic multiplier for Tasmania, which is made east of 143° E
(`C139_tasmania`).  *Proved:* every file of a tile for which the correction is made before and after the move, or
neither before nor after, has the same cells, and its longitudes are moved; the computation ends in the same way.
*Missing:* the tiles for which it is made only before or only after. -/
theorem C139_tile_partial (fuel : ℕ) (c : Inputs) (hc : c.pixelSizes = pixelSizes fuel) (east : ℝ) (EB E : Extent ℝ)
    (hT : CornerInTasmania (movedExtent east EB) ↔ CornerInTasmania EB) :
    tileStep (movedInputs east c) (movedExtent east EB) (movedExtent east E) = tileStep c EB E ∧
    ∀ m d, tileFiles (movedInputs east c) (movedExtent east EB) (movedExtent east E) m d =
      (tileFiles c EB E m d).map fun f => ⟨f.band, movedCoords east f.transform⟩ := by
  have hstep : tileStep (movedInputs east c) (movedExtent east EB) (movedExtent east E) = tileStep c EB E := by
    have e1 : clipInfo (movedInputs east c).r (movedExtent east EB) = movedRaster east (clipInfo c.r EB) :=
      clipInfo_moved _ _ _
    have e2 : cutDem (movedInputs east c).r (movedInputs east c).dem (movedExtent east EB) 0 =
        cutDem c.r c.dem EB 0 := by
      unfold cutDem
      rw [e1]
      exact reproject_moved _ _ _ _ _
    have e3 : cutLandcover (movedInputs east c).lr (movedInputs east c).lcv (movedRaster east (clipInfo c.r EB)) 0 =
        cutLandcover c.lr c.lcv (clipInfo c.r EB) 0 := reproject_moved _ _ _ _ _
    have e4 : (movedInputs east c).pixelSizes (movedRaster east (clipInfo c.r EB)) =
        c.pixelSizes (clipInfo c.r EB) := by
      show c.pixelSizes _ = _
      rw [hc]
      exact C139_pixel_sizes _ _ _
    have e5 : ∀ g : Grid (Option ℝ), clipArray g (movedRaster east (clipInfo c.r EB)).gt0
        (-(movedRaster east (clipInfo c.r EB)).gt3) (movedRaster east (clipInfo c.r EB)).gt1
        (-(movedRaster east (clipInfo c.r EB)).gt5) (movedExtent east E) =
        clipArray g (clipInfo c.r EB).gt0 (-(clipInfo c.r EB).gt3) (clipInfo c.r EB).gt1 (-(clipInfo c.r EB).gt5) E :=
      fun g => clipArray_moved _ _ _ _ _ _ _
    unfold CornerInTasmania movedExtent at hT
    simp only at hT
    have e6 := fun cs clip => topomult_moved ((cutDem c.r c.dem EB 0).map some) cs (√2)
      (movedRaster east (clipInfo c.r EB)).gt0 (clipInfo c.r EB).gt0
      (-(movedRaster east (clipInfo c.r EB)).gt3) (-(clipInfo c.r EB).gt3) clip (by
        simp only [movedRaster, clipInfo]
        rw [lt_neg (a := (40 : ℝ))]
        exact hT)
    unfold tileStep
    simp only [e1, e2, e3, e4, e5, e6]
    rfl
  refine ⟨hstep, fun m d => ?_⟩
  have hcoords : getLatLon (movedExtent east E) (clipInfo (movedInputs east c).r (movedExtent east EB)).gt1
      (-(clipInfo (movedInputs east c).r (movedExtent east EB)).gt5) =
      movedCoords east (getLatLon E (clipInfo c.r EB).gt1 (-(clipInfo c.r EB).gt5)) := by
    unfold getLatLon movedCoords movedExtent clipInfo movedInputs movedRaster
    simp only [add_sub_add_right_eq_sub, List.map_map, Prod.mk.injEq, and_true]
    refine List.map_congr_left fun x _ => ?_
    simp only [Function.comp]
    ring
  have hs : ∀ saved : List (Dir × Grid (Option ℝ)), ∀ q, savedFile (movedCoords east q) saved d =
      (savedFile q saved d).map fun f => ⟨f.band, movedCoords east f.transform⟩ := by
    intro saved q
    unfold savedFile
    cases saved.lookup d <;> rfl
  unfold tileFiles
  simp only [hstep, hcoords]
  cases m <;> exact hs _ _

/-! ### The combined GeoTIFF -/

section
variable {K T S : Type} [Zero K] [One K] [Mul K] [Max K]

theorem openOrOnes_moved (f : T → S) (nx ny : ℕ) (tr : Option T) (file : Option (Raster K T)) :
    openOrOnes nx ny (tr.map f) (file.map fun x => ⟨x.band, f x.transform⟩) =
      (openOrOnes nx ny tr file).map fun x => ⟨x.band, f x.transform⟩ := by
  cases file with
  | some x => rfl
  | none =>
    cases tr with
    | none => rfl
    | some t =>
      simp only [openOrOnes, Option.map_none, Option.map_some]
      cases writeArray (newBand nx ny : Grid K) ⟨nx, ny, fun _ _ => 1⟩ <;> rfl

theorem readBands_moved (f : T → S) (files : Mult → Dir → Option (Raster K T)) (nx ny : ℕ) (d : Dir) (ms : List Mult)
    (tr : Option T) :
    readBands (fun m d => (files m d).map fun x => ⟨x.band, f x.transform⟩) nx ny d ms (tr.map f) =
      (readBands files nx ny d ms tr).map fun x => (x.1, x.2.map f) := by
  induction ms generalizing tr with
  | nil => rfl
  | cons m ms ih =>
    unfold readBands
    rw [openOrOnes_moved]
    cases openOrOnes nx ny tr (files m d) with
    | error x => rfl
    | ok ds =>
      have := ih (some (tr.getD ds.transform))
      simp only [Except.map]
      rw [show some ((tr.map f).getD (f ds.transform)) = (some (tr.getD ds.transform)).map f by cases tr <;> rfl, this]
      cases readBands files nx ny d ms (some (tr.getD ds.transform)) <;> rfl

theorem directionLoop_moved (f : T → S) (files : Mult → Dir → Option (Raster K T)) (nx ny : ℕ) (ds : List Dir)
    (tr : Option T) :
    directionLoop (fun m d => (files m d).map fun x => ⟨x.band, f x.transform⟩) nx ny ds (tr.map f) =
      (directionLoop files nx ny ds tr).map fun x => (x.1, x.2.map f) := by
  induction ds generalizing tr with
  | nil => rfl
  | cons d ds ih =>
    unfold directionLoop
    rw [readBands_moved]
    cases readBands files nx ny d Mult.order tr with
    | error x => rfl
    | ok q =>
      simp only [Except.map]
      cases reduceMultiply q.1 with
      | error x => rfl
      | ok product =>
        simp only
        rw [ih q.2]
        cases directionLoop files nx ny ds q.2 <;> rfl

theorem processTile_moved (f : T → S) (files : Mult → Dir → Option (Raster K T)) :
    processTile (fun m d => (files m d).map fun x => ⟨x.band, f x.transform⟩) =
      (processTile files).map fun x => ⟨x.bands, f x.transform⟩ := by
  unfold processTile
  cases h : files .ms .n with
  | none => simp only [h, Option.map_none]; rfl
  | some tmp =>
    have := directionLoop_moved f files tmp.band.cols tmp.band.rows Dir.convertOrder none
    simp only [Option.map_none] at this
    simp only [h, Option.map_some]
    rw [this]
    cases directionLoop files tmp.band.cols tmp.band.rows Dir.convertOrder none with
    | error x => rfl
    | ok q =>
      obtain ⟨b, t⟩ := q
      cases t <;> rfl

end

/-- **C139** (combined) *Full claim:* as in `C139_tile_partial`, for the GeoTIFF of a tile.  *Proved:* where the
correction for Tasmania is made before and after the move, or neither before nor after, the conversion ends in the
same way, with the same bands in the same order; only the longitudes are moved.  *Missing:* the other tiles. -/
theorem C139_combined_partial (fuel : ℕ) (c : Inputs) (hc : c.pixelSizes = pixelSizes fuel) (east : ℝ)
    (EB E : Extent ℝ) (hT : CornerInTasmania (movedExtent east EB) ↔ CornerInTasmania EB) :
    processTile (tileFiles (movedInputs east c) (movedExtent east EB) (movedExtent east E)) =
      (processTile (tileFiles c EB E)).map fun x => ⟨x.bands, movedCoords east x.transform⟩ := by
  rw [← processTile_moved]
  congr 1
  funext m d
  exact (C139_tile_partial fuel c hc east EB E hT).2 m d

/-! ### Tasmania -/

/-- Level land 1000 m above the sea from 143° E and 41° S. -/
noncomputable def tableland : Inputs where
  r := ⟨12, 12, 143, 1 / 4000, -41, -(1 / 4000)⟩
  dem := ⟨12, 12, fun _ _ => some 1000⟩
  lr := ⟨12, 12, 143, 1 / 4000, -41, -(1 / 4000)⟩
  lcv := ⟨12, 12, fun _ _ => some 1⟩
  terrainTable := []
  shieldTable := []
  pixelSizes := pixelSizes 8
  checksum := fun _ => 1

theorem tableland_sizes : ∃ xm ym, pixelSizes 8 tableland.r = .ok (xm, ym) ∧ 0 < gridWidth xm ym ∧
    gridWidth xm ym ≤ 100 := by
  obtain ⟨xm, ym, h1, ⟨h2, h3⟩, ⟨h4, h5⟩, h6⟩ := C88_grids 8 le_rfl tableland.r (by norm_num [tableland])
    (by norm_num [tableland]) (by norm_num [tableland]) (by norm_num [tableland]) (by norm_num [tableland])
    (by norm_num [tableland]) (by norm_num [tableland])
  have mx := xm.mean_mem (by rw [h2]; norm_num [tableland]) (by rw [h3]; norm_num [tableland]) 10 50
    (fun i hi j hj => by
      obtain ⟨⟨a, b⟩, -⟩ := h6 i (by omega) j (by omega)
      norm_num [tableland, earthA, radPerDeg] at a b ⊢
      constructor <;> linarith)
  have my := ym.mean_mem (by rw [h4]; norm_num [tableland]) (by rw [h5]; norm_num [tableland]) 10 50
    (fun i hi j hj => by
      obtain ⟨-, a, b⟩ := h6 i (by omega) j (by omega)
      norm_num [tableland, earthA, radPerDeg] at a b ⊢
      constructor <;> linarith)
  refine ⟨xm, ym, h1, ?_, ?_⟩ <;> unfold gridWidth <;> linarith [mx.1, mx.2, my.1, my.2]

theorem tableland_oneTile (east : ℝ) {xm ym : Grid ℝ} (h1 : pixelSizes 8 tableland.r = .ok (xm, ym))
    (h2 : 0 < gridWidth xm ym) (h3 : gridWidth xm ym ≤ 100) : OneTile (movedInputs east tableland) xm ym where
  pw := by norm_num [tableland, movedInputs, movedRaster]
  ph := by norm_num [tableland, movedInputs, movedRaster]
  someRows := by norm_num [tableland, movedInputs, movedRaster]
  someCols := by norm_num [tableland, movedInputs, movedRaster]
  demRows := rfl
  demCols := rfl
  grid := rfl
  landRows := rfl
  landCols := rfl
  sizes := (C139_pixel_sizes 8 tableland.r east).trans h1
  gwPos := h2
  gwFine := h3
  notEmpty := one_ne_zero

/-- What the topographic step writes in the middle of the plateau. -/
theorem tableland_mt (east : ℝ) : ∃ f, tileFiles (movedInputs east tableland) (movedInputs east tableland).r.area
    (movedInputs east tableland).r.area .mt .n = some f ∧
    f.band.val 5 5 = .num (if 143 < 143 + east then 1.15 else 1) := by
  obtain ⟨xm, ym, h1, h2, h3⟩ := tableland_sizes
  have o := tableland_oneTile east h1 h2 h3
  obtain ⟨-, -, s3⟩ := o.step
  have hok : (terrain mzFormula (gridWidth xm ym) (cutLandcover (movedInputs east tableland).lr
      (movedInputs east tableland).lcv (clipInfo (movedInputs east tableland).r (movedInputs east tableland).r.area) 0)
      (movedInputs east tableland).terrainTable id).2 = .ok () :=
    terrain_no_class _ _ (by rw [o.cutLand.1]; exact Nat.succ_pos 11) (by rw [o.cutLand.2.1]; exact Nat.succ_pos 11)
  obtain ⟨-, a, b⟩ := s3 hok
  have hmem : Dir.n ∈ (tileStep (movedInputs east tableland) (movedInputs east tableland).r.area
      (movedInputs east tableland).r.area).1.mt.map Prod.fst := by rw [a]; decide
  obtain ⟨g, hg, hgm⟩ := lookup_of_map_fst _ _ hmem
  have ht := b .n g hgm
  have hcut : ((cutDem (movedInputs east tableland).r (movedInputs east tableland).dem
      (movedInputs east tableland).r.area 0).map some).Same (⟨12, 12, fun _ _ => some 1000⟩ : Grid (Option ℝ)) :=
    ⟨o.cut.1, o.cut.2.1, fun i hi j hj => congrArg some (o.cut.2.2 i hi j hj)⟩
  obtain ⟨out', out, t1, t2, ⟨u1, u2, t3⟩, t4, t5⟩ := topoDir_same hcut (Nat.succ_pos 11) (Nat.succ_pos 11)
    (gridWidth xm ym) (√2) (movedInputs east tableland).r.gt0 (-(movedInputs east tableland).r.gt3) .n
  rw [ht] at t1
  cases t1
  obtain ⟨raw, q1, q2, q3, q4⟩ := C54_cell_from_transect (⟨12, 12, fun _ _ => some 1000⟩ : Grid (Option ℝ))
    (Nat.succ_pos 11) (Nat.succ_pos 11) (gridWidth xm ym) (√2) (movedInputs east tableland).r.gt0
    (-(movedInputs east tableland).r.gt3) .n
  have hraw : ∀ i j : ℕ, i < 12 → j < 12 → raw.val i j = if 143 < 143 + east then 1.15 else 1 := by
    intro i j hi hj
    obtain ⟨⟨u, n, hT⟩, h⟩ := q4 i j hi hj
    obtain ⟨m, m1, m2⟩ := h u n hT
    obtain ⟨m', k1, -, k3⟩ := C49_never_rising (transectLine (⟨12, 12, fun _ _ => some 1000⟩ : Grid (Option ℝ))
      .n i j u n) (lineSpacing .n (gridWidth xm ym) (√2)) (fun t ht => by
        have ht : t + 1 < n := ht
        simp only [transectLine, if_pos ht, if_pos (Nat.lt_of_succ_lt ht)]
        exact le_rfl)
    rw [m1] at k1
    cases k1
    rw [m2, k3]
    by_cases h : 143 < 143 + east
    · norm_num [topoCorrected, movedInputs, movedRaster, tableland, removeConservatism, tasmaniaCell, h]
    · norm_num [topoCorrected, movedInputs, movedRaster, tableland, removeConservatism, tasmaniaCell, h]
  have hs : smoothCell raw 5 5 = if 143 < 143 + east then 1.15 else 1 := by
    have := C53_smooth_partial raw 5 5 (by norm_num) (by rw [q2]; norm_num) (by norm_num) (by rw [q3]; norm_num)
      (if 143 < 143 + east then 1.15 else 1) (if 143 < 143 + east then 1.15 else 1) (fun r c hn => by
        have hin : InRaster raw.rows raw.cols r c := hn.1
        rw [q2, q3] at hin
        unfold InRaster at hin
        simp only at hin
        rw [hraw _ _ (by omega) (by omega)]
        exact ⟨le_rfl, le_rfl⟩)
    exact le_antisymm this.2 this.1
  rw [topoDir_of_raw q1] at t2
  cases t2
  have hv : g.val 5 5 = some (if 143 < 143 + east then 1.15 else 1) := by
    rw [t3 5 (by rw [u1, t4]; norm_num) 5 (by rw [u2, t5]; norm_num), ← hs]
  have hf : tileFiles (movedInputs east tableland) (movedInputs east tableland).r.area
      (movedInputs east tableland).r.area .mt .n = _ := congrArg (Option.map _) hg
  refine ⟨_, hf, ?_⟩
  show toNanNum (g.val 5 5) = _
  rw [hv]
  rfl

/-- The tableland is a single tile. -/
theorem tableland_tile : (TileGrid.init 0 tableland.r).getTileExtentBuffer 0 = .ok tableland.r.area ∧
    (TileGrid.init 0 tableland.r).getTileExtent 0 = .ok tableland.r.area := by
  have c1 : ⌈(1 : ℝ) / (1 / 4000)⌉ = 4000 := by norm_num
  have c2 : ⌈(12 : ℝ) / ((4000 : ℤ) : ℝ)⌉ = 1 := by
    rw [Int.ceil_eq_iff]; norm_num
  have hp : pyInt (0 : ℝ) = 0 := by simp [pyInt]
  have ht : (TileGrid.init 0 tableland.r).tiles = [⟨0, 11, 0, 11⟩] := by
    unfold TileGrid.init tableland
    simp only [neg_neg, zero_div, hp, c1, Nat.cast_ofNat, c2]
    decide
  have h1 : (TileGrid.init 0 tableland.r).getGridlimitBuffer 0 = .ok ⟨0, 12, 0, 12⟩ := by
    unfold TileGrid.getGridlimitBuffer TileGrid.idx
    rw [ht]
    rfl
  have h2 : (TileGrid.init 0 tableland.r).getGridlimit 0 = .ok ⟨0, 12, 0, 12⟩ := by
    unfold TileGrid.getGridlimit TileGrid.idx
    rw [ht]
    rfl
  have h3 : (TileGrid.init 0 tableland.r).extentOf ⟨0, 12, 0, 12⟩ = tableland.r.area := by
    unfold TileGrid.extentOf TileGrid.init RasterInfo.area tableland
    norm_num
  unfold TileGrid.getTileExtentBuffer TileGrid.getTileExtent
  rw [h1, h2]
  exact ⟨congrArg Except.ok h3, congrArg Except.ok h3⟩

/-- **C139 is false of the code**: level land 1000 m above the sea at 143° E and 41° S has the topographic multiplier
1, and 1.15 one degree further east. -/
theorem C139_tasmania : ¬ ∀ (fuel : ℕ) (c : Inputs), c.pixelSizes = pixelSizes fuel → ∀ (east up : ℝ) (k : ℕ)
    (EB E : Extent ℝ), (TileGrid.init up c.r).getTileExtentBuffer k = .ok EB →
    (TileGrid.init up c.r).getTileExtent k = .ok E →
    ∀ m d, tileFiles (movedInputs east c) (movedExtent east EB) (movedExtent east E) m d =
      (tileFiles c EB E m d).map fun f => ⟨f.band, movedCoords east f.transform⟩ := by
  intro hall
  obtain ⟨f, hf, vf⟩ := tableland_mt 0
  obtain ⟨g, hg, vg⟩ := tableland_mt 1
  have e0 : movedInputs 0 tableland = tableland := by
    unfold movedInputs movedRaster
    simp only [add_zero]
  have e1 : (movedInputs 1 tableland).r.area = movedExtent 1 tableland.r.area := by
    unfold RasterInfo.area movedExtent movedInputs movedRaster
    simp only [Extent.mk.injEq, and_true, true_and]
    ring
  rw [e0] at hf
  rw [e1, hall 8 tableland rfl 1 0 0 _ _ tableland_tile.1 tableland_tile.2 .mt .n, hf] at hg
  cases hg
  rw [vf] at vg
  norm_num at vg

/-! ### The hypotheses can be met -/

/-- The tableland moved by a degree from 144° E: the correction is made before and after, the tile has its topographic
file, and by the theorem its multiplier is the same as before, 1.15. -/
example : ∃ f g, (CornerInTasmania (movedExtent 1 (movedInputs 1 tableland).r.area) ↔
      CornerInTasmania (movedInputs 1 tableland).r.area) ∧
    tileFiles (movedInputs 1 tableland) (movedInputs 1 tableland).r.area (movedInputs 1 tableland).r.area .mt .n = some f ∧
    tileFiles (movedInputs 1 (movedInputs 1 tableland)) (movedExtent 1 (movedInputs 1 tableland).r.area)
      (movedExtent 1 (movedInputs 1 tableland).r.area) .mt .n = some g ∧
    f.band.val 5 5 = .num 1.15 ∧ g.band.val 5 5 = .num 1.15 ∧ g.transform.1 = f.transform.1.map (· + 1) := by
  obtain ⟨f, hf, vf⟩ := tableland_mt 1
  have hT : CornerInTasmania (movedExtent 1 (movedInputs 1 tableland).r.area) ↔
      CornerInTasmania (movedInputs 1 tableland).r.area := by
    norm_num [CornerInTasmania, movedExtent, RasterInfo.area, movedInputs, movedRaster, tableland]
  have h := (C139_tile_partial 8 (movedInputs 1 tableland) rfl 1 _ (movedInputs 1 tableland).r.area hT).2 .mt .n
  rw [hf] at h
  refine ⟨f, _, hT, hf, h, ?_, ?_, rfl⟩
  · rw [vf]; norm_num
  · rw [vf]; norm_num

/-- A map of 30 by 30 pixels of 0.1° has the same nine tiles on the Greenwich meridian as at 150° E. -/
example : (TileGrid.init (1 / 10) (movedRaster (-150) (⟨30, 30, 150, 1 / 10, -20, -(1 / 10)⟩ : RasterInfo ℚ))).numTiles =
    9 := by
  rw [(C139_tiles _ _ _).1]
  decide +kernel

end WindMult
