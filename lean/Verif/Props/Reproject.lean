import Verif.Model.Reproject
import Verif.Props.GeoClip

/-!
# C78, C79: the tiles cut from the input rasters
-/

set_option linter.unusedSectionVars false
set_option autoImplicit false

namespace WindMult
variable {K : Type} [Field K] [LinearOrder K] [IsStrictOrderedRing K] [FloorRing K]

/-- A number less than an eighth off the middle of cell `n` is in cell `n`. -/
theorem floor_middle {n : ℤ} {e : K} (he : |e| < 1 / 8) : ⌊(n : K) + 1 / 2 + e⌋ = n := by
  rw [Int.floor_eq_iff]
  rw [abs_lt] at he
  constructor <;> linarith [he.1, he.2]

theorem clipInfo_size (up : K) (r : RasterInfo K) (hpw : 0 < r.gt1) (hph : r.gt5 < 0)
    (hup : 0 ≤ up) (k : ℕ) (B : Limits) (EB E' : Extent K)
    (hB : (TileGrid.init up r).getGridlimitBuffer k = .ok B)
    (hEB : (TileGrid.init up r).getTileExtentBuffer k = .ok EB)
    (hnear : E'.Near r.gt1 (-r.gt5) EB) :
    (0 ≤ B.x1 ∧ B.x1 < B.x2 ∧ B.x2 ≤ r.xDim ∧ 0 ≤ B.y1 ∧ B.y1 < B.y2 ∧ B.y2 ≤ r.yDim) ∧
    EB.xStart = r.lonEdge B.x1 ∧ EB.yStart = r.latEdge B.y1 ∧
    ((clipInfo r E').xDim : ℤ) = B.x2 - B.x1 ∧ ((clipInfo r E').yDim : ℤ) = B.y2 - B.y1 := by
  have hk : k < (TileGrid.init up r).numTiles := by
    by_contra h
    have h0 : (TileGrid.init up r).tiles[k]? = none := by
      rw [List.getElem?_eq_none]; exact not_lt.mp h
    rw [TileGrid.getGridlimitBuffer, TileGrid.idx, h0] at hB
    simp [bind, Except.bind] at hB
  obtain ⟨L', B', E0, EB0, h1, h2, h3, h4, -, ⟨b1, b2, b3, b4⟩, -⟩ :=
    C05_extent_is_corner_coordinates up r hpw hph hup k hk
  obtain ⟨L'', B'', h5, h6, ⟨c0, c1, c2, c3, c4⟩, ⟨d0, d1, d2, d3, d4⟩, -⟩ :=
    C03_buffer_surrounds_core up r hpw hph hup k hk
  rw [hB] at h2 h6; rw [hEB] at h4
  cases h2; cases h6; cases h4
  have h5' : 0 < -r.gt5 := by linarith
  obtain ⟨e1, e2, e3, e4⟩ := hnear
  rw [abs_lt] at e1 e2 e3 e4
  rw [RasterInfo.lonEdge] at b1 b2
  rw [RasterInfo.latEdge] at b3 b4
  have l3 : around ((E'.xEnd - E'.xStart) / r.gt1) = B.x2 - B.x1 :=
    around_quot hpw (n := B.x2 - B.x1) (e := E'.xEnd - E'.xStart - (B.x2 - B.x1 : ℤ) * r.gt1)
      (by ring) (by push_cast; rw [abs_lt]; constructor <;> linarith [e1.1, e1.2, e2.1, e2.2])
  have l4 : around ((E'.yStart - E'.yEnd) / (-r.gt5)) = B.y2 - B.y1 :=
    around_quot h5' (n := B.y2 - B.y1) (e := E'.yStart - E'.yEnd - (B.y2 - B.y1 : ℤ) * (-r.gt5))
      (by ring) (by push_cast; rw [abs_lt]; constructor <;> linarith [e3.1, e3.2, e4.1, e4.2])
  refine ⟨⟨c0, by omega, c4, d0, by omega, d4⟩, b1, b3, ?_, ?_⟩
  · simp only [clipInfo, l3]; omega
  · simp only [clipInfo, l4]; omega

/-- **C78** The DEM tile cut for tile `k` has the size of the buffered limits and holds, cell by
cell, the block of the DEM inside them – also if the extent is off by less than an eighth of a pixel
(nothing is shifted, repeated or lost by the resampling); where the DEM has no data it holds the
fill value. -/
theorem C78_dem_tile_is_block {α : Type} (up : K) (r : RasterInfo K) (hpw : 0 < r.gt1)
    (hph : r.gt5 < 0) (hup : 0 ≤ up) (dem : Grid (Option α)) (fill : α) (k : ℕ) (B : Limits)
    (EB E' : Extent K)
    (hB : (TileGrid.init up r).getGridlimitBuffer k = .ok B)
    (hEB : (TileGrid.init up r).getTileExtentBuffer k = .ok EB)
    (hnear : E'.Near r.gt1 (-r.gt5) EB) :
    ((cutDem r dem E' fill).rows : ℤ) = B.y2 - B.y1 ∧
    ((cutDem r dem E' fill).cols : ℤ) = B.x2 - B.x1 ∧
    ∀ px py : ℕ, B.Has px py →
      (cutDem r dem E' fill).val (py - B.y1.toNat) (px - B.x1.toNat) =
        (dem.val py px).getD fill := by
  obtain ⟨⟨c0, c1, c2, d0, d1, d2⟩, b1, b3, s1, s2⟩ :=
    clipInfo_size up r hpw hph hup k B EB E' hB hEB hnear
  refine ⟨s2, s1, ?_⟩
  rintro px py ⟨p1, p2, p3, p4⟩
  have h5' : r.gt5 ≠ 0 := hph.ne
  obtain ⟨e1, -, e3, -⟩ := hnear
  rw [RasterInfo.lonEdge] at b1
  rw [RasterInfo.latEdge] at b3
  have hx : ⌊((clipInfo r E').gt0 + (((px - B.x1.toNat : ℕ) : K) + 1 / 2) * (clipInfo r E').gt1
      - r.gt0) / r.gt1⌋ = px := by
    have hc : ((px - B.x1.toNat : ℕ) : K) = (px : K) - (B.x1 : K) := by
      rw [Nat.cast_sub (by omega)]
      congr 1
      exact_mod_cast Int.toNat_of_nonneg c0
    have : ((clipInfo r E').gt0 + (((px - B.x1.toNat : ℕ) : K) + 1 / 2) * (clipInfo r E').gt1
        - r.gt0) / r.gt1 = ((px : ℤ) : K) + 1 / 2 + (E'.xStart - EB.xStart) / r.gt1 := by
      simp only [clipInfo, hc, b1]
      field_simp
      push_cast
      ring
    rw [this]
    apply floor_middle
    rw [abs_div, abs_of_pos hpw, div_lt_iff₀ hpw]
    linarith
  have hy : ⌊((clipInfo r E').gt3 + (((py - B.y1.toNat : ℕ) : K) + 1 / 2) * (clipInfo r E').gt5
      - r.gt3) / r.gt5⌋ = py := by
    have hc : ((py - B.y1.toNat : ℕ) : K) = (py : K) - (B.y1 : K) := by
      rw [Nat.cast_sub (by omega)]
      congr 1
      exact_mod_cast Int.toNat_of_nonneg d0
    have : ((clipInfo r E').gt3 + (((py - B.y1.toNat : ℕ) : K) + 1 / 2) * (clipInfo r E').gt5
        - r.gt3) / r.gt5 = ((py : ℤ) : K) + 1 / 2 + (E'.yStart - EB.yStart) / r.gt5 := by
      simp only [clipInfo, hc, b3]
      field_simp
      push_cast
      ring
    rw [this]
    apply floor_middle
    rw [abs_div, abs_of_neg hph, div_lt_iff₀ (by linarith)]
    linarith
  unfold cutDem reprojectNearest
  simp only [hx, hy]
  rw [if_pos (by omega), Int.toNat_natCast, Int.toNat_natCast]

/-- Tile 3 of the example raster, extent off by a twentieth of a pixel, one missing elevation. -/
example :
    let dem : Grid (Option ℚ) := ⟨13, 25, fun i j => if i = 12 ∧ j = 10 then none else some (i + 100 * j)⟩
    let E : Extent ℚ := ⟨1435 / 10 + 8 / 10 + 1 / 200, -41 - 8 / 10 - 1 / 200,
      1435 / 10 + 22 / 10, -41 - 13 / 10⟩
    (TileGrid.init (1 / 5) exRaster).getGridlimitBuffer 3 = .ok ⟨8, 22, 8, 13⟩ ∧
    (cutDem exRaster dem E 0).rows = 5 ∧ (cutDem exRaster dem E 0).cols = 14 ∧
    (cutDem exRaster dem E 0).val 0 0 = 808 ∧ (cutDem exRaster dem E 0).val 4 2 = 0 ∧
    (cutDem exRaster dem E 0).val 4 13 = 2112 := by
  decide +kernel

/-- Specification: the pixel of raster `lr` that contains the point `(x, y)` is `(col, row)`; the
western and northern edges belong to the pixel. -/
def RasterInfo.PixelAt (lr : RasterInfo K) (x y : K) (col row : ℤ) : Prop :=
  lr.lonEdge col ≤ x ∧ x < lr.lonEdge (col + 1) ∧ lr.latEdge (row + 1) < y ∧ y ≤ lr.latEdge row

/-- **C79** In the land-cover tile every cell has the category of the land-cover pixel that contains
the centre of the DEM pixel; the fill value where there is none or it has no data.  The category of a
pixel is therefore the same in every tile whose buffered limits contain it. -/
theorem C79_landcover_tile {α : Type} (up : K) (r : RasterInfo K) (hpw : 0 < r.gt1)
    (hph : r.gt5 < 0) (hup : 0 ≤ up) (lr : RasterInfo K) (hlw : 0 < lr.gt1) (hlh : lr.gt5 < 0)
    (cells : Grid (Option α)) (fill : α) (k : ℕ) (B : Limits) (EB : Extent K)
    (hB : (TileGrid.init up r).getGridlimitBuffer k = .ok B)
    (hEB : (TileGrid.init up r).getTileExtentBuffer k = .ok EB) :
    let tile := cutLandcover lr cells (clipInfo r EB) fill
    (tile.rows : ℤ) = B.y2 - B.y1 ∧ (tile.cols : ℤ) = B.x2 - B.x1 ∧
    ∀ px py : ℕ, B.Has px py →
      (∀ col row : ℕ, col < lr.xDim → row < lr.yDim →
        lr.PixelAt (r.lonCentre px) (r.latCentre py) col row →
        tile.val (py - B.y1.toNat) (px - B.x1.toNat) = (cells.val row col).getD fill) ∧
      ((∀ col row : ℕ, col < lr.xDim → row < lr.yDim →
        ¬ lr.PixelAt (r.lonCentre px) (r.latCentre py) col row) →
        tile.val (py - B.y1.toNat) (px - B.x1.toNat) = fill) := by
  have h5' : 0 < -r.gt5 := by linarith
  have hnear : EB.Near r.gt1 (-r.gt5) EB := by
    refine ⟨?_, ?_, ?_, ?_⟩ <;> rw [sub_self, abs_zero] <;> linarith
  obtain ⟨⟨c0, c1, c2, d0, d1, d2⟩, b1, b3, s1, s2⟩ :=
    clipInfo_size up r hpw hph hup k B EB EB hB hEB hnear
  refine ⟨s2, s1, ?_⟩
  rintro px py ⟨p1, p2, p3, p4⟩
  rw [RasterInfo.lonEdge] at b1
  rw [RasterInfo.latEdge] at b3
  have hx : (clipInfo r EB).gt0 + (((px - B.x1.toNat : ℕ) : K) + 1 / 2) * (clipInfo r EB).gt1
      = r.lonCentre px := by
    have hc : ((px - B.x1.toNat : ℕ) : K) = (px : K) - (B.x1 : K) := by
      rw [Nat.cast_sub (by omega)]
      congr 1
      exact_mod_cast Int.toNat_of_nonneg c0
    simp only [clipInfo, hc, b1, RasterInfo.lonCentre]
    push_cast
    ring
  have hy : (clipInfo r EB).gt3 + (((py - B.y1.toNat : ℕ) : K) + 1 / 2) * (clipInfo r EB).gt5
      = r.latCentre py := by
    have hc : ((py - B.y1.toNat : ℕ) : K) = (py : K) - (B.y1 : K) := by
      rw [Nat.cast_sub (by omega)]
      congr 1
      exact_mod_cast Int.toNat_of_nonneg d0
    simp only [clipInfo, hc, b3, RasterInfo.latCentre]
    push_cast
    ring
  have key : ∀ x y : K, ∀ col row : ℤ, lr.PixelAt x y col row ↔
      ⌊(x - lr.gt0) / lr.gt1⌋ = col ∧ ⌊(y - lr.gt3) / lr.gt5⌋ = row := by
    intro x y col row
    unfold RasterInfo.PixelAt RasterInfo.lonEdge RasterInfo.latEdge
    rw [Int.floor_eq_iff, Int.floor_eq_iff, le_div_iff₀ hlw, div_lt_iff₀ hlw, le_div_iff_of_neg hlh,
      div_lt_iff_of_neg hlh]
    push_cast
    constructor
    · rintro ⟨h1, h2, h3, h4⟩
      refine ⟨⟨?_, ?_⟩, ?_, ?_⟩ <;> linarith
    · rintro ⟨⟨h1, h2⟩, h3, h4⟩
      refine ⟨?_, ?_, ?_, ?_⟩ <;> linarith
  unfold cutLandcover reprojectNearest
  simp only [hx, hy]
  constructor
  · intro col row hc hr hp
    obtain ⟨e1, e2⟩ := (key _ _ _ _).mp hp
    rw [e1, e2, if_pos (by omega), Int.toNat_natCast, Int.toNat_natCast]
  · intro hno
    rw [if_neg]
    rintro ⟨h1, h2, h3, h4⟩
    refine hno ⌊(r.lonCentre px - lr.gt0) / lr.gt1⌋.toNat ⌊(r.latCentre py - lr.gt3) / lr.gt5⌋.toNat
      (by omega) (by omega) ((key _ _ _ _).mpr ?_)
    rw [Int.toNat_of_nonneg h1, Int.toNat_of_nonneg h3]
    exact ⟨rfl, rfl⟩

/-- Land cover on a coarser, shifted grid (0.25°) than the DEM (0.1°): the centre of DEM pixel
(10, 12), at (144.55, -42.25), is in column 4 and row 4 of the land cover. -/
example :
    let lr : RasterInfo ℚ := ⟨8, 6, 1435 / 10 + 1 / 20, 1 / 4, -41 - 1 / 20, -1 / 4⟩
    lr.PixelAt (exRaster.lonCentre 10) (exRaster.latCentre 12) 4 4 ∧
    (cutLandcover lr (⟨6, 8, fun i j => some (10 * i + j : ℤ)⟩ : Grid (Option ℤ))
      (clipInfo exRaster ⟨1435 / 10 + 8 / 10, -41 - 8 / 10, 1435 / 10 + 22 / 10, -41 - 13 / 10⟩) 0).val
        4 2 = 44 := by
  refine ⟨?_, by decide +kernel⟩
  unfold RasterInfo.PixelAt RasterInfo.lonEdge RasterInfo.latEdge RasterInfo.lonCentre
    RasterInfo.latCentre exRaster
  norm_num

end WindMult
