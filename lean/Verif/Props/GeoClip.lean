import Verif.Model.GeoClip
import Verif.Proofs.Basic
import Verif.Props.Tiles

/-!
# C06, C07: clipping the buffered tile and the saved coordinates
-/

set_option linter.unusedSectionVars false

set_option autoImplicit false

namespace WindMult
variable {K : Type} [Field K] [LinearOrder K] [IsStrictOrderedRing K] [FloorRing K]

/-- Specification: extent `E'` equals `E` up to errors below an eighth of a pixel. -/
def Extent.Near (pw ph : K) (E' E : Extent K) : Prop :=
  |E'.xStart - E.xStart| < pw / 8 ∧ |E'.xEnd - E.xEnd| < pw / 8 ∧
  |E'.yStart - E.yStart| < ph / 8 ∧ |E'.yEnd - E.yEnd| < ph / 8

theorem around_quot {a b pw e : K} {n : ℤ} (hpw : 0 < pw) (h : a - b = n * pw + e)
    (he : |e| < pw / 2) : around ((a - b) / pw) = n := by
  apply around_eq_of_abs_lt
  rw [h]
  have : (n * pw + e) / pw - n = e / pw := by field_simp; ring
  rw [this, abs_div, abs_of_pos hpw, div_lt_iff₀ hpw]
  linarith

theorem clip_of_near {α : Type} (data : Grid α) {xl yu pw ph : K} (E' : Extent K)
    (X Y : K) (a b c d : ℤ) (hpw : 0 < pw) (hph : 0 < ph)
    (hx : |xl - X| < pw / 8) (hy : |-yu - Y| < ph / 8)
    (hE : E'.Near pw ph ⟨X + a * pw, Y - c * ph, X + b * pw, Y - d * ph⟩)
    (ha : 0 ≤ a) (hab : a ≤ b) (hb : b ≤ data.cols) (hc : 0 ≤ c) (hcd : c ≤ d)
    (hd : d ≤ data.rows) :
    ((clipArray data xl yu pw ph E').rows : ℤ) = d - c ∧
    ((clipArray data xl yu pw ph E').cols : ℤ) = b - a ∧
    (∀ i j, (clipArray data xl yu pw ph E').val i j = data.val (c.toNat + i) (a.toNat + j)) ∧
    ((getLatLon E' pw ph).1.length : ℤ) = b - a ∧
    ((getLatLon E' pw ph).2.length : ℤ) = d - c := by
  obtain ⟨e1, e2, e3, e4⟩ := hE
  simp only [abs_lt] at e1 e2 e3 e4 hx hy
  have l1 : around ((E'.xStart - xl) / pw) = a :=
    around_quot hpw (n := a) (e := E'.xStart - xl - a * pw) (by ring)
      (by rw [abs_lt]; constructor <;> linarith [e1.1, e1.2, hx.1, hx.2])
  have l2 : around ((-yu - E'.yStart) / ph) = c :=
    around_quot hph (n := c) (e := -yu - E'.yStart - c * ph) (by ring)
      (by rw [abs_lt]; constructor <;> linarith [e3.1, e3.2, hy.1, hy.2])
  have l3 : around ((E'.xEnd - E'.xStart) / pw) = b - a :=
    around_quot hpw (n := b - a) (e := E'.xEnd - E'.xStart - (b - a : ℤ) * pw) (by ring)
      (by push_cast; rw [abs_lt]; constructor <;> linarith [e1.1, e1.2, e2.1, e2.2])
  have l4 : around ((E'.yStart - E'.yEnd) / ph) = d - c :=
    around_quot hph (n := d - c) (e := E'.yStart - E'.yEnd - (d - c : ℤ) * ph) (by ring)
      (by push_cast; rw [abs_lt]; constructor <;> linarith [e3.1, e3.2, e4.1, e4.2])
  unfold clipArray getLatLon
  simp only [l1, l2, l3, l4, Grid.slice, List.length_map, List.length_range]
  rw [Grid.sliceBound_of_mem (i := c) hc (by omega), Grid.sliceBound_of_mem (i := a) ha (by omega),
    Grid.sliceBound_of_mem (i := c + (d - c)) (by omega) (by omega),
    Grid.sliceBound_of_mem (i := a + (b - a)) (by omega) (by omega)]
  refine ⟨by omega, by omega, fun _ _ => rfl, by omega, by omega⟩

/-- **C06** Let `data` be an array on the buffered tile `k`, holding the cells of a raster-sized
array `whole`.  Clipping `data` with the tile's extent – origin and extent known only up to an
eighth of a pixel – returns exactly the cells of `whole` inside the unbuffered limits, and the
coordinate vectors have matching lengths. -/
theorem C06_clip_returns_core {α : Type} (up : K) (r : RasterInfo K) (hpw : 0 < r.gt1)
    (hph : r.gt5 < 0) (hup : 0 ≤ up) (k : ℕ) (whole data : Grid α) (L B : Limits)
    (E EB E' : Extent K) (xl yu : K)
    (hL : (TileGrid.init up r).getGridlimit k = .ok L)
    (hB : (TileGrid.init up r).getGridlimitBuffer k = .ok B)
    (hE : (TileGrid.init up r).getTileExtent k = .ok E)
    (hEB : (TileGrid.init up r).getTileExtentBuffer k = .ok EB)
    (hrows : (data.rows : ℤ) = B.y2 - B.y1) (hcols : (data.cols : ℤ) = B.x2 - B.x1)
    (hdata : ∀ i j, data.val i j = whole.val (B.y1.toNat + i) (B.x1.toNat + j))
    (hx : |xl - EB.xStart| < r.gt1 / 8) (hy : |-yu - EB.yStart| < -r.gt5 / 8)
    (hnear : E'.Near r.gt1 (-r.gt5) E) :
    let clip := clipArray data xl yu r.gt1 (-r.gt5) E'
    (clip.rows : ℤ) = L.y2 - L.y1 ∧ (clip.cols : ℤ) = L.x2 - L.x1 ∧
    (∀ i j, clip.val i j = whole.val (L.y1.toNat + i) (L.x1.toNat + j)) ∧
    (getLatLon E' r.gt1 (-r.gt5)).1.length = clip.cols ∧
    (getLatLon E' r.gt1 (-r.gt5)).2.length = clip.rows := by
  have hk : k < (TileGrid.init up r).numTiles :=
    (C01_gridlimit_defined_iff up r k).mp ⟨L, hL⟩
  obtain ⟨L', B', E0, EB0, h1, h2, h3, h4, ⟨a1, a2, a3, a4⟩, ⟨b1, b2, b3, b4⟩, -⟩ :=
    C05_extent_is_corner_coordinates up r hpw hph hup k hk
  obtain ⟨L'', B'', h5, h6, ⟨c0, c1, c2, c3, -⟩, ⟨d0, d1, d2, d3, -⟩, -⟩ :=
    C03_buffer_surrounds_core up r hpw hph hup k hk
  rw [hL] at h1 h5; rw [hB] at h2 h6; rw [hE] at h3; rw [hEB] at h4
  cases h1; cases h2; cases h3; cases h4; cases h5; cases h6
  have h5' : 0 < -r.gt5 := by linarith
  have key := clip_of_near (K := K) data E' EB.xStart EB.yStart (L.x1 - B.x1) (L.x2 - B.x1)
    (L.y1 - B.y1) (L.y2 - B.y1) hpw h5' hx hy
    (by
      obtain ⟨e1, e2, e3, e4⟩ := hnear
      rw [a1] at e1; rw [a2] at e2; rw [a3] at e3; rw [a4] at e4
      refine ⟨?_, ?_, ?_, ?_⟩ <;> simp only [b1, b3, RasterInfo.lonEdge, RasterInfo.latEdge] at *
      · convert e1 using 2; push_cast; ring
      · convert e2 using 2; push_cast; ring
      · convert e3 using 2; push_cast; ring
      · convert e4 using 2; push_cast; ring)
    (by omega) (by omega) (by omega) (by omega) (by omega) (by omega)
  obtain ⟨k1, k2, k3, k4, k5⟩ := key
  refine ⟨by omega, by omega, ?_, by omega, by omega⟩
  intro i j
  simp only [k3, hdata]
  congr 1 <;> omega

/-- The hypotheses of C06 are met, e.g. by exact coordinates and any raster content. -/
example {α : Type} (whole : Grid α) : ∃ (L B : Limits) (E EB : Extent ℚ) (data : Grid α),
    (TileGrid.init (1 / 5) exRaster).getGridlimit 2 = .ok L ∧
    (TileGrid.init (1 / 5) exRaster).getGridlimitBuffer 2 = .ok B ∧
    (TileGrid.init (1 / 5) exRaster).getTileExtent 2 = .ok E ∧
    (TileGrid.init (1 / 5) exRaster).getTileExtentBuffer 2 = .ok EB ∧
    (data.rows : ℤ) = B.y2 - B.y1 ∧ (data.cols : ℤ) = B.x2 - B.x1 ∧
    (∀ i j, data.val i j = whole.val (B.y1.toNat + i) (B.x1.toNat + j)) ∧
    |EB.xStart - EB.xStart| < exRaster.gt1 / 8 ∧ |-(-EB.yStart) - EB.yStart| < -exRaster.gt5 / 8 ∧
    E.Near exRaster.gt1 (-exRaster.gt5) E := by
  refine ⟨⟨10, 20, 0, 10⟩, ⟨8, 22, 0, 12⟩,
    ⟨1435/10 + 10 * (1/10), -(41 + 0 * (1/10)), 1435/10 + 20 * (1/10), -(41 + 10 * (1/10))⟩,
    ⟨1435/10 + 8 * (1/10), -(41 + 0 * (1/10)), 1435/10 + 22 * (1/10), -(41 + 12 * (1/10))⟩,
    ⟨12, 14, fun i j => whole.val (0 + i) (8 + j)⟩, by decide +kernel, by decide +kernel,
    ?_, ?_, by norm_num, by norm_num, fun _ _ => rfl, ?_, ?_, ?_⟩
  · rw [TileGrid.getTileExtent, show (TileGrid.init (1 / 5) exRaster).getGridlimit 2
      = .ok ⟨10, 20, 0, 10⟩ by decide +kernel]
    norm_num [bind, Except.bind, pure, Except.pure, TileGrid.extentOf, TileGrid.init, exRaster]
  · rw [TileGrid.getTileExtentBuffer, show (TileGrid.init (1 / 5) exRaster).getGridlimitBuffer 2
      = .ok ⟨8, 22, 0, 12⟩ by decide +kernel]
    norm_num [bind, Except.bind, pure, Except.pure, TileGrid.extentOf, TileGrid.init, exRaster]
  · norm_num [exRaster]
  · norm_num [exRaster]
  · norm_num [exRaster, Extent.Near]

/-- Specification: longitude of the centre of pixel column `c`. -/
def RasterInfo.lonCentre (r : RasterInfo K) (c : ℤ) : K := r.gt0 + (c + 1 / 2) * r.gt1
/-- Specification: latitude of the centre of pixel row `c`. -/
def RasterInfo.latCentre (r : RasterInfo K) (c : ℤ) : K := r.gt3 + (c + 1 / 2) * r.gt5

/-- **C07** The coordinate vectors saved with a tile are the pixel centres, in the input
raster's geotransform, of the columns and rows of its unbuffered limits, in order. -/
theorem C07_coordinates_are_pixel_centres (up : K) (r : RasterInfo K) (hpw : 0 < r.gt1)
    (hph : r.gt5 < 0) (hup : 0 ≤ up) (k : ℕ) (L : Limits) (E : Extent K)
    (hL : (TileGrid.init up r).getGridlimit k = .ok L)
    (hE : (TileGrid.init up r).getTileExtent k = .ok E) :
    (getLatLon E r.gt1 (-r.gt5)).1 =
      (List.range (L.x2 - L.x1).toNat).map (fun c : ℕ => r.lonCentre (L.x1 + c)) ∧
    (getLatLon E r.gt1 (-r.gt5)).2 =
      (List.range (L.y2 - L.y1).toNat).map (fun c : ℕ => r.latCentre (L.y1 + c)) := by
  have hk : k < (TileGrid.init up r).numTiles :=
    (C01_gridlimit_defined_iff up r k).mp ⟨L, hL⟩
  obtain ⟨L', B', E0, EB0, h1, h2, h3, h4, ⟨a1, a2, a3, a4⟩, -⟩ :=
    C05_extent_is_corner_coordinates up r hpw hph hup k hk
  rw [hL] at h1; rw [hE] at h3
  cases h1; cases h3
  have h5' : 0 < -r.gt5 := by linarith
  have l3 : around ((E.xEnd - E.xStart) / r.gt1) = L.x2 - L.x1 :=
    around_quot hpw (n := L.x2 - L.x1) (e := 0)
      (by rw [a1, a2, RasterInfo.lonEdge, RasterInfo.lonEdge]; push_cast; ring)
      (by simpa using hpw)
  have l4 : around ((E.yStart - E.yEnd) / (-r.gt5)) = L.y2 - L.y1 :=
    around_quot h5' (n := L.y2 - L.y1) (e := 0)
      (by rw [a3, a4, RasterInfo.latEdge, RasterInfo.latEdge]; push_cast; ring)
      (by rw [abs_zero]; linarith)
  unfold getLatLon
  simp only [l3, l4]
  constructor <;> apply List.map_congr_left <;> intro c _
  · rw [a1, RasterInfo.lonEdge, RasterInfo.lonCentre]; push_cast; ring
  · rw [a3, RasterInfo.latEdge, RasterInfo.latCentre]; push_cast; ring

/-- **C07** Longitudes strictly increase, latitudes strictly decrease, and all of them are
strictly inside the tile's extent. -/
theorem C07_coordinates_monotone_inside (up : K) (r : RasterInfo K) (hpw : 0 < r.gt1)
    (hph : r.gt5 < 0) (hup : 0 ≤ up) (k : ℕ) (E : Extent K)
    (hE : (TileGrid.init up r).getTileExtent k = .ok E) :
    (getLatLon E r.gt1 (-r.gt5)).1.Pairwise (· < ·) ∧
    (getLatLon E r.gt1 (-r.gt5)).2.Pairwise (· > ·) ∧
    (∀ x ∈ (getLatLon E r.gt1 (-r.gt5)).1, E.xStart < x ∧ x < E.xEnd) ∧
    (∀ y ∈ (getLatLon E r.gt1 (-r.gt5)).2, E.yEnd < y ∧ y < E.yStart) := by
  have hk : ∃ L, (TileGrid.init up r).getGridlimit k = .ok L := by
    unfold TileGrid.getTileExtent at hE
    match h : (TileGrid.init up r).getGridlimit k with
    | .ok L => exact ⟨L, rfl⟩
    | .error e => rw [h] at hE; simp [bind, Except.bind] at hE
  obtain ⟨L, hL⟩ := hk
  have hk := (C01_gridlimit_defined_iff up r k).mp ⟨L, hL⟩
  obtain ⟨L', B', E0, EB0, h1, h2, h3, h4, ⟨a1, a2, a3, a4⟩, -⟩ :=
    C05_extent_is_corner_coordinates up r hpw hph hup k hk
  rw [hL] at h1; rw [hE] at h3
  cases h1; cases h3
  obtain ⟨e1, e2⟩ := C07_coordinates_are_pixel_centres up r hpw hph hup k L E hL hE
  rw [e1, e2]
  refine ⟨?_, ?_, ?_, ?_⟩
  · rw [List.pairwise_map]
    refine List.pairwise_lt_range.imp ?_
    intro a b hab
    have : (a : K) < b := by exact_mod_cast hab
    have := mul_lt_mul_of_pos_right this hpw
    simp only [RasterInfo.lonCentre]; push_cast; linarith
  · rw [List.pairwise_map]
    refine List.pairwise_lt_range.imp ?_
    intro a b hab
    have : (a : K) < b := by exact_mod_cast hab
    have := mul_lt_mul_of_neg_right this hph
    simp only [RasterInfo.latCentre]; push_cast; linarith
  · intro x hx
    obtain ⟨c, hc, rfl⟩ := List.mem_map.mp hx
    have hc' : L.x1 + (c : ℤ) + 1 ≤ L.x2 := by have := List.mem_range.mp hc; omega
    have hcK : (L.x1 : K) + c + 1 ≤ L.x2 := by exact_mod_cast hc'
    have h0 : (0 : K) ≤ c * r.gt1 := by positivity
    have := mul_le_mul_of_nonneg_right hcK hpw.le
    rw [a1, a2]
    simp only [RasterInfo.lonCentre, RasterInfo.lonEdge]; push_cast
    constructor <;> linarith
  · intro x hx
    obtain ⟨c, hc, rfl⟩ := List.mem_map.mp hx
    have hc' : L.y1 + (c : ℤ) + 1 ≤ L.y2 := by have := List.mem_range.mp hc; omega
    have hcK : (L.y1 : K) + c + 1 ≤ L.y2 := by exact_mod_cast hc'
    have h0 : (c : K) * r.gt5 ≤ 0 := mul_nonpos_of_nonneg_of_nonpos (by positivity) hph.le
    have := mul_le_mul_of_nonpos_right hcK hph.le
    rw [a3, a4]
    simp only [RasterInfo.latCentre, RasterInfo.latEdge]; push_cast
    constructor <;> linarith

/-- Hypotheses of C07 on a concrete tile, and its first longitude. -/
example : ∃ E, (TileGrid.init (1 / 5) exRaster).getTileExtent 2 = .ok E ∧
    (getLatLon E exRaster.gt1 (-exRaster.gt5)).1.head? = some (14455 / 100) := by
  refine ⟨⟨1435/10 + 10 * (1/10), -(41 + 0 * (1/10)), 1435/10 + 20 * (1/10), -(41 + 10 * (1/10))⟩,
    ?_, by decide +kernel⟩
  rw [TileGrid.getTileExtent, show (TileGrid.init (1 / 5) exRaster).getGridlimit 2
      = .ok ⟨10, 20, 0, 10⟩ by decide +kernel]
  norm_num [bind, Except.bind, pure, Except.pure, TileGrid.extentOf, TileGrid.init, exRaster]

end WindMult
