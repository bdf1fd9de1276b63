import Verif.Model.FloatWhole
import Verif.Spec.FloatWhole
import Verif.Props.FloatGeo
import Verif.Props.FloatRun

/-!
# Lemmas on the geometry of the tiles in rounded arithmetic
-/

set_option autoImplicit false
set_option linter.unusedSectionVars false

namespace WindMult
open Spec

/-- The limits of a tile, and the buffer around it. -/
theorem limitsFl_buffer (R : Rounding) (up : ℝ) (r : RasterInfo ℝ) (hpw : 0 < r.gt1) (hph : r.gt5 < 0)
    (hup : 0 ≤ up) (hdx : r.xDim < 2 ^ 53) (hdy : r.yDim < 2 ^ 53) (k : ℕ) (L B : Limits)
    (hL : (TileGrid.initFl R up r).getGridlimit k = .ok L)
    (hB : (TileGrid.initFl R up r).getGridlimitBuffer k = .ok B) :
    (B.x1 = 0 ∨ L.x1 - B.x1 = (TileGrid.initFl R up r).xBuffer) ∧
    (B.x2 = r.xDim ∨ B.x2 - L.x2 = (TileGrid.initFl R up r).xBuffer) ∧
    (B.y1 = 0 ∨ L.y1 - B.y1 = (TileGrid.initFl R up r).yBuffer) ∧
    (B.y2 = r.yDim ∨ B.y2 - L.y2 = (TileGrid.initFl R up r).yBuffer) := by
  have hk := gridlimitFl_lt hL
  have aX := axisXFl (R := R) (r := r) hpw hup hdx
  have aY := axisYFl (R := R) (r := r) hph hup hdy
  rw [gridlimitFl_ok hk] at hL
  rw [gridlimitBufferFl_ok hk] at hB
  cases hL
  cases hB
  simp only
  generalize hsx : (TileGrid.initFl R up r).xStep = sx at *
  generalize hbx : (TileGrid.initFl R up r).xBuffer = bx at *
  generalize hsy : (TileGrid.initFl R up r).yStep = sy at *
  generalize hby : (TileGrid.initFl R up r).yBuffer = by' at *
  have bx0 := aX.b_nonneg
  have by0 := aY.b_nonneg
  rw [coreLo_eq, coreHi_eq, coreLo_eq, coreHi_eq]
  generalize ((k / nRowsFl R r : ℕ) : ℤ) * sx = a at *
  generalize (((k / nRowsFl R r : ℕ) : ℤ) + 1) * sx = a' at *
  generalize ((k % nRowsFl R r : ℕ) : ℤ) * sy = c at *
  generalize (((k % nRowsFl R r : ℕ) : ℤ) + 1) * sy = c' at *
  refine ⟨?_, ?_, ?_, ?_⟩ <;> split_ifs at * <;> omega

/-- The corner of a tile, more precisely than `extentFl_near`. -/
theorem extentFl_corner (R : Rounding) (up : ℝ) (r : RasterInfo ℝ) (hpw : 0 < r.gt1) (hph : r.gt5 < 0) (B : Limits)
    (hx1 : 0 ≤ B.x1) (hx : B.x1 < r.xDim) (hy1 : 0 ≤ B.y1) (hy : B.y1 < r.yDim) :
    |((TileGrid.initFl R up r).extentFl R B).xStart - r.lonEdge B.x1| < slackX r ∧
    |((TileGrid.initFl R up r).extentFl R B).yStart - r.latEdge B.y1| < slackY r := by
  have h5 : 0 < -r.gt5 := by linarith
  have key : ∀ (a pw : ℝ) (n dim : ℤ), 0 < pw → 0 ≤ n → n < dim →
      |R.rnd (a + R.rnd (n * pw)) - (a + n * pw)| < (|a| + dim * pw) / 2 ^ 50 := by
    intro a pw n dim hp h0 h1
    have hd : (n : ℝ) + 1 ≤ dim := by exact_mod_cast h1
    have hn : (0 : ℝ) ≤ n := by exact_mod_cast h0
    have hM : |a| + n * pw ≤ |a| + dim * pw := by nlinarith
    have hpos : 0 < |a| + dim * pw := by
      have := abs_nonneg a
      have : 0 < (dim : ℝ) * pw := by nlinarith
      linarith
    refine (edge_err R hp h0 hM).trans_lt ?_
    rw [div_lt_div_iff₀ (by positivity) (by positivity)]
    norm_num
    linarith
  constructor
  · have := key r.gt0 r.gt1 B.x1 r.xDim hpw hx1 hx
    rw [Int.cast_natCast] at this
    exact this
  · have := key (-r.gt3) (-r.gt5) B.y1 r.yDim h5 hy1 hy
    rw [Int.cast_natCast, abs_neg r.gt3] at this
    rw [RasterInfo.latEdge, slackY, ← abs_neg]
    convert this using 2
    simp only [TileGrid.extentFl, TileGrid.initFl]
    ring

/-- Rounded and exact quotients give the same whole numbers. -/
theorem around_quot_near {d pw : ℝ} {n : ℤ} (hpw : 0 < pw) (h : |d - n * pw| ≤ 3 / 8 * pw) : around (d / pw) = n := by
  apply around_eq_of_abs_lt
  have e : d / pw - n = (d - n * pw) / pw := by field_simp
  rw [e, abs_div, abs_of_pos hpw, div_lt_iff₀ hpw]
  linarith

section
variable (R : Rounding) {up : ℝ} {r : RasterInfo ℝ} {k : ℕ} {L B : Limits}

/-- The limits of a tile, and its extents to a thousandth of a pixel. -/
theorem geoFl (hpw : 0 < r.gt1) (hph : r.gt5 < 0) (hup : 0 ≤ up) (hm : r.Moderate)
    (hL : (TileGrid.initFl R up r).getGridlimit k = .ok L)
    (hB : (TileGrid.initFl R up r).getGridlimitBuffer k = .ok B) :
    ((r.xDim : ℤ) ≤ 2 ^ 40 ∧ (r.yDim : ℤ) ≤ 2 ^ 40) ∧
    ((0 ≤ B.x1 ∧ B.x1 ≤ L.x1 ∧ L.x1 < L.x2 ∧ L.x2 ≤ B.x2 ∧ B.x2 ≤ r.xDim) ∧
      0 ≤ B.y1 ∧ B.y1 ≤ L.y1 ∧ L.y1 < L.y2 ∧ L.y2 ≤ B.y2 ∧ B.y2 ≤ r.yDim) ∧
    ∀ M : Limits, M = L ∨ M = B →
      let E := (TileGrid.initFl R up r).extentFl R M
      |E.xStart - r.lonEdge M.x1| < r.gt1 / 1024 ∧ |E.xEnd - r.lonEdge M.x2| < r.gt1 / 1024 ∧
      |E.yStart - r.latEdge M.y1| < -r.gt5 / 1024 ∧ |E.yEnd - r.latEdge M.y2| < -r.gt5 / 1024 := by
  obtain ⟨dx, dy⟩ := moderate_dim hpw hph hm
  have hlim := limitsFl R up r hpw hph hup
    (by exact_mod_cast (by omega : (r.xDim : ℤ) < 2 ^ 53))
    (by exact_mod_cast (by omega : (r.yDim : ℤ) < 2 ^ 53)) k L B hL hB
  refine ⟨⟨dx, dy⟩, hlim, ?_⟩
  obtain ⟨⟨c0, c1, c2, c3, c4⟩, d0, d1, d2, d3, d4⟩ := hlim
  rintro M (rfl | rfl) <;>
    exact extentFl_near R up r hpw hph hm _ (by omega) (by omega) (by omega) (by omega) (by omega) (by omega)

/-- The size of the tile does not depend on the rounding of the quotients. -/
theorem clipInfoFl_eq (hpw : 0 < r.gt1) (hph : r.gt5 < 0) (hup : 0 ≤ up) (hm : r.Moderate)
    (hL : (TileGrid.initFl R up r).getGridlimit k = .ok L)
    (hB : (TileGrid.initFl R up r).getGridlimitBuffer k = .ok B) :
    clipInfoFl R r ((TileGrid.initFl R up r).extentFl R B) = clipInfo r ((TileGrid.initFl R up r).extentFl R B) := by
  obtain ⟨⟨dx, dy⟩, ⟨⟨c0, c1, c2, c3, c4⟩, d0, d1, d2, d3, d4⟩, hE⟩ := geoFl R hpw hph hup hm hL hB
  obtain ⟨e1, e2, e3, e4⟩ := hE B (.inr rfl)
  generalize (TileGrid.initFl R up r).extentFl R B = E' at *
  have h5' : 0 < -r.gt5 := by linarith
  rw [abs_lt] at e1 e2 e3 e4
  rw [RasterInfo.lonEdge] at e1 e2
  rw [RasterInfo.latEdge] at e3 e4
  have b1 : |E'.xEnd - E'.xStart - ((B.x2 - B.x1 : ℤ) : ℝ) * r.gt1| ≤ 3 / 8 * r.gt1 := by
    push_cast
    rw [abs_le]
    constructor <;> linarith [e1.1, e1.2, e2.1, e2.2]
  have b2 : |E'.yStart - E'.yEnd - ((B.y2 - B.y1 : ℤ) : ℝ) * -r.gt5| ≤ 3 / 8 * -r.gt5 := by
    push_cast
    rw [abs_le]
    constructor <;> linarith [e3.1, e3.2, e4.1, e4.2]
  simp only [clipInfoFl, clipInfo, around_quot_fl R hpw (by rw [abs_le]; omega) b1,
    around_quot_fl R h5' (by rw [abs_le]; omega) b2, around_quot_near hpw b1, around_quot_near h5' b2]

/-- Nor do the offsets of the clipped part. -/
theorem clipArrayFl_eq {α : Type} (hpw : 0 < r.gt1) (hph : r.gt5 < 0) (hup : 0 ≤ up) (hm : r.Moderate)
    (hL : (TileGrid.initFl R up r).getGridlimit k = .ok L)
    (hB : (TileGrid.initFl R up r).getGridlimitBuffer k = .ok B) (data : Grid α) :
    let EB := (TileGrid.initFl R up r).extentFl R B
    let E := (TileGrid.initFl R up r).extentFl R L
    clipArrayFl R data EB.xStart (-EB.yStart) r.gt1 (-r.gt5) E =
      data.slice (L.y1 - B.y1) (L.y1 - B.y1 + (L.y2 - L.y1)) (L.x1 - B.x1) (L.x1 - B.x1 + (L.x2 - L.x1)) ∧
    clipArray data EB.xStart (-EB.yStart) r.gt1 (-r.gt5) E =
      data.slice (L.y1 - B.y1) (L.y1 - B.y1 + (L.y2 - L.y1)) (L.x1 - B.x1) (L.x1 - B.x1 + (L.x2 - L.x1)) := by
  obtain ⟨⟨dx, dy⟩, ⟨⟨c0, c1, c2, c3, c4⟩, d0, d1, d2, d3, d4⟩, hE⟩ := geoFl R hpw hph hup hm hL hB
  obtain ⟨e1, e2, e3, e4⟩ := hE B (.inr rfl)
  obtain ⟨f1, f2, f3, f4⟩ := hE L (.inl rfl)
  intro EB E
  have hEB : EB = (TileGrid.initFl R up r).extentFl R B := rfl
  have hE' : E = (TileGrid.initFl R up r).extentFl R L := rfl
  rw [← hEB] at e1 e2 e3 e4
  rw [← hE'] at f1 f2 f3 f4
  clear_value E EB
  have h5' : 0 < -r.gt5 := by linarith
  rw [abs_lt] at e1 e2 e3 e4 f1 f2 f3 f4
  rw [RasterInfo.lonEdge] at e1 e2 f1 f2
  rw [RasterInfo.latEdge] at e3 e4 f3 f4
  have b1 : |E.xStart - EB.xStart - ((L.x1 - B.x1 : ℤ) : ℝ) * r.gt1| ≤ 3 / 8 * r.gt1 := by
    push_cast
    rw [abs_le]
    constructor <;> linarith [e1.1, e1.2, f1.1, f1.2]
  have b2 : |-(-EB.yStart) - E.yStart - ((L.y1 - B.y1 : ℤ) : ℝ) * -r.gt5| ≤ 3 / 8 * -r.gt5 := by
    push_cast
    rw [abs_le]
    constructor <;> linarith [e3.1, e3.2, f3.1, f3.2]
  have b3 : |E.xEnd - E.xStart - ((L.x2 - L.x1 : ℤ) : ℝ) * r.gt1| ≤ 3 / 8 * r.gt1 := by
    push_cast
    rw [abs_le]
    constructor <;> linarith [f1.1, f1.2, f2.1, f2.2]
  have b4 : |E.yStart - E.yEnd - ((L.y2 - L.y1 : ℤ) : ℝ) * -r.gt5| ≤ 3 / 8 * -r.gt5 := by
    push_cast
    rw [abs_le]
    constructor <;> linarith [f3.1, f3.2, f4.1, f4.2]
  constructor
  · simp only [clipArrayFl, around_quot_fl R hpw (by rw [abs_le]; omega) b1,
      around_quot_fl R h5' (by rw [abs_le]; omega) b2, around_quot_fl R hpw (by rw [abs_le]; omega) b3,
      around_quot_fl R h5' (by rw [abs_le]; omega) b4]
  · simp only [clipArray, around_quot_near hpw b1, around_quot_near h5' b2, around_quot_near hpw b3, around_quot_near h5' b4]

/-- The step with rounded geometry is the step with exact geometry on the rounded extents. -/
theorem tileStepGeo_eq (N : TileFp) (c : Inputs) (hpw : 0 < c.r.gt1) (hph : c.r.gt5 < 0) (hup : 0 ≤ up)
    (hm : c.r.Moderate) (hL : (TileGrid.initFl R up c.r).getGridlimit k = .ok L)
    (hB : (TileGrid.initFl R up c.r).getGridlimitBuffer k = .ok B) :
    let EB := (TileGrid.initFl R up c.r).extentFl R B
    let E := (TileGrid.initFl R up c.r).extentFl R L
    tileStepGeo R N c EB E = tileStepFl N c EB E ∧ cutDemFl R c.r c.dem EB 0 = cutDem c.r c.dem EB 0 := by
  intro EB E
  have h1 : clipInfoFl R c.r EB = clipInfo c.r EB := clipInfoFl_eq R hpw hph hup hm hL hB
  have h2 : ∀ data : Grid (Option ℝ), clipArrayFl R data (clipInfo c.r EB).gt0 (-(clipInfo c.r EB).gt3)
      (clipInfo c.r EB).gt1 (-(clipInfo c.r EB).gt5) E = clipArray data (clipInfo c.r EB).gt0 (-(clipInfo c.r EB).gt3)
      (clipInfo c.r EB).gt1 (-(clipInfo c.r EB).gt5) E := by
    intro data
    obtain ⟨q1, q2⟩ := clipArrayFl_eq R hpw hph hup hm hL hB data
    have e5 : -(clipInfo c.r EB).gt5 = -c.r.gt5 := neg_neg _
    rw [e5]
    exact q1.trans q2.symm
  have h3 : cutDemFl R c.r c.dem EB 0 = cutDem c.r c.dem EB 0 := by
    unfold cutDemFl cutDem
    rw [h1]
  refine ⟨?_, h3⟩
  unfold tileStepGeo tileStepFl
  simp only [h1, h3, h2]
  rfl

end

/-- The pixel under a point does not change if the point is moved by less than its distance from the borders. -/
theorem floor_clear {x y a p δ : ℝ} (hp : p ≠ 0) (hxy : |x - y| < δ) (h : ∀ n : ℤ, δ ≤ |y - (a + n * p)|) :
    ⌊(x - a) / p⌋ = ⌊(y - a) / p⌋ := by
  have hpos : 0 < |p| := abs_pos.mpr hp
  have key : ∀ n : ℤ, |(x - a) / p - (y - a) / p| < |(y - a) / p - n| := by
    intro n
    have e1 : (x - a) / p - (y - a) / p = (x - y) / p := by field_simp; ring
    have e2 : (y - a) / p - n = (y - (a + n * p)) / p := by field_simp; ring
    rw [e1, e2, abs_div, abs_div]
    exact div_lt_div_of_pos_right (hxy.trans_le (h n)) hpos
  generalize (x - a) / p = s at key
  generalize (y - a) / p = t at key
  have f1 := Int.floor_le t
  have f2 := Int.lt_floor_add_one t
  rw [Int.floor_eq_iff]
  have k1 := key ⌊t⌋
  have k2 := key (⌊t⌋ + 1)
  push_cast at k2
  rw [abs_of_nonneg (by linarith : 0 ≤ t - ⌊t⌋), abs_lt] at k1
  rw [abs_of_neg (by linarith : t - (⌊t⌋ + 1) < 0), abs_lt] at k2
  constructor <;> linarith [k1.1, k1.2, k2.1, k2.2]

theorem pixelAt_iff {lr : RasterInfo ℝ} (hlw : 0 < lr.gt1) (hlh : lr.gt5 < 0) (x y : ℝ) (col row : ℤ) :
    lr.PixelAt x y col row ↔ ⌊(x - lr.gt0) / lr.gt1⌋ = col ∧ ⌊(y - lr.gt3) / lr.gt5⌋ = row := by
  unfold RasterInfo.PixelAt RasterInfo.lonEdge RasterInfo.latEdge
  rw [Int.floor_eq_iff, Int.floor_eq_iff, le_div_iff₀ hlw, div_lt_iff₀ hlw, le_div_iff_of_neg hlh,
    div_lt_iff_of_neg hlh]
  push_cast
  constructor
  · rintro ⟨h1, h2, h3, h4⟩
    refine ⟨⟨?_, ?_⟩, ?_, ?_⟩ <;> linarith
  · rintro ⟨⟨h1, h2⟩, h3, h4⟩
    refine ⟨?_, ?_, ?_, ?_⟩ <;> linarith

namespace Spec.TileCaseFl
variable {R : Rounding} {c : Inputs} {up : ℝ} {k : ℕ} {L B : Limits} {xm ym : Grid ℝ} {gw : ℝ} {cat : Grid ℤ}

/-- The extents as computed. -/
noncomputable abbrev _root_.WindMult.extFl (R : Rounding) (c : Inputs) (up : ℝ) (M : Limits) : Extent ℝ :=
  (TileGrid.initFl R up c.r).extentFl R M

theorem cutDem_eq (t : TileCaseFl R c up k L B xm ym gw cat) :
    cutDemFl R c.r c.dem (extFl R c up B) 0 = cutDem c.r c.dem (extFl R c up B) 0 := by
  unfold cutDemFl cutDem extFl
  rw [clipInfoFl_eq R t.pw t.ph t.upPos t.moderate t.limits t.limitsB]

theorem dem_same (t : TileCaseFl R c up k L B xm ym gw cat) :
    (cutDem c.r c.dem (extFl R c up B) 0).Same (c.elevation.window B) := by
  obtain ⟨-, ⟨⟨c0, c1, c2, c3, c4⟩, d0, d1, d2, d3, d4⟩, -⟩ :=
    geoFl R t.pw t.ph t.upPos t.moderate t.limits t.limitsB
  obtain ⟨h1, h2, h3⟩ := C101_dem_tile R up c.r t.pw t.ph t.upPos t.moderate c.dem (0 : ℝ) k L B t.limits t.limitsB
  rw [← t.cutDem_eq]
  show (cutDemFl R c.r c.dem ((TileGrid.initFl R up c.r).extentFl R B) 0).Same _
  refine ⟨by simp only [Grid.window]; omega, by simp only [Grid.window]; omega, ?_⟩
  intro i hi j hj
  have := h3 (B.x1.toNat + j) (B.y1.toNat + i)
    ⟨by push_cast; omega, by push_cast; omega, by push_cast; omega, by push_cast; omega⟩
  rw [Nat.add_sub_cancel_left, Nat.add_sub_cancel_left] at this
  rw [this]
  rfl

theorem land_same (t : TileCaseFl R c up k L B xm ym gw cat) :
    (cutLandcover c.lr c.lcv (clipInfo c.r (extFl R c up B)) 0).Same (cat.window B) := by
  obtain ⟨-, ⟨⟨c0, c1, c2, c3, c4⟩, d0, d1, d2, d3, d4⟩, -⟩ :=
    geoFl R t.pw t.ph t.upPos t.moderate t.limits t.limitsB
  obtain ⟨h1, h2, -⟩ := t.dem_same
  obtain ⟨-, -, hcat⟩ := t.land
  obtain ⟨n1, n2⟩ := extentFl_corner R up c.r t.pw t.ph B c0 (by omega) d0 (by omega)
  refine ⟨h1, h2, ?_⟩
  intro i hi j hj
  have hi : i < (B.y2 - B.y1).toNat := lt_of_lt_of_eq hi h1
  have hj : j < (B.x2 - B.x1).toNat := lt_of_lt_of_eq hj h2
  obtain ⟨q1, q2⟩ := hcat (B.x1.toNat + j) (B.y1.toNat + i) (by omega) (by omega)
  have hcl := t.clearLand (B.x1.toNat + j) (B.y1.toNat + i)
    ⟨by push_cast; omega, by push_cast; omega, by push_cast; omega, by push_cast; omega⟩
  have cx : ((B.x1.toNat : ℤ) : ℝ) = B.x1 := by rw [Int.toNat_of_nonneg c0]
  have cy : ((B.y1.toNat : ℤ) : ℝ) = B.y1 := by rw [Int.toNat_of_nonneg d0]
  have hx : |(clipInfo c.r (extFl R c up B)).gt0 + ((j : ℝ) + 1 / 2) * (clipInfo c.r (extFl R c up B)).gt1 -
      c.r.lonCentre (B.x1.toNat + j : ℕ)| < slackX c.r := by
    convert n1 using 2
    simp only [clipInfo, RasterInfo.lonCentre, RasterInfo.lonEdge]
    push_cast at cx ⊢
    rw [cx]
    ring
  have hy : |(clipInfo c.r (extFl R c up B)).gt3 + ((i : ℝ) + 1 / 2) * (clipInfo c.r (extFl R c up B)).gt5 -
      c.r.latCentre (B.y1.toNat + i : ℕ)| < slackY c.r := by
    convert n2 using 2
    simp only [clipInfo, RasterInfo.latCentre, RasterInfo.latEdge]
    push_cast at cy ⊢
    rw [cy]
    ring
  have fx := floor_clear t.lw.ne' hx fun n => (hcl n).1
  have fy := floor_clear t.lh.ne hy fun n => (hcl n).2
  simp only [Grid.window]
  unfold cutLandcover reprojectNearest
  simp only [fx, fy]
  split_ifs with h
  · obtain ⟨e1, e2, e3, e4⟩ := h
    rw [q1 _ _ (by omega) (by omega) ((pixelAt_iff t.lw t.lh _ _ _ _).mpr
      ⟨(Int.toNat_of_nonneg e1).symm, (Int.toNat_of_nonneg e3).symm⟩)]
  · refine (q2 fun col row hc hr hp => h ?_).symm
    obtain ⟨e1, e2⟩ := (pixelAt_iff t.lw t.lh _ _ _ _).mp hp
    rw [e1, e2]
    omega

/-- What the computation of a tile depends on. -/
theorem toAt (t : TileCaseFl R c up k L B xm ym gw cat) :
    TileAt c L B (TileGrid.initFl R up c.r).xBuffer (TileGrid.initFl R up c.r).yBuffer (extFl R c up L)
      (extFl R c up B) xm ym gw cat := by
  obtain ⟨⟨dx, dy⟩, ⟨⟨c0, c1, c2, c3, c4⟩, d0, d1, d2, d3, d4⟩, -⟩ :=
    geoFl R t.pw t.ph t.upPos t.moderate t.limits t.limitsB
  have hb := limitsFl_buffer R up c.r t.pw t.ph t.upPos
    (by exact_mod_cast (by omega : (c.r.xDim : ℤ) < 2 ^ 53))
    (by exact_mod_cast (by omega : (c.r.yDim : ℤ) < 2 ^ 53)) k L B t.limits t.limitsB
  exact {
    pw := t.pw
    ph := t.ph
    geometry := ⟨⟨c0, c1, c2, c3, c4⟩, ⟨d0, d1, d2, d3, d4⟩, hb⟩
    dem_same := t.dem_same
    land_same := t.land_same
    land := ⟨t.land.1, t.land.2.1⟩
    clip := by
      intro α data hr hc
      have e5 : -(clipInfo c.r (extFl R c up B)).gt5 = -c.r.gt5 := neg_neg _
      dsimp only
      rw [e5]
      have e := (clipArrayFl_eq R t.pw t.ph t.upPos t.moderate t.limits t.limitsB data).2
      rw [show (clipInfo c.r (extFl R c up B)).gt0 = (extFl R c up B).xStart from rfl,
        show (clipInfo c.r (extFl R c up B)).gt3 = (extFl R c up B).yStart from rfl,
        show (clipInfo c.r (extFl R c up B)).gt1 = c.r.gt1 from rfl, e]
      simp only [Grid.slice]
      rw [Grid.sliceBound_of_mem (i := L.y1 - B.y1) (by omega) (by omega),
        Grid.sliceBound_of_mem (i := L.x1 - B.x1) (by omega) (by omega),
        Grid.sliceBound_of_mem (i := L.y1 - B.y1 + (L.y2 - L.y1)) (by omega) (by omega),
        Grid.sliceBound_of_mem (i := L.x1 - B.x1 + (L.x2 - L.x1)) (by omega) (by omega)]
      refine ⟨by omega, by omega, ?_⟩
      rintro px py ⟨p1, p2, p3, p4⟩
      congr 1 <;> omega
    corner := by
      obtain ⟨n1, n2⟩ := extentFl_corner R up c.r t.pw t.ph B c0 (by omega) d0 (by omega)
      rw [abs_lt] at n1 n2
      rcases t.clearCorner with h | h | ⟨h, h'⟩
      · constructor
        · rintro ⟨g1, -⟩
          exact absurd g1 (not_lt.mpr (by linarith [n1.2]))
        · rintro ⟨g1, -⟩
          exact absurd g1 (not_lt.mpr (by linarith [n1.1, n1.2]))
      · constructor
        · rintro ⟨-, g1⟩
          exact absurd g1 (not_lt.mpr (by linarith [n2.1]))
        · rintro ⟨-, g1⟩
          exact absurd g1 (not_lt.mpr (by linarith [n2.1, n2.2]))
      · constructor
        · rintro -
          constructor <;> linarith [n1.1, n1.2, n2.1, n2.2]
        · rintro -
          constructor <;> linarith [n1.1, n1.2, n2.1, n2.2]
    width := t.width
    gwPos := t.gwPos
    sizesPos := t.sizesPos
    gwFine := t.gwFine
    bufferX := t.bufferX
    bufferY := t.bufferY
    height := t.height
    notEmpty := by
      rw [← t.cutDem_eq]
      exact t.notEmpty
    someLand := t.someLand }

end Spec.TileCaseFl

end WindMult
