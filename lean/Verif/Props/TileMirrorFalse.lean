import Verif.Props.TileMirror
import Verif.Props.PixelSize

/-!
# C131: transposed pixel sizes break the mirror
-/

set_option autoImplicit false

namespace WindMult
open Real Spec

/-! ### A raster whose first and last columns are given different widths -/

/-- Pixels of 0.0002° by 0.001°, 5000 columns and 3 rows, from 39° S. -/
noncomputable def wideRaster : RasterInfo ℝ := ⟨5000, 3, 150, 1 / 5000, -39, -(1 / 1000)⟩

theorem cos_reduced_le {phi : ℝ} (hphi : |phi| < π / 2) :
    cos (arctan ((1 - earthF) * tan phi)) ≤ cos phi / (1 - earthF) := by
  rw [abs_lt] at hphi
  obtain ⟨f0, f1⟩ := earthF_mem
  have hq : 0 < 1 - earthF := by linarith
  have hc : cos phi = 1 / √(1 + tan phi ^ 2) := by
    rw [← cos_arctan, arctan_tan hphi.1 hphi.2]
  rw [hc, cos_arctan, div_div]
  refine one_div_le_one_div_of_le (by positivity) ?_
  rw [← sqrt_sq hq.le, ← sqrt_mul (by positivity)]
  rw [sqrt_sq hq.le]
  refine sqrt_le_sqrt ?_
  nlinarith

theorem wide_first {sx : ℝ} {sy : ℝ} (h : getPixelSize 8 wideRaster 0 0 = .ok (sx, sy)) :
    0.752 * (earthA * (1 / 5000 * radPerDeg)) ≤ sx := by
  obtain ⟨sx', sy', h1, ⟨h2, -⟩, -⟩ := row_sizes_le 8 le_rfl wideRaster (by norm_num [wideRaster])
    (by norm_num [wideRaster]) (by norm_num [wideRaster]) (by norm_num [wideRaster]) (by norm_num [wideRaster]) 0
    (by norm_num [wideRaster]) 0.681 (by norm_num [wideRaster, rowLat, radPerDeg])
  have e := h1 0
  rw [Nat.cast_zero, h] at e
  cases e
  refine le_trans ?_ h2
  have : 0 < earthA * (1 / 5000 * radPerDeg) := by unfold earthA radPerDeg; norm_num
  simp only [wideRaster]
  gcongr
  norm_num

theorem wide_last {sx : ℝ} {sy : ℝ} (h : getPixelSize 8 wideRaster 0 4999 = .ok (sx, sy)) :
    sx ≤ 0.745 * (earthA * (1 / 5000 * radPerDeg)) := by
  have ha : 0 < earthA := by unfold earthA; norm_num
  have hlat : |wideRaster.gt3 + (4999 + 1 / 2) * wideRaster.gt5| ≤ 89 := by
    rw [abs_le]; norm_num [wideRaster]
  have hphi : |rowLat wideRaster 4999| < π / 2 := by
    have := lat_lt hlat
    simpa [rowLat] using this
  obtain ⟨R, z, hR⟩ := exists_onMeridian (f := earthF) (a := earthA) (phi := rowLat wideRaster 4999)
    (by linarith [earthF_mem.2]) ha hphi
  have hRa := OnMeridian.radius (by linarith [earthF_mem.2]) ha hphi hR
  obtain ⟨sx', sy', h1, ⟨-, h3⟩, -⟩ := C87_pixel_size 8 le_rfl wideRaster 0 4999 (by norm_num [wideRaster])
    (by norm_num [wideRaster]) (by norm_num [wideRaster]) (by rw [abs_le]; norm_num [wideRaster])
    (by rw [abs_le]; norm_num [wideRaster]) R z hR
  rw [h] at h1
  cases h1
  refine h3.trans ?_
  have hc := cos_reduced_le hphi
  have hx : |rowLat wideRaster 4999| ≤ 1 := by
    unfold rowLat wideRaster radPerDeg
    rw [abs_le]; norm_num
  have hb := (abs_le.mp (cos_bound hx)).2
  have hs : 0.5896 ≤ rowLat wideRaster 4999 ^ 2 := by norm_num [rowLat, wideRaster, radPerDeg]
  have hs' : |rowLat wideRaster 4999| ^ 4 ≤ 0.348 := by
    rw [show |rowLat wideRaster 4999| ^ 4 = (rowLat wideRaster 4999 ^ 2) ^ 2 by
      rw [show 4 = 2 * 2 by norm_num, pow_mul, sq_abs]]
    norm_num [rowLat, wideRaster, radPerDeg]
  have hcos : cos (rowLat wideRaster 4999) ≤ 0.7234 := by norm_num at hs hs' ⊢; linarith
  have hU : cos (arctan ((1 - earthF) * tan (rowLat wideRaster 4999))) ≤ 0.73 := by
    refine hc.trans ?_
    have hf : (0.995 : ℝ) ≤ 1 - earthF := by unfold earthF; norm_num
    rw [div_le_iff₀ (by linarith)]
    norm_num at hcos hf ⊢
    linarith
  have hp : 0 < earthA * (1 / 5000 * radPerDeg) := by unfold earthA radPerDeg; norm_num
  rw [hRa]
  simp only [wideRaster] at hU ⊢
  generalize cos _ = u at hU ⊢
  calc 102 / 100 * (earthA * u * (1 / 5000 * radPerDeg)) = 102 / 100 * u * (earthA * (1 / 5000 * radPerDeg)) := by ring
    _ ≤ _ := by gcongr; norm_num at hU ⊢; linarith

/-- The corner columns of the grid of the widths are given the widths of two different rows. -/
theorem wide_sizes : ∃ xm ym, pixelSizes 8 wideRaster = .ok (xm, ym) ∧ (0 < gridWidth xm ym) ∧
    gridWidth xm ym ≤ 100 ∧ ⌊100 / gridWidth xm ym⌋.toNat = 1 ∧ 0 < xm.val 1 4999 ∧ xm.val 1 4999 < xm.val 1 0 := by
  have hw0 : (1 : ℝ) / 1000000 ≤ wideRaster.gt1 := by norm_num [wideRaster]
  have hw1 : wideRaster.gt1 ≤ 5 := by norm_num [wideRaster]
  have hh0 : (1 : ℝ) / 1000000 ≤ -wideRaster.gt5 := by norm_num [wideRaster]
  have hn : wideRaster.gt3 ≤ 45 := by norm_num [wideRaster]
  have hs : -45 ≤ wideRaster.gt3 + wideRaster.xDim * wideRaster.gt5 := by norm_num [wideRaster]
  obtain ⟨xm, ym, h1, ⟨h2, h3⟩, ⟨h4, h5⟩, h6⟩ := C88_grids 8 le_rfl wideRaster (by norm_num [wideRaster])
    (by norm_num [wideRaster]) hw0 hw1 hh0 hn hs
  have hrow := row_sizes 8 le_rfl wideRaster hw0 hw1 hh0 hn hs
  choose! SX SY hS1 hS2 hS3 using hrow
  obtain ⟨gx, x1, x2, x3, x4⟩ := interpolateGrid_one (fun x y => (getPixelSize 8 wideRaster x y).map Prod.fst)
    (fun _ j => SX j.toNat) 3 5000 (by norm_num) (by norm_num) (by
      intro i _ j hj
      simp only [Int.toNat_natCast, hS1 j hj]
      rfl) ⟨3, 5000, fun _ _ => some 0⟩ rfl rfl
  have hex : ∀ i j, xm.val i j = (gx.val i j).getD 0 := by
    unfold pixelSizes at h1
    rw [show pixelSizeGrid (fun x y => (getPixelSize 8 wideRaster x y).map Prod.fst) wideRaster.yDim wideRaster.xDim
      = .ok gx from x1] at h1
    intro i j
    cases hy : pixelSizeGrid (fun x y => (getPixelSize 8 wideRaster x y).map Prod.snd) wideRaster.yDim
      wideRaster.xDim with
    | error e => rw [hy] at h1; cases h1
    | ok gy => rw [hy] at h1; cases h1; rfl
  have v0 : xm.val 1 0 = SX 0 := by
    rw [hex, x4 1 (by norm_num) 0 (by norm_num), blockValue_eq _ (by norm_num) (by norm_num), Option.getD_some]
    norm_num [lastHalf, axLo, axHi, axSize]
  have v1 : xm.val 1 4999 = SX 4999 := by
    rw [hex, x4 1 (by norm_num) 4999 (by norm_num), blockValue_eq _ (by norm_num) (by norm_num), Option.getD_some]
    norm_num [lastHalf, axLo, axHi, axSize]
    rfl
  have f := wide_first (hS1 0 (by norm_num [wideRaster]) 0)
  have l := wide_last (hS1 4999 (by norm_num [wideRaster]) 0)
  have hp : 0 < earthA * (1 / 5000 * radPerDeg) := by unfold earthA radPerDeg; norm_num
  have b4 := (h6 1 (by norm_num [wideRaster]) 4999 (by norm_num [wideRaster])).1.1
  have mx := xm.mean_mem (by rw [h2]; norm_num [wideRaster]) (by rw [h3]; norm_num [wideRaster]) 14.2 23.7
    (fun i hi j hj => by
      obtain ⟨⟨a, b⟩, -⟩ := h6 i (by omega) j (by omega)
      norm_num [wideRaster, earthA, radPerDeg] at a b ⊢
      constructor <;> linarith)
  have my := ym.mean_mem (by rw [h4]; norm_num [wideRaster]) (by rw [h5]; norm_num [wideRaster]) 107 115
    (fun i hi j hj => by
      obtain ⟨-, a, b⟩ := h6 i (by omega) j (by omega)
      norm_num [wideRaster, earthA, radPerDeg] at a b ⊢
      constructor <;> linarith)
  norm_num at mx my
  have g0 : 60 < gridWidth xm ym := by unfold gridWidth; linarith [mx.1, my.1]
  have g1 : gridWidth xm ym < 70 := by unfold gridWidth; linarith [mx.2, my.2]
  refine ⟨xm, ym, h1, by linarith, by linarith, ?_, ?_, ?_⟩
  · have : ⌊100 / gridWidth xm ym⌋ = 1 := by
      rw [Int.floor_eq_iff]
      push_cast
      constructor
      · rw [le_div_iff₀ (by linarith)]; linarith
      · rw [div_lt_iff₀ (by linarith)]; linarith
    rw [this]; rfl
  · refine lt_of_lt_of_le ?_ b4
    norm_num [wideRaster, earthA, radPerDeg]
  · rw [v0, v1]
    refine lt_of_le_of_lt l (lt_of_lt_of_le ?_ f)
    norm_num at hp ⊢
    linarith

/-! ### Ground sloping down to the east, everywhere in the same way -/

/-- Land of category 1, shielding 50 %, sloping down eastward by `t` metres per pixel. -/
noncomputable def slantedLand (t : ℝ) : Inputs where
  r := wideRaster
  dem := ⟨3, 5000, fun _ j => some (-(t * j))⟩
  lr := wideRaster
  lcv := ⟨3, 5000, fun _ _ => some 1⟩
  terrainTable := []
  shieldTable := [(1, 50)]
  pixelSizes := pixelSizes 8
  checksum := fun _ => 1

/-- Where the rows are the same the ground falls to the east or to the west. -/
theorem headingClear_of_flat {g xm ym : Grid ℝ} {i j : ℕ} (h : riseNorth g i j = 0) : HeadingClear g xm ym i j := by
  rintro a s ⟨-, -, -, h4, -, h6⟩ hs n
  rw [h, zero_div, neg_zero] at h6
  have hpi := pi_pos
  have ht : 0 < tan (s * (π / 180)) := by
    refine tan_pos_of_pos_of_lt_pi_div_two ?_ ?_
    · norm_num at hs; have : 0 < s := by linarith
      positivity
    · have : s * (π / 180) < 90 * (π / 180) := by gcongr
      linarith
  have hcos : cos (a * (π / 180)) = 0 := by
    rcases mul_eq_zero.mp h6.symm with h | h
    · exact absurd h ht.ne'
    · exact h
  rw [abs_pos, sub_ne_zero]
  rintro rfl
  rw [cos_eq_zero_iff] at hcos
  obtain ⟨k, hk⟩ := hcos
  have : (1 + 2 * n : ℝ) = 4 * (2 * k + 1) := by
    have h8 : π ≠ 0 := hpi.ne'
    field_simp at hk
    linarith
  have : 1 + 2 * n = 4 * (2 * k + 1) := by exact_mod_cast this
  omega

theorem slanted_clamped (t : ℝ) (r c : ℤ) : (slantedLand t).elevation.clamped r c =
    -(t * (if c < 0 then 0 else if 5000 ≤ c then 4999 else c.toNat : ℕ)) := by
  have : ∀ a b, (slantedLand t).elevation.val a b = -(t * b) := fun a b => rfl
  unfold Grid.clamped
  rw [this]
  rfl

theorem slanted_oneTile (t : ℝ) {xm ym : Grid ℝ} (h1 : pixelSizes 8 wideRaster = .ok (xm, ym))
    (h2 : 0 < gridWidth xm ym) (h3 : gridWidth xm ym ≤ 100) :
    OneTile (slantedLand t) xm ym ∧ OneTile (slantedLand t).mirrorEW xm ym := by
  constructor <;> exact
    { pw := by norm_num [slantedLand, wideRaster, Inputs.mirrorEW]
      ph := by norm_num [slantedLand, wideRaster, Inputs.mirrorEW]
      someRows := by norm_num [slantedLand, wideRaster, Inputs.mirrorEW]
      someCols := by norm_num [slantedLand, wideRaster, Inputs.mirrorEW]
      demRows := rfl
      demCols := rfl
      grid := rfl
      landRows := rfl
      landCols := rfl
      sizes := h1
      gwPos := h2
      gwFine := h3
      notEmpty := one_ne_zero }

/-- Without a terrain class nothing is computed for the terrain. -/
theorem terrain_no_class (gw : ℝ) (land : Grid ℤ) (hr : 0 < land.rows) (hc : 0 < land.cols) :
    (terrain mzFormula gw land [] id).2 = .ok () := by
  have hm : (terrainClass2mz mzFormula land []).cells.max? = some 0 := by
    rw [List.max?_eq_some_iff]
    constructor
    · rw [mem_cells]; exact ⟨0, hr, 0, hc, rfl⟩
    · intro v hv
      rw [mem_cells] at hv
      obtain ⟨i, -, j, -, rfl⟩ := hv
      exact le_rfl
  unfold terrain
  simp only [hm, if_true]

/-- **C131 is false of the code** for the shielding files: the country slopes down to the east everywhere at the same
rate and its mirror image to the west, so that no heading is near the boundary of two sectors.  The widths of the
first column are computed for the first row and those of the last column for the row whose number is the last
column's (C57), and the slope in degrees, for which the sizes are needed, is different in the two. -/
theorem C131_transposed_sizes :
    ¬ ∀ (c : Inputs) (xm ym : Grid ℝ), OneTile c xm ym → OneTile c.mirrorEW xm ym →
      c.pixelSizes = pixelSizes 8 → (∀ i j, HeadingClear c.elevation xm ym i j) →
      (tileStep c c.r.area c.r.area).2 = .ok () → ∀ d r' r,
        tileFiles c.mirrorEW c.r.area c.r.area .ms d.mirrorEW = some r' →
        tileFiles c c.r.area c.r.area .ms d = some r →
        ∀ i < c.r.yDim, ∀ j < c.r.xDim, r'.band.val i j = r.band.val i (c.r.xDim - 1 - j) := by
  intro hall
  obtain ⟨xm, ym, h1, h2, h3, h4, h5, h6⟩ := wide_sizes
  have hpi := pi_pos
  have htan : 0 < tan (3.27 * (π / 180)) := tan_pos_of_pos_of_lt_pi_div_two (by norm_num; positivity) (by
    norm_num; linarith)
  obtain ⟨t, ht⟩ : ∃ t, t = 2 * (xm.val 1 0 * tan (3.27 * (π / 180))) := ⟨_, rfl⟩
  obtain ⟨o, o'⟩ := slanted_oneTile t h1 h2 h3
  have hflat : ∀ i j : ℕ, riseNorth (slantedLand t).elevation i j = 0 := by
    intro i j; simp only [riseNorth, slanted_clamped]; ring
  obtain ⟨s1, -, s3⟩ := o.step
  obtain ⟨s1', -, s3'⟩ := o'.step
  have hok : (terrain mzFormula (gridWidth xm ym) (cutLandcover (slantedLand t).lr (slantedLand t).lcv
      (clipInfo (slantedLand t).r (slantedLand t).r.area) 0) (slantedLand t).terrainTable id).2 = .ok () :=
    terrain_no_class _ _ (by rw [o.cutLand.1]; exact Nat.succ_pos 2) (by rw [o.cutLand.2.1]; exact Nat.succ_pos 4999)
  have hok' : (terrain mzFormula (gridWidth xm ym) (cutLandcover (slantedLand t).mirrorEW.lr
      (slantedLand t).mirrorEW.lcv (clipInfo (slantedLand t).mirrorEW.r (slantedLand t).mirrorEW.r.area) 0)
      (slantedLand t).mirrorEW.terrainTable id).2 = .ok () :=
    terrain_no_class _ _ (by rw [o'.cutLand.1]; exact Nat.succ_pos 2) (by rw [o'.cutLand.2.1]; exact Nat.succ_pos 4999)
  obtain ⟨a, -⟩ := s3 hok
  obtain ⟨a', -⟩ := s3' hok'
  change (tileStep (slantedLand t).mirrorEW (slantedLand t).r.area (slantedLand t).r.area).1.ms = _ at a'
  have k := shieldSaved_all h2 h3 (cutDem (slantedLand t).r (slantedLand t).dem (slantedLand t).r.area 0) xm ym
    (class2ms none (slantedLand t).shieldTable (cutLandcover (slantedLand t).lr (slantedLand t).lcv
      (clipInfo (slantedLand t).r (slantedLand t).r.area) 0)) |(slantedLand t).r.gt1| |(slantedLand t).r.gt5| .e
  have k' := shieldSaved_all h2 h3 (cutDem (slantedLand t).mirrorEW.r (slantedLand t).mirrorEW.dem
      (slantedLand t).mirrorEW.r.area 0) xm ym
    (class2ms none (slantedLand t).mirrorEW.shieldTable (cutLandcover (slantedLand t).mirrorEW.lr
      (slantedLand t).mirrorEW.lcv (clipInfo (slantedLand t).mirrorEW.r (slantedLand t).mirrorEW.r.area) 0))
    |(slantedLand t).mirrorEW.r.gt1| |(slantedLand t).mirrorEW.r.gt5| .w
  rw [← a] at k
  rw [← a'] at k'
  obtain ⟨g, hg⟩ := Option.isSome_iff_exists.mp k
  obtain ⟨g', hg'⟩ := Option.isSome_iff_exists.mp k'
  have key := hall (slantedLand t) xm ym o o' rfl (fun i j => headingClear_of_flat (hflat i j)) (s1.trans hok) .e _ _
    (show tileFiles (slantedLand t).mirrorEW _ _ .ms .w = _ by
      simp only [tileFiles, savedFile, hg', Option.map_some]; rfl)
    (show tileFiles (slantedLand t) _ _ .ms .e = _ by
      simp only [tileFiles, savedFile, hg, Option.map_some]; rfl)
    1 (show 1 < 3 by norm_num) 4999 (show 4999 < 5000 by norm_num)
  rw [show (slantedLand t).r.xDim - 1 - 4999 = 0 by norm_num [slantedLand, wideRaster]] at key
  change toNanNum (g'.val 1 4999) = toNanNum (g.val 1 0) at key
  rw [a] at hg
  rw [a'] at hg'
  obtain ⟨-, -, u⟩ := shieldSaved_cell h2 h3 (mem_of_lookup hg)
  obtain ⟨-, -, u'⟩ := shieldSaved_cell h2 h3 (mem_of_lookup hg')
  have hpx : |(slantedLand t).r.gt1| ≠ 0 := abs_ne_zero.mpr o.pw.ne'
  have hpy : |(slantedLand t).r.gt5| ≠ 0 := abs_ne_zero.mpr o.ph.ne
  have hE : (slantedLand t).mirrorEW.elevation = (slantedLand t).elevation.mirrorEW := rfl
  -- the mean over the shielding cells is one half
  have q : (class2ms none (slantedLand t).shieldTable (cutLandcover (slantedLand t).lr (slantedLand t).lcv
      (clipInfo (slantedLand t).r (slantedLand t).r.area) 0)).Same
      (⟨3, 5000, fun _ _ => some (1 / 2)⟩ : Grid (Option ℝ)) :=
    ⟨o.cutLand.1, o.cutLand.2.1, fun i hi j hj => by
      show class2msCell _ _ _ = _
      rw [o.cutLand.2.2 i hi j hj]
      norm_num [class2msCell, slantedLand, Inputs.land, Grid.map]
      exact fun h => by cases h⟩
  have q' : (class2ms none (slantedLand t).mirrorEW.shieldTable (cutLandcover (slantedLand t).mirrorEW.lr
      (slantedLand t).mirrorEW.lcv (clipInfo (slantedLand t).mirrorEW.r (slantedLand t).mirrorEW.r.area) 0)).Same
      (⟨3, 5000, fun _ _ => some (1 / 2)⟩ : Grid (Option ℝ)) :=
    ⟨o'.cutLand.1, o'.cutLand.2.1, fun i hi j hj => by
      show class2msCell _ _ _ = _
      rw [o'.cutLand.2.2 i hi j hj]
      norm_num [class2msCell, slantedLand, Inputs.land, Grid.map, Inputs.mirrorEW, Grid.mirrorEW]
      exact fun h => by cases h⟩
  have c1 : shieldCells .e 1 = {(0, 1)} := by decide
  have c2 : shieldCells .w 1 = {(0, -1)} := by decide
  have m1 : shieldMean (⟨3, 5000, fun _ _ => some (1 / 2)⟩ : Grid (Option ℝ)) .e 1 1 0 = some (1 / 2) := by
    unfold shieldMean
    rw [c1]
    norm_num [Grid.cellOrOne, InRaster]
    exact fun h => by cases h
  have m2 : shieldMean (⟨3, 5000, fun _ _ => some (1 / 2)⟩ : Grid (Option ℝ)) .w 1 1 4999 = some (1 / 2) := by
    unfold shieldMean
    rw [c2]
    norm_num [Grid.cellOrOne, InRaster]
    exact fun h => by cases h
  -- the ground
  have e1 : riseEast (slantedLand t).elevation 1 0 = -(t / 2) := by
    simp only [riseEast, slanted_clamped]; norm_num; ring
  have e2 : riseEast (slantedLand t).elevation.mirrorEW 1 4999 = t / 2 := by
    simp only [riseEast, clamped_mirrorEW (slantedLand t).elevation _ _ (show 0 < 5000 by norm_num), slanted_clamped]
    rw [show ((slantedLand t).elevation.cols : ℤ) = 5000 from rfl]
    norm_num; ring
  have n1 : riseNorth (slantedLand t).elevation 1 0 = 0 := by
    simp only [riseNorth, slanted_clamped]; ring
  have n2 : riseNorth (slantedLand t).elevation.mirrorEW 1 4999 = 0 := by
    simp only [riseNorth, clamped_mirrorEW (slantedLand t).elevation _ _ (show 0 < 5000 by norm_num), slanted_clamped]
    ring
  have hA : 0 < xm.val 1 0 := h5.trans h6
  have f1 : FallsTowards (riseEast (slantedLand t).elevation 1 0 / xm.val 1 0)
      (riseNorth (slantedLand t).elevation 1 0 / ym.val 1 0) 90 3.27 := by
    refine ⟨by norm_num, by norm_num, by norm_num, by norm_num, ?_, ?_⟩
    · rw [e1, ht, show (90 : ℝ) * (π / 180) = π / 2 by ring, sin_pi_div_two]
      field_simp
    · rw [n1, show (90 : ℝ) * (π / 180) = π / 2 by ring, cos_pi_div_two]
      simp
  obtain ⟨s, hs⟩ : ∃ s, s = arctan (t / 2 / xm.val 1 4999) / (π / 180) := ⟨_, rfl⟩
  have hs' : s * (π / 180) = arctan (t / 2 / xm.val 1 4999) := by rw [hs]; field_simp
  have hbig : 3.27 < s := by
    have : tan (3.27 * (π / 180)) < t / 2 / xm.val 1 4999 := by
      rw [lt_div_iff₀ h5, ht]
      nlinarith
    have h7 := arctan_strictMono this
    rw [arctan_tan (by norm_num; linarith) (by norm_num; linarith), ← hs'] at h7
    exact lt_of_mul_lt_mul_right h7 (by positivity)
  have hlt : s < 90 := by
    have h7 := arctan_lt_pi_div_two (t / 2 / xm.val 1 4999)
    rw [← hs'] at h7
    by_contra hc
    push Not at hc
    have : 90 * (π / 180) ≤ s * (π / 180) := by gcongr
    linarith
  have f2 : FallsTowards (riseEast (slantedLand t).elevation.mirrorEW 1 4999 / xm.val 1 4999)
      (riseNorth (slantedLand t).elevation.mirrorEW 1 4999 / ym.val 1 4999) 270 s := by
    have h270 : (270 : ℝ) * (π / 180) = π / 2 + π := by ring
    refine ⟨by norm_num, by norm_num, by norm_num at hbig; linarith, hlt, ?_, ?_⟩
    · rw [e2, hs', tan_arctan, h270, sin_add_pi, sin_pi_div_two]
      ring
    · rw [n2, h270, cos_add_pi, cos_pi_div_two]
      simp
  obtain ⟨b1, b2⟩ := C39_cell (slantedLand t).elevation (Nat.succ_pos 2) (Nat.succ_pos 4999) _ _ _ _ hpx hpy 1 0 _ _ f1
  obtain ⟨b1', b2'⟩ := C39_cell (slantedLand t).elevation.mirrorEW (Nat.succ_pos 2) (Nat.succ_pos 4999) _ _ _ _
    hpx hpy 1 4999 _ _ f2
  have v : g.val 1 0 = some (9 / 20) := by
    rw [u, h4, shieldMean_same _ _ q, m1, tileSlope_same o.cut o.someRows o.someCols hpx hpy, b1, combine_value]
    norm_num [slopeAdjusted, slopeWeight]
  have v' : g'.val 1 4999 ≠ some (9 / 20) := by
    rw [u', h4, shieldMean_same _ _ q', m2, tileSlope_same o'.cut o'.someRows o'.someCols
      (px := |(slantedLand t).mirrorEW.r.gt1|) (py := |(slantedLand t).mirrorEW.r.gt5|) hpx hpy, hE]
    change combineCell .w _ (slopeAspect ((slantedLand t).elevation.mirrorEW.map some) |(slantedLand t).r.gt1|
      |(slantedLand t).r.gt5| _ _ _ _).1 (slopeAspect ((slantedLand t).elevation.mirrorEW.map some)
      |(slantedLand t).r.gt1| |(slantedLand t).r.gt5| _ _ _ _).2 ≠ _
    rw [b1', b2' (by norm_num at hbig; linarith), combine_value,
      C29_sector_class .w _ (by norm_num) (by norm_num) ⟨0, by norm_num [Dir.bearing], by norm_num [Dir.bearing]⟩]
    have hw : 0 < slopeWeight (some s) ∧ slopeWeight (some s) ≤ 1 := by
      unfold slopeWeight
      norm_num at hbig ⊢
      linarith
    simp only [slopeAdjusted, if_true]
    generalize slopeWeight (some s) = x at hw
    obtain ⟨w1, w2⟩ := hw
    intro hc
    have hc := Option.some.inj hc
    split_ifs at hc with h9
    · norm_num at hc; linarith
    · norm_num at hc h9; nlinarith
  rw [v] at key
  cases hv : g'.val 1 4999 with
  | none => rw [hv] at key; cases key
  | some x => rw [hv] at key; cases key; exact v' hv

/-- Four columns of steep ground, falling westward, with pixels of 50 m everywhere, half of it built-up: all conditions
of C131 are met at every pixel, and the tile is computed. -/
example : ∃ (c : Inputs) (xm ym : Grid ℝ), OneTile c xm ym ∧ OneTile c.mirrorEW xm ym ∧ OneTile c.mirrorNS xm ym ∧
    (∀ i j i' j', SameGround c.elevation xm ym i j i' j') ∧ (tileStep c c.r.area c.r.area).2 = .ok () ∧
    c.elevation.val 0 0 ≠ c.elevation.val 0 3 ∧ c.land.val 0 0 ≠ c.land.val 0 3 := by
  have hg : gridWidth ⟨3, 4, fun _ _ => 50⟩ ⟨3, 4, fun _ _ => 50⟩ = 50 := by
    norm_num [gridWidth, Grid.mean, Grid.cells, List.range_succ]
  have hall : OneTile ⟨⟨4, 3, 150, 1 / 2000, -35, -(1 / 2000)⟩, ⟨3, 4, fun _ j => some (20 * (j : ℝ))⟩,
      ⟨4, 3, 150, 1 / 2000, -35, -(1 / 2000)⟩, ⟨3, 4, fun _ j => if j < 2 then some 1 else some 2⟩, [], [(1, 50)],
      fun _ => .ok (⟨3, 4, fun _ _ => 50⟩, ⟨3, 4, fun _ _ => 50⟩), fun _ => 1⟩ ⟨3, 4, fun _ _ => 50⟩
      ⟨3, 4, fun _ _ => 50⟩ :=
    ⟨by norm_num, by norm_num, by norm_num, by norm_num, rfl, rfl, rfl, rfl, rfl, rfl, by rw [hg]; norm_num,
      by rw [hg]; norm_num, one_ne_zero⟩
  refine ⟨_, _, _, hall, ?_, ?_, fun i j i' j' => ⟨rfl, rfl, headingClear_of_flat ?_⟩, ?_, ?_, ?_⟩
  · exact ⟨by norm_num [Inputs.mirrorEW], by norm_num [Inputs.mirrorEW], by norm_num [Inputs.mirrorEW],
      by norm_num [Inputs.mirrorEW], rfl, rfl, rfl, rfl, rfl, rfl, by rw [hg]; norm_num, by rw [hg]; norm_num,
      one_ne_zero⟩
  · exact ⟨by norm_num [Inputs.mirrorNS], by norm_num [Inputs.mirrorNS], by norm_num [Inputs.mirrorNS],
      by norm_num [Inputs.mirrorNS], rfl, rfl, rfl, rfl, rfl, rfl, by rw [hg]; norm_num, by rw [hg]; norm_num,
      one_ne_zero⟩
  · simp only [riseNorth, Grid.clamped, Inputs.elevation]; ring
  · rw [hall.step.1]
    exact terrain_no_class _ _ (by rw [hall.cutLand.1]; exact Nat.succ_pos 2)
      (by rw [hall.cutLand.2.1]; exact Nat.succ_pos 3)
  · norm_num [Inputs.elevation]
  · norm_num [Inputs.land, Grid.map]

end WindMult
