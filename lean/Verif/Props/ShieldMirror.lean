import Verif.Props.ShieldBlur
import Verif.Props.SlopeAspect
import Verif.Props.Terrain

/-!
# The eight directions of the shielding step are mirror images of each other (C126)
-/

set_option autoImplicit false

namespace WindMult
open Finset

/-- What the shielding step saves for the ground `dem`, the initial shielding `data` and the pixel sizes in
degrees (`px`, `py`) and metres (`xm`, `ym`), before clipping: `convo_combine` with slope and aspect of
`get_slope_aspect` (`/repo/shielding/shield_mult.py` 89-150, 244-330). -/
noncomputable def shieldSaved (gw : ℝ) (dem : Grid ℝ) (data : Grid (Option ℝ)) (px py : ℝ) (xm ym : Grid ℝ) :
    List (Dir × Grid (Option ℝ)) :=
  convoCombine gw data
    ⟨dem.rows, dem.cols, fun i j => (slopeAspect (dem.map some) px py (xm.val i j) (ym.val i j) i j).1⟩
    ⟨dem.rows, dem.cols, fun i j => (slopeAspect (dem.map some) px py (xm.val i j) (ym.val i j) i j).2⟩ id

/-- The heading of the ground at a cell matters only where the slope exceeds 3.27°; there it is not exactly on the
boundary of two sectors. -/
def HeadingClear (dem xm ym : Grid ℝ) (i j : ℕ) : Prop :=
  ∀ h s, FallsTowards (riseEast dem i j / xm.val i j) (riseNorth dem i j / ym.val i j) h s → 3.27 < s →
    ClearHeading 0 h

/-! ### The mean over the shielding cells -/

theorem shieldMean_carried {K : Type} [Field K] (g' g : Grid (Option K)) (d' d : Dir) (k i' j' i j : ℕ)
    (φ : ℤ × ℤ ≃ ℤ × ℤ) (hmem : ∀ o, o ∈ shieldCells d' k ↔ φ o ∈ shieldCells d k)
    (hval : ∀ o, g'.cellOrOne (i' + o.1) (j' + o.2) = g.cellOrOne (i + (φ o).1) (j + (φ o).2)) :
    shieldMean g' d' k i' j' = shieldMean g d k i j := by
  unfold shieldMean
  have hc : (shieldCells d' k).card = (shieldCells d k).card :=
    Finset.card_equiv φ hmem
  have hs : (∑ o ∈ shieldCells d' k, (g'.cellOrOne (i' + o.1) (j' + o.2)).getD 0) =
      ∑ o ∈ shieldCells d k, (g.cellOrOne (i + o.1) (j + o.2)).getD 0 :=
    Finset.sum_equiv φ hmem (fun o _ => by rw [hval])
  have he : (∃ o ∈ shieldCells d' k, g'.cellOrOne (i' + o.1) (j' + o.2) = none) ↔
      ∃ o ∈ shieldCells d k, g.cellOrOne (i + o.1) (j + o.2) = none := by
    constructor
    · rintro ⟨o, ho, h⟩
      exact ⟨φ o, (hmem o).1 ho, by rw [← hval]; exact h⟩
    · rintro ⟨o, ho, h⟩
      refine ⟨φ.symm o, (hmem _).2 (by simpa using ho), ?_⟩
      rw [hval]
      simpa using h
  rw [hc, hs]
  simp only [he]

theorem cellOrOne_carried {K : Type} [Field K] {g' g : Grid (Option K)} {r' c' r c : ℤ}
    (h : InRaster g'.rows g'.cols r' c' ↔ InRaster g.rows g.cols r c)
    (hv : InRaster g'.rows g'.cols r' c' → g'.val r'.toNat c'.toNat = g.val r.toNat c.toNat) :
    g'.cellOrOne r' c' = g.cellOrOne r c := by
  unfold Grid.cellOrOne
  by_cases hin : InRaster g'.rows g'.cols r' c'
  · rw [if_pos hin, if_pos (h.1 hin), hv hin]
  · rw [if_neg hin, if_neg (mt h.2 hin)]

/-- The offsets mirrored east-west, north-south, at the diagonal. -/
def reflectCols : ℤ × ℤ ≃ ℤ × ℤ := ⟨fun o => (o.1, -o.2), fun o => (o.1, -o.2), fun o => by simp, fun o => by simp⟩
def reflectRows : ℤ × ℤ ≃ ℤ × ℤ := ⟨fun o => (-o.1, o.2), fun o => (-o.1, o.2), fun o => by simp, fun o => by simp⟩

theorem shieldMean_mirrorEW {K : Type} [Field K] (g : Grid (Option K)) (d : Dir) (k i j : ℕ) (hj : j < g.cols) :
    shieldMean g.mirrorEW d.mirrorEW k i j = shieldMean g d k i (g.cols - 1 - j) := by
  apply shieldMean_carried _ _ _ _ _ _ _ _ _ reflectCols
  · rintro ⟨a, b⟩
    simp only [shieldCells, mem_filter, mem_product, mem_Icc, reflectCols, Equiv.coe_fn_mk]
    cases d <;> simp [Dir.mirrorEW, Dir.north, Dir.east] <;> omega
  · rintro ⟨a, b⟩
    apply cellOrOne_carried
    · simp only [InRaster, Grid.mirrorEW, reflectCols, Equiv.coe_fn_mk]; omega
    · rintro ⟨p1, p2, p3, p4⟩
      simp only [Grid.mirrorEW, reflectCols, Equiv.coe_fn_mk] at p2 p3 p4 ⊢
      congr 1; omega

theorem shieldMean_mirrorNS {K : Type} [Field K] (g : Grid (Option K)) (d : Dir) (k i j : ℕ) (hi : i < g.rows) :
    shieldMean g.mirrorNS d.mirrorNS k i j = shieldMean g d k (g.rows - 1 - i) j := by
  apply shieldMean_carried _ _ _ _ _ _ _ _ _ reflectRows
  · rintro ⟨a, b⟩
    simp only [shieldCells, mem_filter, mem_product, mem_Icc, reflectRows, Equiv.coe_fn_mk]
    cases d <;> simp [Dir.mirrorNS, Dir.north, Dir.east] <;> omega
  · rintro ⟨a, b⟩
    apply cellOrOne_carried
    · simp only [InRaster, Grid.mirrorNS, reflectRows, Equiv.coe_fn_mk]; omega
    · rintro ⟨p1, p2, p3, p4⟩
      simp only [Grid.mirrorNS, reflectRows, Equiv.coe_fn_mk] at p1 p2 p4 ⊢
      congr 1; omega

theorem shieldMean_transpose {K : Type} [Field K] (g : Grid (Option K)) (d : Dir) (k i j : ℕ) :
    shieldMean g.transpose d.transpose k i j = shieldMean g d k j i := by
  apply shieldMean_carried _ _ _ _ _ _ _ _ _ (Equiv.prodComm ℤ ℤ)
  · rintro ⟨a, b⟩
    simp only [shieldCells, mem_filter, mem_product, mem_Icc, Equiv.prodComm_apply, Prod.swap_prod_mk]
    cases d <;> simp [Dir.transpose, Dir.north, Dir.east] <;> omega
  · rintro ⟨a, b⟩
    apply cellOrOne_carried
    · simp only [InRaster, Grid.transpose, Equiv.prodComm_apply, Prod.swap_prod_mk]; omega
    · intro _; rfl

/-! ### The heading of mirrored ground -/

theorem bearing_mult (d : Dir) : ∃ q : ℤ, (d.bearing : ℝ) = 45 * q :=
  ⟨((d.bearing / 45 : ℕ) : ℤ), by cases d <;> norm_num [Dir.bearing]⟩

/-- Reflection of headings `h ↦ c - h` carries sectors to sectors, apart from their boundaries. -/
theorem sector_reflect {d d' : Dir} {c h : ℝ} {t m : ℤ} (hb : (d'.bearing : ℝ) = c - d.bearing + 360 * t)
    (hclear : ClearHeading 0 h) (hs : InSector d h) : InSector d' (c - h + 360 * m) := by
  obtain ⟨n, h1, h2⟩ := hs
  obtain ⟨q, hq⟩ := bearing_mult d
  have hne : (d.bearing : ℝ) - 45 / 2 ≠ h + 360 * n := by
    intro he
    have := hclear (q - 1 - 8 * n)
    push_cast at this
    rw [show h - (45 / 2 + 45 * ((q : ℝ) - 1 - 8 * n)) = 0 by linarith, abs_zero] at this
    exact lt_irrefl _ this
  have h3 := lt_of_le_of_ne h1 hne
  refine ⟨t - n - m, ?_, ?_⟩
  · push_cast; linarith
  · push_cast; linarith

theorem clear_reflect {c h : ℝ} {p m : ℤ} (hc : c = 45 * p) (hclear : ClearHeading 0 h) :
    ClearHeading 0 (c - h + 360 * m) := by
  intro n
  have := hclear (p - 1 - n + 8 * m)
  push_cast at this
  rwa [show c - h + 360 * m - (45 / 2 + 45 * n) = -(h - (45 / 2 + 45 * ((p : ℝ) - 1 - n + 8 * m))) by
    rw [hc]; ring, abs_neg]

theorem combineCell_congr {d d' : Dir} {ms slope : Option ℝ} {a a' : ℕ}
    (h : a = direAspect d ↔ a' = direAspect d') : combineCell d ms slope a = combineCell d' ms slope a' := by
  unfold combineCell
  simp only [h]

theorem combineCell_no_slope {d d' : Dir} {ms : Option ℝ} {a a' : ℕ} :
    combineCell d ms none a = combineCell d' ms none a' := by
  unfold combineCell
  simp [nanTest]

/-- The cell of the shielding step depends on the ground only through where it falls to. -/
theorem combineCell_onGround {dem' dem : Grid ℝ} {px py : ℝ} {x' y' x y : ℝ} {i' j' i j : ℕ} {d' d : Dir}
    (hr' : 0 < dem'.rows) (hc' : 0 < dem'.cols) (hr : 0 < dem.rows) (hc : 0 < dem.cols)
    (hpx : px ≠ 0) (hpy : py ≠ 0) {c : ℝ} {p t : ℤ} (hcp : c = 45 * p)
    (hb : (d'.bearing : ℝ) = c - d.bearing + 360 * t)
    (hfall : ∀ h s, FallsTowards (riseEast dem i j / x) (riseNorth dem i j / y) h s →
      ∀ h', 0 ≤ h' → h' < 360 → (∃ m : ℤ, h' = c - h + 360 * m) →
      FallsTowards (riseEast dem' i' j' / x') (riseNorth dem' i' j' / y') h' s)
    (hclear : ∀ h s, FallsTowards (riseEast dem i j / x) (riseNorth dem i j / y) h s → 3.27 < s →
      ClearHeading 0 h) (ms : Option ℝ) :
    combineCell d' ms (slopeAspect (dem'.map some) px py x' y' i' j').1
        (slopeAspect (dem'.map some) px py x' y' i' j').2 =
      combineCell d ms (slopeAspect (dem.map some) px py x y i j).1
        (slopeAspect (dem.map some) px py x y i j).2 := by
  obtain ⟨h, s, hf⟩ := exists_fallsTowards (riseEast dem i j / x) (riseNorth dem i j / y)
  obtain ⟨m, hm⟩ : ∃ m : ℤ, fmod (c - h) 360 = c - h + 360 * m := ⟨-⌊(c - h) / 360⌋, by
    unfold fmod; push_cast; ring⟩
  obtain ⟨m1, m2⟩ := fmod_range (c - h) (m := 360) (by norm_num)
  have hf' := hfall h s hf _ m1 m2 ⟨m, hm⟩
  rw [hm] at hf' m1 m2
  obtain ⟨a1, a2⟩ := C39_cell dem' hr' hc' px py x' y' hpx hpy i' j' _ s hf'
  obtain ⟨b1, b2⟩ := C39_cell dem hr hc px py x y hpx hpy i j h s hf
  rw [a1, b1]
  by_cases hs : s ≤ 3.27
  · rw [C35_gentle_slope_no_effect _ _ _ _ hs, C35_gentle_slope_no_effect _ _ _ _ hs]
    exact combineCell_no_slope
  · push Not at hs
    have hs0 : 0 < s := by norm_num at hs; linarith
    rw [a2 hs0, b2 hs0]
    apply combineCell_congr
    have hcl := hclear h s hf hs
    rw [C29_class_iff_sector _ _ m1 m2.le, C29_class_iff_sector _ _ hf.1 hf.2.1.le]
    constructor
    · intro hsec
      have := sector_reflect (d := d') (d' := d) (c := c) (t := t) (m := m) (by linarith)
        (clear_reflect (m := m) hcp hcl) hsec
      rwa [show c - (c - h + 360 * (m : ℝ)) + 360 * m = h by ring] at this
    · exact sector_reflect hb hcl

theorem falls_carried {e n e' n' c : ℝ}
    (he : ∀ h s : ℝ, FallsTowards e n h s →
      -e' = Real.tan (s * (Real.pi / 180)) * Real.sin ((c - h) * (Real.pi / 180)) ∧
      -n' = Real.tan (s * (Real.pi / 180)) * Real.cos ((c - h) * (Real.pi / 180)))
    (h s : ℝ) (hf : FallsTowards e n h s) (h' : ℝ) (h0 : 0 ≤ h') (h1 : h' < 360)
    (hm : ∃ m : ℤ, h' = c - h + 360 * m) : FallsTowards e' n' h' s := by
  obtain ⟨m, rfl⟩ := hm
  obtain ⟨e1, e2⟩ := he h s hf
  have : (c - h + 360 * (m : ℝ)) * (Real.pi / 180) = (c - h) * (Real.pi / 180) + m * (2 * Real.pi) := by ring
  refine ⟨h0, h1, hf.2.2.1, hf.2.2.2.1, ?_, ?_⟩
  · rw [this, Real.sin_add_int_mul_two_pi]; exact e1
  · rw [this, Real.cos_add_int_mul_two_pi]; exact e2

/-- What the step saves at a cell, for cells of at most 100 m. -/
theorem shieldSaved_cell {gw : ℝ} (h0 : 0 < gw) (h100 : gw ≤ 100) {dem xm ym : Grid ℝ} {data : Grid (Option ℝ)}
    {px py : ℝ} {d : Dir} {out : Grid (Option ℝ)} (hout : (d, out) ∈ shieldSaved gw dem data px py xm ym) :
    out.rows = data.rows ∧ out.cols = data.cols ∧ ∀ i j, out.val i j =
      combineCell d (shieldMean data d ⌊100 / gw⌋.toNat i j)
        (slopeAspect (dem.map some) px py (xm.val i j) (ym.val i j) i j).1
        (slopeAspect (dem.map some) px py (xm.val i j) (ym.val i j) i j).2 := by
  unfold shieldSaved at hout
  obtain ⟨res, e1, e2⟩ := C70_directions_independent_partial gw h0 h100 data
    ⟨dem.rows, dem.cols, fun i j => (slopeAspect (dem.map some) px py (xm.val i j) (ym.val i j) i j).1⟩
    ⟨dem.rows, dem.cols, fun i j => (slopeAspect (dem.map some) px py (xm.val i j) (ym.val i j) i j).2⟩ id
  have ho : out = res d := by
    rw [e1] at hout
    cases d <;> simpa using hout
  subst ho
  exact e2 d

theorem clamped_mirrorEW (g : Grid ℝ) (r c : ℤ) (hc : 0 < g.cols) :
    g.mirrorEW.clamped r c = g.clamped r (g.cols - 1 - c) := by
  unfold Grid.clamped Grid.mirrorEW
  simp only
  congr 1
  split_ifs <;> omega

theorem clamped_mirrorNS (g : Grid ℝ) (r c : ℤ) (hr : 0 < g.rows) :
    g.mirrorNS.clamped r c = g.clamped (g.rows - 1 - r) c := by
  unfold Grid.clamped Grid.mirrorNS
  simp only
  congr 1
  split_ifs <;> omega

theorem clamped_transpose (g : Grid ℝ) (r c : ℤ) : g.transpose.clamped r c = g.clamped c r := rfl

/-! ### C126 -/

/-- **C126** (east-west): the shielding multipliers of a mirrored raster in the mirrored direction are the mirror
image of those of the raster, for cells of at most 100 m and at every cell whose ground is not both steep enough to
matter and heading exactly along the boundary of two sectors.  The full statement has neither condition; it is false
(`C126_boundary_breaks_mirror`, `C126_coarse_cells_break_mirror`). -/
theorem C126_mirror_east_west_partial (gw : ℝ) (h0 : 0 < gw) (h100 : gw ≤ 100) (dem xm ym : Grid ℝ)
    (data : Grid (Option ℝ)) (hd : data.cols = dem.cols) (hx : xm.cols = dem.cols) (hy : ym.cols = dem.cols)
    (px py : ℝ) (hpx : px ≠ 0) (hpy : py ≠ 0) (d : Dir) (out out' : Grid (Option ℝ))
    (hout : (d, out) ∈ shieldSaved gw dem data px py xm ym)
    (hout' : (d.mirrorEW, out') ∈
      shieldSaved gw dem.mirrorEW data.mirrorEW px py xm.mirrorEW ym.mirrorEW) :
    out'.rows = out.rows ∧ out'.cols = out.cols ∧ ∀ i < dem.rows, ∀ j < dem.cols,
      HeadingClear dem xm ym i (dem.cols - 1 - j) → out'.val i j = out.mirrorEW.val i j := by
  obtain ⟨r1, r2, r3⟩ := shieldSaved_cell h0 h100 hout
  obtain ⟨s1, s2, s3⟩ := shieldSaved_cell h0 h100 hout'
  refine ⟨by rw [s1, r1]; rfl, by rw [s2, r2]; rfl, fun i hi j hj hclear => ?_⟩
  have hcast : ((dem.cols - 1 - j : ℕ) : ℤ) = (dem.cols : ℤ) - 1 - j := by omega
  have hE : riseEast dem.mirrorEW i j = -riseEast dem i ((dem.cols - 1 - j : ℕ) : ℤ) := by
    simp only [riseEast, clamped_mirrorEW dem _ _ (by omega : 0 < dem.cols), hcast]
    rw [show (dem.cols : ℤ) - 1 - (j + 1) = dem.cols - 1 - j - 1 by ring,
      show (dem.cols : ℤ) - 1 - (j - 1) = dem.cols - 1 - j + 1 by ring]
    ring
  have hN : riseNorth dem.mirrorEW i j = riseNorth dem i ((dem.cols - 1 - j : ℕ) : ℤ) := by
    simp only [riseNorth, clamped_mirrorEW dem _ _ (by omega : 0 < dem.cols), hcast]
    rw [show (dem.cols : ℤ) - 1 - (j + 1) = dem.cols - 1 - j - 1 by ring,
      show (dem.cols : ℤ) - 1 - (j - 1) = dem.cols - 1 - j + 1 by ring]
    ring
  have e1 : out.mirrorEW.val i j = out.val i (dem.cols - 1 - j) := by
    simp only [Grid.mirrorEW, r2, hd]
  have e2 : xm.mirrorEW.val i j = xm.val i (dem.cols - 1 - j) := by simp only [Grid.mirrorEW, hx]
  have e3 : ym.mirrorEW.val i j = ym.val i (dem.cols - 1 - j) := by simp only [Grid.mirrorEW, hy]
  rw [e1, r3, s3, shieldMean_mirrorEW data d _ i j (by omega), hd, e2, e3]
  refine combineCell_onGround (by simp only [Grid.mirrorEW]; omega) (by simp only [Grid.mirrorEW]; omega)
    (by omega) (by omega) hpx hpy (c := 0) (p := 0) (t := if d.bearing = 0 then 0 else 1) (by norm_num)
    ?_ ?_ hclear _
  · cases d <;> norm_num [Dir.mirrorEW, Dir.bearing]
  · apply falls_carried
    rintro h s ⟨-, -, -, -, u1, u2⟩
    rw [hE, hN, zero_sub, neg_mul, Real.sin_neg, Real.cos_neg, mul_neg, ← u1, ← u2]
    constructor <;> ring

/-- **C126** (north-south) -/
theorem C126_mirror_north_south_partial (gw : ℝ) (h0 : 0 < gw) (h100 : gw ≤ 100) (dem xm ym : Grid ℝ)
    (data : Grid (Option ℝ)) (hd : data.rows = dem.rows) (hx : xm.rows = dem.rows) (hy : ym.rows = dem.rows)
    (px py : ℝ) (hpx : px ≠ 0) (hpy : py ≠ 0) (d : Dir) (out out' : Grid (Option ℝ))
    (hout : (d, out) ∈ shieldSaved gw dem data px py xm ym)
    (hout' : (d.mirrorNS, out') ∈
      shieldSaved gw dem.mirrorNS data.mirrorNS px py xm.mirrorNS ym.mirrorNS) :
    out'.rows = out.rows ∧ out'.cols = out.cols ∧ ∀ i < dem.rows, ∀ j < dem.cols,
      HeadingClear dem xm ym (dem.rows - 1 - i) j → out'.val i j = out.mirrorNS.val i j := by
  obtain ⟨r1, r2, r3⟩ := shieldSaved_cell h0 h100 hout
  obtain ⟨s1, s2, s3⟩ := shieldSaved_cell h0 h100 hout'
  refine ⟨by rw [s1, r1]; rfl, by rw [s2, r2]; rfl, fun i hi j hj hclear => ?_⟩
  have hcast : ((dem.rows - 1 - i : ℕ) : ℤ) = (dem.rows : ℤ) - 1 - i := by omega
  have hE : riseEast dem.mirrorNS i j = riseEast dem ((dem.rows - 1 - i : ℕ) : ℤ) j := by
    simp only [riseEast, clamped_mirrorNS dem _ _ (by omega : 0 < dem.rows), hcast]
    rw [show (dem.rows : ℤ) - 1 - (i + 1) = dem.rows - 1 - i - 1 by ring,
      show (dem.rows : ℤ) - 1 - (i - 1) = dem.rows - 1 - i + 1 by ring]
    ring
  have hN : riseNorth dem.mirrorNS i j = -riseNorth dem ((dem.rows - 1 - i : ℕ) : ℤ) j := by
    simp only [riseNorth, clamped_mirrorNS dem _ _ (by omega : 0 < dem.rows), hcast]
    rw [show (dem.rows : ℤ) - 1 - (i + 1) = dem.rows - 1 - i - 1 by ring,
      show (dem.rows : ℤ) - 1 - (i - 1) = dem.rows - 1 - i + 1 by ring]
    ring
  have e1 : out.mirrorNS.val i j = out.val (dem.rows - 1 - i) j := by
    simp only [Grid.mirrorNS, r1, hd]
  have e2 : xm.mirrorNS.val i j = xm.val (dem.rows - 1 - i) j := by simp only [Grid.mirrorNS, hx]
  have e3 : ym.mirrorNS.val i j = ym.val (dem.rows - 1 - i) j := by simp only [Grid.mirrorNS, hy]
  rw [e1, r3, s3, shieldMean_mirrorNS data d _ i j (by omega), hd, e2, e3]
  refine combineCell_onGround (by simp only [Grid.mirrorNS]; omega) (by simp only [Grid.mirrorNS]; omega)
    (by omega) (by omega) hpx hpy (c := 180) (p := 4) (t := if d.bearing ≤ 180 then 0 else 1) (by norm_num)
    ?_ ?_ hclear _
  · cases d <;> norm_num [Dir.mirrorNS, Dir.bearing]
  · apply falls_carried
    rintro h s ⟨-, -, -, -, u1, u2⟩
    rw [show ((180 : ℝ) - h) * (Real.pi / 180) = Real.pi - h * (Real.pi / 180) by ring, hE, hN,
      Real.sin_pi_sub, Real.cos_pi_sub, mul_neg, ← u1, ← u2]
    constructor <;> ring

/-- **C126** (transposition; the pixel sizes in the two directions change places) -/
theorem C126_transpose_partial (gw : ℝ) (h0 : 0 < gw) (h100 : gw ≤ 100) (dem xm ym : Grid ℝ)
    (data : Grid (Option ℝ)) (px py : ℝ) (hpx : px ≠ 0) (hpy : py ≠ 0) (d : Dir) (out out' : Grid (Option ℝ))
    (hout : (d, out) ∈ shieldSaved gw dem data px py xm ym)
    (hout' : (d.transpose, out') ∈
      shieldSaved gw dem.transpose data.transpose px py ym.transpose xm.transpose) :
    out'.rows = out.cols ∧ out'.cols = out.rows ∧ ∀ i < dem.cols, ∀ j < dem.rows,
      HeadingClear dem xm ym j i → out'.val i j = out.transpose.val i j := by
  obtain ⟨r1, r2, r3⟩ := shieldSaved_cell h0 h100 hout
  obtain ⟨s1, s2, s3⟩ := shieldSaved_cell h0 h100 hout'
  refine ⟨by rw [s1, r2]; rfl, by rw [s2, r1]; rfl, fun i hi j hj hclear => ?_⟩
  have hE : riseEast dem.transpose i j = -riseNorth dem j i := by
    simp only [riseEast, riseNorth, clamped_transpose]; ring
  have hN : riseNorth dem.transpose i j = -riseEast dem j i := by
    simp only [riseEast, riseNorth, clamped_transpose]; ring
  have e1 : out.transpose.val i j = out.val j i := rfl
  have e2 : xm.transpose.val i j = xm.val j i := rfl
  have e3 : ym.transpose.val i j = ym.val j i := rfl
  rw [e1, r3, s3, shieldMean_transpose data d, e2, e3]
  refine combineCell_onGround (by simp only [Grid.transpose]; omega) (by simp only [Grid.transpose]; omega)
    (by omega) (by omega) hpx hpy (c := 270) (p := 6) (t := if d.bearing ≤ 270 then 0 else 1) (by norm_num)
    ?_ ?_ hclear _
  · cases d <;> norm_num [Dir.transpose, Dir.bearing]
  · apply falls_carried
    rintro h s ⟨-, -, -, -, u1, u2⟩
    rw [show ((270 : ℝ) - h) * (Real.pi / 180) = Real.pi / 2 - h * (Real.pi / 180) + Real.pi by ring, hE, hN,
      Real.sin_add_pi, Real.cos_add_pi, Real.sin_pi_div_two_sub, Real.cos_pi_div_two_sub, mul_neg, mul_neg,
      ← u1, ← u2]
    constructor <;> ring

/-- Every direction is saved. -/
theorem shieldSaved_exists {gw : ℝ} (h0 : 0 < gw) (h100 : gw ≤ 100) (dem xm ym : Grid ℝ) (data : Grid (Option ℝ))
    (px py : ℝ) (d : Dir) : ∃ out, (d, out) ∈ shieldSaved gw dem data px py xm ym := by
  unfold shieldSaved
  obtain ⟨res, e1, -⟩ := C70_directions_independent_partial gw h0 h100 data
    ⟨dem.rows, dem.cols, fun i j => (slopeAspect (dem.map some) px py (xm.val i j) (ym.val i j) i j).1⟩
    ⟨dem.rows, dem.cols, fun i j => (slopeAspect (dem.map some) px py (xm.val i j) (ym.val i j) i j).2⟩ id
  refine ⟨res d, ?_⟩
  rw [e1]
  cases d <;> simp

/-- The hypotheses of the three theorems are met, with a slope of 45° in a heading away from every boundary. -/
example : ∃ dem : Grid ℝ, FallsTowards (riseEast dem 0 0 / 1) (riseNorth dem 0 0 / 1) 90 45 ∧ ClearHeading 0 90 ∧
    HeadingClear dem ⟨1, 2, fun _ _ => 1⟩ ⟨1, 2, fun _ _ => 1⟩ 0 0 ∧
    ∃ out, (Dir.e, out) ∈ shieldSaved 50 dem ⟨1, 2, fun _ _ => some (1 / 2)⟩ 1 1 ⟨1, 2, fun _ _ => 1⟩
      ⟨1, 2, fun _ _ => 1⟩ := by
  have hf : FallsTowards (riseEast ⟨1, 2, fun _ j => -2 * j⟩ 0 0 / 1) (riseNorth ⟨1, 2, fun _ j => -2 * j⟩ 0 0 / 1)
      90 45 := by
    have ht : Real.tan (45 * (Real.pi / 180)) = 1 := by
      rw [show 45 * (Real.pi / 180) = Real.pi / 4 by ring, Real.tan_pi_div_four]
    have h90 : (90 : ℝ) * (Real.pi / 180) = Real.pi / 2 := by ring
    refine ⟨by norm_num, by norm_num, by norm_num, by norm_num, ?_, ?_⟩
    · rw [ht, h90, Real.sin_pi_div_two]; norm_num [riseEast, Grid.clamped]
    · rw [ht, h90, Real.cos_pi_div_two]; norm_num [riseNorth, Grid.clamped]
  have hcl : ClearHeading 0 90 := by
    intro n
    rw [abs_pos]
    intro h
    have h2 : (3 : ℝ) = 2 * n := by linarith
    have h3 : (3 : ℤ) = 2 * n := by exact_mod_cast h2
    omega
  refine ⟨⟨1, 2, fun _ j => -2 * j⟩, hf, hcl, ?_, shieldSaved_exists (by norm_num) (by norm_num) _ _ _ _ 1 1 .e⟩
  intro h s hf' hs
  have hs0 : 0 < s := by norm_num at hs; linarith
  have e1 := hf'.aspect hs0
  have e2 := hf.aspect (by norm_num)
  norm_num at e1 e2
  rw [← e1, e2]
  exact hcl

/-- A slope of 45° that falls exactly towards 22.5°, the boundary of the sectors north and north-east. -/
noncomputable def boundaryGround : Grid ℝ := ⟨3, 3, fun i j => Real.cos (Real.pi / 8) * i - Real.sin (Real.pi / 8) * j⟩

theorem boundaryGround_falls :
    FallsTowards (riseEast boundaryGround 1 1 / 1) (riseNorth boundaryGround 1 1 / 1) (45 / 2) 45 ∧
    FallsTowards (riseEast boundaryGround.mirrorEW 1 1 / 1) (riseNorth boundaryGround.mirrorEW 1 1 / 1)
      (675 / 2) 45 := by
  have ht : Real.tan (45 * (Real.pi / 180)) = 1 := by
    rw [show 45 * (Real.pi / 180) = Real.pi / 4 by ring, Real.tan_pi_div_four]
  have s1 : (45 / 2 : ℝ) * (Real.pi / 180) = Real.pi / 8 := by ring
  have s2 : (675 / 2 : ℝ) * (Real.pi / 180) = -(Real.pi / 8) + 2 * Real.pi := by ring
  have c : ∀ r c : ℕ, r ≤ 2 → c ≤ 2 → boundaryGround.clamped r c =
      Real.cos (Real.pi / 8) * r - Real.sin (Real.pi / 8) * c := by
    intro r c hr hc
    have hR : boundaryGround.rows = 3 := rfl
    have hC : boundaryGround.cols = 3 := rfl
    unfold Grid.clamped
    rw [if_neg (by omega), if_neg (by omega), if_neg (by omega), if_neg (by omega)]
    rfl
  have c00 := c 0 0 (by norm_num) (by norm_num)
  have c01 := c 0 1 (by norm_num) (by norm_num)
  have c02 := c 0 2 (by norm_num) (by norm_num)
  have c10 := c 1 0 (by norm_num) (by norm_num)
  have c12 := c 1 2 (by norm_num) (by norm_num)
  have c20 := c 2 0 (by norm_num) (by norm_num)
  have c21 := c 2 1 (by norm_num) (by norm_num)
  have c22 := c 2 2 (by norm_num) (by norm_num)
  have hcols : (boundaryGround.cols : ℤ) = 3 := rfl
  norm_num at c00 c01 c02 c10 c12 c20 c21 c22
  refine ⟨⟨by norm_num, by norm_num, by norm_num, by norm_num, ?_, ?_⟩,
    ⟨by norm_num, by norm_num, by norm_num, by norm_num, ?_, ?_⟩⟩
  · rw [ht, s1]; norm_num [riseEast, *]; ring
  · rw [ht, s1]; norm_num [riseNorth, *]; ring
  · rw [ht, s2, Real.sin_add_two_pi, Real.sin_neg]
    simp only [riseEast, clamped_mirrorEW boundaryGround _ _ (by norm_num [boundaryGround])]
    norm_num [*]; ring
  · rw [ht, s2, Real.cos_add_two_pi, Real.cos_neg]
    simp only [riseNorth, clamped_mirrorEW boundaryGround _ _ (by norm_num [boundaryGround])]
    norm_num [*]; ring

/-- **C126 is false of the code** on the boundary of two sectors: a boundary belongs to the sector clockwise of it,
so ground falling exactly towards 22.5° faces a north-east wind, its mirror image, falling towards 337.5°, faces a
north wind and not a north-west wind. -/
theorem C126_boundary_breaks_mirror :
    ¬ ∀ (gw : ℝ) (dem xm ym : Grid ℝ) (data : Grid (Option ℝ)) (px py : ℝ) (d : Dir)
      (out out' : Grid (Option ℝ)), 0 < gw → gw ≤ 100 → data.rows = dem.rows → data.cols = dem.cols →
      xm.rows = dem.rows → xm.cols = dem.cols → ym.rows = dem.rows → ym.cols = dem.cols → px ≠ 0 → py ≠ 0 →
      (d, out) ∈ shieldSaved gw dem data px py xm ym →
      (d.mirrorEW, out') ∈ shieldSaved gw dem.mirrorEW data.mirrorEW px py xm.mirrorEW ym.mirrorEW →
      out'.Same out.mirrorEW := by
  intro hall
  obtain ⟨out, ho⟩ := shieldSaved_exists (gw := 100) (by norm_num) le_rfl boundaryGround ⟨3, 3, fun _ _ => 1⟩
    ⟨3, 3, fun _ _ => 1⟩ ⟨3, 3, fun _ _ => some (1 / 2)⟩ 1 1 .ne
  obtain ⟨out', ho'⟩ := shieldSaved_exists (gw := 100) (by norm_num) le_rfl boundaryGround.mirrorEW
    (⟨3, 3, fun _ _ => 1⟩ : Grid ℝ).mirrorEW (⟨3, 3, fun _ _ => 1⟩ : Grid ℝ).mirrorEW
    (⟨3, 3, fun _ _ => some (1 / 2)⟩ : Grid (Option ℝ)).mirrorEW 1 1 (Dir.ne).mirrorEW
  have hs := hall 100 boundaryGround ⟨3, 3, fun _ _ => 1⟩ ⟨3, 3, fun _ _ => 1⟩ ⟨3, 3, fun _ _ => some (1 / 2)⟩ 1 1 .ne out
    out' (by norm_num) le_rfl rfl rfl rfl rfl rfl rfl one_ne_zero one_ne_zero ho ho'
  obtain ⟨r1, r2, r3⟩ := shieldSaved_cell (by norm_num) le_rfl ho
  obtain ⟨s1, s2, s3⟩ := shieldSaved_cell (by norm_num) le_rfl ho'
  have h11 := hs.2.2 1 (by rw [s1]; norm_num [Grid.mirrorEW]) 1 (by rw [s2]; norm_num [Grid.mirrorEW])
  obtain ⟨f1, f2⟩ := boundaryGround_falls
  obtain ⟨a1, a2⟩ := C39_cell boundaryGround (by norm_num [boundaryGround]) (by norm_num [boundaryGround]) 1 1 1 1
    one_ne_zero one_ne_zero 1 1 _ _ f1
  obtain ⟨b1, b2⟩ := C39_cell boundaryGround.mirrorEW (by norm_num [boundaryGround, Grid.mirrorEW])
    (by norm_num [boundaryGround, Grid.mirrorEW]) 1 1 1 1 one_ne_zero one_ne_zero 1 1 _ _ f2
  have hk : ⌊(100 : ℝ) / 100⌋.toNat = 1 := by norm_num
  have hc1 : shieldCells .nw 1 = {(-1, -1)} := by decide
  have hc2 : shieldCells .ne 1 = {(-1, 1)} := by decide
  have m1 : shieldMean (⟨3, 3, fun _ _ => some (1 / 2)⟩ : Grid (Option ℝ)) .ne 1 1 1 = some (1 / 2) := by
    unfold shieldMean
    rw [hc2]
    norm_num [Grid.cellOrOne, InRaster]
    exact fun h => by cases h
  have m2 : shieldMean (⟨3, 3, fun _ _ => some (1 / 2)⟩ : Grid (Option ℝ)).mirrorEW .nw 1 1 1 = some (1 / 2) := by
    unfold shieldMean
    rw [hc1]
    norm_num [Grid.cellOrOne, InRaster, Grid.mirrorEW]
    exact fun h => by cases h
  have e1 : out.mirrorEW.val 1 1 = out.val 1 1 := by simp only [Grid.mirrorEW, r2]
  rw [e1, r3, s3, hk] at h11
  simp only [Dir.mirrorEW] at h11
  rw [m1, m2] at h11
  change combineCell .nw (some (1 / 2)) (slopeAspect (boundaryGround.mirrorEW.map some) 1 1 1 1 1 1).1
    (slopeAspect (boundaryGround.mirrorEW.map some) 1 1 1 1 1 1).2 =
    combineCell .ne (some (1 / 2)) (slopeAspect (boundaryGround.map some) 1 1 1 1 1 1).1
    (slopeAspect (boundaryGround.map some) 1 1 1 1 1 1).2 at h11
  rw [a1, a2 (by norm_num), b1, b2 (by norm_num),
    C35_steep_facing_is_one .ne _ _ _ (by norm_num) (by norm_num) (by norm_num)
      ⟨0, by norm_num [Dir.bearing], by norm_num [Dir.bearing]⟩, combine_value,
    C29_sector_class .n _ (by norm_num) (by norm_num)
      ⟨-1, by norm_num [Dir.bearing], by norm_num [Dir.bearing]⟩] at h11
  norm_num [slopeAdjusted, direAspect] at h11

/-- **C126 is false of the code** for cells above 100 m: there the directions are computed one from the result of
the other (`C70_directions_compound`), west first, and no mirror image reverses that order. -/
theorem C126_coarse_cells_break_mirror :
    ¬ ∀ (gw : ℝ) (dem xm ym : Grid ℝ) (data : Grid (Option ℝ)) (px py : ℝ) (d : Dir)
      (out out' : Grid (Option ℝ)), 100 < gw → data.rows = dem.rows → data.cols = dem.cols →
      xm.rows = dem.rows → xm.cols = dem.cols → ym.rows = dem.rows → ym.cols = dem.cols → px ≠ 0 → py ≠ 0 →
      (∀ i j, HeadingClear dem xm ym i j) → (d, out) ∈ shieldSaved gw dem data px py xm ym →
      (d.mirrorEW, out') ∈ shieldSaved gw dem.mirrorEW data.mirrorEW px py xm.mirrorEW ym.mirrorEW →
      out'.Same out.mirrorEW := by
  intro hall
  have hrise : ∀ i j : ℕ, riseEast ⟨1, 1, fun _ _ => 0⟩ i j = 0 ∧ riseNorth ⟨1, 1, fun _ _ => 0⟩ i j = 0 := by
    intro i j
    simp [riseEast, riseNorth, Grid.clamped]
  have hsl : ∀ i j : ℕ, (slopeAspect ((⟨1, 1, fun _ _ => 0⟩ : Grid ℝ).map some) 1 1 1 1 i j).1 = some 0 := by
    intro i j
    refine (C39_cell ⟨1, 1, fun _ _ => 0⟩ (by norm_num) (by norm_num) 1 1 1 1 one_ne_zero one_ne_zero i j 0 0 ?_).1
    rw [(hrise i j).1, (hrise i j).2]
    exact ⟨le_rfl, by norm_num, le_rfl, by norm_num, by simp, by simp⟩
  have hL : shieldSaved 200 ⟨1, 1, fun _ _ => 0⟩ ⟨1, 1, fun _ _ => some (1 / 2)⟩ 1 1 ⟨1, 1, fun _ _ => 1⟩
      ⟨1, 1, fun _ _ => 1⟩ = convoCombine 200 ⟨1, 1, fun _ _ => some (1 / 2)⟩ ⟨1, 1, fun _ _ => some 0⟩
        ⟨1, 1, fun i j => (slopeAspect ((⟨1, 1, fun _ _ => 0⟩ : Grid ℝ).map some) 1 1 1 1 i j).2⟩ id := by
    unfold shieldSaved
    simp only [hsl]
  have hcomp := fun n d out => C70_directions_compound (200 : ℝ) (by norm_num) (1 / 2) (by norm_num) (by norm_num)
    ⟨1, 1, fun i j => (slopeAspect ((⟨1, 1, fun _ _ => 0⟩ : Grid ℝ).map some) 1 1 1 1 i j).2⟩ 1 1 n d out
  rw [← hL] at hcomp
  have hfl : ⌊(100 : ℝ) / 200⌋ = 0 := by norm_num
  obtain ⟨o1, o2, rest, hE, hr, hc⟩ : ∃ o1 o2 rest, shieldSaved 200 ⟨1, 1, fun _ _ => 0⟩
      ⟨1, 1, fun _ _ => some (1 / 2)⟩ 1 1 ⟨1, 1, fun _ _ => 1⟩ ⟨1, 1, fun _ _ => 1⟩ =
        (Dir.w, o1) :: (Dir.e, o2) :: rest ∧ o2.rows = 1 ∧ o2.cols = 1 := by
    unfold shieldSaved convoCombine
    rw [pyInt, if_pos (by norm_num), hfl]
    exact ⟨_, _, _, rfl, rfl, rfl⟩
  have h1 := hcomp 0 .w o1 (by rw [hE]; rfl)
  have h2 := hcomp 1 .e o2 (by rw [hE]; rfl)
  have hs := hall 200 ⟨1, 1, fun _ _ => 0⟩ ⟨1, 1, fun _ _ => 1⟩ ⟨1, 1, fun _ _ => 1⟩
    ⟨1, 1, fun _ _ => some (1 / 2)⟩ 1 1 .w o1 o2 (by norm_num) rfl rfl rfl rfl rfl rfl one_ne_zero one_ne_zero
    (by
      intro i j h s hf hs
      exfalso
      rw [(hrise i j).1, (hrise i j).2] at hf
      have := hf.slope
      norm_num [slopeDegrees] at this hs
      linarith)
    (by rw [hE]; simp)
    (by
      change (Dir.e, o2) ∈ shieldSaved 200 ⟨1, 1, fun _ _ => 0⟩ ⟨1, 1, fun _ _ => some (1 / 2)⟩ 1 1
        ⟨1, 1, fun _ _ => 1⟩ ⟨1, 1, fun _ _ => 1⟩
      rw [hE]; simp)
  have h3 := hs.2.2 0 (by omega) 0 (by omega)
  simp only [Grid.mirrorEW, h1, h2] at h3
  norm_num at h3

end WindMult
