import Verif.Proofs.FloatSlope
import Verif.Props.FloatShield

/-!
# Rounding in slope, aspect and the shielding multipliers computed from them (C112)
-/

set_option autoImplicit false

namespace WindMult
variable {u w : ℝ}

theorem window3_known {e : Grid (Option ℝ)} {g : Grid ℝ} {i j : ℕ} (hi : i < g.rows) (hj : j < g.cols)
    (h : KnownAround e g i j) : ∃ v, window3 e i j = some v ∧
      ∀ a b : ℤ, -1 ≤ a → a ≤ 1 → -1 ≤ b → b ≤ 1 → v a b = g.clamped (i + a) (j + b) := by
  obtain ⟨h1, h2, h3⟩ := h
  have hedge : ∀ a b : ℤ, -1 ≤ a → a ≤ 1 → -1 ≤ b → b ≤ 1 → e.edge (i + a) (j + b) =
      some (g.edge (i + a) (j + b)) := by
    intro a b a0 a1 b0 b1
    unfold Grid.edge
    rw [h1, h2]
    exact h3 _ (by omega) _ (by omega) (by rw [abs_le]; omega) (by rw [abs_le]; omega)
  unfold window3
  refine ⟨_, if_pos (fun a ha b hb => ?_), fun a b a0 a1 b0 b1 => ?_⟩
  · have ha' : -1 ≤ a ∧ a ≤ 1 := by
      simp only [List.mem_cons, List.not_mem_nil, or_false] at ha; omega
    have hb' : -1 ≤ b ∧ b ≤ 1 := by
      simp only [List.mem_cons, List.not_mem_nil, or_false] at hb; omega
    rw [hedge a b ha'.1 ha'.2 hb'.1 hb'.2]; rfl
  · simp only [hedge a b a0 a1 b0 b1, Option.getD_some]
    exact edge_eq_clamped g _ _ (by omega) (by omega)

/-- The two computed derivatives where the elevations are known. -/
theorem derivsFl_near (W : FpRound w) (hw0 : 0 ≤ w) (hw : w ≤ 1 / 10000) {e : Grid (Option ℝ)} {g : Grid ℝ}
    {i j : ℕ} (hi : i < g.rows) (hj : j < g.cols) (hk : KnownAround e g i j) {px py xm ym xmf ymf ε G : ℝ}
    (hpx : 0 < px) (hpy : 0 < py) (hxm : 0 < xm) (hym : 0 < ym) (hε0 : 0 ≤ ε) (hε : ε ≤ 1 / 1000)
    (hxf : |xmf - xm| ≤ ε * xm) (hyf : |ymf - ym| ≤ ε * ym) (hG : 0 ≤ G) (hgr : GradientAtMost g i j xm ym G) :
    |riseEast g i j / xm| ≤ G ∧ |-(riseNorth g i j / ym)| ≤ G ∧
    ∃ dx dy, (sobelXFl W e i j).map (derivFl W px xmf) = some dx ∧
      (sobelYFl W e i j).map (derivFl W py ymf) = some dy ∧
      |dx - riseEast g i j / xm| ≤ (1.1 * ε + 8 * w) * G ∧
      |dy - -(riseNorth g i j / ym)| ≤ (1.1 * ε + 8 * w) * G := by
  obtain ⟨v, hv, hval⟩ := window3_known hi hj hk
  obtain ⟨x1, y1⟩ := hgr (-1) (by norm_num) (by norm_num)
  obtain ⟨x2, y2⟩ := hgr 0 (by norm_num) (by norm_num)
  obtain ⟨x3, y3⟩ := hgr 1 (by norm_num) (by norm_num)
  simp only [add_zero, ← sub_eq_add_neg] at x1 x2 x3 y1 y2 y3
  have sx := sobel_sum_near hw0 hw W x1 x2 x3
  have sy := sobel_sum_near hw0 hw W y1 y2 y3
  have ex : riseEast g i j / xm = ((g.clamped (i - 1) (j + 1) - g.clamped (i - 1) (j - 1)) +
      2 * (g.clamped i (j + 1) - g.clamped i (j - 1)) +
      (g.clamped (i + 1) (j + 1) - g.clamped (i + 1) (j - 1))) / 8 / xm := by
    unfold riseEast; congr 1; ring
  have ey : -(riseNorth g i j / ym) = ((g.clamped (i + 1) (j - 1) - g.clamped (i - 1) (j - 1)) +
      2 * (g.clamped (i + 1) j - g.clamped (i - 1) j) +
      (g.clamped (i + 1) (j + 1) - g.clamped (i - 1) (j + 1))) / 8 / ym := by
    unfold riseNorth; rw [← neg_div]; congr 1; ring
  have bound : ∀ {a b c M : ℝ}, |a| ≤ 2 * M → |b| ≤ 2 * M → |c| ≤ 2 * M → |a + 2 * b + c| ≤ 8 * M := by
    intro a b c M h1 h2 h3
    rw [abs_le] at *
    constructor <;> linarith
  have bx := bound x1 x2 x3
  have by' := bound y1 y2 y3
  have dx := derivFl_near hw0 hw W hε0 hε hpx hxm hxf hG bx (sx.trans (le_of_eq (by ring)))
  have dy := derivFl_near hw0 hw W hε0 hε hpy hym hyf hG by' (sy.trans (le_of_eq (by ring)))
  have quot : ∀ {a m : ℝ}, 0 < m → |a| ≤ 8 * (G * m) → |a / 8 / m| ≤ G := by
    intro a m hm h
    rw [abs_div, abs_div, abs_of_pos hm, div_le_iff₀ hm, abs_of_pos (by norm_num : (0 : ℝ) < 8)]
    linarith
  rw [ex, ey]
  refine ⟨quot hxm bx, quot hym by', _, _, ?_, ?_, dx, dy⟩
  · unfold sobelXFl
    rw [hv]
    simp only [Option.map_some]
    rw [hval 0 1, hval 0 (-1), hval (-1) 1, hval (-1) (-1), hval 1 1, hval 1 (-1)] <;> norm_num
    simp only [← sub_eq_add_neg]
  · unfold sobelYFl
    rw [hv]
    simp only [Option.map_some]
    rw [hval 1 0, hval (-1) 0, hval 1 (-1), hval (-1) (-1), hval 1 1, hval (-1) 1] <;> norm_num
    simp only [← sub_eq_add_neg]

/-- **C112** The computed slope of a cell with known elevations around it is off by at most
`(98 ε + 870 w) G + 470 w` degrees, where `ε` is the relative error of the cell size in metres, `w` that of one
operation, and `G` bounds the gradient around the cell; and on ground steeper than 3.27°, where the aspect matters,
the computed aspect is in the right sector unless the ground falls to a heading within `(2970 ε + 21600 w) G + 1800 w`
degrees of a boundary between sectors. -/
theorem C112_slope_aspect (W : FpRound w) (T : FpTrig w) (hw2 : 1 / 2 ^ 64 ≤ w) (hw : w ≤ 1 / 10000)
    (e : Grid (Option ℝ)) (g : Grid ℝ) (i j : ℕ) (hi : i < g.rows) (hj : j < g.cols) (hk : KnownAround e g i j)
    (px py xm ym xmf ymf ε G : ℝ) (hpx : 0 < px) (hpy : 0 < py) (hxm : 0 < xm) (hym : 0 < ym) (hε0 : 0 ≤ ε)
    (hε : ε ≤ 1 / 1000) (hxf : |xmf - xm| ≤ ε * xm) (hyf : |ymf - ym| ≤ ε * ym) (hG : 0 ≤ G)
    (hgr : GradientAtMost g i j xm ym G) (h s : ℝ)
    (f : FallsTowards (riseEast g i j / xm) (riseNorth g i j / ym) h s) :
    (∃ t, (slopeAspectFl W T e px py xmf ymf i j).1 = some t ∧ |t - s| ≤ (98 * ε + 870 * w) * G + 470 * w) ∧
    ((1.1 * ε + 8 * w) * G ≤ 1 / 270 → 3.27 < s → ClearHeading ((2970 * ε + 21600 * w) * G + 1800 * w) h →
      ∀ d, (slopeAspectFl W T e px py xmf ymf i j).2 = direAspect d ↔ InSector d h) := by
  have hw0 : 0 ≤ w := le_trans (by positivity) hw2
  obtain ⟨bx, by', dxf, dyf, e1, e2, ex, ey⟩ := derivsFl_near W hw0 hw hi hj hk hpx hpy hxm hym hε0 hε hxf hyf hG hgr
  have hsa : slopeAspectFl W T e px py xmf ymf i j =
      (some (slopeDegreesFl W T dxf dyf), reclassifyAspect (some (aspectDegreesFl W T dxf dyf))) := by
    unfold slopeAspectFl
    rw [e1, e2]
    have : e.val i j = some (g.val i j) := hk.2.2 i hi j hj (by simp) (by simp)
    simp only [this, Option.isNone_some, Bool.false_eq_true, if_false]
  rw [hsa]
  refine ⟨⟨_, rfl, ?_⟩, fun hκ hs hc d => ?_⟩
  · rw [← f.slope]
    exact slopeFl_near hw0 hw W hw2 T hε0 hε hG bx by' ex ey
  · have hp := Real.pi_pos
    have hT : 0.057 ≤ Real.tan (s * (Real.pi / 180)) := by
      have h90 := f.2.2.2.1
      have h1 : s * (Real.pi / 180) < Real.pi / 2 := by nlinarith
      have h2 := Real.le_tan (by positivity : 0 ≤ s * (Real.pi / 180)) h1
      have := Real.pi_gt_d4
      nlinarith
    have hH : √((riseEast g i j / xm) ^ 2 + (-(riseNorth g i j / ym)) ^ 2) = Real.tan (s * (Real.pi / 180)) := by
      have := (C39_slope_is_steepness (riseEast g i j / xm) (-(riseNorth g i j / ym))).2.2
      rw [f.slope] at this
      exact this.symm
    have hne : riseEast g i j / xm ≠ 0 ∨ -(riseNorth g i j / ym) ≠ 0 := by
      by_contra hcon
      push Not at hcon
      rw [hcon.1, hcon.2] at hH
      norm_num at hH
      rw [← hH] at hT
      norm_num at hT
    have hasp := f.aspect (by linarith)
    generalize riseEast g i j / xm = dx at *
    generalize -(riseNorth g i j / ym) = dy at *
    have hd : ‖(⟨-dxf, dyf⟩ - ⟨-dx, dy⟩ : ℂ)‖ ≤ 27 * ((1.1 * ε + 8 * w) * G) * √(dx ^ 2 + dy ^ 2) := by
      refine (hypot_sub_le (κ := (1.1 * ε + 8 * w) * G) ?_ ey).trans ?_
      · rw [show -dxf - -dx = -(dxf - dx) by ring, abs_neg]; exact ex
      · rw [hH]
        have : 0 ≤ (1.1 * ε + 8 * w) * G := by positivity
        nlinarith
    obtain ⟨k, hk⟩ := aspectFl_near hw0 hw W hw2 T hne hd (by linarith)
    rw [hasp] at hk
    have hr := fmod_range (W.rnd (450 - W.rnd (T.arctan2 dyf (-dxf) / radiansPerDegreeFl W)))
      (m := 360) (by norm_num)
    rw [C29_class_iff_sector d (aspectDegreesFl W T dxf dyf) hr.1 hr.2.le]
    exact sector_of_near k (hk.trans (le_of_eq (by ring))) hc d

/-- **C112** The computed slope of a cell is missing exactly if one of the elevations of the cell and its neighbours
is; then the aspect is in no direction's class. -/
theorem C112_unknown (W : FpRound w) (T : FpTrig w) (e : Grid (Option ℝ)) (px py xm ym : ℝ) (i j : ℕ)
    (hi : i < e.rows) (hj : j < e.cols) :
    ((slopeAspectFl W T e px py xm ym i j).1 = none ↔
      ∃ r c : ℕ, r < e.rows ∧ c < e.cols ∧ |(r : ℤ) - i| ≤ 1 ∧ |(c : ℤ) - j| ≤ 1 ∧ e.val r c = none) ∧
    ((slopeAspectFl W T e px py xm ym i j).1 = none → (slopeAspectFl W T e px py xm ym i j).2 = 9) := by
  have hx := C39_unknown e px py xm ym i j hi hj
  rw [← hx.1]
  have hcell : window3 e i j ≠ none → (e.val i j).isNone = false := by
    intro hne
    unfold window3 at hne
    split_ifs at hne with hs
    · have := hs 0 (by simp) 0 (by simp)
      have he : e.edge ((i : ℤ) + 0) ((j : ℤ) + 0) = e.val i j := by
        unfold Grid.edge
        congr 1 <;> omega
      rw [he] at this
      cases hv : e.val i j
      · rw [hv] at this; cases this
      · rfl
    · exact absurd rfl hne
  unfold slopeAspectFl slopeAspect sobelXFl sobelYFl dzdx dzdy sobelX sobelY
  cases hwin : window3 e i j with
  | none =>
    simp only [Option.map_none]
    exact ⟨by simp, fun _ => (C29_other_is_nine (none : Option ℝ) (by simp)).1⟩
  | some v =>
    have := hcell (by rw [hwin]; simp)
    simp only [Option.map_some, this, Bool.false_eq_true, if_false]
    exact ⟨by simp, by simp⟩

/-- On gentle slopes the multiplier does not depend on the aspect. -/
theorem slopeAdjusted_gentle (p q : Prop) [Decidable p] [Decidable q] (m : ℝ) {s : ℝ} (hs : s ≤ 3.27) :
    slopeAdjusted p m (some s) = slopeAdjusted q m (some s) := by
  have hw : slopeWeight (some s) = 0 := by
    unfold slopeWeight
    refine max_eq_left ((min_le_right _ _).trans ?_)
    apply div_nonpos_of_nonpos_of_nonneg <;> norm_num at hs ⊢
    linarith
  unfold slopeAdjusted
  rw [hw, mul_zero, add_zero, ite_self, ite_self]

/-- **C112** From elevations and shielding values to the multiplier, every operation rounded: where the elevations
around a cell are known, the multiplier is within `2.1 δ + 24 u` plus a quarter of the error of the slope of the
exact one, unless the ground is steeper than 3.27° and falls to a heading that close to a boundary between sectors. -/
theorem C112_shielding (S : FpRound u) (W : FpRound w) (T : FpTrig w) (hw2 : 1 / 2 ^ 64 ≤ w) (hw : w ≤ u)
    (hu : u ≤ 1 / 10000) (d : Dir) (k : ℕ) (hk : 1 ≤ k) (exact stored : Grid (Option ℝ)) (ε' δ : ℝ)
    (hε' : 0 ≤ ε') (hst : StoredShielding exact stored ε')
    (hδ : (1 + ε') * (1 + w) ^ ((shieldCells d k).card + 2) * (1 + u) - 1 ≤ δ) (hδ1 : δ ≤ 1 / 100)
    (e : Grid (Option ℝ)) (g : Grid ℝ) (i j : ℕ) (hi : i < g.rows) (hj : j < g.cols) (hkn : KnownAround e g i j)
    (px py : ℝ) (xm ym : ℝ) (xmf ymf : Grid ℝ) (ε G : ℝ) (hpx : 0 < px) (hpy : 0 < py) (hxm : 0 < xm) (hym : 0 < ym)
    (hε0 : 0 ≤ ε) (hε : ε ≤ 1 / 1000) (hxf : |xmf.val i j - xm| ≤ ε * xm) (hyf : |ymf.val i j - ym| ≤ ε * ym)
    (hG : 0 ≤ G) (hgr : GradientAtMost g i j xm ym G) (hκ : (1.1 * ε + 8 * w) * G ≤ 1 / 270) (h s : ℝ)
    (f : FallsTowards (riseEast g i j / xm) (riseNorth g i j / ym) h s)
    (hclear : 3.27 < s → ClearHeading ((2970 * ε + 21600 * w) * G + 1800 * w) h)
    [Decidable (InSector d h)] (m : ℝ) (hm : shieldMean exact d k i j = some m) :
    ∃ y, (combineFl S W d (blurImageFl S W stored (kernFl W d k))
        ⟨e.rows, e.cols, fun i j => (slopeAspectFl W T e px py (xmf.val i j) (ymf.val i j) i j).1⟩
        ⟨e.rows, e.cols, fun i j => (slopeAspectFl W T e px py (xmf.val i j) (ymf.val i j) i j).2⟩).val i j = some y ∧
      |y - (if slopeAdjusted (InSector d h) m (some s) < 0.9
          then slopeAdjusted (InSector d h) m (some s) * 0.9
          else slopeAdjusted (InSector d h) m (some s) ^ 2)| ≤
        2.1 * δ + 24 * u + ((98 * ε + 870 * w) * G + 470 * w) / 4 := by
  have hw0 : 0 ≤ w := le_trans (by positivity) hw2
  have hu0 : 0 ≤ u := hw0.trans hw
  obtain ⟨⟨t, ht, hts⟩, hcl⟩ := C112_slope_aspect W T hw2 (hw.trans hu) e g i j hi hj hkn px py xm ym (xmf.val i j)
    (ymf.val i j) ε G hpx hpy hxm hym hε0 hε hxf hyf hG hgr h s f
  have hmean := blurFl_near S W hu0 hw0 (by linarith) d k hk exact stored hst.1 hst.2.1 ε' hε' hst.near i j
  rw [hm] at hmean
  change ∃ y, combineCellFl S W d ((blurImageFl S W stored (kernFl W d k)).val i j)
    (slopeAspectFl W T e px py (xmf.val i j) (ymf.val i j) i j).1
    (slopeAspectFl W T e px py (xmf.val i j) (ymf.val i j) i j).2 = some y ∧ _
  rw [ht]
  generalize (slopeAspectFl W T e px py (xmf.val i j) (ymf.val i j) i j).2 = cls at hcl
  cases hb : (blurImageFl S W stored (kernFl W d k)).val i j with
  | none => rw [hb] at hmean; exact absurd hmean (by simp [NearOpt])
  | some mf =>
    rw [hb] at hmean
    simp only [NearOpt] at hmean
    obtain ⟨hm0, hm1⟩ := shieldMean_unit exact d k i j hk (fun a ha b hb x hx => by
      rcases hst.2.2 a ha b hb with ⟨h1, -⟩ | ⟨x', y, h1, -, h3, h4, -⟩
      · rw [h1] at hx; cases hx
      · rw [h1] at hx; cases hx; exact ⟨h3, h4⟩) hm
    have hclose : |mf - m| ≤ δ := by
      refine hmean.2.trans ?_
      have h0 : 0 ≤ (1 + ε') * (1 + w) ^ ((shieldCells d k).card + 2) * (1 + u) - 1 := by
        have h1 : 1 ≤ (1 + w) ^ ((shieldCells d k).card + 2) := one_le_pow₀ (by linarith)
        have h2 : 1 ≤ (1 + ε') * (1 + w) ^ ((shieldCells d k).card + 2) := by nlinarith
        nlinarith
      nlinarith
    have hη : 0 ≤ (98 * ε + 870 * w) * G + 470 * w := by positivity
    obtain ⟨x, y, h1, h2, h3⟩ := combineFl_near hu0 hu S W hw d hm0 hm1 hclose hδ1 hη (slope := some s)
      (slopef := some t) hts (aspect := cls) (aspectf := cls) Iff.rfl
    rw [combine_value, Option.some.injEq] at h1
    have hadj : slopeAdjusted (cls = direAspect d) m (some s) = slopeAdjusted (InSector d h) m (some s) := by
      by_cases hs : 3.27 < s
      · have := hcl hκ hs (hclear hs) d
        unfold slopeAdjusted
        by_cases hc : cls = direAspect d
        · rw [if_pos hc, if_pos (this.mp hc)]
        · rw [if_neg hc, if_neg (mt this.mpr hc)]
      · exact slopeAdjusted_gentle _ _ m (not_lt.mp hs)
    rw [hadj] at h1
    rw [h1]
    exact ⟨y, h2, h3⟩

/-- **C112** In the formats of the code, with cells of at least 1 m, sizes of cells and shielding values correct to
23 binary digits, and no steeper than 45° between neighbours: the multiplier is off by at most `2⁻¹⁷`, unless the
ground is steeper than 3.27° and falls to a heading within 1/2000 degree of a boundary between sectors. -/
theorem C112_formats (S : FpRound (1 / 2 ^ 24)) (W : FpRound (1 / 2 ^ 53)) (T : FpTrig (1 / 2 ^ 53)) (d : Dir)
    (k : ℕ) (hk : 1 ≤ k) (hk1 : k ≤ 100) (exact stored : Grid (Option ℝ))
    (hst : StoredShielding exact stored (1 / 2 ^ 23)) (e : Grid (Option ℝ)) (g : Grid ℝ) (i j : ℕ) (hi : i < g.rows)
    (hj : j < g.cols) (hkn : KnownAround e g i j) (px py xm ym : ℝ) (xmf ymf : Grid ℝ) (hpx : 0 < px) (hpy : 0 < py)
    (hxm : 0 < xm) (hym : 0 < ym) (hxf : |xmf.val i j - xm| ≤ 1 / 2 ^ 23 * xm)
    (hyf : |ymf.val i j - ym| ≤ 1 / 2 ^ 23 * ym) (hgr : GradientAtMost g i j xm ym 1) (h s : ℝ)
    (f : FallsTowards (riseEast g i j / xm) (riseNorth g i j / ym) h s)
    (hclear : 3.27 < s → ClearHeading (1 / 2000) h) [Decidable (InSector d h)] (m : ℝ)
    (hm : shieldMean exact d k i j = some m) :
    ∃ y, (combineFl S W d (blurImageFl S W stored (kernFl W d k))
        ⟨e.rows, e.cols, fun i j => (slopeAspectFl W T e px py (xmf.val i j) (ymf.val i j) i j).1⟩
        ⟨e.rows, e.cols, fun i j => (slopeAspectFl W T e px py (xmf.val i j) (ymf.val i j) i j).2⟩).val i j = some y ∧
      |y - (if slopeAdjusted (InSector d h) m (some s) < 0.9
          then slopeAdjusted (InSector d h) m (some s) * 0.9
          else slopeAdjusted (InSector d h) m (some s) ^ 2)| ≤ 1 / 2 ^ 17 := by
  have hcard : ((shieldCells d k).card : ℝ) ≤ 40401 := by
    have h1 := shieldCells_card_le d k
    have h2 : (2 * k + 1) ^ 2 ≤ 201 ^ 2 := Nat.pow_le_pow_left (by omega) 2
    have h3 : ((shieldCells d k).card : ℝ) ≤ ((201 ^ 2 : ℕ) : ℝ) := Nat.cast_le.mpr (h1.trans h2)
    refine h3.trans ?_
    norm_num
  have hpow : (1 + (1 : ℝ) / 2 ^ 53) ^ ((shieldCells d k).card + 2) ≤ 1 + 1 / 2 ^ 30 := by
    refine (one_add_pow_le (by positivity) _ ?_).trans ?_
    · push_cast; norm_num; linarith
    · push_cast; norm_num; linarith
  obtain ⟨y, h1, h2⟩ := C112_shielding S W T (by norm_num) (by norm_num) (by norm_num) d k hk exact stored (1 / 2 ^ 23)
    (3.1 / 2 ^ 24) (by positivity) hst (by
      have : (1 + (1 : ℝ) / 2 ^ 23) * (1 + 1 / 2 ^ 53) ^ ((shieldCells d k).card + 2) * (1 + 1 / 2 ^ 24) ≤
          (1 + 1 / 2 ^ 23) * (1 + 1 / 2 ^ 30) * (1 + 1 / 2 ^ 24) := by gcongr
      refine (sub_le_sub_right this 1).trans ?_
      norm_num) (by norm_num) e g i j hi hj hkn px py xm ym xmf ymf (1 / 2 ^ 23) 1 hpx hpy hxm hym (by positivity)
    (by norm_num) hxf hyf (by norm_num) hgr (by norm_num) h s f (fun hs n => lt_of_le_of_lt (by norm_num) (hclear hs n))
    m hm
  exact ⟨y, h1, h2.trans (by norm_num)⟩

/-- The exact functions. -/
noncomputable def exactTrig (w : ℝ) (hw : 0 ≤ w) : FpTrig w where
  hypot x y := √(x ^ 2 + y ^ 2)
  arctan := Real.arctan
  arctan2 y x := Complex.arg ⟨x, y⟩
  hypot_near x y := by rw [sub_self, abs_zero]; positivity
  arctan_near x := by rw [sub_self, abs_zero]; positivity
  arctan2_range y x := by
    have h1 := Complex.arg_le_pi ⟨x, y⟩
    have h2 := Complex.neg_pi_lt_arg ⟨x, y⟩
    have h3 := Real.pi_lt_d2
    rw [abs_le]
    constructor <;> linarith
  arctan2_near y x _ := ⟨0, by simp; positivity⟩

/-- Ground that falls 3 m per cell to the west; the elevation of the column in the east is unknown. -/
noncomputable def ramp : Grid ℝ := ⟨2, 4, fun _ j => 3 * j⟩

noncomputable def rampDem : Grid (Option ℝ) := ⟨2, 4, fun _ j => if j = 3 then none else some (3 * (j : ℝ))⟩

theorem ramp_rise : riseEast ramp (0 : ℕ) (1 : ℕ) = 3 ∧ riseNorth ramp (0 : ℕ) (1 : ℕ) = 0 := by
  constructor
  · norm_num [riseEast, ramp, Grid.clamped]
    rw [show Int.toNat 2 = 2 from rfl]
    norm_num
  · norm_num [riseNorth, ramp, Grid.clamped]

theorem ramp_falls : FallsTowards (riseEast ramp (0 : ℕ) (1 : ℕ) / 30) (riseNorth ramp (0 : ℕ) (1 : ℕ) / 30) 270
    (Real.arctan (1 / 10) / (Real.pi / 180)) := by
  have hp := Real.pi_pos
  have e1 : Real.arctan (1 / 10) / (Real.pi / 180) * (Real.pi / 180) = Real.arctan (1 / 10) := by field_simp
  have e2 : (270 : ℝ) * (Real.pi / 180) = Real.pi / 2 + Real.pi := by ring
  refine ⟨by norm_num, by norm_num, by positivity, ?_, ?_, ?_⟩
  · rw [div_lt_iff₀ (by positivity)]
    have := Real.arctan_lt_pi_div_two (1 / 10)
    linarith
  · rw [e1, e2, Real.tan_arctan, Real.sin_add_pi, Real.sin_pi_div_two, ramp_rise.1]
    norm_num
  · rw [e2, Real.cos_add_pi, Real.cos_pi_div_two, ramp_rise.2]
    norm_num

theorem ramp_gradient : GradientAtMost ramp (0 : ℕ) (1 : ℕ) 30 30 1 := by
  intro a h0 h1
  obtain rfl | rfl | rfl : a = -1 ∨ a = 0 ∨ a = 1 := by omega
  all_goals
    constructor
    · norm_num [ramp, Grid.clamped]
      rw [show Int.toNat 2 = 2 from rfl]
      norm_num
    · norm_num [ramp, Grid.clamped]

theorem clear_270 : ClearHeading (1 / 2000) 270 := by
  intro n
  rw [show (270 : ℝ) - (45 / 2 + 45 * n) = 45 / 2 * ((11 - 2 * n : ℤ) : ℝ) by push_cast; ring, abs_mul, ← Int.cast_abs]
  have : (1 : ℤ) ≤ |11 - 2 * n| := Int.one_le_abs (by omega)
  have : (1 : ℝ) ≤ ((|11 - 2 * n| : ℤ) : ℝ) := by exact_mod_cast this
  norm_num at this ⊢
  linarith

/-- West wind at cell (0, 1) of the suburb, on the ramp, where the slope of 5.7° faces the wind. -/
example : ∃ y, (combineFl (digits 24) (digits 53) .w (blurImageFl (digits 24) (digits 53) suburbStored
      (kernFl (digits 53) .w 1))
      ⟨2, 4, fun i j => (slopeAspectFl (digits 53) (exactTrig _ (by positivity)) rampDem (1 / 3600) (1 / 3600)
        (30 + 1 / 2 ^ 20) (30 - 1 / 2 ^ 20) i j).1⟩
      ⟨2, 4, fun i j => (slopeAspectFl (digits 53) (exactTrig _ (by positivity)) rampDem (1 / 3600) (1 / 3600)
        (30 + 1 / 2 ^ 20) (30 - 1 / 2 ^ 20) i j).2⟩).val 0 1 = some y ∧
    |y - (if 85 / 100 + (1 - 85 / 100) * slopeWeight (some (Real.arctan (1 / 10) / (Real.pi / 180))) < 0.9
      then (85 / 100 + (1 - 85 / 100) * slopeWeight (some (Real.arctan (1 / 10) / (Real.pi / 180)))) * 0.9
      else (85 / 100 + (1 - 85 / 100) * slopeWeight (some (Real.arctan (1 / 10) / (Real.pi / 180)))) ^ 2)| ≤
        1 / 2 ^ 17 := by
  classical
  have hsec : InSector .w (270 : ℝ) := ⟨0, by norm_num [Dir.bearing], by norm_num [Dir.bearing]⟩
  have := C112_formats (digits 24) (digits 53) (exactTrig _ (by positivity)) .w 1 le_rfl (by norm_num) suburb
    suburbStored suburb_stored rampDem ramp 0 1 (by norm_num [ramp]) (by norm_num [ramp])
    ⟨rfl, rfl, fun r _ c _ _ hc => by
      have : c ≠ 3 := by rintro rfl; norm_num at hc
      simp [rampDem, ramp, this]⟩ (1 / 3600) (1 / 3600) 30 30 ⟨2, 4, fun _ _ => 30 + 1 / 2 ^ 20⟩
    ⟨2, 4, fun _ _ => 30 - 1 / 2 ^ 20⟩ (by norm_num) (by norm_num) (by norm_num) (by norm_num)
    (by norm_num [abs_le]) (by norm_num [abs_le]) ramp_gradient 270 _ ramp_falls (fun _ => clear_270) (85 / 100)
    suburb_mean
  unfold slopeAdjusted at this
  simp only [if_pos hsec] at this
  exact this

end WindMult
