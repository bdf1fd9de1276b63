import Verif.Proofs.FloatMeridian
import Verif.Props.PixelSize

/-!
# Coordinates and the size of one pixel in double precision
-/

set_option autoImplicit false
set_option linter.unusedSectionVars false

namespace WindMult
open Real

variable (W : FpRound (1 / 2 ^ 53)) (M : FpMath (1 / 2 ^ 53))

/-- The flattening. -/
theorem earthFFl_err : Err 1 (1 / 10 ^ 15) (1 / 298) earthF (earthFFl W) := by
  have h1 : Err 1 (8 / 10 ^ 10) 6356753 (6356752.3142 : ℝ) (W.rnd 6356752.3142) :=
    (Err.const (m := 6356753) (6356752.3142 : ℝ) (by norm_num [abs_of_pos])).rnd W (by norm_num)
  have h2 : Err 1 (8 / 10 ^ 10) 21385 (6378137 - (6356752.3142 : ℝ)) (6378137 - W.rnd 6356752.3142) := by
    refine ⟨?_, by norm_num [abs_of_pos]⟩
    rw [sub_sub_sub_cancel_left, abs_sub_comm]
    exact h1.1
  exact ((h2.rnd W (e' := 9 / 10 ^ 10) (by norm_num)).divcR W (by norm_num) (by norm_num) (by norm_num))

theorem radiansPerDegreeFl_err : Err 1 (22 / 10 ^ 19) (174533 / 10 ^ 7) radPerDeg (radiansPerDegreeFl W) := by
  have : Err 1 0 (174533 / 10 ^ 7) radPerDeg radPerDeg :=
    Err.const radPerDeg (by unfold radPerDeg; norm_num [abs_of_pos])
  exact this.rnd W (by norm_num)

/-- A coordinate of the raster in degrees. -/
theorem coord_err {g gf p k e m : ℝ} (hg : |gf - g| ≤ e) (hm : |g| ≤ m) (hk : |k * p| ≤ 2) {e' : ℝ}
    (he : e + 24 / 10 ^ 17 + 12 / 10 ^ 17 * (m + 2 + (e + 24 / 10 ^ 17)) ≤ e') :
    Err 1 e' (m + 2) (g + k * p) (W.rnd (gf + W.rnd (k * p))) := by
  have h1 : Err 1 e m g gf := ⟨by rwa [mul_one], by rwa [mul_one]⟩
  have h2 : Err 1 (24 / 10 ^ 17) 2 (k * p) (W.rnd (k * p)) :=
    (Err.const (m := 2) (k * p) hk).rnd W (by norm_num)
  exact h1.addR W h2 he le_rfl

/-- A latitude in radians. -/
theorem latitude_err {g gf p k : ℝ} (hg : |gf - g| ≤ 5 / 10 ^ 14) (hm : |g| ≤ 47) (hk : |k * p| ≤ 2) (hl : |g + k * p| ≤ 45) :
    |W.rnd (W.rnd (gf + W.rnd (k * p)) * radiansPerDegreeFl W) - (g + k * p) * radPerDeg| ≤ 12 / 10 ^ 16 := by
  have h1 := (coord_err W hg hm hk (e' := 562 / 10 ^ 16) (by norm_num)).mag (m' := 45) (by rwa [mul_one])
  have h2 := (h1.mulR W (radiansPerDegreeFl_err W) (e' := 12 / 10 ^ 16) (m' := 1) (by norm_num) (by norm_num)).1
  rwa [mul_one] at h2

/-- A difference in longitude. -/
theorem longitude_err {g p x : ℝ} (hm : |g| ≤ 200) (hk : |x * p| ≤ 2) (hk1 : |(x + 1) * p| ≤ 2) (hp0 : 0 ≤ p) (hp : p ≤ 1 / 2) :
    |W.rnd (W.rnd (W.rnd (g + W.rnd ((x + 1) * p)) * radiansPerDegreeFl W) -
      W.rnd (W.rnd (g + W.rnd (x * p)) * radiansPerDegreeFl W)) - p * radPerDeg| ≤ 3 / 10 ^ 15 := by
  have h1 := coord_err W (gf := g) (e := 0) (e' := 25 / 10 ^ 15) (by simp) hm hk (by norm_num)
  have h2 := coord_err W (gf := g) (e := 0) (e' := 25 / 10 ^ 15) (by simp) hm hk1 (by norm_num)
  obtain ⟨r1, r2⟩ := radiansPerDegreeFl_err W
  have r3 := (radiansPerDegreeFl_err W).abs_right
  have a1 := h1.abs_right
  have a2 := h2.abs_right
  replace h1 := h1.1
  replace h2 := h2.1
  generalize W.rnd (g + W.rnd (x * p)) = v1 at *
  generalize W.rnd (g + W.rnd ((x + 1) * p)) = v2 at *
  generalize radiansPerDegreeFl W = r at *
  have b1 := rnd_rel W (v1 * r)
  have b2 := rnd_rel W (v2 * r)
  have prod : ∀ v : ℝ, |v| ≤ (200 + 2 + 25 / 10 ^ 15) * 1 → |v * r| ≤ 36 / 10 := by
    intro v hv
    rw [abs_mul]
    calc |v| * |r| ≤ (200 + 2 + 25 / 10 ^ 15) * 1 * ((174533 / 10 ^ 7 + 22 / 10 ^ 19) * 1) := by gcongr
      _ ≤ _ := by norm_num
  have c1 : |W.rnd (v1 * r) - v1 * r| ≤ 12 / 10 ^ 17 * (36 / 10) := b1.trans (by gcongr; exact prod v1 a1)
  have c2 : |W.rnd (v2 * r) - v2 * r| ≤ 12 / 10 ^ 17 * (36 / 10) := b2.trans (by gcongr; exact prod v2 a2)
  have hd : |v2 - v1 - p| ≤ 5 / 10 ^ 14 := by
    have := abs_sub (v2 - (g + (x + 1) * p)) (v1 - (g + x * p))
    rw [show v2 - (g + (x + 1) * p) - (v1 - (g + x * p)) = v2 - v1 - p by ring] at this
    norm_num at h1 h2 ⊢
    linarith
  have hdr : |(v2 - v1) * r - p * radPerDeg| ≤ 9 / 10 ^ 16 := by
    rw [show (v2 - v1) * r - p * radPerDeg = (v2 - v1 - p) * r + p * (r - radPerDeg) by ring]
    calc _ ≤ |v2 - v1 - p| * |r| + |p| * |r - radPerDeg| := by
          rw [← abs_mul, ← abs_mul]; exact abs_add_le _ _
      _ ≤ 5 / 10 ^ 14 * ((174533 / 10 ^ 7 + 22 / 10 ^ 19) * 1) + 1 / 2 * (22 / 10 ^ 19 * 1) := by
          rw [abs_of_nonneg hp0]; gcongr
      _ ≤ _ := by norm_num
  have hdiff : |W.rnd (v2 * r) - W.rnd (v1 * r) - p * radPerDeg| ≤ 18 / 10 ^ 16 := by
    have := abs_add_three (W.rnd (v2 * r) - v2 * r) (-(W.rnd (v1 * r) - v1 * r)) ((v2 - v1) * r - p * radPerDeg)
    rw [abs_neg, show W.rnd (v2 * r) - v2 * r + -(W.rnd (v1 * r) - v1 * r) + ((v2 - v1) * r - p * radPerDeg) =
      W.rnd (v2 * r) - W.rnd (v1 * r) - p * radPerDeg by ring] at this
    norm_num at c1 c2 hdr ⊢
    linarith
  have hrnd := rnd_rel W (W.rnd (v2 * r) - W.rnd (v1 * r))
  have hpr : |p * radPerDeg| ≤ 1 := by
    rw [abs_mul, abs_of_nonneg hp0]
    calc p * |radPerDeg| ≤ 1 / 2 * (174533 / 10 ^ 7 * 1) := by gcongr
      _ ≤ _ := by norm_num
  have t1 := abs_add_le (W.rnd (v2 * r) - W.rnd (v1 * r) - p * radPerDeg) (p * radPerDeg)
  rw [sub_add_cancel] at t1
  have t2 := abs_add_le (W.rnd (W.rnd (v2 * r) - W.rnd (v1 * r)) - (W.rnd (v2 * r) - W.rnd (v1 * r)))
    (W.rnd (v2 * r) - W.rnd (v1 * r) - p * radPerDeg)
  rw [sub_add_sub_cancel] at t2
  norm_num at hdiff hrnd ⊢
  linarith

theorem cos_ge_69 {x : ℝ} (h : |x| ≤ 787 / 1000) : 69 / 100 ≤ cos x := by
  have h1 := one_sub_sq_div_two_le_cos (x := x)
  have h2 : x ^ 2 ≤ (787 / 1000) ^ 2 := by rw [← sq_abs]; gcongr
  norm_num at h2 ⊢
  linarith

theorem tan_close {x y : ℝ} (hx : |x| ≤ 787 / 1000) (hy : |y| ≤ 787 / 1000) : |tan y - tan x| ≤ 211 / 100 * |y - x| := by
  have hcx := cos_ge_69 hx
  have hcy := cos_ge_69 hy
  have e : tan y - tan x = sin (y - x) / (cos y * cos x) := by
    rw [tan_eq_sin_div_cos, tan_eq_sin_div_cos, sin_sub, div_sub_div _ _ (by linarith) (by linarith)]
  have h1 : 69 / 100 * (69 / 100) ≤ cos y * cos x := by gcongr
  rw [e, abs_div, abs_of_pos (by linarith : 0 < cos y * cos x), div_le_iff₀ (by linarith)]
  have h2 : |sin (y - x)| ≤ |y - x| := by simpa using abs_sin_sub_sin_le (y - x) 0
  have h3 : 211 / 100 * |y - x| * (69 / 100 * (69 / 100)) ≤ 211 / 100 * |y - x| * (cos y * cos x) := by gcongr
  linarith [abs_nonneg (y - x)]

theorem tan_bound {x : ℝ} (hx : |x| ≤ 787 / 1000) : |tan x| ≤ 115 / 100 := by
  have hcx := cos_ge_69 hx
  rw [tan_eq_sin_div_cos, abs_div, abs_of_pos (by linarith : 0 < cos x), div_le_iff₀ (by linarith)]
  have h2 : |sin x| ≤ |x| := by simpa using abs_sin_sub_sin_le x 0
  linarith

/-- The reduced latitude. -/
theorem reduced_err {f phi phif : ℝ} (hf : Err 1 (1 / 10 ^ 15) (1 / 298) earthF f) (hp : |phi| ≤ 786 / 1000)
    (h : |phif - phi| ≤ 12 / 10 ^ 16) :
    |M.atan (W.rnd (W.rnd (1 - f) * M.tan phif)) - arctan ((1 - earthF) * tan phi)| ≤ 6 / 10 ^ 15 := by
  have hpf : |phif| ≤ 787 / 1000 := by
    have := abs_add_le phi (phif - phi)
    rw [add_sub_cancel] at this
    norm_num at h ⊢; linarith
  have hp' : |phi| ≤ 787 / 1000 := by linarith
  have ht : Err 1 (29 / 10 ^ 16) (115 / 100) (tan phi) (M.tan phif) := by
    refine ⟨?_, by rw [mul_one]; exact tan_bound hp'⟩
    have k1 := rel53 (M.tan_near phif) (abs_nonneg _)
    have k2 := tan_bound hpf
    have k3 := tan_close hp' hpf
    have k4 := abs_add_le (M.tan phif - tan phif) (tan phif - tan phi)
    rw [sub_add_sub_cancel] at k4
    norm_num at k1 h ⊢
    linarith
  obtain ⟨e0, e1⟩ := earthF_range
  have h1 : Err 1 (113 / 10 ^ 17) 1 (1 - earthF) (W.rnd (1 - f)) := by
    have := (Err.const (m := 1) 1 (by norm_num)).sub hf
    refine ((this.mag (m' := 1) ?_).rnd W (by norm_num))
    rw [mul_one, abs_le]; constructor <;> linarith
  have h2 := h1.mulR W ht (e' := 45 / 10 ^ 16) (m' := 115 / 100) (by norm_num) (by norm_num)
  have h3 := h2.abs_right
  replace h2 := h2.1
  generalize W.rnd (W.rnd (1 - f) * M.tan phif) = v at *
  have k1 := rel53 (M.atan_near v) (abs_nonneg _)
  have k2 := arctan_lipschitz (w := 0) le_rfl (by norm_num) v ((1 - earthF) * tan phi)
  have k3 : |arctan v| ≤ |v| := by simpa using arctan_lipschitz (w := 0) le_rfl (by norm_num) v 0
  have k4 := abs_add_le (M.atan v - arctan v) (arctan v - arctan ((1 - earthF) * tan phi))
  rw [sub_add_sub_cancel] at k4
  norm_num at k1 h2 h3 ⊢
  linarith

/-- Reduced latitudes lie between zero and the latitudes, close to the latter. -/
theorem reduced_abs {phi : ℝ} (hphi : |phi| < π / 2) :
    (1 - earthF) * |phi| ≤ |arctan ((1 - earthF) * tan phi)| ∧ |arctan ((1 - earthF) * tan phi)| ≤ |phi| := by
  obtain ⟨e0, e1⟩ := earthF_range
  wlog h : 0 ≤ phi generalizing phi
  · have := this (phi := -phi) (by rwa [abs_neg]) (by linarith [not_le.mp h])
    rwa [tan_neg, mul_neg, arctan_neg, abs_neg, abs_neg] at this
  rcases h.eq_or_lt with rfl | h
  · simp
  rw [abs_of_pos h] at hphi ⊢
  have hpi := pi_pos
  have ht : 0 < tan phi := tan_pos_of_pos_of_lt_pi_div_two h hphi
  have h1 := (reduced_mem (f := earthF) e0 (by linarith) (by linarith) hphi h).1
  rw [tan_zero, mul_zero, arctan_zero, sub_zero, sub_zero] at h1
  have h0 : 0 ≤ (1 - earthF) * phi := mul_nonneg (by linarith) h.le
  rw [abs_of_nonneg (h0.trans h1)]
  refine ⟨h1, ?_⟩
  calc arctan ((1 - earthF) * tan phi) ≤ arctan (tan phi) := arctan_strictMono.monotone (by nlinarith)
    _ = phi := arctan_tan (by linarith) hphi

theorem radPerDeg_range : 17453 / 1000000 < radPerDeg ∧ radPerDeg < 17454 / 1000000 := by
  unfold radPerDeg; norm_num

theorem lat_le_786 {v : ℝ} (hv : |v| ≤ 45) : |v * radPerDeg| ≤ 786 / 1000 := by
  obtain ⟨r0, r1⟩ := radPerDeg_range
  rw [abs_mul, abs_of_pos (by linarith : 0 < radPerDeg)]
  calc |v| * radPerDeg ≤ 45 * (17454 / 1000000) := by gcongr
    _ ≤ _ := by norm_num

/-- Latitudes of at least two degrees keep clear of the equator. -/
theorem sin_reduced {v : ℝ} (h : 2 ≤ |v|) (hv : |v| ≤ 45) :
    12 / 10 ^ 4 ≤ sin (arctan ((1 - earthF) * tan (v * radPerDeg))) ^ 2 := by
  obtain ⟨r0, r1⟩ := radPerDeg_range
  obtain ⟨e0, e1⟩ := earthF_range
  have hpi := pi_gt_d2
  have h786 := lat_le_786 hv
  obtain ⟨ra1, ra2⟩ := reduced_abs (phi := v * radPerDeg) (by norm_num at hpi; linarith)
  generalize hV : arctan ((1 - earthF) * tan (v * radPerDeg)) = V at *
  have v0 : 3477 / 100000 ≤ |V| := by
    refine le_trans ?_ ra1
    rw [abs_mul, abs_of_pos (by linarith : 0 < radPerDeg)]
    calc (3477 / 100000 : ℝ) ≤ 297 / 298 * (2 * (17453 / 1000000)) := by norm_num
      _ ≤ _ := by
        have : (297 / 298 : ℝ) ≤ 1 - earthF := by linarith
        gcongr
  have v2 := sin_gt_sub_cube (x := 3477 / 100000) (by norm_num)
  have v3 : sin (3477 / 100000) ≤ sin |V| :=
    sin_le_sin_of_le_of_le_pi_div_two (by linarith) (by norm_num at hpi; linarith) v0
  have v4 : sin |V| ^ 2 = sin V ^ 2 := by
    rcases abs_choice V with h | h <;> rw [h]
    rw [sin_neg, neg_sq]
  rw [← v4]
  norm_num at v2 ⊢
  nlinarith

theorem cos_reduced {v : ℝ} (hv : |v| ≤ 45) : 69 / 100 ≤ cos (arctan ((1 - earthF) * tan (v * radPerDeg))) := by
  have hpi := pi_gt_d2
  have h786 := lat_le_786 hv
  refine cos_ge_69 (((reduced_abs (phi := v * radPerDeg) ?_).2.trans h786).trans (by norm_num))
  norm_num at hpi; linarith

/-- The width of a pixel: the raster is known up to rounding of its corner. -/
theorem widthFl_near (fuel : ℕ) (hfuel : 12 ≤ fuel) {g gf p g0 g0f q k x : ℝ} (h0 : |g0f| ≤ 200)
    (h3 : |gf - g| ≤ 5 / 10 ^ 14) (hg : |g| ≤ 47) (hw0 : 1 / 4000 ≤ p) (hw1 : p ≤ 1 / 2)
    (hx0 : 0 ≤ x) (hx1 : (x + 1) * p ≤ 2) (hk : |k * q| ≤ 2) (hl : |g + k * q| ≤ 45) (hc : 2 ≤ |g + k * q|) :
    ∃ df d a12 a21, vincDistFl W M fuel (earthFFl W) earthA
        (W.rnd (W.rnd (gf + W.rnd (k * q)) * radiansPerDegreeFl W))
        (W.rnd (W.rnd (g0f + W.rnd (x * p)) * radiansPerDegreeFl W))
        (W.rnd (W.rnd (gf + W.rnd (k * q)) * radiansPerDegreeFl W))
        (W.rnd (W.rnd (g0f + W.rnd ((x + 1) * p)) * radiansPerDegreeFl W)) = some (.ok df) ∧
      vincDist fuel earthF earthA ((g + k * q) * radPerDeg) ((g0 + x * p) * radPerDeg) ((g + k * q) * radPerDeg)
        ((g0 + (x + 1) * p) * radPerDeg) = some (.ok (d, a12, a21)) ∧ |df - d| ≤ 9 / 10 ^ 9 * d := by
  obtain ⟨r0, r1⟩ := radPerDeg_range
  have ex : (g0 + (x + 1) * p) * radPerDeg - (g0 + x * p) * radPerDeg = p * radPerDeg := by ring
  refine vincDistFl_parallel W M fuel hfuel (earthFFl_err W)
    (reduced_err W M (earthFFl_err W) (lat_le_786 hl) (latitude_err W h3 hg hk hl)) (cos_reduced hl)
    (sin_reduced hc hl) ?_ ?_ ?_
  · rw [ex]
    calc (43 / 10 ^ 7 : ℝ) ≤ 1 / 4000 * (17453 / 1000000) := by norm_num
      _ ≤ _ := by gcongr
  · rw [ex]
    calc p * radPerDeg ≤ 1 / 2 * (17454 / 1000000) := by gcongr
      _ ≤ _ := by norm_num
  · rw [ex]
    have hp : 0 < p := by linarith
    exact longitude_err W h0 (by rw [abs_of_nonneg (by positivity)]; nlinarith)
      (by rw [abs_of_nonneg (by positivity)]; exact hx1) (by linarith) hw1

/-- The height of a pixel. -/
theorem heightFl_near (fuel : ℕ) {g gf q k lam lamf : ℝ}
    (h3 : |gf - g| ≤ 5 / 10 ^ 14) (hg : |g| ≤ 47) (hh0 : 1 / 4000 ≤ -q) (hh1 : -q ≤ 1 / 2)
    (hk : |k * q| ≤ 2) (hk1 : |(k + 1) * q| ≤ 2) (hn : |g + k * q| ≤ 45) (hs : |g + (k + 1) * q| ≤ 45) :
    ∃ df d a12 a21, vincDistFl W M (fuel + 1) (earthFFl W) earthA
        (W.rnd (W.rnd (gf + W.rnd (k * q)) * radiansPerDegreeFl W)) lamf
        (W.rnd (W.rnd (gf + W.rnd ((k + 1) * q)) * radiansPerDegreeFl W)) lamf = some (.ok df) ∧
      vincDist (fuel + 1) earthF earthA ((g + k * q) * radPerDeg) lam ((g + (k + 1) * q) * radPerDeg) lam =
        some (.ok (d, a12, a21)) ∧ |df - d| ≤ 1 / 10 ^ 8 * d := by
  obtain ⟨r0, r1⟩ := radPerDeg_range
  obtain ⟨e0, e1⟩ := earthF_range
  have hpi := pi_gt_d2
  have ln := latitude_err W h3 hg hk hn
  have ls := latitude_err W h3 hg hk1 hs
  have ex : (g + k * q) * radPerDeg - (g + (k + 1) * q) * radPerDeg = -q * radPerDeg := by ring
  have x0 : 43632 / 10 ^ 10 ≤ -q * radPerDeg := by
    calc (43632 / 10 ^ 10 : ℝ) ≤ 1 / 4000 * (17453 / 1000000) := by norm_num
      _ ≤ _ := by gcongr
  have x1 : -q * radPerDeg ≤ 8727 / 10 ^ 6 := by
    calc -q * radPerDeg ≤ 1 / 2 * (17454 / 1000000) := by gcongr
      _ ≤ _ := by norm_num
  have n786 := abs_le.mp (lat_le_786 hn)
  have s786 := abs_le.mp (lat_le_786 hs)
  norm_num at hpi
  obtain ⟨m1, m2⟩ := reduced_mem (f := earthF) (phi1 := (g + (k + 1) * q) * radPerDeg)
    (phi2 := (g + k * q) * radPerDeg) e0 (by linarith) (by linarith) (by linarith)
    (by norm_num at x0; linarith)
  rw [ex] at m1 m2
  have y0 : 434 / 10 ^ 8 ≤ (1 - earthF) * (-q * radPerDeg) := by
    calc (434 / 10 ^ 8 : ℝ) ≤ 297 / 298 * (43632 / 10 ^ 10) := by norm_num
      _ ≤ _ := by
        have : (297 / 298 : ℝ) ≤ 1 - earthF := by linarith
        gcongr
  have hD : 0 ≤ arctan ((1 - earthF) * tan ((g + k * q) * radPerDeg)) -
      arctan ((1 - earthF) * tan ((g + (k + 1) * q) * radPerDeg)) := by norm_num at y0; linarith
  refine vincDistFl_meridian W M fuel (earthFFl_err W) (reduced_err W M (earthFFl_err W) (lat_le_786 hn) ln)
    (reduced_err W M (earthFFl_err W) (lat_le_786 hs) ls) ?_ ?_ ?_ ?_
  · rw [abs_sub_comm, abs_of_nonneg hD]; exact y0.trans m1
  · rw [abs_sub_comm, abs_of_nonneg hD]
    norm_num at x1
    nlinarith
  · rw [abs_sub_comm, ex]
    refine le_trans ?_ (le_abs_self _)
    norm_num at x0 ⊢; linarith
  · generalize W.rnd (W.rnd (gf + W.rnd (k * q)) * radiansPerDegreeFl W) = a at *
    generalize W.rnd (W.rnd (gf + W.rnd ((k + 1) * q)) * radiansPerDegreeFl W) = b at *
    have h1 := rnd_rel W (b - a)
    obtain ⟨l1, l2⟩ := abs_le.mp ln
    obtain ⟨l3, l4⟩ := abs_le.mp ls
    have hba : b - a ≤ -(43 / 10 ^ 7) := by norm_num at l1 l4 x0 ⊢; linarith
    rw [abs_of_neg (by norm_num at hba; linarith : b - a < 0)] at h1
    refine le_trans ?_ (neg_le_abs _)
    have := (abs_le.mp h1).2
    norm_num at this hba ⊢
    linarith

/-- The size of one pixel: the raster is known up to rounding of its corner. -/
theorem getPixelSizeFl_near (fuel : ℕ) (hfuel : 12 ≤ fuel) (r rf : RasterInfo ℝ) (x y : ℤ)
    (h1 : rf.gt1 = r.gt1) (h5 : rf.gt5 = r.gt5) (h0 : |rf.gt0| ≤ 200) (h3 : |rf.gt3 - r.gt3| ≤ 5 / 10 ^ 14)
    (hw0 : 1 / 4000 ≤ r.gt1) (hw1 : r.gt1 ≤ 1 / 2) (hh0 : 1 / 4000 ≤ -r.gt5) (hh1 : -r.gt5 ≤ 1 / 2)
    (hx0 : 0 ≤ x) (hx1 : (x + 1) * r.gt1 ≤ 2) (hy0 : 0 ≤ y) (hy1 : (y + 1) * -r.gt5 ≤ 2)
    (hn : |r.gt3 + y * r.gt5| ≤ 45) (hs : |r.gt3 + (y + 1) * r.gt5| ≤ 45)
    (hc : 2 ≤ |r.gt3 + (y + 1 / 2) * r.gt5|) :
    ∃ sxf syf sx sy, getPixelSizeFl W M fuel rf x y = .ok (sxf, syf) ∧ getPixelSize fuel r x y = .ok (sx, sy) ∧
      |sxf - sx| ≤ 9 / 10 ^ 9 * sx ∧ |syf - sy| ≤ 1 / 10 ^ 8 * sy := by
  have hx0' : (0 : ℝ) ≤ x := by exact_mod_cast hx0
  have hy0' : (0 : ℝ) ≤ y := by exact_mod_cast hy0
  have hk : ∀ k : ℝ, 0 ≤ k → k ≤ y + 1 → |k * r.gt5| ≤ 2 := by
    intro k k0 k1
    rw [abs_le]
    constructor <;> nlinarith
  have hg3 : |r.gt3| ≤ 47 := by
    have := hk y hy0' (by linarith)
    have t := abs_sub (r.gt3 + y * r.gt5) (y * r.gt5)
    rw [add_sub_cancel_right] at t
    linarith
  have hcl : |r.gt3 + (y + 1 / 2) * r.gt5| ≤ 45 := by
    rw [abs_le] at hn hs ⊢
    constructor <;> linarith [hn.1, hn.2, hs.1, hs.2]
  obtain ⟨sxf, sx, a1, a2, f1, f2, f3⟩ := widthFl_near W M fuel hfuel (g0 := r.gt0) h0 h3 hg3 hw0 hw1 hx0' hx1
    (hk (y + 1 / 2) (by linarith) (by linarith)) hcl hc
  obtain ⟨fuel, rfl⟩ : ∃ n, fuel = n + 1 := ⟨fuel - 1, by omega⟩
  obtain ⟨syf, sy, b1, b2, k1, k2, k3⟩ := heightFl_near W M fuel (lam := (r.gt0 + (x + 1 / 2) * r.gt1) * radPerDeg)
    (lamf := W.rnd (W.rnd (rf.gt0 + W.rnd ((x + 1 / 2) * r.gt1)) * radiansPerDegreeFl W)) h3 hg3 hh0 hh1
    (hk y hy0' (by linarith)) (hk (y + 1) (by linarith) le_rfl) hn hs
  refine ⟨sxf, syf, sx, sy, ?_, ?_, f3, k3⟩
  · simp only [getPixelSizeFl, h1, h5, f1, k1, ended]
    rfl
  · simp only [getPixelSize, f2, k2, ended]
    rfl

end WindMult
