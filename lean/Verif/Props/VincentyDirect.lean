import Verif.Proofs.VincentyDirect
import Verif.Props.Vincenty
import Verif.Spec.Vincenty1975

/-!
# C89, C90: Vincenty's direct formula
-/

set_option autoImplicit false

namespace WindMult
open Real

/-- What `vinc_pt` computes from `sigma` and `last`, the value one iteration before. -/
theorem vincPt_eq {fuel : ℕ} {f a phi1 lam1 alpha s sigma tsm : ℝ} (ha : 0 < a) (hf1 : f < 1)
    (hA : directA (directU2 f a (1 - cos (arctan ((1 - f) * tan phi1)) * sin alpha *
      (cos (arctan ((1 - f) * tan phi1)) * sin alpha))) ≠ 0)
    (h : directLoop (directB (directU2 f a (1 - cos (arctan ((1 - f) * tan phi1)) * sin alpha *
        (cos (arctan ((1 - f) * tan phi1)) * sin alpha))))
      (atan2 ((1 - f) * tan phi1) (cos alpha))
      (s / (a * (1 - f) * directA (directU2 f a (1 - cos (arctan ((1 - f) * tan phi1)) * sin alpha *
        (cos (arctan ((1 - f) * tan phi1)) * sin alpha))))) fuel
      (2 * (s / (a * (1 - f) * directA (directU2 f a (1 - cos (arctan ((1 - f) * tan phi1)) * sin alpha *
        (cos (arctan ((1 - f) * tan phi1)) * sin alpha))))) + 2)
      (s / (a * (1 - f) * directA (directU2 f a (1 - cos (arctan ((1 - f) * tan phi1)) * sin alpha *
        (cos (arctan ((1 - f) * tan phi1)) * sin alpha))))) none =
      some (.ok (sigma, some tsm))) (U : ℝ) (hU : U = arctan ((1 - f) * tan phi1)) (q : ℝ)
    (hq : q = 1 - cos U * sin alpha * (cos U * sin alpha)) (C : ℝ)
    (hC : C = (f / 16) * q * (4 + f * (4 - 3 * q))) :
    vincPt fuel f a phi1 lam1 alpha s = some (.ok (
      atan2 (sin U * cos sigma + cos U * sin sigma * cos alpha) ((1 - f) * sqrt ((cos U * sin alpha) ^ 2 +
        (sin U * sin sigma - cos U * cos sigma * cos alpha) ^ 2)),
      lam1 + (atan2 (sin sigma * sin alpha) (cos U * cos sigma - sin U * sin sigma * cos alpha) -
        (1 - C) * f * (cos U * sin alpha) * (sigma + C * sin sigma *
          (cos tsm + C * cos sigma * (-1 + 2 * cos tsm ^ 2)))),
      atan2 (cos U * sin alpha) (-sin U * sin sigma + cos U * cos sigma * cos alpha) + π)) := by
  have hb : a * (1 - f) ≠ 0 := (mul_pos ha (by linarith)).ne'
  subst hC hq hU
  unfold vincPt
  simp only [cos_vincNormalise, sin_vincNormalise]
  rw [if_neg (by rintro (h | h) <;> simp_all), h]
  simp only
  have hm := atan2_mem (cos (arctan ((1 - f) * tan phi1)) * sin alpha)
    (-sin (arctan ((1 - f) * tan phi1)) * sin sigma +
      cos (arctan ((1 - f) * tan phi1)) * cos sigma * cos alpha)
  rw [show 2 * π / 2 = π by ring, vincNormalise_mem' (by linarith) (by linarith)]

theorem abs_atan2_le {y x : ℝ} (h : 0 ≤ x) : |atan2 y x| ≤ π / 2 :=
  Complex.abs_arg_le_pi_div_two_iff.mpr h

/-- The point computed, seen on the auxiliary sphere. -/
theorem point_on_sphere {f : ℝ} (hf : f < 1) (U al sg : ℝ) :
    ∃ beta, Spec.IsReduced f (atan2 (sin U * cos sg + cos U * sin sg * cos al)
        ((1 - f) * sqrt ((cos U * sin al) ^ 2 + (sin U * sin sg - cos U * cos sg * cos al) ^ 2))) beta ∧
      Spec.Reached U 0 al sg beta
        (atan2 (sin sg * sin al) (cos U * cos sg - sin U * sin sg * cos al)) ∧
      (cos beta ≠ 0 → Spec.Reached beta
        (atan2 (sin sg * sin al) (cos U * cos sg - sin U * sin sg * cos al))
        (atan2 (cos U * sin al) (-sin U * sin sg + cos U * cos sg * cos al) + π) sg U 0) ∧
      (f = 0 → beta = atan2 (sin U * cos sg + cos U * sin sg * cos al)
        ((1 - f) * sqrt ((cos U * sin al) ^ 2 +
          (sin U * sin sg - cos U * cos sg * cos al) ^ 2))) := by
  rw [← axis_sq]
  have hunit := axis_unit U sg al
  have hsq := axis_sq U sg al
  generalize hz : sin U * cos sg + cos U * sin sg * cos al = z at *
  generalize hx : cos U * cos sg - sin U * sin sg * cos al = x at *
  generalize hy : sin sg * sin al = y at *
  have hR0 := sqrt_nonneg (x ^ 2 + y ^ 2)
  have hR2 : sqrt (x ^ 2 + y ^ 2) ^ 2 = x ^ 2 + y ^ 2 := sq_sqrt (by positivity)
  have hpol := atan2_polar y x
  generalize hR : sqrt (x ^ 2 + y ^ 2) = R at *
  have h1 : R ^ 2 + z ^ 2 = 1 ^ 2 := by linarith
  obtain ⟨b1, b2⟩ := atan2_polar_of zero_le_one h1
  rw [one_mul] at b1 b2
  have hreach : Spec.Reached U 0 al sg (atan2 z R) (atan2 y x) := by
    rw [reached_iff, sub_zero, b1, b2, hx, hy, hz]
    exact ⟨hpol.1, hpol.2, rfl⟩
  refine ⟨atan2 z R, ⟨abs_atan2_le (mul_nonneg (by linarith) hR0), abs_atan2_le hR0, ?_⟩, hreach,
    fun h0 => ?_, ?_⟩
  · obtain ⟨p1, p2⟩ := atan2_polar z ((1 - f) * R)
    have hpos : 0 < sqrt (((1 - f) * R) ^ 2 + z ^ 2) := by
      apply sqrt_pos.mpr
      rcases hR0.eq_or_lt with h | h
      · rw [← h] at h1 ⊢; nlinarith
      · have : 0 < (1 - f) * R := mul_pos (by linarith) h
        positivity
    rw [b1, b2]
    apply mul_left_cancel₀ hpos.ne'
    calc _ = z * (sqrt (((1 - f) * R) ^ 2 + z ^ 2) * cos (atan2 z ((1 - f) * R))) := by ring
      _ = z * ((1 - f) * R) := by rw [p1]
      _ = (sqrt (((1 - f) * R) ^ 2 + z ^ 2) * sin (atan2 z ((1 - f) * R))) * ((1 - f) * R) := by
        rw [p2]
      _ = _ := by ring
  · apply Reached.back hreach h0
    · rw [b1]
      exact (atan2_polar_of hR0 (by rw [hR2, hsq]; ring)).2
    · rw [b1]
      exact (atan2_polar_of hR0 (by rw [hR2, hsq]; ring)).1
  · rintro rfl
    rw [sub_zero, one_mul]

/-- The angle from the equator. -/
theorem fromEquator_sigma1 (t al : ℝ) : Spec.FromEquator (arctan t) al (atan2 t (cos al)) := by
  obtain ⟨h1, h2⟩ := atan2_polar t (cos al)
  have hc := cos_arctan_pos t
  refine ⟨cos (arctan t) * sqrt (cos al ^ 2 + t ^ 2), by positivity, ?_, ?_⟩
  · rw [mul_assoc, h2]
    have := tan_mul_cos hc.ne'
    rw [tan_arctan] at this
    linarith
  · rw [mul_assoc, h1]

/-- The misplaced parenthesis. -/
theorem directDelta_sub (B s1 s : ℝ) (h0 : 0 ≤ B) :
    |directDelta B s1 s - Spec.vincentyDelta B s1 s| ≤ B ^ 3 / 12 := by
  have e : directDelta B s1 s - Spec.vincentyDelta B s1 s =
      B ^ 3 / 24 * (sin (3 * s) * (cos s - 1) * cos (3 * (2 * s1 + s))) := by
    unfold directDelta Spec.vincentyDelta
    simp only
    rw [cos_three_mul, sin_three_mul]
    ring
  rw [e, abs_mul, abs_of_nonneg (by positivity : 0 ≤ B ^ 3 / 24), abs_mul, abs_mul]
  have h1 := abs_sin_le_one (3 * s)
  have h2 := abs_cos_le_one (3 * (2 * s1 + s))
  have h3 : |cos s - 1| ≤ 2 := by
    rw [abs_le]; constructor <;> linarith [neg_one_le_cos s, cos_le_one s]
  calc B ^ 3 / 24 * (|sin (3 * s)| * |cos s - 1| * |cos (3 * (2 * s1 + s))|) ≤
        B ^ 3 / 24 * (1 * 2 * 1) := by gcongr
    _ = B ^ 3 / 12 := by ring

theorem vincentyU2_eq (f a q : ℝ) : directU2 f a q = Spec.vincentyU2 f a q := by
  unfold directU2 Spec.vincentyU2
  simp only [sq]

/-- The correction of the longitude hardly depends on the iteration `cos tsm` is taken from. -/
theorem correction_sub {f sa q s1 sg last : ℝ} (hf0 : 0 ≤ f) (hf1 : f ≤ 1 / 200) (hsa : |sa| ≤ 1)
    (hq0 : 0 ≤ q) (hq1 : q ≤ 1) (hs : 0 ≤ sg) (hl : |sg - last| ≤ 1 / 1000000000 * sg) :
    |(1 - f / 16 * q * (4 + f * (4 - 3 * q))) * f * sa * (sg + f / 16 * q * (4 + f * (4 - 3 * q)) *
        sin sg * (cos (2 * s1 + last) + f / 16 * q * (4 + f * (4 - 3 * q)) * cos sg *
          (-1 + 2 * cos (2 * s1 + last) ^ 2))) - Spec.vincentyCorrection f sa q s1 sg| ≤
      1 / 100000000000000 * sg := by
  unfold Spec.vincentyCorrection Spec.vincentyC
  obtain ⟨hC0, hC1⟩ := seriesC_mem hf0 hf1 hq0 hq1
  unfold seriesC at hC0 hC1
  generalize f / 16 * q * (4 + f * (4 - 3 * q)) = C at *
  have hc := abs_cos_sub_cos_le (2 * s1 + last) (2 * s1 + sg)
  rw [show 2 * s1 + last - (2 * s1 + sg) = last - sg by ring, abs_sub_comm last] at hc
  have x1 := abs_cos_le_one (2 * s1 + last)
  have x2 := abs_cos_le_one (2 * s1 + sg)
  have x3 := abs_cos_le_one sg
  have x4 := abs_sin_le_one sg
  generalize cos (2 * s1 + last) = u at *
  generalize cos (2 * s1 + sg) = v at *
  generalize cos sg = w at *
  generalize sin sg = y at *
  have e : (1 - C) * f * sa * (sg + C * y * (u + C * w * (-1 + 2 * u ^ 2))) -
      (1 - C) * f * sa * (sg + C * y * (v + C * w * (-1 + 2 * v ^ 2))) =
      ((1 - C) * f * C) * (sa * y * ((u - v) * (1 + 2 * C * (w * (u + v))))) := by ring
  rw [e, abs_mul, abs_mul (sa * y), abs_mul sa, abs_mul (u - v)]
  have k1 : |(1 - C) * f * C| ≤ 1 / 200 * (1 / 600) := by
    rw [abs_of_nonneg (mul_nonneg (mul_nonneg (by linarith) hf0) hC0)]
    calc (1 - C) * f * C ≤ 1 * (1 / 200) * (1 / 600) := by
          gcongr
          · linarith
          · linarith
      _ = _ := by norm_num
  have k2 : |1 + 2 * C * (w * (u + v))| ≤ 11 / 10 := by
    have : |w * (u + v)| ≤ 2 := by
      rw [abs_mul]
      calc |w| * |u + v| ≤ 1 * (|u| + |v|) := by gcongr; exact abs_add_le _ _
        _ ≤ 2 := by linarith
    rw [abs_le] at *
    constructor <;> nlinarith
  calc |(1 - C) * f * C| * (|sa| * |y| * (|u - v| * |1 + 2 * C * (w * (u + v))|)) ≤
        (1 / 200 * (1 / 600)) * (1 * 1 * ((1 / 1000000000 * sg) * (11 / 10))) := by
        gcongr
        exact hc.trans hl
    _ ≤ 1 / 100000000000000 * sg := by linarith

/-- **C89** For a flattening of at most 1/200 and a positive distance `vinc_pt` ends (four iterations
suffice) and its result solves Vincenty's equations: on the auxiliary sphere one comes from the reduced
latitude of the first point, in the given direction, to that of the second; the reverse azimuth leads
back; the length is the one given up to `1e-11` of it and two parts in `1e9` of the radius (the effect
of the misplaced parenthesis), and the longitude is right up to `1e-14` radian per radian. -/
theorem C89_vincenty (fuel : ℕ) (hfuel : 4 ≤ fuel) (f a phi1 lam1 alpha s : ℝ) (hf0 : 0 ≤ f)
    (hf1 : f ≤ 1 / 200) (ha : 0 < a) (hs : 0 < s) (hphi : |phi1| < π / 2) :
    ∃ phi2 lam2 a21, vincPt fuel f a phi1 lam1 alpha s = some (.ok (phi2, lam2, a21)) ∧
      (0 < a21 ∧ a21 ≤ 2 * π) ∧
      ∃ beta1 beta2 lam sigma1 sigma, Spec.IsReduced f phi1 beta1 ∧ Spec.IsReduced f phi2 beta2 ∧
        0 < sigma ∧ |lam| ≤ π ∧ Spec.Reached beta1 0 alpha sigma beta2 lam ∧
        (cos beta2 ≠ 0 → Spec.Reached beta2 lam a21 sigma beta1 0) ∧
        Spec.FromEquator beta1 alpha sigma1 ∧
        |s - Spec.vincentyDistance f a (Spec.cosSqEquator beta1 alpha) sigma1 sigma| ≤
          2 / 1000000000 * a + 1 / 100000000000 * a * sigma ∧
        |lam2 - lam1 - (lam - Spec.vincentyCorrection f (cos beta1 * sin alpha)
          (Spec.cosSqEquator beta1 alpha) sigma1 sigma)| ≤ 1 / 100000000000000 * sigma := by
  have hf1' : f < 1 := by linarith
  obtain ⟨U, hU⟩ : ∃ U, U = arctan ((1 - f) * tan phi1) := ⟨_, rfl⟩
  obtain ⟨q, hq⟩ : ∃ q, q = 1 - cos U * sin alpha * (cos U * sin alpha) := ⟨_, rfl⟩
  have hsa : |cos U * sin alpha| ≤ 1 := by
    rw [abs_mul]; exact mul_le_one₀ (abs_cos_le_one _) (abs_nonneg _) (abs_sin_le_one _)
  have hq0 : 0 ≤ q := by
    have := abs_le.mp hsa
    rw [hq]; nlinarith
  have hq1 : q ≤ 1 := by rw [hq]; nlinarith [mul_self_nonneg (cos U * sin alpha)]
  obtain ⟨u0, u1⟩ := directU2_mem hf0 hf1 ha hq0 hq1
  obtain ⟨A0, A1⟩ := directA_mem u0 u1
  obtain ⟨B0, B1⟩ := directB_mem u0 u1
  have hb : 0 < a * (1 - f) := mul_pos ha (by linarith)
  have hbA : 0 < a * (1 - f) * directA (directU2 f a q) := mul_pos hb (by linarith)
  obtain ⟨sg, last, hloop, hsg, hlast, hsg0, hsg1⟩ :=
    directLoop_ends (s1 := atan2 ((1 - f) * tan phi1) (cos alpha)) B0 B1 (div_pos hs hbA) fuel hfuel
  have hsgp : 0 < sg := lt_of_lt_of_le (by have := div_pos hs hbA; linarith) hsg0
  obtain ⟨beta2, r1, r2, r3, -⟩ := point_on_sphere hf1' U alpha sg
  have hpt := vincPt_eq (lam1 := lam1) ha hf1' (by rw [← hU, ← hq]; linarith)
    (by rw [← hU, ← hq]; exact hloop) U hU q hq _ rfl
  have hm := atan2_mem (cos U * sin alpha) (-sin U * sin sg + cos U * cos sg * cos alpha)
  have hml := atan2_mem (sin sg * sin alpha) (cos U * cos sg - sin U * sin sg * cos alpha)
  have hpi := pi_pos
  have hqq : Spec.cosSqEquator U alpha = q := by rw [hq]; unfold Spec.cosSqEquator; ring
  refine ⟨_, _, _, hpt, ⟨by linarith, by linarith⟩, U, beta2, _, _, sg, ?_, r1, hsgp, ?_, r2, r3,
    by rw [hU]; exact fromEquator_sigma1 _ _, ?_, ?_⟩
  · refine ⟨hphi.le, ?_, ?_⟩
    · rw [hU, abs_le]; exact ⟨(neg_pi_div_two_lt_arctan _).le, (arctan_lt_pi_div_two _).le⟩
    · have h1 := tan_mul_cos (cos_arctan_pos ((1 - f) * tan phi1)).ne'
      have h2 : tan phi1 * cos phi1 = sin phi1 :=
        tan_mul_cos (cos_pos_of_mem_Ioo (abs_lt.mp hphi)).ne'
      rw [tan_arctan, ← hU] at h1
      rw [← h1, ← h2]; ring
  · rw [abs_le]; constructor <;> linarith
  · rw [hqq]
    unfold Spec.vincentyDistance
    rw [← vincentyU2_eq]
    change |s - a * (1 - f) * directA (directU2 f a q) *
      (sg - Spec.vincentyDelta (directB (directU2 f a q)) _ sg)| ≤ _
    generalize atan2 ((1 - f) * tan phi1) (cos alpha) = s1 at *
    have e1 := directDelta_lip B0 B1 s1 sg last
    have e2 := directDelta_sub (directB (directU2 f a q)) s1 sg B0
    have e3 : directB (directU2 f a q) ^ 3 / 12 ≤ 197 / 100000000000 := by
      have : directB (directU2 f a q) ^ 3 ≤ (1 / 350) ^ 3 := by gcongr
      linarith [this, (by norm_num : ((1 : ℝ) / 350) ^ 3 / 12 ≤ 197 / 100000000000)]
    have e4 : s = a * (1 - f) * directA (directU2 f a q) *
        (sg - directDelta (directB (directU2 f a q)) s1 last) := by
      rw [hsg, add_sub_cancel_right, mul_div_cancel₀ _ hbA.ne']
    have e5 : s - a * (1 - f) * directA (directU2 f a q) *
          (sg - Spec.vincentyDelta (directB (directU2 f a q)) s1 sg) =
        a * (1 - f) * directA (directU2 f a q) *
          ((directDelta (directB (directU2 f a q)) s1 sg -
            directDelta (directB (directU2 f a q)) s1 last) -
          (directDelta (directB (directU2 f a q)) s1 sg -
            Spec.vincentyDelta (directB (directU2 f a q)) s1 sg)) := by
      conv_lhs => rw [e4]
      ring
    rw [e5, abs_mul, abs_of_pos hbA]
    have e6 := abs_sub (directDelta (directB (directU2 f a q)) s1 sg -
            directDelta (directB (directU2 f a q)) s1 last)
      (directDelta (directB (directU2 f a q)) s1 sg -
            Spec.vincentyDelta (directB (directU2 f a q)) s1 sg)
    have e7 : a * (1 - f) * directA (directU2 f a q) ≤ 101 / 100 * a := by
      calc a * (1 - f) * directA (directU2 f a q) ≤ a * 1 * (101 / 100) := by
            gcongr
            linarith
        _ = 101 / 100 * a := by ring
    calc _ ≤ 101 / 100 * a * (1 / 150 * (1 / 1000000000 * sg) + 197 / 100000000000) := by
          gcongr
          refine e6.trans (add_le_add (e1.trans ?_) (e2.trans e3))
          gcongr
      _ ≤ _ := by nlinarith [mul_pos ha hsgp]
  · rw [hqq, add_sub_cancel_left]
    have := correction_sub (s1 := atan2 ((1 - f) * tan phi1) (cos alpha)) hf0 hf1 hsa hq0 hq1 hsgp.le hlast
    rw [abs_sub_comm]
    refine le_trans (le_of_eq ?_) this
    congr 1
    ring

/-- 600 km north-east from a place in Tasmania on the ellipsoid. -/
example : ∃ phi2 lam2 a21, vincPt 4 (1 / 298) 6378160 (-3 / 4) (5 / 2) (π / 4) 600000 =
      some (.ok (phi2, lam2, a21)) ∧ 0 < a21 ∧ a21 ≤ 2 * π := by
  obtain ⟨phi2, lam2, a21, h, h', -⟩ := C89_vincenty 4 le_rfl (1 / 298) 6378160 (-3 / 4) (5 / 2) (π / 4)
    600000 (by norm_num) (by norm_num) (by norm_num) (by norm_num)
    (by rw [abs_lt]; constructor <;> linarith [pi_gt_three])
  exact ⟨phi2, lam2, a21, h, h'⟩

/-- **C89** A distance of zero is a `ZeroDivisionError`. -/
theorem C89_zero (fuel : ℕ) (f a phi1 lam1 alpha : ℝ) :
    vincPt fuel f a phi1 lam1 alpha 0 = some (.error .zeroDivisionError) := by
  unfold vincPt
  simp only
  split_ifs with h
  · rfl
  · rw [zero_div]
    cases fuel <;> rw [directLoop, if_pos rfl]

/-- Without the series the first value is the last. -/
theorem directLoop_zero (fuel : ℕ) (s1 : ℝ) {s0 : ℝ} (hs : 0 < s0) :
    directLoop 0 s1 s0 (fuel + 1) (2 * s0 + 2) s0 none = some (.ok (s0, some (2 * s1 + s0))) := by
  have e : directDelta 0 s1 s0 = 0 := by simp [directDelta]
  rw [directLoop, if_neg hs.ne', if_pos]
  · simp only [e, add_zero]
    cases fuel <;> rw [directLoop, if_neg hs.ne', if_neg (by simp)]
  · rw [show 2 * s0 + 2 - s0 = s0 + 2 by ring, abs_of_pos (by positivity), gt_iff_lt,
      lt_div_iff₀ hs]
    linarith

theorem Reached.shift {phi alpha sigma phi2 lam2 : ℝ} (lam : ℝ) :
    Spec.Reached phi 0 alpha sigma phi2 lam2 ↔ Spec.Reached phi lam alpha sigma phi2 (lam + lam2) := by
  rw [reached_iff, reached_iff, sub_zero, add_sub_cancel_left]

theorem Reached.shift' {phi alpha sigma phi2 lam2 : ℝ} (lam : ℝ) :
    Spec.Reached phi lam2 alpha sigma phi2 0 ↔ Spec.Reached phi (lam + lam2) alpha sigma phi2 lam := by
  rw [reached_iff, reached_iff, show lam - (lam + lam2) = 0 - lam2 by ring]

/-- **C89** On a sphere of radius `a` the point is exactly the one at the distance `s` in the direction
`alpha`, and the reverse azimuth leads back (if the point is not a pole). -/
theorem C89_sphere (fuel : ℕ) (a phi1 lam1 alpha s : ℝ) (ha : 0 < a) (hs : 0 < s)
    (hphi : |phi1| < π / 2) :
    ∃ phi2 lam2 a21, vincPt (fuel + 1) 0 a phi1 lam1 alpha s = some (.ok (phi2, lam2, a21)) ∧
      |phi2| ≤ π / 2 ∧ |lam2 - lam1| ≤ π ∧ (0 < a21 ∧ a21 ≤ 2 * π) ∧
      Spec.Reached phi1 lam1 alpha (s / a) phi2 lam2 ∧
      (cos phi2 ≠ 0 → Spec.Reached phi2 lam2 a21 (s / a) phi1 lam1) := by
  have hA : ∀ q, directU2 0 a q = 0 := by intro q; simp [directU2]
  have hA' : directA 0 = 1 := by simp [directA]
  have hB' : directB 0 = 0 := by simp [directB]
  have hsa : 0 < s / a := div_pos hs ha
  have hU := arctan_reduced hphi
  have hpt := vincPt_eq (fuel := fuel + 1) (f := 0) (phi1 := phi1) (lam1 := lam1) (alpha := alpha)
    (s := s) ha zero_lt_one (by rw [hA, hA']; exact one_ne_zero)
    (by rw [hA, hA', hB', mul_one, sub_zero, mul_one]; exact directLoop_zero fuel _ hsa) phi1 hU.symm
    _ rfl _ rfl
  obtain ⟨beta2, r1, r2, r3, r4⟩ := point_on_sphere zero_lt_one phi1 alpha (s / a)
  have hm := atan2_mem (cos phi1 * sin alpha)
    (-sin phi1 * sin (s / a) + cos phi1 * cos (s / a) * cos alpha)
  have hml := atan2_mem (sin (s / a) * sin alpha)
    (cos phi1 * cos (s / a) - sin phi1 * sin (s / a) * cos alpha)
  simp only [mul_zero, zero_mul, sub_zero] at hpt
  rw [sub_zero] at r1 r4
  refine ⟨_, _, _, hpt, r1.phi_mem, ?_, ⟨by linarith, by linarith⟩, ?_, ?_⟩
  · rw [add_sub_cancel_left, abs_le]; constructor <;> linarith
  · rw [← r4 rfl]; exact (Reached.shift lam1).mp r2
  · rw [← r4 rfl]; intro h; exact (Reached.shift' lam1).mp (r3 h)

/-- **C89** If the loop is not entered `two_sigma_m` is unbound: a distance of minus two radians. -/
theorem C89_unentered (fuel : ℕ) (a phi1 lam1 alpha : ℝ) (ha : 0 < a) :
    vincPt fuel 0 a phi1 lam1 alpha (-2 * a) = some (.error .nameError) := by
  have hA : ∀ q, directU2 0 a q = 0 := by intro q; simp [directU2]
  have hA' : directA 0 = 1 := by simp [directA]
  unfold vincPt
  simp only [hA, hA', mul_one, sub_zero]
  rw [if_neg (by rintro (h | h) <;> simp_all), mul_div_cancel_right₀ _ ha.ne']
  have : ∀ s1, directLoop (directB 0) s1 (-2) fuel (2 * -2 + 2) (-2) none = some (.ok (-2, none)) := by
    intro s1
    cases fuel <;> rw [directLoop, if_neg (by norm_num), if_neg (by norm_num)]
  rw [this]

theorem atan2_self {x : ℝ} (h0 : 0 < x) (h1 : x ≤ π) : atan2 (sin x) (cos x) = x := by
  have h := Complex.arg_cos_add_sin_mul_I (θ := x) ⟨by linarith [pi_pos], h1⟩
  have e : (⟨cos x, sin x⟩ : ℂ) = Complex.cos x + Complex.sin x * Complex.I := by
    apply Complex.ext <;> simp [Complex.cos_ofReal_re, Complex.sin_ofReal_re]
  unfold atan2
  rw [e, h]

/-- **C89** Along the equator of any ellipsoid, up to the angle `π` on the auxiliary sphere, the result
is exact: a distance of `s` is a difference in longitude of `s / a`. -/
theorem C89_equator (fuel : ℕ) (f a lam1 s : ℝ) (hf1 : f < 1) (ha : 0 < a) (hs : 0 < s)
    (hs1 : s ≤ π * (a * (1 - f))) :
    vincPt (fuel + 1) f a 0 lam1 (π / 2) s = some (.ok (0, lam1 + s / a, 3 * π / 2)) := by
  have hb : 0 < a * (1 - f) := mul_pos ha (by linarith)
  have hA : directU2 f a 0 = 0 := by simp [directU2]
  have hA' : directA 0 = 1 := by simp [directA]
  have hB' : directB 0 = 0 := by simp [directB]
  have hq : ∀ x y : ℝ, (1 : ℝ) - cos (arctan ((1 - f) * tan 0)) * sin (π / 2) *
      (cos (arctan ((1 - f) * tan 0)) * sin (π / 2)) = 0 := by simp
  have hpt := vincPt_eq (fuel := fuel + 1) (f := f) (phi1 := 0) (lam1 := lam1) (alpha := π / 2)
    (s := s) ha hf1 (by rw [hq 0 0, hA, hA']; exact one_ne_zero)
    (by rw [hq 0 0, hA, hA', hB', mul_one]; exact directLoop_zero fuel _ (div_pos hs hb)) 0 (by simp)
    0 (by simp) 0 (by simp)
  rw [hpt]
  have hsg : s / (a * (1 - f)) ≤ π := by rwa [div_le_iff₀ hb]
  have e1 : atan2 0 ((1 - f) * 1) = 0 := by
    unfold atan2
    exact Complex.arg_ofReal_of_nonneg (x := (1 - f) * 1) (by linarith)
  have e2 : atan2 1 0 = π / 2 := Complex.arg_I
  have e3 : s / (a * (1 - f)) - (1 - 0) * f * (1 * 1) * (s / (a * (1 - f)) +
      0 * sin (s / (a * (1 - f))) * (cos (2 * atan2 ((1 - f) * tan 0) (cos (π / 2)) +
        s / (a * (1 - f))) + 0 * cos (s / (a * (1 - f))) * (-1 + 2 * cos (2 * atan2
          ((1 - f) * tan 0) (cos (π / 2)) + s / (a * (1 - f))) ^ 2))) = s / a := by
    have : 1 - f ≠ 0 := by linarith
    field_simp
    ring
  have e4 : √((1 * 1 : ℝ) ^ 2 + (0 * sin (s / (a * (1 - f))) -
      1 * cos (s / (a * (1 - f))) * 0) ^ 2) = 1 := by simp
  simp only [sin_zero, cos_zero, cos_pi_div_two, sin_pi_div_two] at e3 ⊢
  rw [e4, show 0 * cos (s / (a * (1 - f))) + 1 * sin (s / (a * (1 - f))) * 0 = 0 by ring,
    show 1 * cos (s / (a * (1 - f))) - 0 * sin (s / (a * (1 - f))) * 0 = cos (s / (a * (1 - f))) by ring,
    mul_one (sin _), atan2_self (div_pos hs hb) hsg, e1, e3,
    show -0 * sin (s / (a * (1 - f))) + 1 * cos (s / (a * (1 - f))) * 0 = 0 by ring, one_mul, e2,
    show π / 2 + π = 3 * π / 2 by ring]

example : vincPt 1 (1 / 298) 6378160 0 2 (π / 2) 6378160 = some (.ok (0, 2 + 1, 3 * π / 2)) := by
  have := C89_equator 0 (1 / 298) 6378160 2 6378160 (by norm_num) (by norm_num)
    (by norm_num) (by nlinarith [pi_gt_three])
  norm_num at this ⊢
  exact this

/-! ### C90 -/

/-- The second azimuth is positive unless the points count as the same. -/
theorem vincDist_azimuth_pos {fuel : ℕ} {f a phi1 lam1 phi2 lam2 s a12 a21 : ℝ}
    (h : vincDist fuel f a phi1 lam1 phi2 lam2 = some (.ok (s, a12, a21)))
    (hne : ¬ (|phi2 - phi1| < 1 / 100000000 ∧ |lam2 - lam1| < 1 / 100000000)) :
    0 < a21 ∧ a21 ≤ 2 * π := by
  rcases vincDist_cases h with ⟨-, -, -, h'⟩ | ⟨st, y, x, y', x', -, -, -, rfl⟩
  · exact absurd h' hne
  · have h2 := atan2_mem y' x'
    rw [vincNormalise_mem' (by linarith [h2.1]) (by linarith [h2.2])]
    exact ⟨by linarith [h2.1], by linarith [h2.2]⟩

/-- Points further apart than `2.5e-8` radian do not count as the same. -/
theorem not_coincident {phi1 phi2 d sigma : ℝ} (h : vCos phi1 phi2 d = cos sigma)
    (h0 : 1 / 40000000 ≤ sigma) (h1 : sigma ≤ π) :
    ¬ (|phi2 - phi1| < 1 / 100000000 ∧ |d| < 1 / 100000000) := by
  rintro ⟨k1, k2⟩
  have c1 := one_sub_sq_div_two_le_cos (x := phi2 - phi1)
  have c2 := one_sub_sq_div_two_le_cos (x := d)
  have e : vCos phi1 phi2 d = cos (phi2 - phi1) - cos phi1 * cos phi2 * (1 - cos d) := by
    unfold vCos; rw [cos_sub]; ring
  have hcc : cos phi1 * cos phi2 ≤ 1 := by
    have := abs_le.mp (abs_cos_le_one phi1)
    have := abs_le.mp (abs_cos_le_one phi2)
    nlinarith
  have c3 : cos sigma ≤ 1 - 2 / π ^ 2 * sigma ^ 2 := cos_le_one_sub_mul_cos_sq (by
    rw [abs_of_nonneg (by linarith)]; exact h1)
  have q1 : (phi2 - phi1) ^ 2 ≤ (1 / 100000000) ^ 2 := sq_le_sq' (by linarith [(abs_lt.mp k1).1])
    (abs_lt.mp k1).2.le
  have q2 : d ^ 2 ≤ (1 / 100000000) ^ 2 := sq_le_sq' (by linarith [(abs_lt.mp k2).1])
    (abs_lt.mp k2).2.le
  have hpi : π ^ 2 ≤ 10 := by nlinarith [pi_lt_d2, pi_gt_three]
  have q3 : (1 / 40000000) ^ 2 ≤ sigma ^ 2 := by gcongr
  have q4 : (2 : ℝ) / 10 ≤ 2 / π ^ 2 := by gcongr
  have q5 : 2 / 10 * (1 / 40000000) ^ 2 ≤ 2 / π ^ 2 * sigma ^ 2 := by gcongr
  have q6 : cos phi1 * cos phi2 * (1 - cos d) ≤ 1 - cos d := by nlinarith [cos_le_one d]
  norm_num at q1 q2 q5
  linarith

/-- **C90** On a sphere the two functions are inverse to each other: distance, azimuth and reverse
azimuth from a point to the one that `vinc_pt` gives for a distance and an azimuth are that distance,
that azimuth and the reverse azimuth given, for distances from `2.5e-8` radian up to half the
circumference and end points other than the poles. -/
theorem C90_round_trip (n m : ℕ) (a phi1 lam1 alpha s phi2 lam2 a21 : ℝ) (ha : 0 < a)
    (hphi : |phi1| < π / 2) (hal0 : 0 ≤ alpha) (hal1 : alpha < 2 * π) (hs0 : a / 40000000 ≤ s)
    (hs1 : s < π * a)
    (h : vincPt (n + 1) 0 a phi1 lam1 alpha s = some (.ok (phi2, lam2, a21))) (hphi2 : |phi2| ≠ π / 2) :
    vincDist (m + 1) 0 a phi1 lam1 phi2 lam2 = some (.ok (s, alpha, a21)) := by
  have hs : 0 < s := lt_of_lt_of_le (by positivity) hs0
  have hsg0 : 1 / 40000000 ≤ s / a := by rw [le_div_iff₀ ha]; linarith
  have hsg1 : s / a < π := by rwa [div_lt_iff₀ ha]
  obtain ⟨phi2', lam2', a21', h', b1, b2, b3, b4, b5⟩ := C89_sphere n a phi1 lam1 alpha s ha hs hphi
  rw [h] at h'
  simp only [Option.some.injEq, Except.ok.injEq, Prod.mk.injEq] at h'
  obtain ⟨rfl, rfl, rfl⟩ := h'
  have hphi2' : |phi2| < π / 2 := lt_of_le_of_ne b1 hphi2
  have hc2 : 0 < cos phi2 := cos_pos_of_mem_Ioo (abs_lt.mp hphi2')
  have hdot := Reached.dot b4
  have hca : Spec.centralAngle phi1 lam1 phi2 lam2 = s / a := by
    rw [centralAngle_eq, hdot, arccos_cos (by linarith) hsg1.le]
  have hne := not_coincident hdot hsg0 hsg1.le
  have hsin : 0 < sin (s / a) := sin_pos_of_pos_of_lt_pi (by linarith) hsg1
  obtain ⟨a12, b21, g, r1, r2⟩ := C58_sphere m a phi1 lam1 phi2 lam2 hphi hphi2'
    (by linarith [pi_le_four]) hne (by rw [hca]; exact hsin.ne')
  rw [hca] at g r1 r2
  obtain ⟨⟨z1, z2⟩, -⟩ := C58_azimuths g
  obtain ⟨z3, z4⟩ := vincDist_azimuth_pos g hne
  have e1 : a12 = alpha := by
    obtain ⟨x1, x2⟩ := Reached.components r1
    obtain ⟨y1, y2⟩ := Reached.components b4
    exact angle_unique z1 z2 hal0 hal1 (mul_left_cancel₀ hsin.ne' (x2.trans y2.symm))
      (mul_left_cancel₀ hsin.ne' (x1.trans y1.symm))
  have e2 : b21 = a21 := by
    obtain ⟨x1, x2⟩ := Reached.components r2
    obtain ⟨y1, y2⟩ := Reached.components (b5 hc2.ne')
    have k1 := mul_left_cancel₀ hsin.ne' (x2.trans y2.symm)
    have k2 := mul_left_cancel₀ hsin.ne' (x1.trans y1.symm)
    have := angle_unique (x := 2 * π - b21) (y := 2 * π - a21) (by linarith) (by linarith)
      (by linarith) (by linarith) (by rw [cos_two_pi_sub, cos_two_pi_sub, k1])
      (by rw [sin_two_pi_sub, sin_two_pi_sub, k2])
    linarith
  rw [g, e1, e2, mul_div_cancel₀ _ ha.ne']

/-- One radian along the equator. -/
example : vincDist 1 0 6371000 0 2 0 (2 + 6371000 / 6371000) =
    some (.ok (6371000, π / 2, 3 * π / 2)) := by
  have hp := pi_gt_three
  refine C90_round_trip 0 0 6371000 0 2 (π / 2) 6371000 _ _ _ (by norm_num) (by simp; linarith)
    (by linarith) (by linarith) (by norm_num) (by linarith)
    (C89_equator 0 0 6371000 2 6371000 (by norm_num) (by norm_num) (by norm_num) (by linarith)) ?_
  rw [abs_zero]
  exact ne_of_lt (by linarith)

end WindMult
