import Verif.Props.Vincenty
import Mathlib.Analysis.SpecialFunctions.Trigonometric.Bounds
import Mathlib.Analysis.Convex.SpecificFunctions.Deriv

/-!
# Vincenty's iteration for two points on the same parallel

The iteration is a contraction, so the loop ends.
-/

set_option autoImplicit false

namespace WindMult
open Real

/-- Half the angle between the points on the auxiliary sphere is `arcsin (pHalf U lam)`. -/
noncomputable def pHalf (U lam : ℝ) : ℝ := cos U * sin (lam / 2)

theorem vCos_parallel (U lam : ℝ) : vCos U U lam = 1 - 2 * pHalf U lam ^ 2 := by
  have h1 := sin_sq_add_cos_sq U
  have h2 : cos lam = 1 - 2 * sin (lam / 2) ^ 2 := by
    have := cos_sq' (lam / 2)
    have h3 := cos_two_mul (lam / 2)
    rw [show 2 * (lam / 2) = lam by ring] at h3
    linarith
  unfold vCos pHalf
  rw [h2]
  linear_combination h1

theorem vSqr_parallel (U lam : ℝ) :
    vSqr U U lam = 4 * pHalf U lam ^ 2 * (1 - pHalf U lam ^ 2) := by
  rw [vSqr_eq, vCos_parallel]; ring

theorem sq_pHalf_le (U lam : ℝ) : pHalf U lam ^ 2 ≤ 1 := by
  unfold pHalf
  rw [mul_pow]
  have := cos_sq_le_one U
  have := sin_sq_le_one (lam / 2)
  nlinarith [sq_nonneg (cos U), sq_nonneg (sin (lam / 2))]

/-- The angle itself. -/
theorem vSigma_parallel {U lam : ℝ} (h : 0 ≤ pHalf U lam) :
    arccos (vCos U U lam) = 2 * arcsin (pHalf U lam) := by
  have hp := sq_pHalf_le U lam
  have hp1 : pHalf U lam ≤ 1 := by nlinarith
  have h1 := arcsin_nonneg.mpr h
  have h2 := arcsin_le_pi_div_two (pHalf U lam)
  have e : cos (2 * arcsin (pHalf U lam)) = vCos U U lam := by
    rw [cos_two_mul', sin_arcsin (by linarith) hp1, cos_sq', sin_arcsin (by linarith) hp1,
      vCos_parallel]
    ring
  rw [← e, arccos_cos (by linarith) (by linarith)]

theorem sqrt_vSqr_parallel {U lam : ℝ} (h : 0 ≤ pHalf U lam) :
    sqrt (vSqr U U lam) = 2 * pHalf U lam * sqrt (1 - pHalf U lam ^ 2) := by
  rw [vSqr_parallel, show 4 * pHalf U lam ^ 2 * (1 - pHalf U lam ^ 2) =
    (2 * pHalf U lam) ^ 2 * (1 - pHalf U lam ^ 2) by ring, sqrt_mul (sq_nonneg _),
    sqrt_sq (by linarith)]

theorem vSinAlpha_parallel {U lam : ℝ} (h : 0 < pHalf U lam) :
    vSinAlpha U U lam = cos U * cos (lam / 2) / sqrt (1 - pHalf U lam ^ 2) := by
  unfold vSinAlpha
  rw [sqrt_vSqr_parallel h.le]
  have e : sin lam = 2 * sin (lam / 2) * cos (lam / 2) := by
    rw [← sin_two_mul]; congr 1; ring
  rw [e, show cos U * cos U * (2 * sin (lam / 2) * cos (lam / 2)) =
    (2 * pHalf U lam) * (cos U * cos (lam / 2)) by unfold pHalf; ring]
  exact mul_div_mul_left _ _ (by linarith)

theorem cosSq_parallel {U lam : ℝ} (h : 0 < pHalf U lam) (h1 : pHalf U lam < 1) :
    cos (arcsin (vSinAlpha U U lam)) ^ 2 = sin U ^ 2 / (1 - pHalf U lam ^ 2) := by
  have hq : 0 < 1 - pHalf U lam ^ 2 := by nlinarith
  rw [cosSq_vAlpha, vSinAlpha_parallel h, div_pow, sq_sqrt hq.le, eq_div_iff hq.ne', sub_mul,
    div_mul_cancel₀ _ hq.ne']
  have e1 := sin_sq_add_cos_sq U
  have e2 := sin_sq_add_cos_sq (lam / 2)
  unfold pHalf
  linear_combination -e1 - cos U ^ 2 * e2

/-- The point in the middle is the one nearest to the pole. -/
theorem vCos2_parallel {U lam : ℝ} (h : 0 < pHalf U lam) (h1 : pHalf U lam < 1) (hU : sin U ≠ 0) :
    vCos2 U U lam = -1 := by
  have hq : 1 - pHalf U lam ^ 2 ≠ 0 := by nlinarith
  unfold vCos2
  rw [cosSq_parallel h h1, vCos_parallel]
  field_simp
  ring

/-- `C` as a function of the squared cosine `z`. -/
noncomputable def seriesC (f z : ℝ) : ℝ := f / 16 * z * (4 + f * (4 - 3 * z))

/-- The increment of the iteration as a function of `C`, the sine of the azimuth and the angle. -/
noncomputable def vInc (f C sa sig : ℝ) : ℝ :=
  (1 - C) * f * sa * (sig + C * sin sig * (-1 + C * cos sig))

theorem vNext_parallel {f omega U lam : ℝ} (h : 0 < pHalf U lam) (h1 : pHalf U lam < 1) :
    vNext f omega U U lam = omega + vInc f (seriesC f (sin U ^ 2 / (1 - pHalf U lam ^ 2)))
      (cos U * cos (lam / 2) / sqrt (1 - pHalf U lam ^ 2)) (2 * arcsin (pHalf U lam)) := by
  have hC : vC f U U lam = seriesC f (sin U ^ 2 / (1 - pHalf U lam ^ 2)) := by
    unfold vC seriesC; rw [cosSq_parallel h h1]
  have hs : sin (2 * arcsin (pHalf U lam)) = sqrt (vSqr U U lam) := by
    rw [← vSigma_parallel h.le, sin_vSigma]
  have hc : cos (2 * arcsin (pHalf U lam)) = vCos U U lam := by
    rw [← vSigma_parallel h.le, cos_vSigma]
  unfold vNext vInc
  rw [hC, vSigma_parallel h.le, ← vSinAlpha_parallel h, hs, hc]
  by_cases hU : sin U = 0
  · have : seriesC f (sin U ^ 2 / (1 - pHalf U lam ^ 2)) = 0 := by simp [seriesC, hU]
    rw [this]; ring
  · rw [vCos2_parallel h h1 hU]; ring

theorem seriesC_mem {f z : ℝ} (hf0 : 0 ≤ f) (hf1 : f ≤ 1 / 200) (hz0 : 0 ≤ z) (hz1 : z ≤ 1) :
    0 ≤ seriesC f z ∧ seriesC f z ≤ f / 3 := by
  have h1 : 4 ≤ 4 + f * (4 - 3 * z) := by nlinarith
  have h2 : 4 + f * (4 - 3 * z) ≤ 5 := by nlinarith
  unfold seriesC
  constructor
  · positivity
  · calc f / 16 * z * (4 + f * (4 - 3 * z)) ≤ f / 16 * 1 * 5 := by gcongr
      _ ≤ f / 3 := by linarith

theorem seriesC_lip {f z z' : ℝ} (hf0 : 0 ≤ f) (hf1 : f ≤ 1 / 200) (hz0 : 0 ≤ z) (hz1 : z ≤ 1)
    (hz0' : 0 ≤ z') (hz1' : z' ≤ 1) : |seriesC f z - seriesC f z'| ≤ f / 2 * |z - z'| := by
  have e : seriesC f z - seriesC f z' = f / 16 * ((4 + f * (4 - 3 * (z + z'))) * (z - z')) := by
    unfold seriesC; ring
  rw [e, abs_mul, abs_mul, abs_of_nonneg (by positivity : (0 : ℝ) ≤ f / 16)]
  have : |4 + f * (4 - 3 * (z + z'))| ≤ 8 := by
    rw [abs_le]; constructor <;> nlinarith
  calc f / 16 * (|4 + f * (4 - 3 * (z + z'))| * |z - z'|) ≤ f / 16 * (8 * |z - z'|) := by gcongr
    _ = f / 2 * |z - z'| := by ring

theorem abs_mul_sub_mul_le (a b a' b' : ℝ) :
    |a * b - a' * b'| ≤ |a| * |b - b'| + |b'| * |a - a'| := by
  have : a * b - a' * b' = a * (b - b') + b' * (a - a') := by ring
  rw [this, ← abs_mul, ← abs_mul]
  exact abs_add_le _ _

/-- The increment depends little on its arguments. -/
theorem vInc_lip {f C C' sa sa' sig sig' d : ℝ} (hf0 : 0 ≤ f) (hf1 : f ≤ 1 / 200) (hd : 0 ≤ d)
    (hC0 : 0 ≤ C) (hC1 : C ≤ f / 3) (hC0' : 0 ≤ C') (hC1' : C' ≤ f / 3) (hC : |C - C'| ≤ f * d)
    (hsa : |sa| ≤ 1) (hsa' : |sa'| ≤ 1) (hs : |sa - sa'| ≤ 3 * d) (hsig : |sig| ≤ 1)
    (hsig' : |sig'| ≤ 1) (hg : |sig - sig'| ≤ 4 * d) :
    |vInc f C sa sig - vInc f C' sa' sig'| ≤ 14 * f * d := by
  have hfd : f * d ≤ 1 / 200 * d := by gcongr
  have hfd0 : 0 ≤ f * d := by positivity
  have aC : |C| ≤ f / 3 := by rw [abs_of_nonneg hC0]; exact hC1
  have aC' : |C'| ≤ f / 3 := by rw [abs_of_nonneg hC0']; exact hC1'
  have hss : |sin sig - sin sig'| ≤ 4 * d := (abs_sin_sub_sin_le sig sig').trans hg
  have hcc : |cos sig - cos sig'| ≤ 4 * d := (abs_cos_sub_cos_le sig sig').trans hg
  have s1 := abs_sin_le_one sig
  have s1' := abs_sin_le_one sig'
  have c1 := abs_cos_le_one sig
  have c1' := abs_cos_le_one sig'
  -- E
  have e1 : |C * cos sig - C' * cos sig'| ≤ d := by
    refine (abs_mul_sub_mul_le _ _ _ _).trans ?_
    calc |C| * |cos sig - cos sig'| + |cos sig'| * |C - C'| ≤ f / 3 * (4 * d) + 1 * (f * d) := by
          gcongr
      _ ≤ d := by nlinarith
  have e2 : |(-1 + C * cos sig) - (-1 + C' * cos sig')| ≤ d := by
    rw [show (-1 + C * cos sig) - (-1 + C' * cos sig') = C * cos sig - C' * cos sig' by ring]
    exact e1
  have bE : ∀ C s : ℝ, |C| ≤ f / 3 → |-1 + C * cos s| ≤ 2 := by
    intro C s hC
    have : |C * cos s| ≤ 1 := by
      rw [abs_mul]
      calc |C| * |cos s| ≤ f / 3 * 1 := by gcongr; exact abs_cos_le_one s
        _ ≤ 1 := by linarith
    rw [abs_le] at this ⊢
    constructor <;> linarith [this.1, this.2]
  have e3 : |C * sin sig - C' * sin sig'| ≤ 3 * (f * d) := by
    refine (abs_mul_sub_mul_le _ _ _ _).trans ?_
    calc |C| * |sin sig - sin sig'| + |sin sig'| * |C - C'| ≤ f / 3 * (4 * d) + 1 * (f * d) := by
          gcongr
      _ ≤ 3 * (f * d) := by nlinarith
  have b3 : ∀ C s : ℝ, |C| ≤ f / 3 → |C * sin s| ≤ f / 3 := by
    intro C s hC
    rw [abs_mul]
    calc |C| * |sin s| ≤ f / 3 * 1 := by gcongr; exact abs_sin_le_one s
      _ = f / 3 := mul_one _
  have e4 : |C * sin sig * (-1 + C * cos sig) - C' * sin sig' * (-1 + C' * cos sig')| ≤ d := by
    refine (abs_mul_sub_mul_le _ _ _ _).trans ?_
    calc |C * sin sig| * |(-1 + C * cos sig) - (-1 + C' * cos sig')| +
          |-1 + C' * cos sig'| * |C * sin sig - C' * sin sig'|
        ≤ f / 3 * d + 2 * (3 * (f * d)) := by
          gcongr
          · exact b3 C sig aC
          · exact bE C' sig' aC'
      _ ≤ d := by nlinarith
  have b4 : ∀ C s : ℝ, |C| ≤ f / 3 → |s| ≤ 1 → |s + C * sin s * (-1 + C * cos s)| ≤ 2 := by
    intro C s hC hs
    have : |C * sin s * (-1 + C * cos s)| ≤ 1 := by
      rw [abs_mul]
      calc |C * sin s| * |-1 + C * cos s| ≤ f / 3 * 2 := by
            gcongr
            · exact b3 C s hC
            · exact bE C s hC
        _ ≤ 1 := by linarith
    exact (abs_add_le _ _).trans (by linarith)
  have e5 : |(sig + C * sin sig * (-1 + C * cos sig)) -
      (sig' + C' * sin sig' * (-1 + C' * cos sig'))| ≤ 5 * d := by
    rw [show (sig + C * sin sig * (-1 + C * cos sig)) -
      (sig' + C' * sin sig' * (-1 + C' * cos sig')) = (sig - sig') +
        (C * sin sig * (-1 + C * cos sig) - C' * sin sig' * (-1 + C' * cos sig')) by ring]
    exact (abs_add_le _ _).trans (by linarith)
  have h4 := b4 C sig aC hsig
  have h4' := b4 C' sig' aC' hsig'
  unfold vInc
  generalize sig + C * sin sig * (-1 + C * cos sig) = H at *
  generalize sig' + C' * sin sig' * (-1 + C' * cos sig') = H' at *
  have e6 : |sa * H - sa' * H'| ≤ 11 * d := by
    refine (abs_mul_sub_mul_le _ _ _ _).trans ?_
    calc |sa| * |H - H'| + |H'| * |sa - sa'| ≤ 1 * (5 * d) + 2 * (3 * d) := by gcongr
      _ = 11 * d := by ring
  have b6 : |sa' * H'| ≤ 2 := by
    rw [abs_mul]
    calc |sa'| * |H'| ≤ 1 * 2 := by gcongr
      _ = 2 := by norm_num
  have e7 : |(1 - C) * (sa * H) - (1 - C') * (sa' * H')| ≤ 14 * d := by
    refine (abs_mul_sub_mul_le _ _ _ _).trans ?_
    have t1 : |1 - C| ≤ 1 := by rw [abs_le]; constructor <;> linarith
    have t2 : |(1 - C) - (1 - C')| ≤ f * d := by
      rw [show (1 - C) - (1 - C') = -(C - C') by ring, abs_neg]; exact hC
    calc |1 - C| * |sa * H - sa' * H'| + |sa' * H'| * |(1 - C) - (1 - C')|
        ≤ 1 * (11 * d) + 2 * (f * d) := by gcongr
      _ ≤ 14 * d := by linarith
  rw [show (1 - C) * f * sa * H - (1 - C') * f * sa' * H' =
    f * ((1 - C) * (sa * H) - (1 - C') * (sa' * H')) by ring, abs_mul, abs_of_nonneg hf0]
  calc f * |(1 - C) * (sa * H) - (1 - C') * (sa' * H')| ≤ f * (14 * d) := by gcongr
    _ = 14 * f * d := by ring

/-- The increment is not negative and at most `f` times the angle. -/
theorem vInc_mem {f C sa sig : ℝ} (hf0 : 0 ≤ f) (hf1 : f ≤ 1 / 200) (hC0 : 0 ≤ C) (hC1 : C ≤ f / 3)
    (hs0 : 0 ≤ sa) (hs1 : sa ≤ 1) (hg0 : 0 ≤ sig) (hg1 : sig ≤ 1) :
    0 ≤ vInc f C sa sig ∧ vInc f C sa sig ≤ f * sig := by
  have hpi := pi_gt_three
  have k0 : 0 ≤ sin sig := sin_nonneg_of_nonneg_of_le_pi hg0 (by linarith)
  have k1 : sin sig ≤ sig := sin_le hg0
  have k2 := abs_le.mp (abs_cos_le_one sig)
  have l1 : -2 ≤ -1 + C * cos sig := by nlinarith
  have l2 : -1 + C * cos sig ≤ 0 := by nlinarith
  have m0 : 0 ≤ C * sin sig := by positivity
  have m1 : C * sin sig ≤ 1 / 4 * sig := by nlinarith
  have h1 : sig + C * sin sig * (-1 + C * cos sig) ≤ sig := by nlinarith
  have h0 : 0 ≤ sig + C * sin sig * (-1 + C * cos sig) := by nlinarith
  unfold vInc
  generalize sig + C * sin sig * (-1 + C * cos sig) = H at *
  have n0 : 0 ≤ 1 - C := by linarith
  constructor
  · positivity
  · calc (1 - C) * f * sa * H ≤ 1 * f * 1 * sig := by
          gcongr
          linarith
      _ = f * sig := by ring

/-! ### The quantities as functions of `lam` -/

theorem pHalf_mem {U lam : ℝ} (hU : 0 < cos U) (h0 : 0 < lam) (h1 : lam ≤ 1) :
    0 < pHalf U lam ∧ pHalf U lam ≤ 1 / 2 ∧ pHalf U lam ≤ sin (lam / 2) := by
  have hpi := pi_gt_three
  have s0 : 0 < sin (lam / 2) := sin_pos_of_pos_of_lt_pi (by linarith) (by linarith)
  have s1 : sin (lam / 2) ≤ lam / 2 := sin_le (by linarith)
  have c1 := cos_le_one U
  unfold pHalf
  refine ⟨by positivity, by nlinarith, by nlinarith⟩

theorem pHalf_lip (U lam lam' : ℝ) : |pHalf U lam - pHalf U lam'| ≤ |lam - lam'| / 2 := by
  unfold pHalf
  rw [← mul_sub, abs_mul]
  calc |cos U| * |sin (lam / 2) - sin (lam' / 2)| ≤ 1 * |lam / 2 - lam' / 2| :=
        mul_le_mul (abs_cos_le_one U) (abs_sin_sub_sin_le _ _) (abs_nonneg _) zero_le_one
    _ = |lam - lam'| / 2 := by
        rw [one_mul, ← sub_div, abs_div, abs_of_pos (by norm_num : (0 : ℝ) < 2)]

theorem arcsin_lip {p p' : ℝ} (h0 : 0 ≤ p) (h1 : p ≤ 1 / 2) (h0' : 0 ≤ p') (h1' : p' ≤ 1 / 2) :
    |arcsin p - arcsin p'| ≤ 2 * |p - p'| := by
  wlog h : p' ≤ p generalizing p p'
  · rw [abs_sub_comm, abs_sub_comm p]
    exact this h0' h1' h0 h1 (le_of_not_ge h)
  have hpi := pi_gt_three
  have hpi4 := pi_lt_four
  have t : ∀ q : ℝ, 0 ≤ q → q ≤ 1 / 2 → 0 ≤ arcsin q ∧ arcsin q ≤ π / 6 ∧ sin (arcsin q) = q := by
    intro q q0 q1
    refine ⟨arcsin_nonneg.mpr q0, ?_, sin_arcsin (by linarith) (by linarith)⟩
    rw [arcsin_le_iff_le_sin' ⟨by linarith, by linarith⟩, sin_pi_div_six]
    linarith
  obtain ⟨a0, a1, a2⟩ := t p h0 h1
  obtain ⟨b0, b1, b2⟩ := t p' h0' h1'
  have hle : arcsin p' ≤ arcsin p := monotone_arcsin h
  rw [abs_of_nonneg (by linarith), abs_of_nonneg (by linarith)]
  have e : p - p' = 2 * sin ((arcsin p - arcsin p') / 2) * cos ((arcsin p + arcsin p') / 2) := by
    rw [← sin_sub_sin, a2, b2]
  have m1 := mul_le_sin (x := (arcsin p - arcsin p') / 2) (by linarith) (by linarith)
  have m2 : 1 - ((arcsin p + arcsin p') / 2) ^ 2 / 2 ≤ cos ((arcsin p + arcsin p') / 2) :=
    one_sub_sq_div_two_le_cos
  have m3 : (4 / 5 : ℝ) ≤ cos ((arcsin p + arcsin p') / 2) := by
    have : (arcsin p + arcsin p') / 2 ≤ 3.15 / 6 := by linarith [pi_lt_d2]
    nlinarith
  have m4 : (5 / 16 : ℝ) * (arcsin p - arcsin p') ≤ sin ((arcsin p - arcsin p') / 2) := by
    refine le_trans ?_ m1
    have : (5 / 8 : ℝ) ≤ 2 / π := by
      rw [le_div_iff₀ pi_pos]; linarith [pi_lt_d2]
    nlinarith
  rw [e]
  have n0 : 0 ≤ sin ((arcsin p - arcsin p') / 2) := by
    refine le_trans ?_ m4
    have : 0 ≤ arcsin p - arcsin p' := by linarith
    positivity
  nlinarith

/-- The square root. -/
theorem qRoot_mem {p : ℝ} (h0 : 0 ≤ p) (h1 : p ≤ 1 / 2) :
    4 / 5 ≤ sqrt (1 - p ^ 2) ∧ sqrt (1 - p ^ 2) ≤ 1 ∧ sqrt (1 - p ^ 2) ^ 2 = 1 - p ^ 2 := by
  refine ⟨?_, ?_, sq_sqrt (by nlinarith)⟩
  · rw [show (4 / 5 : ℝ) = sqrt ((4 / 5) ^ 2) from (sqrt_sq (by norm_num)).symm]
    exact sqrt_le_sqrt (by nlinarith)
  · rw [sqrt_le_one]; nlinarith

theorem qRoot_lip {p p' : ℝ} (h0 : 0 ≤ p) (h1 : p ≤ 1 / 2) (h0' : 0 ≤ p') (h1' : p' ≤ 1 / 2) :
    |sqrt (1 - p ^ 2) - sqrt (1 - p' ^ 2)| ≤ |p - p'| := by
  obtain ⟨a0, a1, a2⟩ := qRoot_mem h0 h1
  obtain ⟨b0, b1, b2⟩ := qRoot_mem h0' h1'
  have e : (sqrt (1 - p ^ 2) - sqrt (1 - p' ^ 2)) * (sqrt (1 - p ^ 2) + sqrt (1 - p' ^ 2)) =
      (p' - p) * (p' + p) := by
    ring_nf
    rw [a2, b2]
    ring
  generalize sqrt (1 - p ^ 2) = q at *
  generalize sqrt (1 - p' ^ 2) = q' at *
  have e2 := congrArg abs e
  rw [abs_mul, abs_mul, abs_of_pos (by linarith : 0 < q + q'),
    abs_of_nonneg (by linarith : 0 ≤ p' + p), abs_sub_comm p'] at e2
  have := abs_nonneg (q - q')
  have := abs_nonneg (p - p')
  nlinarith

/-- The values of an iteration for `0 < lam ≤ 1`. -/
theorem parallel_mem {U lam : ℝ} (hU : 0 < cos U) (h0 : 0 < lam) (h1 : lam ≤ 1) :
    (0 ≤ sin U ^ 2 / (1 - pHalf U lam ^ 2) ∧ sin U ^ 2 / (1 - pHalf U lam ^ 2) ≤ 1) ∧
    (0 ≤ cos U * cos (lam / 2) / sqrt (1 - pHalf U lam ^ 2) ∧
      cos U * cos (lam / 2) / sqrt (1 - pHalf U lam ^ 2) ≤ 1) ∧
    0 ≤ 2 * arcsin (pHalf U lam) ∧ 2 * arcsin (pHalf U lam) ≤ lam := by
  have hpi := pi_gt_three
  obtain ⟨p0, p1, p2⟩ := pHalf_mem hU h0 h1
  obtain ⟨q0, q1, q2⟩ := qRoot_mem p0.le p1
  have hq : 0 < 1 - pHalf U lam ^ 2 := by nlinarith
  have e1 := sin_sq_add_cos_sq U
  have e2 := sin_sq_add_cos_sq (lam / 2)
  have hc : 0 < cos (lam / 2) := cos_pos_of_mem_Ioo ⟨by linarith, by linarith⟩
  have key : sin U ^ 2 + (cos U * cos (lam / 2)) ^ 2 = 1 - pHalf U lam ^ 2 := by
    unfold pHalf; linear_combination e1 - (1 - cos U ^ 2 - 1) * e2
  refine ⟨⟨by positivity, ?_⟩, ⟨by positivity, ?_⟩, ?_, ?_⟩
  · rw [div_le_one hq]; nlinarith [sq_nonneg (cos U * cos (lam / 2))]
  · rw [div_le_one (by linarith)]
    apply le_sqrt_of_sq_le
    nlinarith [sq_nonneg (sin U)]
  · have := arcsin_nonneg.mpr p0.le; linarith
  · have : arcsin (pHalf U lam) ≤ arcsin (sin (lam / 2)) := monotone_arcsin p2
    rw [arcsin_sin (by linarith) (by linarith)] at this
    linarith

theorem parallel_lip {U lam lam' : ℝ} (hU : 0 < cos U) (h0 : 0 < lam) (h1 : lam ≤ 1) (h0' : 0 < lam')
    (h1' : lam' ≤ 1) :
    |sin U ^ 2 / (1 - pHalf U lam ^ 2) - sin U ^ 2 / (1 - pHalf U lam' ^ 2)| ≤
      2 * (|lam - lam'| / 2) ∧
    |cos U * cos (lam / 2) / sqrt (1 - pHalf U lam ^ 2) -
      cos U * cos (lam' / 2) / sqrt (1 - pHalf U lam' ^ 2)| ≤ 4 * (|lam - lam'| / 2) ∧
    |2 * arcsin (pHalf U lam) - 2 * arcsin (pHalf U lam')| ≤ 4 * (|lam - lam'| / 2) := by
  obtain ⟨p0, p1, p2⟩ := pHalf_mem hU h0 h1
  obtain ⟨r0, r1, r2⟩ := pHalf_mem hU h0' h1'
  obtain ⟨q0, q1, q2⟩ := qRoot_mem p0.le p1
  obtain ⟨s0, s1, s2⟩ := qRoot_mem r0.le r1
  have hp := pHalf_lip U lam lam'
  have hq := qRoot_lip p0.le p1 r0.le r1
  have ha := arcsin_lip p0.le p1 r0.le r1
  have hcl : |cos (lam / 2) - cos (lam' / 2)| ≤ |lam - lam'| / 2 := by
    refine (abs_cos_sub_cos_le _ _).trans ?_
    rw [← sub_div, abs_div, abs_of_pos (by norm_num : (0 : ℝ) < 2)]
  have hd : 0 ≤ |lam - lam'| / 2 := by positivity
  generalize |lam - lam'| / 2 = d at *
  have hc1 := cos_le_one U
  have hs := sin_sq_le_one U
  have hs' := sq_nonneg (sin U)
  have hcos' := abs_cos_le_one (lam' / 2)
  generalize cos (lam / 2) = c at *
  generalize cos (lam' / 2) = c' at *
  refine ⟨?_, ?_, ?_⟩
  · rw [← q2, ← s2]
    have hpp : sqrt (1 - pHalf U lam' ^ 2) ^ 2 - sqrt (1 - pHalf U lam ^ 2) ^ 2 =
        (pHalf U lam - pHalf U lam') * (pHalf U lam + pHalf U lam') := by rw [q2, s2]; ring
    generalize sqrt (1 - pHalf U lam ^ 2) = q at *
    generalize sqrt (1 - pHalf U lam' ^ 2) = q' at *
    have hpos : 0 < q ^ 2 * q' ^ 2 := by positivity
    have e : sin U ^ 2 / q ^ 2 - sin U ^ 2 / q' ^ 2 =
        sin U ^ 2 * (q' ^ 2 - q ^ 2) / (q ^ 2 * q' ^ 2) := by
      have h1 : q ≠ 0 := by linarith
      have h2 : q' ≠ 0 := by linarith
      field_simp
    have hbig : (1 / 2 : ℝ) ≤ q ^ 2 * q' ^ 2 := by
      have h3 : (3 / 4 : ℝ) ≤ q ^ 2 := by rw [q2]; nlinarith
      have h4 : (3 / 4 : ℝ) ≤ q' ^ 2 := by rw [s2]; nlinarith
      nlinarith
    rw [e, abs_div, abs_of_pos hpos, div_le_iff₀ hpos, abs_mul, abs_of_nonneg hs', hpp, abs_mul,
      abs_of_pos (by linarith : 0 < pHalf U lam + pHalf U lam')]
    calc sin U ^ 2 * (|pHalf U lam - pHalf U lam'| * (pHalf U lam + pHalf U lam'))
        ≤ 1 * (d * (1 / 2 + 1 / 2)) := by gcongr
      _ = 2 * d * (1 / 2) := by ring
      _ ≤ 2 * d * (q ^ 2 * q' ^ 2) := by gcongr
  · generalize sqrt (1 - pHalf U lam ^ 2) = q at *
    generalize sqrt (1 - pHalf U lam' ^ 2) = q' at *
    have hqq := hq.trans hp
    have hpos : 0 < q * q' := by
      have : 0 < q := by linarith
      have : 0 < q' := by linarith
      positivity
    have e : cos U * c / q - cos U * c' / q' = cos U * (c * q' - c' * q) / (q * q') := by
      have h1 : q ≠ 0 := by linarith
      have h2 : q' ≠ 0 := by linarith
      field_simp
    rw [e, abs_div, abs_of_pos hpos, div_le_iff₀ hpos, abs_mul, abs_of_pos hU,
      show c * q' - c' * q = q' * (c - c') - c' * (q - q') by ring]
    have hb : |q' * (c - c') - c' * (q - q')| ≤ 1 * d + 1 * d := by
      refine (abs_sub _ _).trans ?_
      rw [abs_mul, abs_mul, abs_of_nonneg (by linarith : (0 : ℝ) ≤ q')]
      gcongr
    have hbig : (16 / 25 : ℝ) ≤ q * q' := by nlinarith
    calc cos U * |q' * (c - c') - c' * (q - q')| ≤ 1 * (1 * d + 1 * d) := by gcongr
      _ = 4 * d * (1 / 2) := by ring
      _ ≤ 4 * d * (q * q') := by gcongr; linarith
  · rw [← mul_sub, abs_mul, abs_of_pos (by norm_num : (0 : ℝ) < 2)]
    linarith

/-- The iteration is a contraction. -/
theorem vNext_contracts {f omega U lam lam' : ℝ} (hf0 : 0 ≤ f) (hf1 : f ≤ 1 / 200) (hU : 0 < cos U)
    (h0 : 0 < lam) (h1 : lam ≤ 1) (h0' : 0 < lam') (h1' : lam' ≤ 1) :
    |vNext f omega U U lam - vNext f omega U U lam'| ≤ 1 / 10 * |lam - lam'| := by
  obtain ⟨p0, p1, -⟩ := pHalf_mem hU h0 h1
  obtain ⟨r0, r1, -⟩ := pHalf_mem hU h0' h1'
  obtain ⟨⟨z0, z1⟩, ⟨s0, s1⟩, g0, g1⟩ := parallel_mem hU h0 h1
  obtain ⟨⟨z0', z1'⟩, ⟨s0', s1'⟩, g0', g1'⟩ := parallel_mem hU h0' h1'
  obtain ⟨l1, l2, l3⟩ := parallel_lip hU h0 h1 h0' h1'
  obtain ⟨c0, c1⟩ := seriesC_mem hf0 hf1 z0 z1
  obtain ⟨c0', c1'⟩ := seriesC_mem hf0 hf1 z0' z1'
  have hl := seriesC_lip hf0 hf1 z0 z1 z0' z1'
  rw [vNext_parallel p0 (by linarith), vNext_parallel r0 (by linarith), add_sub_add_left_eq_sub]
  have hd : 0 ≤ |lam - lam'| / 2 := by positivity
  have hN := vInc_lip (d := 4 / 3 * (|lam - lam'| / 2)) hf0 hf1 (by positivity) c0 c1 c0' c1'
    (by
      refine hl.trans ?_
      calc f / 2 * _ ≤ f / 2 * (2 * (|lam - lam'| / 2)) := by gcongr
        _ = f * (|lam - lam'| / 2) := by ring
        _ ≤ f * (4 / 3 * (|lam - lam'| / 2)) := by gcongr; linarith)
    (by rw [abs_of_nonneg s0]; exact s1) (by rw [abs_of_nonneg s0']; exact s1') (by linarith)
    (by rw [abs_of_nonneg g0]; linarith) (by rw [abs_of_nonneg g0']; linarith) (by linarith)
  refine hN.trans ?_
  have : 14 * f * (4 / 3 * (|lam - lam'| / 2)) = 28 / 3 * f * |lam - lam'| := by ring
  rw [this]
  gcongr
  linarith

/-- The range of the iteration. -/
theorem vNext_mem {f omega U lam : ℝ} (hf0 : 0 ≤ f) (hf1 : f ≤ 1 / 200) (hU : 0 < cos U)
    (h0 : 0 < lam) (h1 : lam ≤ 1) :
    omega ≤ vNext f omega U U lam ∧ vNext f omega U U lam ≤ omega + f * lam := by
  obtain ⟨p0, p1, -⟩ := pHalf_mem hU h0 h1
  obtain ⟨⟨z0, z1⟩, ⟨s0, s1⟩, g0, g1⟩ := parallel_mem hU h0 h1
  obtain ⟨c0, c1⟩ := seriesC_mem hf0 hf1 z0 z1
  obtain ⟨i0, i1⟩ := vInc_mem hf0 hf1 c0 c1 s0 s1 g0 (g1.trans h1)
  rw [vNext_parallel p0 (by linarith)]
  refine ⟨by linarith, ?_⟩
  have : f * (2 * arcsin (pHalf U lam)) ≤ f * lam := by gcongr
  linarith

theorem vincStep_parallel {f omega U lam : ℝ} (hU : 0 < cos U) (h0 : 0 < lam) (h1 : lam ≤ 1) :
    ∃ st, vincStep f omega U U lam = .ok st ∧ st.lam = vNext f omega U U lam ∧
      st.sigma = 2 * arcsin (pHalf U lam) := by
  obtain ⟨p0, p1, -⟩ := pHalf_mem hU h0 h1
  have : ¬ vSqr U U lam = 0 := by
    rw [vSqr_parallel]
    have : 0 < 1 - pHalf U lam ^ 2 := by nlinarith
    positivity
  rw [vincStep_eq, if_neg this]
  exact ⟨_, rfl, rfl, vSigma_parallel p0.le⟩

/-- The loop ends once the iteration contracts: `k` further iterations suffice if the last change is
at most `10 ^ k` times the tolerance. -/
theorem vincLoop_parallel {f omega U : ℝ} (hf0 : 0 ≤ f) (hf1 : f ≤ 1 / 200) (hU : 0 < cos U)
    (ho0 : 0 < omega) (ho1 : omega ≤ 1 / 2) (Q : Option VincState → Prop)
    (hQ : ∀ lam st, omega ≤ lam → lam * (1 - f) ≤ omega → vincStep f omega U U lam = .ok st →
      Q (some st)) :
    ∀ (k fuel : ℕ) (last lam : ℝ) (st : Option VincState), k ≤ fuel → omega ≤ last →
      last * (1 - f) ≤ omega → lam = vNext f omega U U last → Q st →
      |last - lam| ≤ 10 ^ k * (1 / 1000000000 * omega) →
      ∃ st', vincLoop f omega U U fuel last lam st = some (.ok st') ∧ Q st' := by
  have hone : ∀ lam, omega ≤ lam → lam * (1 - f) ≤ omega → 0 < lam ∧ lam ≤ 1 := by
    intro lam h1 h2
    exact ⟨by linarith, by nlinarith⟩
  have hnext : ∀ last, omega ≤ last → last * (1 - f) ≤ omega →
      omega ≤ vNext f omega U U last ∧ vNext f omega U U last * (1 - f) ≤ omega := by
    intro last h1 h2
    obtain ⟨a0, a1⟩ := hone last h1 h2
    obtain ⟨b0, b1⟩ := vNext_mem (omega := omega) hf0 hf1 hU a0 a1
    refine ⟨b0, ?_⟩
    have hq : 0 < 1 - f := by linarith
    calc vNext f omega U U last * (1 - f) ≤ (omega + f * last) * (1 - f) := by gcongr
      _ = omega * (1 - f) + f * (last * (1 - f)) := by ring
      _ ≤ omega * (1 - f) + f * omega := by gcongr
      _ = omega := by ring
  intro k
  induction k with
  | zero =>
    intro fuel last lam st _ h1 h2 h3 hst hd
    obtain ⟨a0, a1⟩ := hnext last h1 h2
    refine ⟨st, vincLoop_stop _ _ _ _ _ _ ?_, hst⟩
    rintro (h | ⟨-, h⟩)
    · linarith
    · rw [← h3] at a0
      rw [abs_div, abs_of_pos (by linarith : 0 < lam), gt_iff_lt, lt_div_iff₀ (by linarith)] at h
      rw [pow_zero, one_mul] at hd
      nlinarith
  | succ k ih =>
    intro fuel last lam st hk h1 h2 h3 hst hd
    obtain ⟨a0, a1⟩ := hnext last h1 h2
    rw [← h3] at a0 a1
    by_cases hg : vincGoesOn last lam
    · obtain ⟨fuel, rfl⟩ : ∃ n, fuel = n + 1 := ⟨fuel - 1, by omega⟩
      obtain ⟨l0, l1⟩ := hone lam a0 a1
      obtain ⟨m0, m1⟩ := hone last h1 h2
      obtain ⟨st', e1, e2, -⟩ := vincStep_parallel (f := f) (omega := omega) hU l0 l1
      rw [vincLoop, if_pos hg]
      simp only [e1]
      refine ih fuel lam st'.lam (some st') (by omega) a0 a1 e2 (hQ lam st' a0 a1 e1) ?_
      rw [e2]
      nth_rewrite 1 [h3]
      have := vNext_contracts (omega := omega) hf0 hf1 hU m0 m1 l0 l1
      rw [pow_succ] at hd
      linarith
    · exact ⟨st, vincLoop_stop _ _ _ _ _ _ hg, hst⟩

end WindMult
