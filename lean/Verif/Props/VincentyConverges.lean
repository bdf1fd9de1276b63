import Verif.Proofs.VincentyContraction
import Verif.Props.VincentyParallel
import Verif.Props.VincentyInverse

/-!
# C74: `vinc_dist` returns for all points that are not nearly antipodal
-/

set_option autoImplicit false

namespace WindMult
open Real

/-- The iteration stays between the difference of longitude and a little more. -/
theorem vNext_range {f omega U1 U2 lam : ℝ} (hf0 : 0 ≤ f) (hf1 : f ≤ 1 / 200) (h1 : 0 < cos U1)
    (h2 : 0 < cos U2) (hl0 : 0 < lam) (hl1 : lam ≤ 51 / 20) :
    omega ≤ vNext f omega U1 U2 lam ∧ vNext f omega U1 U2 lam ≤ omega + 1 / 20 := by
  obtain ⟨t, t0, t1, e⟩ := vNext_factor hf0 hf1 omega U1 U2 lam
  have hsin := sin_pos_of_pos_of_lt_pi hl0 (by linarith [pi_gt_three])
  have hX0 : 0 ≤ vSinAlpha U1 U2 lam := by unfold vSinAlpha; positivity
  have hX1 := (abs_le.mp (abs_sinAlpha_le U1 U2 lam)).2
  rw [e]
  constructor
  · have := mul_nonneg hX0 t0
    linarith
  · have := mul_le_mul hX1 t1 t0 zero_le_one
    linarith

/-- The loop ends: `k` further iterations suffice if the last change is at most `5 ^ k` times the
tolerance. -/
theorem vincLoop_converges {f omega U1 U2 : ℝ} (hf0 : 0 ≤ f) (hf1 : f ≤ 1 / 200) (hU1 : 0 < cos U1)
    (hU2 : 0 < cos U2) (ho0 : 0 < omega) (ho1 : omega ≤ 5 / 2) :
    ∀ (k fuel : ℕ) (last lam : ℝ) (st : VincState), k ≤ fuel → omega ≤ last →
      last ≤ omega + 1 / 20 → lam = vNext f omega U1 U2 last →
      |last - lam| ≤ 5 ^ k * (1 / 1000000000 * omega) →
      ∃ st', vincLoop f omega U1 U2 fuel last lam (some st) = some (.ok (some st')) := by
  have hpi := pi_gt_three
  intro k
  induction k with
  | zero =>
    intro fuel last lam st _ h1 h2 h3 hd
    obtain ⟨a0, a1⟩ := vNext_range (omega := omega) hf0 hf1 hU1 hU2 (by linarith : 0 < last)
      (by linarith)
    refine ⟨st, vincLoop_stop _ _ _ _ _ _ ?_⟩
    rintro (h | ⟨-, h⟩)
    · linarith
    · rw [← h3] at a0
      rw [abs_div, abs_of_pos (by linarith : 0 < lam), gt_iff_lt, lt_div_iff₀ (by linarith)] at h
      rw [pow_zero, one_mul] at hd
      linarith
  | succ k ih =>
    intro fuel last lam st hk h1 h2 h3 hd
    obtain ⟨a0, a1⟩ := vNext_range (omega := omega) hf0 hf1 hU1 hU2 (by linarith : 0 < last)
      (by linarith)
    rw [← h3] at a0 a1
    by_cases hg : vincGoesOn last lam
    · obtain ⟨fuel, rfl⟩ : ∃ n, fuel = n + 1 := ⟨fuel - 1, by omega⟩
      have hs := vSqr_pos (U1 := U1) hU2 (by linarith : 0 < lam) (by linarith)
      rw [vincLoop, if_pos hg]
      simp only [vincStep_eq, if_neg hs.ne']
      refine ih fuel lam _ _ (by omega) a0 a1 rfl ?_
      have := vNext_contracts_all (omega := omega) hf0 hf1 hU1 hU2 (by linarith : 0 < last)
        (by linarith) (by linarith : 0 < lam) (by linarith)
      rw [← h3] at this
      rw [pow_succ] at hd
      linarith
    · exact ⟨st, vincLoop_stop _ _ _ _ _ _ hg⟩

theorem vincDist_converges {fuel : ℕ} {f a phi1 lam1 phi2 lam2 : ℝ} (hfuel : 13 ≤ fuel) (hf0 : 0 ≤ f)
    (hf1 : f ≤ 1 / 200) (h0 : 0 < lam2 - lam1) (h1 : lam2 - lam1 ≤ 5 / 2) :
    ∃ s a12 a21, vincDist fuel f a phi1 lam1 phi2 lam2 = some (.ok (s, a12, a21)) := by
  by_cases hc : |phi2 - phi1| < 1 / 100000000 ∧ |lam2 - lam1| < 1 / 100000000
  · unfold vincDist
    rw [if_pos hc]
    exact ⟨_, _, _, rfl⟩
  have hpi := pi_gt_three
  unfold vincDist
  rw [if_neg hc]
  simp only
  have hU1 := cos_arctan_pos ((1 - f) * tan phi1)
  have hU2 := cos_arctan_pos ((1 - f) * tan phi2)
  generalize arctan ((1 - f) * tan phi1) = U1 at *
  generalize arctan ((1 - f) * tan phi2) = U2 at *
  generalize lam2 - lam1 = omega at *
  obtain ⟨fuel, rfl⟩ : ∃ n, fuel = n + 1 := ⟨fuel - 1, by omega⟩
  have hs := vSqr_pos (U1 := U1) hU2 h0 (by linarith)
  obtain ⟨st, e⟩ := vincLoop_converges hf0 hf1 hU1 hU2 h0 h1 12 fuel omega (vNext f omega U1 U2 omega)
    { sqrSinSigma := vSqr U1 U2 omega, sinSigma := sqrt (vSqr U1 U2 omega),
      cosSigma := vCos U1 U2 omega, sigma := arccos (vCos U1 U2 omega),
      alpha := arcsin (vSinAlpha U1 U2 omega), cos2SigmaM := vCos2 U1 U2 omega,
      lam := vNext f omega U1 U2 omega } (by omega) le_rfl (by linarith) rfl (by
    have hg := vG_le hf0 hf1 hU1 hU2 h0 (by linarith) (cos_ge_of_le h0.le (by linarith))
    rw [vNext_eq_vG f omega hs, sub_add_cancel_left, abs_neg, abs_mul, abs_of_nonneg hf0]
    calc f * |vG f U1 U2 omega| ≤ 1 / 200 * (20 * omega) := by gcongr
      _ ≤ _ := by norm_num; linarith)
  rw [vincLoop, if_pos (vincGoesOn_start _)]
  simp only [vincStep_eq, if_neg hs.ne', e]
  exact ⟨_, _, _, rfl⟩

/-- C74: for any two points that are no pole and at most 5/2 (143 degrees) of longitude apart,
thirteen iterations are enough. -/
theorem C74_converges (fuel : ℕ) (hfuel : 13 ≤ fuel) (f a phi1 lam1 phi2 lam2 : ℝ) (hf0 : 0 ≤ f)
    (hf1 : f ≤ 1 / 200) (ha : 0 < a) (hphi1 : |phi1| < π / 2) (hphi2 : |phi2| < π / 2)
    (h : |lam2 - lam1| ≤ 5 / 2) :
    ∃ s a12 a21, vincDist fuel f a phi1 lam1 phi2 lam2 = some (.ok (s, a12, a21)) := by
  obtain ⟨g0, g1⟩ := abs_le.mp h
  rcases lt_trichotomy lam1 lam2 with hlt | rfl | hgt
  · exact vincDist_converges hfuel hf0 hf1 (by linarith) g1
  · by_cases hc : |phi2 - phi1| < 1 / 100000000
    · unfold vincDist
      rw [if_pos ⟨hc, by norm_num⟩]
      exact ⟨_, _, _, rfl⟩
    · obtain ⟨n, rfl⟩ : ∃ n, fuel = n + 1 := ⟨fuel - 1, by omega⟩
      obtain ⟨s, a12, a21, e, -⟩ := C74_meridian n f a phi1 phi2 lam1 hf0 hf1 ha hphi1 hphi2
        (not_lt.mp hc)
      exact ⟨s, a12, a21, e⟩
  · obtain ⟨s, a12, a21, e⟩ := vincDist_converges (a := a) (phi1 := phi2) (lam1 := lam2) (phi2 := phi1)
      (lam2 := lam1) hfuel hf0 hf1 (by linarith) (by linarith)
    have hsym := C73_symmetric fuel f a phi1 lam1 phi2 lam2 hf0 (by linarith) (by linarith)
    rw [e] at hsym
    cases hr : vincDist fuel f a phi1 lam1 phi2 lam2 with
    | none => rw [hr] at hsym; simp at hsym
    | some r =>
      rw [hr] at hsym
      cases r with
      | error err => simp [Except.map] at hsym
      | ok v => exact ⟨v.1, v.2.1, v.2.2, rfl⟩

/-- From the south-east of Australia to the north-west (34° S, 149° E and 17° S, 126° E, in radians),
on the ellipsoid of the Earth: the iteration ends, and the result solves Vincenty's equations. -/
example : ∃ s a12 a21,
    vincDist 13 (1 / 298) 6378137 (-(3 / 5)) (13 / 5) (-(3 / 10)) (11 / 5) = some (.ok (s, a12, a21)) ∧
    ∃ last lam alpha sigma1 sigma beta1 beta2 : ℝ,
      Spec.IsReduced (1 / 298) (-(3 / 5)) beta1 ∧ Spec.IsReduced (1 / 298) (-(3 / 10)) beta2 ∧
      |last - lam| ≤ 1 / 1000000000 * |lam| ∧ Spec.Reached beta1 0 alpha sigma beta2 last ∧
      s = Spec.vincentyDistance (1 / 298) 6378137 (Spec.cosSqEquator beta1 alpha) sigma1 sigma ∧
      11 / 5 - 13 / 5 = lam - Spec.vincentyCorrection (1 / 298) (cos beta1 * sin alpha)
        (Spec.cosSqEquator beta1 alpha) sigma1 sigma := by
  have hpi := pi_gt_three
  have h1 : |(-(3 / 5) : ℝ)| < π / 2 := by rw [abs_neg, abs_of_pos (by norm_num)]; linarith
  have h2 : |(-(3 / 10) : ℝ)| < π / 2 := by rw [abs_neg, abs_of_pos (by norm_num)]; linarith
  obtain ⟨s, a12, a21, e⟩ := C74_converges 13 le_rfl (1 / 298) 6378137 (-(3 / 5)) (13 / 5) (-(3 / 10)) (11 / 5)
    (by norm_num) (by norm_num) (by norm_num) h1 h2 (by norm_num [abs_le])
  obtain ⟨b1, b2, last, lam, alpha, sigma1, sigma, -, c1, c2, c3, -, c4, -, c5, c6, -⟩ :=
    C92_vincenty (by norm_num) (by norm_num) h1 h2
      (by rintro ⟨h, -⟩; norm_num [abs_lt] at h) e
  exact ⟨s, a12, a21, e, last, lam, alpha, sigma1, sigma, b1, b2, c1, c2, c3, c4, c5, c6⟩

end WindMult
