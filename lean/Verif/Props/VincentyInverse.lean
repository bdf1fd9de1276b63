import Verif.Props.Vincenty
import Verif.Proofs.VincentyDirect
import Verif.Spec.Vincenty1975

/-!
# C92: `vinc_dist` solves Vincenty's equations
-/

set_option autoImplicit false

namespace WindMult
open Real

theorem isReduced_arctan {f phi : ℝ} (h : |phi| < π / 2) :
    Spec.IsReduced f phi (arctan ((1 - f) * tan phi)) := by
  refine ⟨h.le, ?_, ?_⟩
  · rw [abs_le]; exact ⟨(neg_pi_div_two_lt_arctan _).le, (arctan_lt_pi_div_two _).le⟩
  · have h1 := tan_mul_cos (cos_arctan_pos ((1 - f) * tan phi)).ne'
    have h2 : tan phi * cos phi = sin phi := tan_mul_cos (cos_pos_of_mem_Ioo (abs_lt.mp h)).ne'
    rw [tan_arctan] at h1
    rw [← h1, ← h2]; ring

/-- The direction the code computes leads to the other point. -/
theorem reached_atan2 (U1 U2 lam : ℝ) :
    Spec.Reached U1 0 (vincNormalise (atan2 (cos U2 * sin lam)
      (cos U1 * sin U2 - sin U1 * cos U2 * cos lam))) (arccos (vCos U1 U2 lam)) U2 lam := by
  obtain ⟨p1, p2⟩ := atan2_polar (cos U2 * sin lam) (cos U1 * sin U2 - sin U1 * cos U2 * cos lam)
  have e : sqrt (vSqr U1 U2 lam) = sqrt ((cos U1 * sin U2 - sin U1 * cos U2 * cos lam) ^ 2 +
      (cos U2 * sin lam) ^ 2) := by
    unfold vSqr; rw [add_comm]
  apply Reached.of_components
  · rw [cos_vSigma, sub_zero]
  · rw [sin_vSigma, sin_vincNormalise, e, p2, sub_zero]
  · rw [sin_vSigma, cos_vincNormalise, e, p1, sub_zero]

/-- ... and the other one back. -/
theorem reached_atan2_back (U1 U2 lam : ℝ) :
    Spec.Reached U2 lam (vincNormalise (atan2 (cos U1 * sin lam)
      (-sin U1 * cos U2 + cos U1 * sin U2 * cos lam) + 2 * π / 2)) (arccos (vCos U1 U2 lam)) U1 0 := by
  obtain ⟨p1, p2⟩ := atan2_polar (cos U1 * sin lam) (-sin U1 * cos U2 + cos U1 * sin U2 * cos lam)
  have e : sqrt (vSqr U1 U2 lam) = sqrt ((-sin U1 * cos U2 + cos U1 * sin U2 * cos lam) ^ 2 +
      (cos U1 * sin lam) ^ 2) := by
    rw [← vSqr_swap]; unfold vSqr; rw [cos_neg, sin_neg]; congr 1; ring
  apply Reached.of_components
  · rw [cos_vSigma, zero_sub, vCos_swap]
  · rw [sin_vSigma, sin_vincNormalise, show 2 * π / 2 = π by ring, sin_add_pi, zero_sub, sin_neg, mul_neg,
      mul_neg, e, p2]
  · rw [sin_vSigma, cos_vincNormalise, show 2 * π / 2 = π by ring, cos_add_pi, zero_sub, cos_neg, mul_neg,
      e, p1]
    ring

/-- The mean angle from the equator. -/
theorem cos_mean_angle {U1 U2 lam alpha sigma sigma1 : ℝ} (h : Spec.Reached U1 0 alpha sigma U2 lam)
    (h1 : Spec.FromEquator U1 alpha sigma1) :
    Spec.cosSqEquator U1 alpha * cos (2 * sigma1 + sigma) =
      Spec.cosSqEquator U1 alpha * cos sigma - 2 * sin U1 * sin U2 := by
  obtain ⟨-, -, h3⟩ := (reached_iff ..).mp h
  obtain ⟨r, -, r1, r2⟩ := h1
  have p1 := sin_sq_add_cos_sq U1
  have p2 := sin_sq_add_cos_sq alpha
  have p3 := sin_sq_add_cos_sq sigma1
  have hq : Spec.cosSqEquator U1 alpha = sin U1 ^ 2 + (cos U1 * cos alpha) ^ 2 := by
    unfold Spec.cosSqEquator
    linear_combination (-cos U1 ^ 2) * p2 - p1
  have hr : r ^ 2 = sin U1 ^ 2 + (cos U1 * cos alpha) ^ 2 := by
    rw [← r1, ← r2]
    linear_combination (-r ^ 2) * p3
  have e : r ^ 2 * cos (2 * sigma1 + sigma) = ((r * cos sigma1) ^ 2 - (r * sin sigma1) ^ 2) * cos sigma -
      2 * (r * sin sigma1) * (r * cos sigma1) * sin sigma := by
    rw [cos_add, cos_two_mul', sin_two_mul]
    ring
  rw [hq, ← hr, e, r1, r2, hr, h3]
  ring

/-- What the loop returns comes from the iteration before the end. -/
theorem vincLoop_end {f omega U1 U2 : ℝ} {Q : ℝ → Prop}
    (hQ : ∀ lam st, Q lam → vincStep f omega U1 U2 lam = .ok st → Q st.lam) :
    ∀ (fuel : ℕ) (last lam : ℝ) (st r : Option VincState), Q lam →
      (∀ s, st = some s → Q last ∧ vincStep f omega U1 U2 last = .ok s ∧ s.lam = lam) →
      vincLoop f omega U1 U2 fuel last lam st = some (.ok r) →
      ∀ s, r = some s → ∃ x, Q x ∧ vincStep f omega U1 U2 x = .ok s ∧ ¬ vincGoesOn x s.lam := by
  intro fuel
  induction fuel with
  | zero =>
    intro last lam st r _ hst h s hs
    unfold vincLoop at h
    split_ifs at h with hg
    simp only [Option.some.injEq, Except.ok.injEq] at h
    obtain ⟨h1, h2, h3⟩ := hst s (h.trans hs)
    exact ⟨last, h1, h2, h3 ▸ hg⟩
  | succ n ih =>
    intro last lam st r hlam hst h s hs
    unfold vincLoop at h
    split_ifs at h with hg
    · simp only at h
      cases hstep : vincStep f omega U1 U2 lam with
      | error e => rw [hstep] at h; simp at h
      | ok st' =>
        rw [hstep] at h
        refine ih _ _ _ _ (hQ _ _ hlam hstep) ?_ h s hs
        rintro s' hs'
        rw [Option.some.injEq] at hs'
        subst hs'
        exact ⟨hlam, hstep, rfl⟩
    · simp only [Option.some.injEq, Except.ok.injEq] at h
      obtain ⟨h1, h2, h3⟩ := hst s (h.trans hs)
      exact ⟨last, h1, h2, h3 ▸ hg⟩

/-- The correction of the longitude has the sign of the azimuth and is small. -/
theorem vNext_factor {f : ℝ} (hf0 : 0 ≤ f) (hf1 : f ≤ 1 / 200) (omega U1 U2 lam : ℝ) :
    ∃ t, 0 ≤ t ∧ t ≤ 1 / 20 ∧ vNext f omega U1 U2 lam = omega + vSinAlpha U1 U2 lam * t := by
  have hq := cosSq_vAlpha U1 U2 lam
  have hsa := abs_sinAlpha_le U1 U2 lam
  obtain ⟨c0, c1⟩ := seriesC_mem hf0 hf1 (z := cos (arcsin (vSinAlpha U1 U2 lam)) ^ 2) (by positivity)
    (cos_sq_le_one _)
  have hC : seriesC f (cos (arcsin (vSinAlpha U1 U2 lam)) ^ 2) = vC f U1 U2 lam := rfl
  rw [hC] at c0 c1
  replace c1 : vC f U1 U2 lam ≤ 1 / 600 := by linarith
  have h2 := abs_vCos2_le U1 U2 lam
  have hcos : |vCos U1 U2 lam| ≤ 1 := abs_le.mpr (vCos_mem U1 U2 lam)
  have hsig0 := arccos_nonneg (vCos U1 U2 lam)
  have hsig1 := arccos_le_pi (vCos U1 U2 lam)
  have hpi := pi_le_four
  have hss0 := sqrt_nonneg (vSqr U1 U2 lam)
  have hss1 : sqrt (vSqr U1 U2 lam) ≤ arccos (vCos U1 U2 lam) := by
    rw [← sin_vSigma]; exact sin_le hsig0
  refine ⟨(1 - vC f U1 U2 lam) * f * (arccos (vCos U1 U2 lam) + vC f U1 U2 lam * sqrt (vSqr U1 U2 lam) *
    (vCos2 U1 U2 lam + vC f U1 U2 lam * vCos U1 U2 lam * (-1 + 2 * vCos2 U1 U2 lam ^ 2))), ?_, ?_,
    by unfold vNext; ring⟩
  all_goals
    generalize vC f U1 U2 lam = C at *
    generalize vCos2 U1 U2 lam = m at *
    generalize vCos U1 U2 lam = cs at *
    generalize sqrt (vSqr U1 U2 lam) = ss at *
    generalize arccos cs = sig at *
    have hm2 : |-1 + 2 * m ^ 2| ≤ 19 := by
      have : m ^ 2 ≤ 9 := by rw [abs_le] at h2; nlinarith [h2.1, h2.2]
      rw [abs_le]; constructor <;> nlinarith [sq_nonneg m]
    have b1 : |C * cs * (-1 + 2 * m ^ 2)| ≤ 1 := by
      rw [abs_mul, abs_mul, abs_of_nonneg c0]
      calc C * |cs| * |-1 + 2 * m ^ 2| ≤ (1 / 600) * 1 * 19 := by gcongr
        _ ≤ 1 := by norm_num
    have b2 : |m + C * cs * (-1 + 2 * m ^ 2)| ≤ 4 := (abs_add_le _ _).trans (by linarith)
    have b3 : |C * ss * (m + C * cs * (-1 + 2 * m ^ 2))| ≤ 1 / 150 * sig := by
      rw [abs_mul, abs_mul, abs_of_nonneg c0, abs_of_nonneg hss0]
      calc C * ss * |m + C * cs * (-1 + 2 * m ^ 2)| ≤ (1 / 600) * sig * 4 := by gcongr
        _ = _ := by ring
    have b4 := abs_le.mp b3
  · exact mul_nonneg (mul_nonneg (by linarith) hf0) (by linarith)
  · calc (1 - C) * f * (sig + C * ss * (m + C * cs * (-1 + 2 * m ^ 2))) ≤ 1 * (1 / 200) * 5 := by
          gcongr
          · linarith
          · linarith
          · linarith
      _ ≤ _ := by norm_num

/-- For differences of at most one radian the longitude on the auxiliary sphere keeps its sign. -/
theorem vincStep_sign {f omega U1 U2 : ℝ} (hf0 : 0 ≤ f) (hf1 : f ≤ 1 / 200) (h1 : 0 < cos U1)
    (h2 : 0 < cos U2) (lam : ℝ) (st : VincState)
    (hl : |lam - omega| ≤ 1 / 20 ∧ (|omega| ≤ 1 → ∃ t, 0 ≤ t ∧ lam = omega * (1 + t)))
    (h : vincStep f omega U1 U2 lam = .ok st) :
    |st.lam - omega| ≤ 1 / 20 ∧ (|omega| ≤ 1 → ∃ t, 0 ≤ t ∧ st.lam = omega * (1 + t)) := by
  rw [vincStep_eq] at h
  split_ifs at h with h0
  rw [Except.ok.injEq] at h
  subst h
  simp only
  obtain ⟨t, t0, t1, ht⟩ := vNext_factor hf0 hf1 omega U1 U2 lam
  have hsa := abs_sinAlpha_le U1 U2 lam
  rw [ht, add_sub_cancel_left]
  refine ⟨?_, fun ho => ?_⟩
  · rw [abs_mul, abs_of_nonneg t0]
    calc |vSinAlpha U1 U2 lam| * t ≤ 1 * (1 / 20) := by gcongr
      _ = _ := one_mul _
  · obtain ⟨u, u0, hu⟩ := hl.2 ho
    have hk : ∃ k, 0 ≤ k ∧ sin lam = omega * k := by
      have hpi := pi_gt_three
      have hb := abs_le.mp hl.1
      have hb' := abs_le.mp ho
      rcases lt_trichotomy omega 0 with hn | hn | hn
      · refine ⟨sin lam / omega, div_nonneg_of_nonpos ?_ hn.le, by rw [mul_div_cancel₀ _ hn.ne]⟩
        exact sin_nonpos_of_nonpos_of_neg_pi_le (by rw [hu]; nlinarith) (by linarith)
      · exact ⟨0, le_rfl, by rw [hu, hn]; simp⟩
      · refine ⟨sin lam / omega, div_nonneg ?_ hn.le, by rw [mul_div_cancel₀ _ hn.ne']⟩
        exact sin_nonneg_of_nonneg_of_le_pi (by rw [hu]; positivity) (by linarith)
    obtain ⟨k, k0, hk⟩ := hk
    refine ⟨cos U1 * cos U2 * k / sqrt (vSqr U1 U2 lam) * t, by positivity, ?_⟩
    unfold vSinAlpha
    rw [hk]
    ring

/-- **C92** Whatever `vinc_dist` returns for points that are not taken for the same solves Vincenty's
equations: there are longitudes `last` and `lam` on the auxiliary sphere, equal up to `1e-9`, such that
the distance is the one of Vincenty's formula for the great circle from the reduced latitude of the first
point to that of the second at the longitude `last`; `lam` is the difference in longitude plus Vincenty's
correction for that great circle; and the azimuths are those of the great circle to the longitude
`lam` and back. -/
theorem C92_vincenty {fuel : ℕ} {f a phi1 lam1 phi2 lam2 s a12 a21 : ℝ} (hf0 : 0 ≤ f)
    (hf1 : f ≤ 1 / 200) (h1 : |phi1| < π / 2) (h2 : |phi2| < π / 2)
    (hne : ¬ (|phi2 - phi1| < 1 / 100000000 ∧ |lam2 - lam1| < 1 / 100000000))
    (h : vincDist fuel f a phi1 lam1 phi2 lam2 = some (.ok (s, a12, a21))) :
    ∃ beta1 beta2 last lam alpha sigma1 sigma sigma',
      Spec.IsReduced f phi1 beta1 ∧ Spec.IsReduced f phi2 beta2 ∧
      |last - lam| ≤ 1 / 1000000000 * |lam| ∧
      (0 < sigma ∧ sigma < π) ∧ Spec.Reached beta1 0 alpha sigma beta2 last ∧
      Spec.FromEquator beta1 alpha sigma1 ∧
      s = Spec.vincentyDistance f a (Spec.cosSqEquator beta1 alpha) sigma1 sigma ∧
      lam2 - lam1 = lam - Spec.vincentyCorrection f (cos beta1 * sin alpha)
        (Spec.cosSqEquator beta1 alpha) sigma1 sigma ∧
      (0 ≤ sigma' ∧ sigma' ≤ π) ∧ Spec.Reached beta1 0 a12 sigma' beta2 lam ∧
      Spec.Reached beta2 lam a21 sigma' beta1 0 := by
  have r1 := isReduced_arctan (f := f) h1
  have r2 := isReduced_arctan (f := f) h2
  have c1 := cos_arctan_pos ((1 - f) * tan phi1)
  have c2 := cos_arctan_pos ((1 - f) * tan phi2)
  unfold vincDist at h
  rw [if_neg hne] at h
  simp only at h
  generalize arctan ((1 - f) * tan phi1) = U1 at *
  generalize arctan ((1 - f) * tan phi2) = U2 at *
  generalize lam2 - lam1 = omega at *
  split at h
  · cases h
  · cases h
  · cases h
  rename_i st hst
  simp only [Option.some.injEq, Except.ok.injEq, Prod.mk.injEq] at h
  obtain ⟨rfl, rfl, rfl⟩ := h
  obtain ⟨last, hQ, hstep, hend⟩ := vincLoop_end (vincStep_sign hf0 hf1 c1 c2) fuel _ _ _ _
    ⟨by rw [sub_self, abs_zero]; norm_num, fun _ => ⟨0, le_rfl, by ring⟩⟩
    (fun s hs => by cases hs) hst st rfl
  have hQ' := vincStep_sign hf0 hf1 c1 c2 last st hQ hstep
  have hclose : |last - st.lam| ≤ 1 / 1000000000 * |st.lam| := by
    unfold vincGoesOn at hend
    push Not at hend
    by_cases h0 : st.lam = 0
    · have ho : |omega| ≤ 1 / 20 := by simpa [h0] using hQ'.1
      obtain ⟨t, t0, ht⟩ := hQ'.2 (by linarith)
      obtain ⟨u, u0, hu⟩ := hQ.2 (by linarith)
      have : omega = 0 := by
        rw [h0] at ht
        rcases mul_eq_zero.mp ht.symm with h' | h'
        · exact h'
        · linarith
      rw [hu, this, h0]; simp
    · have := hend.2 h0
      rwa [abs_div, div_le_iff₀ (abs_pos.mpr h0)] at this
  rw [vincStep_eq] at hstep
  split_ifs at hstep with h0
  rw [Except.ok.injEq] at hstep
  have hR := reached_atan2 U1 U2 last
  generalize hal : vincNormalise (atan2 (cos U2 * sin last)
    (cos U1 * sin U2 - sin U1 * cos U2 * cos last)) = alpha at hR
  have hE : Spec.FromEquator U1 alpha (atan2 (sin U1) (cos U1 * cos alpha)) :=
    ⟨_, sqrt_nonneg _, (atan2_polar _ _).2, (atan2_polar _ _).1⟩
  generalize atan2 (sin U1) (cos U1 * cos alpha) = sigma1 at hE
  have hmean := cos_mean_angle hR hE
  have hsp : 0 < sqrt (vSqr U1 U2 last) :=
    sqrt_pos.mpr (lt_of_le_of_ne (vSqr_nonneg _ _ _) (Ne.symm h0))
  have hss := sin_vSigma U1 U2 last
  have hcs := cos_vSigma U1 U2 last
  have hsa : vSinAlpha U1 U2 last = cos U1 * sin alpha := by
    unfold vSinAlpha
    have := (Reached.components hR).1
    rw [hss, sub_zero] at this
    rw [div_eq_iff hsp.ne', mul_assoc (cos U1), ← this]; ring
  have hq : cos (arcsin (vSinAlpha U1 U2 last)) ^ 2 = Spec.cosSqEquator U1 alpha := by
    rw [cosSq_vAlpha, hsa]; rfl
  have hsig : 0 < arccos (vCos U1 U2 last) ∧ arccos (vCos U1 U2 last) < π := by
    refine ⟨(arccos_nonneg _).lt_of_ne ?_, (arccos_le_pi _).lt_of_ne ?_⟩
    · intro h'; rw [← h', sin_zero] at hss; linarith
    · intro h'; rw [h', sin_pi] at hss; linarith
  have hm : Spec.cosSqEquator U1 alpha = 0 ∨
      vCos2 U1 U2 last = cos (2 * sigma1 + arccos (vCos U1 U2 last)) := by
    by_cases h' : Spec.cosSqEquator U1 alpha = 0
    · exact Or.inl h'
    · right
      unfold vCos2
      rw [hq]
      apply mul_left_cancel₀ h'
      rw [hmean, mul_sub, mul_div_cancel₀ _ h', hcs]
  have hsq : vSqr U1 U2 last = sin (arccos (vCos U1 U2 last)) ^ 2 := by
    rw [hss, sq_sqrt (vSqr_nonneg _ _ _)]
  refine ⟨U1, U2, last, st.lam, alpha, sigma1, arccos (vCos U1 U2 last), arccos (vCos U1 U2 st.lam), r1, r2,
    hclose, hsig, hR, hE, ?_, ?_, ⟨arccos_nonneg _, arccos_le_pi _⟩, reached_atan2 ..,
    reached_atan2_back ..⟩
  · rw [← hstep]
    unfold vincLength Spec.vincentyDistance Spec.vincentyDelta
    simp only
    rw [hq, ← hss, hsq]
    generalize arccos (vCos U1 U2 last) = sg at *
    rw [← hcs]
    rcases hm with h' | h'
    · rw [h']
      simp [Spec.vincentyU2, Spec.vincentyA, Spec.vincentyB]
    · rw [h']
      unfold Spec.vincentyU2 Spec.vincentyA Spec.vincentyB
      simp only [sq]
  · have hlam : st.lam = vNext f omega U1 U2 last := by rw [← hstep]
    have hC : vC f U1 U2 last = Spec.vincentyC f (Spec.cosSqEquator U1 alpha) := by
      unfold vC Spec.vincentyC; rw [hq]
    rw [hlam]
    unfold vNext Spec.vincentyCorrection
    rw [hC, hsa, ← hss]
    rcases hm with h' | h'
    · rw [h']
      simp [Spec.vincentyC]
    · rw [h', hcs]
      ring

end WindMult
