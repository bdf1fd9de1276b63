import Verif.Proofs.FloatVincenty

/-!
# One iteration for two points on the same parallel, in double precision
-/

set_option autoImplicit false
set_option linter.unusedSectionVars false

namespace WindMult
open Real

variable (W : FpRound (1 / 2 ^ 53)) (M : FpMath (1 / 2 ^ 53))

/-- The angle as the code computes it. -/
theorem arccos_vCos {U1 U2 lam : ℝ} (h : 0 < vCos U1 U2 lam) :
    arccos (vCos U1 U2 lam) = arctan (√(vSqr U1 U2 lam) / vCos U1 U2 lam) := by
  rw [← vSigma_eq, atan2_pos h]

/-- The azimuth at the equator: the square of its cosine and its sine. -/
theorem alphaFl_err {X Xf : ℝ} (h : Err 1 (21 / 10 ^ 11) 1 X Xf) (hX : |X| ≤ 9996 / 10000) :
    |Xf| ≤ 1 ∧ Err 1 (5 / 10 ^ 10) 1 (cos (arcsin X) ^ 2) (cosSqFl M (M.asin Xf)) ∧
    Err 1 (3 / 10 ^ 10) 1 X (M.sin (M.asin Xf)) := by
  have hd := h.1
  rw [mul_one] at hd
  have hXf : |Xf| ≤ 9997 / 10000 := by
    have := abs_add_le X (Xf - X)
    rw [add_sub_cancel] at this
    norm_num at hd
    linarith
  have hXf1 : |Xf| ≤ 1 := by linarith
  have hX1 := abs_le.mp (hX.trans (by norm_num) : |X| ≤ 1)
  have hXf2 := abs_le.mp hXf1
  have ha : |M.asin Xf - arcsin Xf| ≤ 4 / 10 ^ 16 := by
    have h1 := rel53 (M.asin_near Xf hXf1) (abs_nonneg _)
    have h2 : |arcsin Xf| ≤ 16 / 10 := by
      have := pi_lt_d2
      rw [abs_le]
      constructor <;> linarith [neg_pi_div_two_le_arcsin Xf, arcsin_le_pi_div_two Xf]
    norm_num at h1 ⊢
    linarith
  have hsq : |Xf ^ 2 - X ^ 2| ≤ 425 / 10 ^ 12 := by
    rw [show Xf ^ 2 - X ^ 2 = (Xf - X) * (Xf + X) by ring, abs_mul]
    calc |Xf - X| * |Xf + X| ≤ 21 / 10 ^ 11 * 2 := by
          gcongr
          exact (abs_add_le _ _).trans (by linarith)
      _ ≤ _ := by norm_num
  refine ⟨hXf1, ⟨?_, ?_⟩, ?_, ?_⟩
  · have h1 := (Err.cos_one M ha (e' := 7 / 10 ^ 16) (by norm_num)).sq M (e' := 2 / 10 ^ 15) (by norm_num)
    have h2 := h1.1
    rw [cos_sq' (arcsin Xf), sin_arcsin hXf2.1 hXf2.2] at h2
    rw [cos_sq', sin_arcsin hX1.1 hX1.2]
    unfold cosSqFl
    have h3 := abs_add_le (M.sq (M.cos (M.asin Xf)) - (1 - Xf ^ 2)) ((1 - Xf ^ 2) - (1 - X ^ 2))
    rw [sub_add_sub_cancel, show (1 - Xf ^ 2) - (1 - X ^ 2) = -(Xf ^ 2 - X ^ 2) by ring, abs_neg] at h3
    norm_num at h2 hsq ⊢
    linarith
  · rw [mul_one, abs_of_nonneg (sq_nonneg _)]
    exact cos_sq_le_one _
  · have h1 := (Err.sin_one M ha (e' := 7 / 10 ^ 16) (by norm_num)).1
    rw [sin_arcsin hXf2.1 hXf2.2] at h1
    have h3 := abs_add_le (M.sin (M.asin Xf) - Xf) (Xf - X)
    rw [sub_add_sub_cancel] at h3
    norm_num at h1 hd ⊢
    linarith
  · linarith

/-- The component along the meridian: the products are the same number, so most of it cancels. -/
theorem meridian_part {c s cf sf lam : ℝ} (hc : Err 1 (7 / 10 ^ 15) 1 c cf) (hs : Err 1 (7 / 10 ^ 15) 1 s sf)
    (h0 : 4 / 10 ^ 6 ≤ lam) (h1 : lam ≤ 1 / 100) :
    Err lam (1 / 10 ^ 10) 1 (c * s - s * c * cos lam)
      (W.rnd (W.rnd (cf * sf) - W.rnd (W.rnd (sf * cf) * M.cos lam))) := by
  have hlam : 0 < lam := lt_of_lt_of_le (by norm_num) h0
  have ha := hc.mulR W hs (e' := 15 / 10 ^ 15) (m' := 1) (by norm_num) (by norm_num)
  rw [mul_comm s c, mul_comm sf cf]
  have hcl : |M.cos lam - cos lam| ≤ 24 / 10 ^ 17 := by
    have h2 := rel53 (M.cos_near lam) (abs_nonneg _)
    have := abs_cos_le_one lam
    linarith
  have ha1 := ha.abs_right
  have ha2 := ha.1
  have ha3 := ha.2
  generalize W.rnd (cf * sf) = a at *
  generalize c * s = p at *
  rw [mul_one] at ha1 ha2 ha3
  have hcos0 : 0 ≤ 1 - cos lam := by linarith [cos_le_one lam]
  have hcos1 : 1 - cos lam ≤ 1 / 100 * lam := by
    have := one_sub_sq_div_two_le_cos (x := lam)
    nlinarith
  have k1 := rnd_rel W (a * M.cos lam)
  have k2 : |a * M.cos lam| ≤ 11 / 10 := by
    rw [abs_mul]
    have : |M.cos lam| ≤ 10001 / 10000 := by
      have h3 := abs_add_le (cos lam) (M.cos lam - cos lam)
      rw [add_sub_cancel] at h3
      have := abs_cos_le_one lam
      norm_num at hcl; linarith
    calc |a| * |M.cos lam| ≤ 10001 / 10000 * (10001 / 10000) := by
          gcongr
          norm_num at ha1 ⊢
          linarith
      _ ≤ _ := by norm_num
  have k3 : |a - a * M.cos lam - (p - p * cos lam)| ≤ 15 / 10 ^ 17 * lam + 25 / 10 ^ 17 := by
    rw [show a - a * M.cos lam - (p - p * cos lam) = (a - p) * (1 - cos lam) - a * (M.cos lam - cos lam) by ring]
    refine (abs_sub _ _).trans ?_
    rw [abs_mul, abs_mul, abs_of_nonneg hcos0]
    calc |a - p| * (1 - cos lam) + |a| * |M.cos lam - cos lam|
        ≤ 15 / 10 ^ 15 * (1 / 100 * lam) + (1 + 15 / 10 ^ 15) * (24 / 10 ^ 17) := by gcongr
      _ ≤ _ := by norm_num; linarith
  have k4 : |(a - W.rnd (a * M.cos lam)) - (p - p * cos lam)| ≤ 15 / 10 ^ 17 * lam + 39 / 10 ^ 17 := by
    have := abs_add_le (a - a * M.cos lam - (p - p * cos lam)) (-(W.rnd (a * M.cos lam) - a * M.cos lam))
    rw [abs_neg, show a - a * M.cos lam - (p - p * cos lam) + -(W.rnd (a * M.cos lam) - a * M.cos lam) =
      a - W.rnd (a * M.cos lam) - (p - p * cos lam) by ring] at this
    have k9 : 12 / 10 ^ 17 * |a * M.cos lam| ≤ 12 / 10 ^ 17 * (11 / 10) := by gcongr
    norm_num at k9
    linarith
  have k5 : |p - p * cos lam| ≤ 1 / 100 * lam := by
    rw [show p - p * cos lam = p * (1 - cos lam) by ring, abs_mul, abs_of_nonneg hcos0]
    calc |p| * (1 - cos lam) ≤ 1 * (1 / 100 * lam) := by gcongr
      _ = _ := one_mul _
  have k6 := rnd_rel W (a - W.rnd (a * M.cos lam))
  have k7 : |a - W.rnd (a * M.cos lam)| ≤ |p - p * cos lam| + |(a - W.rnd (a * M.cos lam)) - (p - p * cos lam)| := by
    have := abs_add_le (p - p * cos lam) ((a - W.rnd (a * M.cos lam)) - (p - p * cos lam))
    rwa [add_sub_cancel] at this
  have k8 := abs_add_le (W.rnd (a - W.rnd (a * M.cos lam)) - (a - W.rnd (a * M.cos lam)))
    (a - W.rnd (a * M.cos lam) - (p - p * cos lam))
  rw [sub_add_sub_cancel] at k8
  constructor
  · norm_num at k4 k6 h0 ⊢
    linarith
  · linarith

theorem sin_ge_mul {x : ℝ} (h0 : 0 < x) (h1 : x ≤ 1 / 100) : 9999 / 10000 * x ≤ sin x := by
  have := sin_gt_sub_cube h0
  nlinarith [mul_pos h0 h0, mul_pos (mul_pos h0 h0) h0]

/-- One iteration. -/
theorem vincStepFl_parallel {f U Uf om lam : ℝ} (hf : Err 1 (1 / 10 ^ 15) (1 / 298) earthF f)
    (hU : |Uf - U| ≤ 6 / 10 ^ 15) (hc0 : 69 / 100 ≤ cos U) (hs0 : 12 / 10 ^ 4 ≤ sin U ^ 2)
    (h0 : 4 / 10 ^ 6 ≤ lam) (h1 : lam ≤ 1 / 100) (ho : |om| ≤ 2 * lam) :
    ∃ sf, vincStepFl W M f om Uf Uf lam = .ok sf ∧
      Err 1 (5 / 10 ^ 10) 1 (cos (arcsin (vSinAlpha U U lam)) ^ 2) (cosSqFl M sf.alpha) ∧
      Err lam (2 / 10 ^ 10) 1 (√(vSqr U U lam)) sf.sinSigma ∧
      Err 1 (1 / 10 ^ 12) 1 (vCos U U lam) sf.cosSigma ∧
      Err 1 (2 / 10 ^ 10) 1 (vSqr U U lam) sf.sqrSinSigma ∧
      Err 1 (1 / 10 ^ 6) 1 (vCos2 U U lam) sf.cos2SigmaM ∧
      Err lam (2 / 10 ^ 10) 1 (arccos (vCos U U lam)) sf.sigma ∧
      |sf.lam - vNext earthF om U U lam| ≤ 5 / 10 ^ 12 * lam := by
  have hlam : 0 < lam := lt_of_lt_of_le (by norm_num) h0
  have hcU : 0 < cos U := by linarith
  obtain ⟨p0, p1, p2⟩ := pHalf_mem hcU hlam (by linarith)
  obtain ⟨⟨z0, z1⟩, ⟨-, -⟩, g0, g1⟩ := parallel_mem hcU hlam (by linarith)
  have hp : pHalf U lam ≤ 1 / 200 := p2.trans ((sin_le (by linarith)).trans (by linarith))
  have hT1 : 99 / 100 ≤ vCos U U lam := by rw [vCos_parallel]; nlinarith
  have hσL : arccos (vCos U U lam) ≤ lam := by rw [vSigma_parallel p0.le]; exact g1
  have hσ0 : 0 ≤ arccos (vCos U U lam) := arccos_nonneg _
  have hSL : √(vSqr U U lam) ≤ lam := by
    rw [← sin_vSigma]; exact (sin_le hσ0).trans hσL
  have hS0 : 68 / 100 * lam ≤ √(vSqr U U lam) := by
    apply le_sqrt_of_sq_le
    have h2 := sin_ge_mul hlam h1
    have h3 : 68 / 100 * lam ≤ cos U * sin lam := by
      calc 68 / 100 * lam ≤ 69 / 100 * (9999 / 10000 * lam) := by linarith
        _ ≤ _ := by gcongr
    unfold vSqr
    have : (68 / 100 * lam) ^ 2 ≤ (cos U * sin lam) ^ 2 := by gcongr
    nlinarith [sq_nonneg (cos U * sin U - sin U * cos U * cos lam)]
  have num : ∀ (c m : ℝ), |c| ≤ m → Err 1 0 m c c := fun c m h => Err.const c h
  -- the parts
  have hc : Err 1 (7 / 10 ^ 15) 1 (cos U) (M.cos Uf) := Err.cos_one M hU (by norm_num)
  have hs : Err 1 (7 / 10 ^ 15) 1 (sin U) (M.sin Uf) := Err.sin_one M hU (by norm_num)
  have hl : Err lam 0 1 lam lam := ⟨by simp, by rw [abs_of_pos hlam]; linarith⟩
  have hsl : Err lam (25 / 10 ^ 17) 1 (sin lam) (M.sin lam) := hl.sin M (by norm_num) hlam
  have hcl : Err 1 (25 / 10 ^ 17) 1 (cos lam) (M.cos lam) :=
    Err.cos_one M (e := 0) (by simp) (by norm_num)
  have hP : Err lam (8 / 10 ^ 15) 1 (cos U * sin lam) (W.rnd (M.cos Uf * M.sin lam)) :=
    hc.mulR W hsl (by norm_num) (by norm_num) hlam
  have hQ := meridian_part W M hc hs h0 h1
  obtain ⟨hS, hq⟩ := sinSigmaFl_err W M hlam (by linarith) hP hQ (by norm_num) hSL
  change Err lam _ 1 (√(vSqr U U lam)) (W.rnd (√(sqrSinSigmaFl W M Uf Uf lam))) at hS
  change Err 1 _ 1 (vSqr U U lam) (sqrSinSigmaFl W M Uf Uf lam) at hq
  have hcc : Err 1 (15 / 10 ^ 15) 1 (cos U * cos U) (W.rnd (M.cos Uf * M.cos Uf)) :=
    hc.mulR W hc (by norm_num) (by norm_num)
  have hss : Err 1 (15 / 10 ^ 15) 1 (sin U * sin U) (W.rnd (M.sin Uf * M.sin Uf)) :=
    hs.mulR W hs (by norm_num) (by norm_num)
  have hT : Err 1 (4 / 10 ^ 14) 1 (vCos U U lam) (cosSigmaFl W M Uf Uf lam) := by
    have k := hss.addR W (hcc.mulR W hcl (e' := 16 / 10 ^ 15) (m' := 1) (by norm_num) (by norm_num))
      (e' := 4 / 10 ^ 14) (m' := 2) (by norm_num) (by norm_num)
    refine k.mag ?_
    rw [mul_one, abs_le]
    exact vCos_mem U U lam
  have hσ : Err lam (11 / 10 ^ 11) 1 (arccos (vCos U U lam))
      (M.atan2 (W.rnd (√(sqrSinSigmaFl W M Uf Uf lam))) (cosSigmaFl W M Uf Uf lam)) := by
    rw [arccos_vCos (by linarith)]
    refine sigmaFl_err M hlam hS hT hT1 (by norm_num) (by norm_num) (by norm_num) ?_
    rw [← arccos_vCos (by linarith), abs_of_nonneg hσ0]
    exact hσL
  have hsin : Err lam (12 / 10 ^ 11) 1 (√(vSqr U U lam)) (M.sin (M.atan2 (W.rnd (√(sqrSinSigmaFl W M Uf Uf lam)))
      (cosSigmaFl W M Uf Uf lam))) := by
    have := hσ.sin M (e' := 12 / 10 ^ 11) (by norm_num) hlam
    rwa [sin_vSigma] at this
  have hcosσ : Err 1 (2 / 10 ^ 11) 1 (vCos U U lam) (M.cos (M.atan2 (W.rnd (√(sqrSinSigmaFl W M Uf Uf lam)))
      (cosSigmaFl W M Uf Uf lam))) := by
    have := Err.cos_one M (e := 16 / 10 ^ 13) (hσ.1.trans (by norm_num at h1 ⊢; linarith)) (e' := 2 / 10 ^ 11)
      (by norm_num)
    rwa [cos_vSigma] at this
  have hX : Err 1 (21 / 10 ^ 11) 1 (vSinAlpha U U lam) (sinAlphaFl W M Uf Uf lam
      (M.atan2 (W.rnd (√(sqrSinSigmaFl W M Uf Uf lam))) (cosSigmaFl W M Uf Uf lam))) :=
    ((Err.div (L := 1) (K := lam) (d := 68 / 100) (q := 1) (e' := 20 / 10 ^ 11) one_pos hlam
      (by rw [one_mul]; exact hcc.mulR W hsl (e' := 16 / 10 ^ 15) (m' := 1) (by norm_num) (by norm_num) hlam)
      hsin (by norm_num) hS0 (by norm_num) (by rw [mul_one]; exact abs_sinAlpha_le U U lam)
      (by norm_num)).rnd W (by norm_num))
  have hsU : sin U ≠ 0 := by
    intro h
    rw [h] at hs0
    norm_num at hs0
  have hXb : |vSinAlpha U U lam| ≤ 9996 / 10000 := by
    have h2 := vSinAlpha_sq_le U U lam
    rw [cos_sq'] at h2
    refine abs_le_of_sq_le_sq ?_ (by norm_num)
    linarith
  obtain ⟨hX1, hz, hXs⟩ := alphaFl_err M hX hXb
  have hzU : 12 / 10 ^ 4 ≤ cos (arcsin (vSinAlpha U U lam)) ^ 2 := by
    rw [cosSq_vAlpha]
    have h2 := vSinAlpha_sq_le U U lam
    rw [cos_sq'] at h2
    linarith
  unfold vincStepFl
  simp only
  unfold cos2SigmaMFl
  generalize hsgd : M.atan2 (W.rnd (√(sqrSinSigmaFl W M Uf Uf lam))) (cosSigmaFl W M Uf Uf lam) = sg at *
  generalize had : M.asin (sinAlphaFl W M Uf Uf lam sg) = al at *
  have hn1 : M.sin sg ≠ 0 := by
    intro h
    have := (abs_le.mp hsin.1).1
    rw [h] at this
    norm_num at this
    linarith
  have hn2 : cosSqFl M al ≠ 0 := by
    intro h
    have := (abs_le.mp hz.1).1
    rw [h] at this
    norm_num at this
    linarith
  rw [if_neg hn1, if_neg (not_lt.mpr hX1), if_neg hn2]
  have hc2 : Err 1 (1 / 10 ^ 6) 1 (vCos2 U U lam)
      (W.rnd (M.cos sg - W.rnd (W.rnd (2 * M.sin Uf * M.sin Uf) / cosSqFl M al))) := by
    have k1 := (((num 2 2 (by norm_num)).mul one_pos hs).mul one_pos hs).rnd W (e' := 4 / 10 ^ 14) (by norm_num)
    have k2 := Err.div (L := 1) (K := 1) (d := 12 / 10 ^ 4) (q := 2) (e' := 9 / 10 ^ 7) one_pos one_pos
      (by rw [one_mul]; exact k1) hz (by norm_num) (by rw [mul_one]; exact hzU) (by norm_num) ?_ (by norm_num)
    · have k3 := hcosσ.subR W (k2.rnd W (e' := 91 / 10 ^ 8) (by norm_num)) (e' := 1 / 10 ^ 6) (m' := 3)
        (by norm_num) (by norm_num)
      refine Err.mag k3 ?_
      have := vCos2_parallel p0 (by linarith) hsU
      rw [this]
      norm_num
    · have h2 := vSinAlpha_sq_le U U lam
      have h3 : sin U ^ 2 ≤ cos (arcsin (vSinAlpha U U lam)) ^ 2 := by
        rw [cosSq_vAlpha]; rw [cos_sq'] at h2; linarith
      have h4 : 0 < cos (arcsin (vSinAlpha U U lam)) ^ 2 := by linarith
      rw [abs_of_nonneg (by apply div_nonneg _ h4.le; nlinarith [sq_nonneg (sin U)]), div_le_iff₀ h4]
      nlinarith
  refine ⟨_, rfl, hz, hS.mono hlam (by norm_num) le_rfl, hT.mono one_pos (by norm_num) le_rfl,
    hq.mono one_pos (by norm_num) le_rfl, hc2, hσ.mono hlam (by norm_num) le_rfl, ?_⟩
  exact nextLamFl_err W M hlam hf ho hz (hσ.mono hlam (by norm_num) le_rfl) (hsin.mono hlam (by norm_num) le_rfl)
    (hcosσ.mono one_pos (by norm_num) le_rfl) hXs hc2

end WindMult
