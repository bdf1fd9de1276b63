import Verif.Proofs.FloatDist

/-!
# The distance of two points on the same meridian, in double precision
-/

set_option autoImplicit false
set_option linter.unusedSectionVars false

namespace WindMult
open Real

variable (W : FpRound (1 / 2 ^ 53)) (M : FpMath (1 / 2 ^ 53)) {f U1 U2 V1 V2 : ℝ}

theorem FpRound.zero {u : ℝ} (W : FpRound u) : W.rnd 0 = 0 := by
  have := W.near 0
  simpa using this

theorem FpMath.sin_zero {u : ℝ} (M : FpMath u) : M.sin 0 = 0 := by simpa using M.sin_near 0

theorem FpMath.asin_zero {u : ℝ} (M : FpMath u) : M.asin 0 = 0 := by simpa using M.asin_near 0 (by simp)

theorem FpMath.sq_zero {u : ℝ} (M : FpMath u) : M.sq 0 = 0 := by simpa using M.sq_near 0

/-- Exact values for two points on the same meridian. -/
theorem meridian_exact (h0 : 0 < |U2 - U1|) (h1 : |U2 - U1| ≤ 1 / 100) :
    vCos U1 U2 0 = cos |U2 - U1| ∧ arccos (vCos U1 U2 0) = |U2 - U1| ∧ √(vSqr U1 U2 0) = sin |U2 - U1| ∧
    vSinAlpha U1 U2 0 = 0 ∧ vCos2 U1 U2 0 = cos (U1 + U2) := by
  have hpi := pi_gt_three
  have hcos : vCos U1 U2 0 = cos |U2 - U1| := by
    unfold vCos; rw [cos_zero, cos_abs, cos_sub]; ring
  have hsa : vSinAlpha U1 U2 0 = 0 := by unfold vSinAlpha; rw [sin_zero]; simp
  refine ⟨hcos, ?_, ?_, hsa, ?_⟩
  · rw [hcos, arccos_cos h0.le (by linarith)]
  · rw [← sin_vSigma, hcos, arccos_cos h0.le (by linarith)]
  · unfold vCos2
    rw [hsa, arcsin_zero, cos_zero, cos_add]
    unfold vCos
    rw [cos_zero]
    ring

/-- The iteration. -/
theorem vincStepFl_meridian (hV1 : |V1 - U1| ≤ 6 / 10 ^ 15) (hV2 : |V2 - U2| ≤ 6 / 10 ^ 15)
    (h0 : 434 / 10 ^ 8 ≤ |U2 - U1|) (h1 : |U2 - U1| ≤ 1 / 100) :
    ∃ sf, vincStepFl W M f 0 V1 V2 0 = .ok sf ∧ sf.lam = 0 ∧
      Err 1 (1 / 10 ^ 15) 1 1 (cosSqFl M sf.alpha) ∧
      Err |U2 - U1| (73 / 10 ^ 10) 1 (√(vSqr U1 U2 0)) sf.sinSigma ∧
      Err 1 (1 / 10 ^ 12) 1 (vCos U1 U2 0) sf.cosSigma ∧
      Err 1 (1 / 10 ^ 8) 1 (vSqr U1 U2 0) sf.sqrSinSigma ∧
      Err 1 (1 / 10 ^ 6) 1 (vCos2 U1 U2 0) sf.cos2SigmaM ∧
      Err |U2 - U1| (75 / 10 ^ 10) 1 (arccos (vCos U1 U2 0)) sf.sigma := by
  set L := |U2 - U1| with hLdef
  have hL : 0 < L := lt_of_lt_of_le (by norm_num) h0
  obtain ⟨x1, x2, x3, x4, x5⟩ := meridian_exact (U1 := U1) (U2 := U2) hL h1
  rw [← hLdef] at x1 x2 x3
  have hT1 : 99 / 100 ≤ vCos U1 U2 0 := by
    rw [x1]
    have := one_sub_sq_div_two_le_cos (x := L)
    nlinarith
  have hSL : √(vSqr U1 U2 0) ≤ L := by rw [x3]; exact sin_le hL.le
  have num : ∀ (c m : ℝ), |c| ≤ m → Err 1 0 m c c := fun c m h => Err.const c h
  have hc1 : Err 1 (7 / 10 ^ 15) 1 (cos U1) (M.cos V1) := Err.cos_one M hV1 (by norm_num)
  have hs1 : Err 1 (7 / 10 ^ 15) 1 (sin U1) (M.sin V1) := Err.sin_one M hV1 (by norm_num)
  have hc2 : Err 1 (7 / 10 ^ 15) 1 (cos U2) (M.cos V2) := Err.cos_one M hV2 (by norm_num)
  have hs2 : Err 1 (7 / 10 ^ 15) 1 (sin U2) (M.sin V2) := Err.sin_one M hV2 (by norm_num)
  have hcl : Err 1 (25 / 10 ^ 17) 1 (cos 0) (M.cos 0) := Err.cos_one M (e := 0) (by simp) (by norm_num)
  have hP : Err L 0 1 (cos U2 * sin 0) (W.rnd (M.cos V2 * M.sin 0)) := by
    rw [M.sin_zero, sin_zero, mul_zero, mul_zero, W.zero]
    exact ⟨by simp, by simpa using hL.le⟩
  have hQ : Err L (72 / 10 ^ 10) 1 (cos U1 * sin U2 - sin U1 * cos U2 * cos 0)
      (W.rnd (W.rnd (M.cos V1 * M.sin V2) - W.rnd (W.rnd (M.sin V1 * M.cos V2) * M.cos 0))) := by
    have k1 := hc1.mulR W hs2 (e' := 1413 / 10 ^ 17) (m' := 1) (by norm_num) (by norm_num)
    have k2 := (hs1.mulR W hc2 (e' := 1413 / 10 ^ 17) (m' := 1) (by norm_num) (by norm_num)).mulR W hcl
      (e' := 1452 / 10 ^ 17) (m' := 1) (by norm_num) (by norm_num)
    have k3 := k1.subR W k2 (e' := 311 / 10 ^ 16) (m' := 2) (by norm_num) (by norm_num)
    have e : cos U1 * sin U2 - sin U1 * cos U2 * cos 0 = sin (U2 - U1) := by
      rw [cos_zero, sin_sub]; ring
    refine ⟨?_, ?_⟩
    · have := k3.1
      norm_num at this h0 ⊢
      linarith
    · rw [e, one_mul]
      have := abs_sin_sub_sin_le (U2 - U1) 0
      simpa using this
  obtain ⟨hS, hq⟩ := sinSigmaFl_err W M hL (by linarith) hP hQ (by norm_num) hSL
  change Err L _ 1 (√(vSqr U1 U2 0)) (W.rnd (√(sqrSinSigmaFl W M V1 V2 0))) at hS
  change Err 1 _ 1 (vSqr U1 U2 0) (sqrSinSigmaFl W M V1 V2 0) at hq
  have hss : Err 1 (15 / 10 ^ 15) 1 (sin U1 * sin U2) (W.rnd (M.sin V1 * M.sin V2)) :=
    hs1.mulR W hs2 (by norm_num) (by norm_num)
  have hcc : Err 1 (15 / 10 ^ 15) 1 (cos U1 * cos U2) (W.rnd (M.cos V1 * M.cos V2)) :=
    hc1.mulR W hc2 (by norm_num) (by norm_num)
  have hT : Err 1 (4 / 10 ^ 14) 1 (vCos U1 U2 0) (cosSigmaFl W M V1 V2 0) := by
    have k := hss.addR W (hcc.mulR W hcl (e' := 16 / 10 ^ 15) (m' := 1) (by norm_num) (by norm_num))
      (e' := 4 / 10 ^ 14) (m' := 2) (by norm_num) (by norm_num)
    refine k.mag ?_
    rw [mul_one, abs_le]
    exact vCos_mem U1 U2 0
  have hσ : Err L (74 / 10 ^ 10) 1 (arccos (vCos U1 U2 0))
      (M.atan2 (W.rnd (√(sqrSinSigmaFl W M V1 V2 0))) (cosSigmaFl W M V1 V2 0)) := by
    rw [arccos_vCos (by linarith)]
    refine sigmaFl_err M hL hS hT hT1 (by norm_num) (by norm_num) (by norm_num) ?_
    rw [← arccos_vCos (by linarith), x2, abs_of_nonneg hL.le]
  have hsin := hσ.sin M (e' := 75 / 10 ^ 10) (by norm_num) hL
  rw [sin_vSigma, x3] at hsin
  have hcosσ : Err 1 (1 / 10 ^ 9) 1 (vCos U1 U2 0) (M.cos (M.atan2 (W.rnd (√(sqrSinSigmaFl W M V1 V2 0)))
      (cosSigmaFl W M V1 V2 0))) := by
    have := Err.cos_one M (e := 74 / 10 ^ 12) (hσ.1.trans (by norm_num at h1 ⊢; linarith)) (e' := 1 / 10 ^ 9)
      (by norm_num)
    rwa [cos_vSigma] at this
  have hsL : 9999 / 10000 * L ≤ sin L := sin_ge_mul hL h1
  have hz : Err 1 (1 / 10 ^ 15) 1 1 (cosSqFl M 0) := by
    have := (Err.cos_one M (x := 0) (y := 0) (e := 0) (by simp) (e' := 25 / 10 ^ 17) (by norm_num)).sq M
      (e' := 1 / 10 ^ 15) (by norm_num)
    rw [cos_zero] at this
    simpa [cosSqFl] using this
  unfold vincStepFl
  simp only
  unfold cos2SigmaMFl
  generalize hsgd : M.atan2 (W.rnd (√(sqrSinSigmaFl W M V1 V2 0))) (cosSigmaFl W M V1 V2 0) = sg at *
  have hn1 : M.sin sg ≠ 0 := by
    intro h
    have := (abs_le.mp hsin.1).1
    rw [h] at this
    norm_num at this
    linarith
  have hX : sinAlphaFl W M V1 V2 0 sg = 0 := by
    unfold sinAlphaFl
    rw [M.sin_zero, mul_zero, W.zero, zero_div, W.zero]
  have hn2 : cosSqFl M 0 ≠ 0 := by
    intro h
    have := (abs_le.mp hz.1).1
    rw [h] at this
    norm_num at this
  rw [hX, M.asin_zero, if_neg hn1, if_neg (by norm_num), if_neg hn2]
  refine ⟨_, rfl, ?_, hz, hS.mono hL (by norm_num) le_rfl, hT.mono one_pos (by norm_num) le_rfl,
    hq.mono one_pos (by norm_num) le_rfl, ?_, hσ.mono hL (by norm_num) le_rfl⟩
  · show nextLamFl W M f 0 _ 0 _ _ = 0
    unfold nextLamFl
    rw [M.sin_zero, mul_zero, W.zero, zero_mul, W.zero, add_zero, W.zero]
  · have k1 := (((num 2 2 (by norm_num)).mul one_pos hs1).mul one_pos hs2).rnd W (e' := 4 / 10 ^ 14) (by norm_num)
    have k2 := Err.div (L := 1) (K := 1) (d := 1) (q := 2) (e' := 5 / 10 ^ 14) one_pos one_pos
      (by rw [one_mul]; exact k1) hz (by norm_num) (by norm_num) (by norm_num) ?_ (by norm_num)
    · have k3 := hcosσ.subR W (k2.rnd W (e' := 6 / 10 ^ 14) (by norm_num)) (e' := 1 / 10 ^ 6) (m' := 3)
        (by norm_num) (by norm_num)
      have e : vCos U1 U2 0 - 2 * sin U1 * sin U2 / 1 = vCos2 U1 U2 0 := by
        unfold vCos2; rw [x4, arcsin_zero, cos_zero]; norm_num
      rw [e] at k3
      refine Err.mag k3 ?_
      rw [x5, one_mul]
      exact abs_cos_le_one _
    · rw [div_one, abs_mul, abs_mul]
      have a1 := abs_sin_le_one U1
      have a2 := abs_sin_le_one U2
      calc |(2 : ℝ)| * |sin U1| * |sin U2| ≤ 2 * 1 * 1 := by
            rw [abs_of_pos (by norm_num : (0 : ℝ) < 2)]; gcongr
        _ ≤ 2 * 1 := by norm_num

/-- Two points on the same meridian. -/
theorem vincDistFl_meridian (fuel : ℕ) (hf : Err 1 (1 / 10 ^ 15) (1 / 298) earthF f)
    {phi1 phi2 phi1f phi2f lam lamf : ℝ}
    (hU1 : |M.atan (W.rnd (W.rnd (1 - f) * M.tan phi1f)) - arctan ((1 - earthF) * tan phi1)| ≤ 6 / 10 ^ 15)
    (hU2 : |M.atan (W.rnd (W.rnd (1 - f) * M.tan phi2f)) - arctan ((1 - earthF) * tan phi2)| ≤ 6 / 10 ^ 15)
    (h0 : 434 / 10 ^ 8 ≤ |arctan ((1 - earthF) * tan phi2) - arctan ((1 - earthF) * tan phi1)|)
    (h1 : |arctan ((1 - earthF) * tan phi2) - arctan ((1 - earthF) * tan phi1)| ≤ 1 / 100)
    (hp : 1 / 10 ^ 8 ≤ |phi2 - phi1|) (hpf : 1 / 10 ^ 7 ≤ |W.rnd (phi2f - phi1f)|) :
    ∃ df d a12 a21, vincDistFl W M (fuel + 1) f earthA phi1f lamf phi2f lamf = some (.ok df) ∧
      vincDist (fuel + 1) earthF earthA phi1 lam phi2 lam = some (.ok (d, a12, a21)) ∧ |df - d| ≤ 1 / 10 ^ 8 * d := by
  obtain ⟨e0, e1⟩ := earthF_range
  unfold vincDistFl vincDist
  rw [if_neg, if_neg]
  rotate_left
  · rintro ⟨h, -⟩
    norm_num at hp
    linarith
  · rintro ⟨h, -⟩
    have := rnd_rel W (1 / 100000000)
    rw [abs_of_pos (by norm_num : (0 : ℝ) < 1 / 100000000)] at this
    have := (abs_le.mp this).2
    norm_num at hpf this
    linarith
  simp only
  generalize M.atan (W.rnd (W.rnd (1 - f) * M.tan phi1f)) = V1 at *
  generalize M.atan (W.rnd (W.rnd (1 - f) * M.tan phi2f)) = V2 at *
  generalize arctan ((1 - earthF) * tan phi1) = U1 at *
  generalize arctan ((1 - earthF) * tan phi2) = U2 at *
  rw [sub_self, sub_self, W.zero]
  have hL : 0 < |U2 - U1| := lt_of_lt_of_le (by norm_num) h0
  obtain ⟨x1, x2, x3, x4, x5⟩ := meridian_exact hL h1
  obtain ⟨sf, s1, s2, sz, sS, sT, sq, sc, sσ⟩ := vincStepFl_meridian W M (f := f) hU1 hU2 h0 h1
  have hsq : ¬ vSqr U1 U2 0 = 0 := by
    intro h
    rw [h, sqrt_zero] at x3
    have := sin_ge_mul hL h1
    linarith
  have hN : vNext earthF 0 U1 U2 0 = 0 := by
    unfold vNext
    rw [x4]
    ring
  have hst := vincStep_eq earthF 0 U1 U2 0
  rw [if_neg hsq] at hst
  obtain ⟨-, -, b1, -⟩ := vincLength_bound e0 (by linarith) (by norm_num [earthA] : 0 < earthA) hst
  have hstop : ¬ vincGoesOnFl W 0 0 := by
    rintro (h | ⟨h, -⟩)
    · norm_num at h
    · exact h rfl
  rw [vincLoop, if_pos (vincGoesOn_start _), vincLoopFl, if_pos (.inl (by norm_num))]
  simp only [hst, hN, s1, s2]
  rw [vincLoop_stop _ _ _ _ _ _ (not_vincGoesOn_self (by norm_num)), vincLoopFl_stop W M _ _ _ _ _ _ hstop]
  refine ⟨_, _, _, _, rfl, rfl, ?_⟩
  rw [hN] at b1
  have hlen := vincLengthFl_err W M hL (s := 75 / 10 ^ 10) hf (sf := sf)
    (st := { sqrSinSigma := vSqr U1 U2 0, sinSigma := √(vSqr U1 U2 0), cosSigma := vCos U1 U2 0,
             sigma := arccos (vCos U1 U2 0), alpha := arcsin (vSinAlpha U1 U2 0), cos2SigmaM := vCos2 U1 U2 0,
             lam := 0 })
    (by
      show Err 1 _ 1 (cos (arcsin (vSinAlpha U1 U2 0)) ^ 2) _
      rw [x4, arcsin_zero, cos_zero, one_pow]
      exact sz.mono one_pos (by norm_num) le_rfl)
    (sS.mono hL (by norm_num) le_rfl) (sT.mono one_pos (by norm_num) le_rfl) sq sc sσ (by norm_num)
  refine hlen.trans ?_
  have hA : 6378137 * (297 / 298) ≤ earthA * (1 - earthF) := by unfold earthA; linarith
  have hA0 : 0 ≤ earthA * (1 - earthF) := le_trans (by norm_num) hA
  have s3 : 99 / 100 * (6378137 * (297 / 298)) * |U2 - U1| ≤
      99 / 100 * (earthA * (1 - earthF)) * arccos (vCos U1 U2 0) := by
    rw [x2]; gcongr
  refine le_trans ?_ (mul_le_mul_of_nonneg_left (s3.trans b1) (by norm_num))
  norm_num
  linarith

end WindMult
