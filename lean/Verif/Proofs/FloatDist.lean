import Verif.Proofs.FloatLoop
import Verif.Props.VincentyParallel

/-!
# The distance of two points on the same parallel or meridian, in double precision
-/

set_option autoImplicit false
set_option linter.unusedSectionVars false

namespace WindMult
open Real

/-- Near zero, the arcsine hardly stretches. -/
theorem arcsin_lip_small {p q : ℝ} (hp0 : 0 ≤ p) (hp1 : p ≤ 1 / 199) (hq0 : 0 ≤ q) (hq1 : q ≤ 1 / 199) :
    |arcsin p - arcsin q| ≤ 1001 / 1000 * |p - q| := by
  wlog h : q ≤ p generalizing p q
  · rw [abs_sub_comm, abs_sub_comm p]
    exact this hq0 hq1 hp0 hp1 (le_of_not_ge h)
  rcases h.eq_or_lt with rfl | h
  · simp
  have hb : ∀ r : ℝ, 0 ≤ r → r ≤ 1 / 199 → 0 ≤ arcsin r ∧ arcsin r ≤ 1 / 99 ∧ sin (arcsin r) = r := by
    intro r h0 h1
    have := arcsin_lip h0 (by linarith) le_rfl (by norm_num)
    rw [arcsin_zero, sub_zero, sub_zero, abs_of_nonneg (arcsin_nonneg.mpr h0), abs_of_nonneg h0] at this
    exact ⟨arcsin_nonneg.mpr h0, by linarith, sin_arcsin (by linarith) (by linarith)⟩
  obtain ⟨x0, x1, x2⟩ := hb p hp0 hp1
  obtain ⟨y0, y1, y2⟩ := hb q hq0 hq1
  have hlt : arcsin q < arcsin p := (arcsin_lt_arcsin (by linarith) h (by linarith))
  rw [abs_of_pos (by linarith), abs_of_pos (by linarith)]
  have e := sin_sub_sin (arcsin p) (arcsin q)
  rw [x2, y2] at e
  have s := sin_ge_mul (x := (arcsin p - arcsin q) / 2) (by linarith) (by linarith)
  have c := one_sub_sq_div_two_le_cos (x := (arcsin p + arcsin q) / 2)
  have c1 : 9999 / 10000 ≤ cos ((arcsin p + arcsin q) / 2) := by nlinarith
  have k : 9999 / 10000 * ((arcsin p - arcsin q) / 2) * (9999 / 10000) ≤
      sin ((arcsin p - arcsin q) / 2) * cos ((arcsin p + arcsin q) / 2) := by
    gcongr
    linarith
  nlinarith

theorem sigma_lip {U lam lam' : ℝ} (hU : 0 < cos U) (h0 : 0 < lam) (h1 : lam ≤ 1 / 100) (h0' : 0 < lam')
    (h1' : lam' ≤ 1 / 100) :
    |arccos (vCos U U lam) - arccos (vCos U U lam')| ≤ 1001 / 1000 * |lam - lam'| := by
  obtain ⟨p0, p1, p2⟩ := pHalf_mem hU h0 (by linarith)
  obtain ⟨r0, r1, r2⟩ := pHalf_mem hU h0' (by linarith)
  rw [vSigma_parallel p0.le, vSigma_parallel r0.le, ← mul_sub, abs_mul, abs_of_pos (by norm_num : (0 : ℝ) < 2)]
  have k1 := arcsin_lip_small p0.le (p2.trans ((sin_le (by linarith)).trans (by linarith))) r0.le
    (r2.trans ((sin_le (by linarith)).trans (by linarith)))
  have k2 := pHalf_lip U lam lam'
  linarith

/-- Errors add up. -/
theorem Err.trans {L e e₂ m x y : ℝ} (h : Err L e m x y) {e' m' : ℝ} {x' : ℝ} (hx : |x - x'| ≤ e₂ * L)
    (he : e + e₂ ≤ e') (hm : |x'| ≤ m' * L) (hL : 0 < L) : Err L e' m' x' y := by
  refine ⟨?_, hm⟩
  have := abs_add_le (y - x) (x - x')
  rw [sub_add_sub_cancel] at this
  have h2 : (e + e₂) * L ≤ e' * L := by gcongr
  linarith [h.1]

variable (W : FpRound (1 / 2 ^ 53)) (M : FpMath (1 / 2 ^ 53)) {f U Uf om omf : ℝ}

/-- The iterations for the exact and for the computed difference in longitude end at nearly the same value. -/
theorem exits_close {lam lamf next nextf : ℝ} (hom : 0 < om) (hU : 0 < cos U) (h0 : 0 < lam) (h1 : lam ≤ 1)
    (h0' : 0 < lamf) (h1' : lamf ≤ 1) (hn : next = vNext earthF om U U lam)
    (hnf : |nextf - vNext earthF omf U U lamf| ≤ 51 / 10 ^ 13 * om) (hc : |lam - next| ≤ 1005 / 10 ^ 12 * om)
    (hcf : |lamf - nextf| ≤ 102 / 10 ^ 11 * om) (ho : |omf - om| ≤ 7 / 10 ^ 10 * om) :
    |lamf - lam| ≤ 31 / 10 ^ 10 * om := by
  obtain ⟨e0, e1⟩ := earthF_range
  have hcon := vNext_contracts (omega := om) e0 (by linarith) hU h0' h1' h0 h1
  have hsh : vNext earthF omf U U lamf - vNext earthF om U U lamf = omf - om := by
    unfold vNext; ring
  have t := abs_add_three (lamf - nextf) (nextf - vNext earthF omf U U lamf) (omf - om)
  have t2 := abs_add_three (lamf - nextf + (nextf - vNext earthF omf U U lamf) + (omf - om))
    (vNext earthF om U U lamf - vNext earthF om U U lam) (next - lam)
  rw [abs_sub_comm next] at t2
  rw [show lamf - nextf + (nextf - vNext earthF omf U U lamf) + (omf - om) +
    (vNext earthF om U U lamf - vNext earthF om U U lam) + (next - lam) = lamf - lam by
      rw [← hsh, hn]; ring] at t2
  norm_num at hnf hc hcf ho hcon ⊢
  linarith

/-- The length computed where the one loop ends, and the exact length where the other does. -/
theorem length_close {lam lamf : ℝ} {st sf : VincState} (hf : Err 1 (1 / 10 ^ 15) (1 / 298) earthF f)
    (hc0 : 69 / 100 ≤ cos U) (hs0 : 12 / 10 ^ 4 ≤ sin U ^ 2) (hlpos : 0 < lam) (hl2 : lam ≤ 1 / 100)
    (hlfpos : 0 < lamf) (hlf2 : lamf ≤ 1 / 100) (hcl : |lamf - lam| ≤ 31 / 10 ^ 10 * lam)
    (b4 : vincStep earthF om U U lam = .ok st)
    (sz : Err 1 (5 / 10 ^ 10) 1 (cos (arcsin (vSinAlpha U U lamf)) ^ 2) (cosSqFl M sf.alpha))
    (sS : Err lamf (2 / 10 ^ 10) 1 (√(vSqr U U lamf)) sf.sinSigma)
    (sT : Err 1 (1 / 10 ^ 12) 1 (vCos U U lamf) sf.cosSigma)
    (sq : Err 1 (2 / 10 ^ 10) 1 (vSqr U U lamf) sf.sqrSinSigma)
    (sc : Err 1 (1 / 10 ^ 6) 1 (vCos2 U U lamf) sf.cos2SigmaM)
    (sσ : Err lamf (2 / 10 ^ 10) 1 (arccos (vCos U U lamf)) sf.sigma) :
    |vincLengthFl W M f earthA sf - vincLength earthF earthA st| ≤ 9 / 10 ^ 9 * vincLength earthF earthA st := by
  obtain ⟨e0, e1⟩ := earthF_range
  have hcU : 0 < cos U := by linarith
  have hlfl : lamf ≤ 1001 / 1000 * lam := by
    have := (abs_le.mp hcl).2
    norm_num at this ⊢; linarith
  have hσd := sigma_lip hcU hlfpos hlf2 hlpos hl2
  have b4' := b4
  rw [vincStep_eq] at b4'
  split_ifs at b4' with hnz
  cases b4'
  obtain ⟨p0, p1, -⟩ := pHalf_mem hcU hlpos (by linarith)
  obtain ⟨q0, q1, -⟩ := pHalf_mem hcU hlfpos (by linarith)
  have hσL : arccos (vCos U U lam) ≤ lam := by
    rw [vSigma_parallel p0.le]; exact (parallel_mem hcU hlpos (by linarith)).2.2.2
  have hσ0 := arccos_nonneg (vCos U U lam)
  have hSl : |√(vSqr U U lam)| ≤ 1 * lam := by
    rw [one_mul, abs_of_nonneg (sqrt_nonneg _), ← sin_vSigma]
    exact (sin_le hσ0).trans hσL
  have hSd : |√(vSqr U U lamf) - √(vSqr U U lam)| ≤ 32 / 10 ^ 10 * lam := by
    rw [← sin_vSigma, ← sin_vSigma]
    refine (abs_sin_sub_sin_le _ _).trans ?_
    norm_num at hσd hcl ⊢; linarith
  have hTd : |vCos U U lamf - vCos U U lam| ≤ 32 / 10 ^ 10 := by
    rw [← cos_vSigma, ← cos_vSigma U U lam]
    refine (abs_cos_sub_cos_le _ _).trans ?_
    norm_num at hσd hcl ⊢; linarith
  have hqd : |vSqr U U lamf - vSqr U U lam| ≤ 7 / 10 ^ 9 := by
    rw [vSqr_eq, vSqr_eq, show 1 - vCos U U lamf ^ 2 - (1 - vCos U U lam ^ 2) =
      -((vCos U U lamf - vCos U U lam) * (vCos U U lamf + vCos U U lam)) by ring, abs_neg, abs_mul]
    have k1 := abs_le.mpr (vCos_mem U U lam)
    have k2 := abs_le.mpr (vCos_mem U U lamf)
    calc |vCos U U lamf - vCos U U lam| * |vCos U U lamf + vCos U U lam| ≤ 32 / 10 ^ 10 * (1 + 1) := by
          refine mul_le_mul hTd ?_ (abs_nonneg _) (by norm_num)
          exact (abs_add_le _ _).trans (add_le_add k2 k1)
      _ ≤ _ := by norm_num
  have hzd : |cos (arcsin (vSinAlpha U U lamf)) ^ 2 - cos (arcsin (vSinAlpha U U lam)) ^ 2| ≤ 31 / 10 ^ 10 := by
    rw [cosSq_parallel p0 (by linarith), cosSq_parallel q0 (by linarith)]
    have := (parallel_lip hcU hlfpos (by linarith) hlpos (by linarith)).1
    norm_num at this hcl ⊢; linarith
  have hsU : sin U ≠ 0 := by
    intro h
    rw [h] at hs0
    norm_num at hs0
  have hlen := vincLengthFl_err W M (L := lam) hlpos (s := 35 / 10 ^ 10) hf (sf := sf)
    (st := { sqrSinSigma := vSqr U U lam, sinSigma := √(vSqr U U lam), cosSigma := vCos U U lam,
             sigma := arccos (vCos U U lam), alpha := arcsin (vSinAlpha U U lam), cos2SigmaM := vCos2 U U lam,
             lam := vNext earthF om U U lam })
    (sz.trans (e₂ := 31 / 10 ^ 10) (by rw [mul_one]; exact hzd) (by norm_num) (by
      rw [mul_one, abs_of_nonneg (sq_nonneg _)]; exact cos_sq_le_one _) one_pos)
    ?_
    (sT.trans (e₂ := 32 / 10 ^ 10) (by rw [mul_one]; exact hTd) (by norm_num) (by
      rw [mul_one]; exact abs_le.mpr (vCos_mem U U lam)) one_pos)
    (sq.trans (e₂ := 7 / 10 ^ 9) (by rw [mul_one]; exact hqd) (by norm_num) (by
      rw [mul_one, abs_of_nonneg (vSqr_nonneg _ _ _), vSqr_eq]; nlinarith [sq_nonneg (vCos U U lam)]) one_pos)
    ?_ ?_ (by norm_num)
  · refine hlen.trans ?_
    obtain ⟨-, -, bl, -⟩ := vincLength_bound e0 (by linarith) (by norm_num [earthA] : 0 < earthA) b4
    have s1 := (sigma_parallel_mem hcU hlpos (by linarith)).1
    rw [← vSigma_parallel p0.le] at s1
    have s2 : 69 / 100 * lam ≤ cos U * lam := by gcongr
    have s3 : 99 / 100 * (6378137 * (297 / 298)) * (999 / 1000 * (69 / 100 * lam)) ≤
        99 / 100 * (earthA * (1 - earthF)) * arccos (vCos U U lam) := by
      have hA : 6378137 * (297 / 298) ≤ earthA * (1 - earthF) := by unfold earthA; linarith
      have hA0 : 0 ≤ earthA * (1 - earthF) := le_trans (by norm_num) hA
      gcongr
      linarith
    refine le_trans ?_ (mul_le_mul_of_nonneg_left (s3.trans bl) (by norm_num))
    norm_num
    linarith
  · refine ⟨?_, hSl⟩
    have := abs_add_le (sf.sinSigma - √(vSqr U U lamf)) (√(vSqr U U lamf) - √(vSqr U U lam))
    rw [sub_add_sub_cancel] at this
    have := sS.1
    norm_num at this hSd ⊢
    linarith
  · have k1 := vCos2_parallel p0 (by linarith) hsU
    have k2 := vCos2_parallel q0 (by linarith) hsU
    rw [k2] at sc
    show Err 1 _ 1 (vCos2 U U lam) _
    rw [k1]
    exact sc
  · refine ⟨?_, ?_⟩
    · show |sf.sigma - arccos (vCos U U lam)| ≤ _
      have := abs_add_le (sf.sigma - arccos (vCos U U lamf)) (arccos (vCos U U lamf) - arccos (vCos U U lam))
      rw [sub_add_sub_cancel] at this
      have := sσ.1
      norm_num at this hσd hcl ⊢
      linarith
    · show |arccos (vCos U U lam)| ≤ _
      rw [abs_of_nonneg hσ0]
      linarith


/-- Two points on the same parallel. -/
theorem vincDistFl_parallel (fuel : ℕ) (hfuel : 12 ≤ fuel) (hf : Err 1 (1 / 10 ^ 15) (1 / 298) earthF f)
    {phi phif lam1 lam2 lam1f lam2f : ℝ}
    (hU : |M.atan (W.rnd (W.rnd (1 - f) * M.tan phif)) - arctan ((1 - earthF) * tan phi)| ≤ 6 / 10 ^ 15)
    (hc0 : 69 / 100 ≤ cos (arctan ((1 - earthF) * tan phi)))
    (hs0 : 12 / 10 ^ 4 ≤ sin (arctan ((1 - earthF) * tan phi)) ^ 2)
    (h0 : 43 / 10 ^ 7 ≤ lam2 - lam1) (h1 : lam2 - lam1 ≤ 98 / 10 ^ 4)
    (ho : |W.rnd (lam2f - lam1f) - (lam2 - lam1)| ≤ 3 / 10 ^ 15) :
    ∃ df d a12 a21, vincDistFl W M fuel f earthA phif lam1f phif lam2f = some (.ok df) ∧
      vincDist fuel earthF earthA phi lam1 phi lam2 = some (.ok (d, a12, a21)) ∧ |df - d| ≤ 9 / 10 ^ 9 * d := by
  obtain ⟨e0, e1⟩ := earthF_range
  have hcU : 0 < cos (arctan ((1 - earthF) * tan phi)) := by linarith
  generalize hom : W.rnd (lam2f - lam1f) = omf at *
  generalize hom' : lam2 - lam1 = om at *
  obtain ⟨ho1, ho2⟩ := abs_le.mp ho
  have hpos : 0 < om := lt_of_lt_of_le (by norm_num) h0
  have g0 : 41 / 10 ^ 7 ≤ omf := by norm_num at ho1 h0 ⊢; linarith
  have g1 : omf ≤ 99 / 10 ^ 4 := by norm_num at ho2 h1 ⊢; linarith
  have hposf : 0 < omf := lt_of_lt_of_le (by norm_num) g0
  have hrel : |omf - om| ≤ 7 / 10 ^ 10 * om := by norm_num at ho h0 ⊢; linarith
  obtain ⟨r1, r2⟩ := abs_le.mp hrel
  unfold vincDistFl vincDist
  rw [hom, hom', if_neg, if_neg]
  rotate_left
  · rintro ⟨-, h⟩
    rw [abs_of_pos hpos] at h
    norm_num at h0
    linarith
  · rintro ⟨-, h⟩
    rw [abs_of_pos hposf] at h
    have := rnd_rel W (1 / 100000000)
    rw [abs_of_pos (by norm_num : (0 : ℝ) < 1 / 100000000)] at this
    have := (abs_le.mp this).2
    norm_num at g0 this
    linarith
  simp only
  generalize M.atan (W.rnd (W.rnd (1 - f) * M.tan phif)) = Uf at *
  generalize arctan ((1 - earthF) * tan phi) = U at *
  obtain ⟨fuel, rfl⟩ : ∃ n, fuel = n + 1 := ⟨fuel - 1, by omega⟩
  -- the exact loop
  obtain ⟨st0, a1, a2, -⟩ := vincStep_parallel (f := earthF) (omega := om) hcU hpos (by norm_num at h1; linarith)
  obtain ⟨n0, n1⟩ := vNext_mem (omega := om) e0 (by linarith) hcU hpos (by norm_num at h1; linarith)
  have hfo : earthF * om ≤ 1 / 298 * om := by gcongr
  obtain ⟨lam, st, b1, b2, b3, b4, b5⟩ := vincLoop_exit e0 (by linarith) hcU hpos (by norm_num at h1; linarith) 7 fuel om
    st0.lam st0 (by omega) le_rfl (by nlinarith) a1 a2 rfl (by
      rw [a2, abs_sub_comm, abs_of_nonneg (by linarith)]
      norm_num
      linarith)
  have hl1 : lam ≤ 10034 / 10000 * om := by nlinarith
  have hlpos : 0 < lam := by linarith
  have hl2 : lam ≤ 1 / 100 := by norm_num at h1; linarith
  -- the loop in double precision
  obtain ⟨sf0, c1, -, -, -, -, -, -, c2⟩ := vincStepFl_parallel W M hf hU hc0 hs0 (lam := omf) (om := omf)
    (by norm_num at g0 ⊢; linarith) (by norm_num at g1 ⊢; linarith) (by rw [abs_of_pos hposf]; linarith)
  obtain ⟨m0, m1⟩ := vNext_mem (omega := omf) e0 (by linarith) hcU hposf (by norm_num at g1; linarith)
  have hfof : earthF * omf ≤ 1 / 298 * omf := by gcongr
  obtain ⟨lamf, sf, d1, d2, d3, d4, d5⟩ := vincLoopFl_exit W M hf hU hc0 hs0 g0 g1 10 fuel omf sf0 (by omega)
    (by norm_num; linarith) (by linarith) c1 (by
      have := abs_add_le (omf - vNext earthF omf U U omf) (-(sf0.lam - vNext earthF omf U U omf))
      rw [abs_neg, show omf - vNext earthF omf U U omf + -(sf0.lam - vNext earthF omf U U omf) = omf - sf0.lam by ring,
        abs_sub_comm omf (vNext earthF omf U U omf),
        abs_of_nonneg (by linarith : 0 ≤ vNext earthF omf U U omf - omf)] at this
      norm_num at c2 ⊢
      linarith)
  have hlf1 : 4 / 10 ^ 6 ≤ lamf := by norm_num at d2 g0 ⊢; linarith
  have hlf2 : lamf ≤ 1 / 100 := by norm_num at d3 g1 ⊢; linarith
  have hlfpos : 0 < lamf := lt_of_lt_of_le (by norm_num) hlf1
  obtain ⟨sf', s1, sz, sS, sT, sq, sc, sσ, sl⟩ := vincStepFl_parallel W M hf hU hc0 hs0 (lam := lamf) (om := omf)
    hlf1 hlf2 (by rw [abs_of_pos hposf]; norm_num at d2; linarith)
  rw [d4] at s1
  cases s1
  rw [vincLoopFl, if_pos (.inl (by norm_num)), vincLoop, if_pos (vincGoesOn_start _)]
  simp only [a1, c1, b1, d1]
  refine ⟨_, _, _, _, rfl, rfl, ?_⟩
  -- the two exits
  have hclose : |lamf - lam| ≤ 31 / 10 ^ 10 * om := by
    refine exits_close (nextf := sf.lam) hpos hcU hlpos (by linarith) hlfpos (by linarith) rfl ?_ ?_ ?_ hrel
    · norm_num at sl d3 r2 ⊢; linarith
    · unfold vincGoesOn at b5
      push Not at b5
      obtain ⟨w0, w1⟩ := vNext_mem (omega := om) e0 (by linarith) hcU hlpos (by linarith)
      have w2 : 0 < vNext earthF om U U lam := by linarith
      have w3 := b5.2 w2.ne'
      rw [abs_div, abs_of_pos w2, div_le_iff₀ w2] at w3
      have w4 : earthF * lam ≤ 1 / 298 * lam := by gcongr
      norm_num at w3 ⊢
      linarith
    · norm_num at d5 r2 ⊢; linarith
  have hcl : |lamf - lam| ≤ 31 / 10 ^ 10 * lam := by norm_num at hclose ⊢; linarith
  exact length_close W M hf hc0 hs0 hlpos hl2 hlfpos hlf2 hcl b4 sz sS sT sq sc sσ

end WindMult
