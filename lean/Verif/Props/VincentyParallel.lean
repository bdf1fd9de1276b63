import Verif.Proofs.VincentyParallel

/-!
# C74: the two distances that make up the size of a pixel
-/

set_option autoImplicit false

namespace WindMult
open Real Spec

/-- The radius of a parallel. -/
theorem OnMeridian.radius {f a phi r z : ℝ} (hf1 : f < 1) (ha : 0 < a) (hphi : |phi| < π / 2)
    (h : OnMeridian f a phi r z) : r = a * cos (arctan ((1 - f) * tan phi)) := by
  rw [abs_lt] at hphi
  have hc : 0 < cos phi := cos_pos_of_mem_Ioo ⟨hphi.1, hphi.2⟩
  have hq : 0 < 1 - f := by linarith
  have hz : z / (a * (1 - f)) = r / a * ((1 - f) * tan phi) := by
    have := h.normal
    rw [tan_eq_sin_div_cos]
    field_simp at this ⊢
    linear_combination this
  have he := h.ellipse
  rw [hz] at he
  have hr : 0 < r / a := div_pos h.pos ha
  have hs : sqrt (1 + ((1 - f) * tan phi) ^ 2) = 1 / (r / a) := by
    rw [sqrt_eq_iff_mul_self_eq_of_pos (by positivity), ← pow_two, div_pow, one_pow,
      div_eq_iff (by positivity)]
    linear_combination -he
  rw [cos_arctan, hs, one_div_one_div]
  field_simp

/-- Every latitude has its point. -/
theorem exists_onMeridian {f a phi : ℝ} (hf1 : f < 1) (ha : 0 < a) (hphi : |phi| < π / 2) :
    ∃ r z, OnMeridian f a phi r z := by
  rw [abs_lt] at hphi
  have hc : 0 < cos phi := cos_pos_of_mem_Ioo ⟨hphi.1, hphi.2⟩
  have hq : 0 < 1 - f := by linarith
  refine ⟨a * cos (arctan ((1 - f) * tan phi)), a * (1 - f) * sin (arctan ((1 - f) * tan phi)), ?_, ?_,
    ?_⟩
  · have := cos_arctan_pos ((1 - f) * tan phi)
    positivity
  · rw [mul_div_cancel_left₀ _ ha.ne', mul_div_cancel_left₀ _ (by positivity), add_comm]
    exact sin_sq_add_cos_sq _
  · have : sin (arctan ((1 - f) * tan phi)) =
        (1 - f) * tan phi * cos (arctan ((1 - f) * tan phi)) := by
      rw [sin_arctan, cos_arctan]; ring
    rw [this, tan_eq_sin_div_cos]
    field_simp

theorem le_sin_mul {c x : ℝ} (hc0 : 0 ≤ c) (hc1 : c ≤ 1) (hx0 : 0 ≤ x) (hx1 : x ≤ π) :
    c * sin x ≤ sin (c * x) := by
  have h := strictConcaveOn_sin_Icc.concaveOn.2 (x := x) (y := 0) ⟨hx0, hx1⟩ ⟨le_rfl, pi_pos.le⟩ hc0
    (by linarith : 0 ≤ 1 - c) (by ring)
  simpa using h

/-- The angle on the auxiliary sphere between two points of a parallel. -/
theorem sigma_parallel_mem {U lam : ℝ} (hU : 0 < cos U) (h0 : 0 < lam) (h1 : lam ≤ 1 / 9) :
    999 / 1000 * (cos U * lam) ≤ 2 * arcsin (pHalf U lam) ∧
      2 * arcsin (pHalf U lam) ≤ cos U * lam := by
  have hpi := pi_gt_three
  obtain ⟨p0, p1, -⟩ := pHalf_mem hU h0 (by linarith)
  have hc := cos_le_one U
  constructor
  · have a1 : pHalf U lam ≤ arcsin (pHalf U lam) := by
      have := sin_le (arcsin_nonneg.mpr p0.le)
      rwa [sin_arcsin (by linarith) (by linarith)] at this
    have a2 := sin_gt_sub_cube (x := lam / 2) (by linarith)
    have a3 : 999 / 1000 * (lam / 2) ≤ sin (lam / 2) := by
      have : (lam / 2) ^ 3 / 6 ≤ 1 / 1000 * (lam / 2) := by
        have h2 : (lam / 2) ^ 2 ≤ 1 / 324 := by nlinarith
        calc (lam / 2) ^ 3 / 6 = (lam / 2) ^ 2 * (lam / 2) / 6 := by ring
          _ ≤ 1 / 324 * (lam / 2) / 6 := by gcongr
          _ ≤ _ := by linarith
      linarith
    have a4 : cos U * (999 / 1000 * (lam / 2)) ≤ pHalf U lam := by
      unfold pHalf; gcongr
    linarith
  · have a1 : pHalf U lam ≤ sin (cos U * (lam / 2)) :=
      le_sin_mul hU.le hc (by linarith) (by linarith)
    have a2 : arcsin (pHalf U lam) ≤ cos U * (lam / 2) := by
      have : cos U * (lam / 2) ≤ 1 / 18 := by nlinarith
      have h0' : 0 ≤ cos U * (lam / 2) := by positivity
      rw [arcsin_le_iff_le_sin' ⟨by linarith, by linarith⟩]
      exact a1
    linarith

/-- C74: along a parallel (the east-west size of a pixel), for a difference of longitude of at most
1/10, the loop ends after at most eight iterations, and the distance is within 2 % of the length of
the arc of the parallel. -/
theorem C74_parallel (fuel : ℕ) (hfuel : 8 ≤ fuel) (f a phi lam1 lam2 r z : ℝ) (hf0 : 0 ≤ f)
    (hf1 : f ≤ 1 / 200) (ha : 0 < a) (hphi : |phi| < π / 2) (h0 : 1 / 100000000 ≤ lam2 - lam1)
    (h1 : lam2 - lam1 ≤ 1 / 10) (hr : OnMeridian f a phi r z) :
    ∃ s a12 a21, vincDist fuel f a phi lam1 phi lam2 = some (.ok (s, a12, a21)) ∧
      98 / 100 * (r * (lam2 - lam1)) ≤ s ∧ s ≤ 102 / 100 * (r * (lam2 - lam1)) := by
  rw [OnMeridian.radius (by linarith) ha hphi hr]
  have hnc : ¬ (|phi - phi| < 1 / 100000000 ∧ |lam2 - lam1| < 1 / 100000000) := by
    rintro ⟨-, h⟩
    rw [abs_of_pos (by linarith)] at h
    linarith
  unfold vincDist
  rw [if_neg hnc]
  simp only
  have hU := cos_arctan_pos ((1 - f) * tan phi)
  generalize arctan ((1 - f) * tan phi) = U at *
  generalize hw : lam2 - lam1 = omega at *
  have ho : 0 < omega := by linarith
  obtain ⟨fuel, rfl⟩ : ∃ n, fuel = n + 1 := ⟨fuel - 1, by omega⟩
  obtain ⟨st, e1, e2, e3⟩ := vincStep_parallel (f := f) (omega := omega) hU ho (by linarith)
  obtain ⟨n0, n1⟩ := vNext_mem (omega := omega) hf0 hf1 hU ho (by linarith)
  have hq : 0 < 1 - f := by linarith
  have hQ : ∀ lam st, omega ≤ lam → lam * (1 - f) ≤ omega → vincStep f omega U U lam = .ok st →
      ∃ st', some st = some st' ∧ 98 / 100 * (a * cos U * omega) ≤ vincLength f a st' ∧
        vincLength f a st' ≤ 102 / 100 * (a * cos U * omega) := by
    intro lam st l0 l1 hst
    have l2 : lam ≤ 1 / 9 := by nlinarith
    obtain ⟨-, -, b1, b2⟩ := vincLength_bound hf0 hf1 ha hst
    obtain ⟨st', e1, -, e3⟩ := vincStep_parallel (f := f) (omega := omega) hU
      (by linarith : 0 < lam) (by linarith)
    rw [hst, Except.ok.injEq] at e1
    rw [← e1] at e3
    obtain ⟨s1, s2⟩ := sigma_parallel_mem hU (by linarith : 0 < lam) l2
    rw [← e3] at s1 s2
    refine ⟨st, rfl, le_trans ?_ b1, b2.trans ?_⟩
    · have : 999 / 1000 * (cos U * omega) ≤ st.sigma := by
        refine le_trans ?_ s1; gcongr
      have hb : 0 < a * (1 - f) := by positivity
      have hco : 0 < a * cos U * omega := by positivity
      calc 98 / 100 * (a * cos U * omega)
          ≤ 99 / 100 * (199 / 200) * (999 / 1000) * (a * cos U * omega) := by
            gcongr; norm_num
        _ ≤ 99 / 100 * (1 - f) * (999 / 1000) * (a * cos U * omega) := by gcongr; linarith
        _ = 99 / 100 * (a * (1 - f)) * (999 / 1000 * (cos U * omega)) := by ring
        _ ≤ _ := by gcongr
    · calc 102 / 100 * (a * (1 - f)) * st.sigma ≤ 102 / 100 * (a * (1 - f)) * (cos U * lam) := by
            gcongr
        _ = 102 / 100 * (a * cos U * (lam * (1 - f))) := by ring
        _ ≤ 102 / 100 * (a * cos U * omega) := by gcongr
  obtain ⟨st', l1, st'', rfl, l3, l4⟩ := vincLoop_parallel hf0 hf1 hU ho (by linarith)
    (fun o => ∃ st', o = some st' ∧ 98 / 100 * (a * cos U * omega) ≤ vincLength f a st' ∧
        vincLength f a st' ≤ 102 / 100 * (a * cos U * omega)) hQ 7 fuel omega st.lam (some st)
    (by omega) le_rfl (by nlinarith) e2 (hQ omega st le_rfl (by nlinarith) e1) (by
      rw [e2, abs_sub_comm, abs_of_nonneg (by linarith)]
      have : f * omega ≤ 1 / 200 * omega := by gcongr
      norm_num
      linarith)
  rw [vincLoop, if_pos (vincGoesOn_start _)]
  simp only [e1, l1]
  exact ⟨_, _, _, rfl, l3, l4⟩

/-- The reduced latitude changes about as fast as the latitude. -/
theorem reduced_mem {f phi1 phi2 : ℝ} (hf0 : 0 ≤ f) (hf1 : f < 1) (h1 : -(π / 2) < phi1)
    (h2 : phi2 < π / 2) (h : phi1 < phi2) :
    (1 - f) * (phi2 - phi1) ≤ arctan ((1 - f) * tan phi2) - arctan ((1 - f) * tan phi1) ∧
    (1 - f) * (arctan ((1 - f) * tan phi2) - arctan ((1 - f) * tan phi1)) ≤ phi2 - phi1 := by
  have hq : 0 < 1 - f := by linarith
  have hcos : ∀ x, phi1 ≤ x → x ≤ phi2 → 0 < cos x := fun x hx hx' =>
    cos_pos_of_mem_Ioo ⟨by linarith, by linarith⟩
  have hd : ∀ x, phi1 ≤ x → x ≤ phi2 → HasDerivAt (fun x => arctan ((1 - f) * tan x))
      (1 / (1 + ((1 - f) * tan x) ^ 2) * ((1 - f) * (1 / cos x ^ 2))) x := by
    intro x hx hx'
    exact HasDerivAt.arctan ((hasDerivAt_tan (hcos x hx hx').ne').const_mul (1 - f))
  obtain ⟨c, ⟨hc0, hc1⟩, hc⟩ := exists_hasDerivAt_eq_slope (fun x => arctan ((1 - f) * tan x)) _ h
    (fun x hx => (hd x hx.1 hx.2).continuousAt.continuousWithinAt)
    (fun x hx => hd x hx.1.le hx.2.le)
  have hcc := hcos c hc0.le hc1.le
  have e : 1 / (1 + ((1 - f) * tan c) ^ 2) * ((1 - f) * (1 / cos c ^ 2)) =
      (1 - f) / (cos c ^ 2 + (1 - f) ^ 2 * sin c ^ 2) := by
    rw [tan_eq_sin_div_cos]
    field_simp
  rw [e] at hc
  have h3 := sin_sq_add_cos_sq c
  have hD0 : 0 < cos c ^ 2 + (1 - f) ^ 2 * sin c ^ 2 := by positivity
  have hD1 : cos c ^ 2 + (1 - f) ^ 2 * sin c ^ 2 ≤ 1 := by
    have : (1 - f) ^ 2 ≤ 1 := by nlinarith
    nlinarith [sq_nonneg (sin c)]
  have hD2 : (1 - f) ^ 2 ≤ cos c ^ 2 + (1 - f) ^ 2 * sin c ^ 2 := by
    have : (1 - f) ^ 2 ≤ 1 := by nlinarith
    nlinarith [sq_nonneg (cos c)]
  rw [eq_div_iff (by linarith)] at hc
  rw [← hc]
  have hdiff : 0 < phi2 - phi1 := by linarith
  constructor
  · gcongr
    rw [le_div_iff₀ hD0]
    nlinarith
  · rw [← mul_assoc, ← mul_div_assoc]
    calc (1 - f) * (1 - f) / (cos c ^ 2 + (1 - f) ^ 2 * sin c ^ 2) * (phi2 - phi1)
        ≤ 1 * (phi2 - phi1) := by
          gcongr
          rw [div_le_one hD0]
          nlinarith
      _ = phi2 - phi1 := one_mul _

/-- C74: along a meridian (the north-south size of a pixel) one iteration suffices, and the distance
is within 2 % of the length of the arc of a circle with the radius of the equator. -/
theorem C74_meridian (fuel : ℕ) (f a phi1 phi2 lam : ℝ) (hf0 : 0 ≤ f) (hf1 : f ≤ 1 / 200)
    (ha : 0 < a) (h1 : |phi1| < π / 2) (h2 : |phi2| < π / 2)
    (hne : 1 / 100000000 ≤ |phi2 - phi1|) :
    ∃ s a12 a21, vincDist (fuel + 1) f a phi1 lam phi2 lam = some (.ok (s, a12, a21)) ∧
      98 / 100 * (a * |phi2 - phi1|) ≤ s ∧ s ≤ 102 / 100 * (a * |phi2 - phi1|) := by
  have hnc : ¬ (|phi2 - phi1| < 1 / 100000000 ∧ |lam - lam| < 1 / 100000000) := by
    rintro ⟨h, -⟩; linarith
  have hq : 0 < 1 - f := by linarith
  have hUU : (1 - f) * |phi2 - phi1| ≤
        |arctan ((1 - f) * tan phi2) - arctan ((1 - f) * tan phi1)| ∧
      (1 - f) * |arctan ((1 - f) * tan phi2) - arctan ((1 - f) * tan phi1)| ≤ |phi2 - phi1| := by
    rw [abs_lt] at h1 h2
    rcases lt_trichotomy phi1 phi2 with h | h | h
    · obtain ⟨b1, b2⟩ := reduced_mem hf0 (by linarith) h1.1 h2.2 h
      have : 0 < (1 - f) * (phi2 - phi1) := mul_pos hq (by linarith)
      rw [abs_of_pos (by linarith : 0 < phi2 - phi1), abs_of_pos (by linarith)]
      exact ⟨b1, b2⟩
    · rw [h, sub_self, abs_zero] at hne; linarith
    · obtain ⟨b1, b2⟩ := reduced_mem hf0 (by linarith) h2.1 h1.2 h
      have : 0 < (1 - f) * (phi1 - phi2) := mul_pos hq (by linarith)
      rw [abs_sub_comm, abs_of_pos (by linarith : 0 < phi1 - phi2), abs_sub_comm,
        abs_of_pos (by linarith)]
      exact ⟨b1, b2⟩
  have hU1 := arctan_mem_Ioo ((1 - f) * tan phi1)
  have hU2 := arctan_mem_Ioo ((1 - f) * tan phi2)
  unfold vincDist
  rw [if_neg hnc]
  simp only
  generalize arctan ((1 - f) * tan phi1) = U1 at *
  generalize arctan ((1 - f) * tan phi2) = U2 at *
  rw [sub_self]
  have hpos : 0 < |U2 - U1| := lt_of_lt_of_le (mul_pos hq (by linarith)) hUU.1
  have hlt : |U2 - U1| < π := by
    rw [abs_lt]; constructor <;> linarith [hU1.1, hU1.2, hU2.1, hU2.2]
  have hcos : vCos U1 U2 0 = cos |U2 - U1| := by
    unfold vCos; rw [cos_zero, cos_abs, cos_sub]; ring
  have hsig : arccos (vCos U1 U2 0) = |U2 - U1| := by
    rw [hcos, arccos_cos hpos.le hlt.le]
  have hsq : ¬ vSqr U1 U2 0 = 0 := by
    rw [vSqr_eq, hcos, ← sin_sq]
    exact (pow_pos (sin_pos_of_pos_of_lt_pi hpos hlt) 2).ne'
  have hN : vNext f 0 U1 U2 0 = 0 := by
    have : vSinAlpha U1 U2 0 = 0 := by unfold vSinAlpha; rw [sin_zero]; simp
    unfold vNext
    rw [this]
    ring
  have hst := vincStep_eq f 0 U1 U2 0
  rw [if_neg hsq] at hst
  obtain ⟨-, -, b1, b2⟩ := vincLength_bound hf0 hf1 ha hst
  rw [vincLoop, if_pos (vincGoesOn_start _)]
  simp only [hst, hN]
  rw [vincLoop_stop _ _ _ _ _ _ (not_vincGoesOn_self (by norm_num))]
  refine ⟨_, _, _, rfl, ?_⟩
  simp only [hsig, hN] at b1 b2 ⊢
  refine ⟨le_trans ?_ b1, b2.trans ?_⟩
  · have h3 : (199 / 200 : ℝ) * (199 / 200) ≤ (1 - f) * (1 - f) := by
      have : (199 / 200 : ℝ) ≤ 1 - f := by linarith
      gcongr
    have hap : 0 < a * |phi2 - phi1| := by positivity
    calc 98 / 100 * (a * |phi2 - phi1|)
        ≤ 99 / 100 * (199 / 200 * (199 / 200)) * (a * |phi2 - phi1|) := by gcongr; norm_num
      _ ≤ 99 / 100 * ((1 - f) * (1 - f)) * (a * |phi2 - phi1|) := by gcongr
      _ = 99 / 100 * (a * (1 - f)) * ((1 - f) * |phi2 - phi1|) := by ring
      _ ≤ _ := by
        have := hUU.1
        gcongr
  · calc 102 / 100 * (a * (1 - f)) * |U2 - U1| = 102 / 100 * (a * ((1 - f) * |U2 - U1|)) := by ring
      _ ≤ _ := by
        have := hUU.2
        gcongr

/-- A pixel of three seconds of arc at 30° south on the Earth. -/
example : ∃ r z s a12 a21, OnMeridian (1 / 298) 6378137 (-π / 6) r z ∧
    vincDist 8 (1 / 298) 6378137 (-π / 6) 2 (-π / 6) (2 + 1 / 70000) = some (.ok (s, a12, a21)) ∧
    98 / 100 * (r * (1 / 70000)) ≤ s ∧ s ≤ 102 / 100 * (r * (1 / 70000)) := by
  have hpi := pi_pos
  have hphi : |-π / 6| < π / 2 := by
    rw [neg_div, abs_neg, abs_of_pos (by positivity)]; linarith
  obtain ⟨r, z, h⟩ := exists_onMeridian (f := 1 / 298) (a := 6378137) (by norm_num) (by norm_num) hphi
  obtain ⟨s, a12, a21, h1, h2, h3⟩ := C74_parallel 8 le_rfl (1 / 298) 6378137 (-π / 6) 2
    (2 + 1 / 70000) r z (by norm_num) (by norm_num) (by norm_num) hphi (by norm_num) (by norm_num) h
  rw [add_sub_cancel_left] at h2 h3
  exact ⟨r, z, s, a12, a21, h, h1, h2, h3⟩

example : ∃ s a12 a21, vincDist 1 (1 / 298) 6378137 (1 / 2) 1 (1 / 2 + 1 / 1000) 1 =
    some (.ok (s, a12, a21)) ∧ 98 / 100 * (6378137 * (1 / 1000)) ≤ s ∧
      s ≤ 102 / 100 * (6378137 * (1 / 1000)) := by
  have := pi_gt_three
  have h := C74_meridian 0 (1 / 298) 6378137 (1 / 2) (1 / 2 + 1 / 1000) 1 (by norm_num) (by norm_num)
    (by norm_num) (by rw [abs_of_pos] <;> linarith) (by rw [abs_of_pos] <;> linarith) (by norm_num)
  rwa [add_sub_cancel_left, abs_of_pos (by norm_num : (0 : ℝ) < 1 / 1000)] at h

end WindMult
