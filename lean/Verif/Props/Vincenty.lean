import Verif.Proofs.Sphere

/-!
# C58, C73, C74: Vincenty's inverse formula
-/

set_option autoImplicit false

namespace WindMult
open Real

/-- What `vinc_dist` does with the state the loop ends in. -/
theorem vincDist_cases {fuel : ℕ} {f a phi1 lam1 phi2 lam2 s a12 a21 : ℝ}
    (h : vincDist fuel f a phi1 lam1 phi2 lam2 = some (.ok (s, a12, a21))) :
    (s = 0 ∧ a12 = 0 ∧ a21 = 0 ∧
      |phi2 - phi1| < 1 / 100000000 ∧ |lam2 - lam1| < 1 / 100000000) ∨
    ∃ st y x y' x', vincLoop f (lam2 - lam1) (arctan ((1 - f) * tan phi1))
        (arctan ((1 - f) * tan phi2)) fuel (-4000000) (lam2 - lam1) none = some (.ok (some st)) ∧
      s = vincLength f a st ∧ a12 = vincNormalise (atan2 y x) ∧
      a21 = vincNormalise (atan2 y' x' + 2 * π / 2) := by
  unfold vincDist at h
  split_ifs at h with hc
  · left
    simp only [Option.some.injEq, Except.ok.injEq, Prod.mk.injEq] at h
    exact ⟨h.1.symm, h.2.1.symm, h.2.2.symm, hc⟩
  · right
    simp only at h
    split at h
    · cases h
    · cases h
    · cases h
    · rename_i st hst
      simp only [Option.some.injEq, Except.ok.injEq, Prod.mk.injEq] at h
      exact ⟨st, _, _, _, _, hst, h.1.symm, h.2.1.symm, h.2.2.symm⟩

/-- C58: the azimuths are normalised. -/
theorem C58_azimuths {fuel : ℕ} {f a phi1 lam1 phi2 lam2 s a12 a21 : ℝ}
    (h : vincDist fuel f a phi1 lam1 phi2 lam2 = some (.ok (s, a12, a21))) :
    (0 ≤ a12 ∧ a12 < 2 * π) ∧ 0 ≤ a21 ∧ a21 ≤ 2 * π := by
  have hp := pi_pos
  rcases vincDist_cases h with ⟨-, rfl, rfl, -⟩ | ⟨st, y, x, y', x', -, -, rfl, rfl⟩
  · exact ⟨⟨le_rfl, by linarith⟩, le_rfl, by linarith⟩
  · have h1 := atan2_mem y x
    have h2 := atan2_mem y' x'
    refine ⟨vincNormalise_mem h1.1 h1.2, ?_⟩
    rw [vincNormalise_mem' (by linarith [h2.1]) (by linarith [h2.2])]
    exact ⟨by linarith [h2.1], by linarith [h2.2]⟩

/-- C58: points closer than `1e-8` radian in both coordinates are at distance zero. -/
theorem C58_coincident (fuel : ℕ) (f a phi1 lam1 phi2 lam2 : ℝ)
    (hp : |phi2 - phi1| < 1 / 100000000) (hl : |lam2 - lam1| < 1 / 100000000) :
    vincDist fuel f a phi1 lam1 phi2 lam2 = some (.ok (0, 0, 0)) := by
  unfold vincDist
  rw [if_pos ⟨hp, hl⟩]

theorem centralAngle_eq (phi1 lam1 phi2 lam2 : ℝ) :
    Spec.centralAngle phi1 lam1 phi2 lam2 = arccos (vCos phi1 phi2 (lam2 - lam1)) := by
  unfold Spec.centralAngle vCos
  rw [cos_sub]
  congr 1
  ring

/-- Without flattening the reduced latitude is the latitude. -/
theorem arctan_reduced {phi : ℝ} (h : |phi| < π / 2) : arctan ((1 - 0) * tan phi) = phi := by
  rw [abs_lt] at h
  rw [sub_zero, one_mul, arctan_tan h.1 h.2]

theorem vincGoesOn_start (lam : ℝ) : vincGoesOn (-4000000) lam := Or.inl (by norm_num)

theorem not_vincGoesOn_self {lam : ℝ} (h : -3000000 ≤ lam) : ¬ vincGoesOn lam lam := by
  rintro (h' | ⟨-, h'⟩)
  · linarith
  · rw [sub_self, zero_div, abs_zero] at h'
    norm_num at h'

theorem vincLength_sphere (a : ℝ) (st : VincState) : vincLength 0 a st = a * st.sigma := by
  simp [vincLength]

/-- C58: on a sphere of radius `a` one iteration suffices, the distance is `a` times the central angle
and the azimuths lead from the first point to the second and back, unless the points are the same or
opposite places (where the sine of that angle is zero). -/
theorem C58_sphere (fuel : ℕ) (a phi1 lam1 phi2 lam2 : ℝ) (h1 : |phi1| < π / 2)
    (h2 : |phi2| < π / 2) (hl : |lam2 - lam1| ≤ 3000000)
    (hne : ¬ (|phi2 - phi1| < 1 / 100000000 ∧ |lam2 - lam1| < 1 / 100000000))
    (hs : sin (Spec.centralAngle phi1 lam1 phi2 lam2) ≠ 0) :
    ∃ a12 a21, vincDist (fuel + 1) 0 a phi1 lam1 phi2 lam2 =
      some (.ok (a * Spec.centralAngle phi1 lam1 phi2 lam2, a12, a21)) ∧
      Spec.Reached phi1 lam1 a12 (Spec.centralAngle phi1 lam1 phi2 lam2) phi2 lam2 ∧
      Spec.Reached phi2 lam2 a21 (Spec.centralAngle phi1 lam1 phi2 lam2) phi1 lam1 := by
  rw [centralAngle_eq] at *
  unfold vincDist
  rw [if_neg hne]
  simp only
  rw [arctan_reduced h1, arctan_reduced h2, vincLoop, if_pos (vincGoesOn_start _)]
  have h0 : ¬ vSqr phi1 phi2 (lam2 - lam1) = 0 := by
    intro h; rw [sin_vSigma, h, sqrt_zero] at hs; exact hs rfl
  have hN : vNext 0 (lam2 - lam1) phi1 phi2 (lam2 - lam1) = lam2 - lam1 := by
    unfold vNext; ring
  rw [vincStep_eq, if_neg h0]
  simp only [hN]
  rw [vincLoop_stop _ _ _ _ _ _ (not_vincGoesOn_self (abs_le.mp hl).1)]
  simp only [vincLength_sphere]
  refine ⟨_, _, rfl, ?_, ?_⟩
  · obtain ⟨p1, p2⟩ := atan2_polar (cos phi2 * sin (lam2 - lam1))
      (cos phi1 * sin phi2 - sin phi1 * cos phi2 * cos (lam2 - lam1))
    have e : sqrt (vSqr phi1 phi2 (lam2 - lam1)) =
        sqrt ((cos phi1 * sin phi2 - sin phi1 * cos phi2 * cos (lam2 - lam1)) ^ 2 +
          (cos phi2 * sin (lam2 - lam1)) ^ 2) := by
      unfold vSqr; rw [add_comm]
    apply Reached.of_components (cos_vSigma ..)
    · rw [sin_vSigma, sin_vincNormalise, e, p2]
    · rw [sin_vSigma, cos_vincNormalise, e, p1]
  · obtain ⟨p1, p2⟩ := atan2_polar (cos phi1 * sin (lam2 - lam1))
      (-sin phi1 * cos phi2 + cos phi1 * sin phi2 * cos (lam2 - lam1))
    have e : sqrt (vSqr phi1 phi2 (lam2 - lam1)) =
        sqrt ((-sin phi1 * cos phi2 + cos phi1 * sin phi2 * cos (lam2 - lam1)) ^ 2 +
          (cos phi1 * sin (lam2 - lam1)) ^ 2) := by
      rw [← vSqr_swap]; unfold vSqr; rw [cos_neg, sin_neg]; congr 1; ring
    have e2 : lam1 - lam2 = -(lam2 - lam1) := by ring
    apply Reached.of_components
    · rw [cos_vSigma, e2, vCos_swap]
    · rw [sin_vSigma, sin_vincNormalise, show 2 * π / 2 = π by ring, sin_add_pi, e2, sin_neg, mul_neg,
        mul_neg, e, p2]
    · rw [sin_vSigma, cos_vincNormalise, show 2 * π / 2 = π by ring, cos_add_pi, e2, cos_neg, mul_neg,
        e, p1]
      ring

/-- C58: the sphere, the remaining case: the same or opposite places (for instance longitudes -180°
and 180°) further apart than `1e-8` in one of the coordinates raise `ZeroDivisionError`. -/
theorem C58_sphere_undefined (fuel : ℕ) (a phi1 lam1 phi2 lam2 : ℝ) (h1 : |phi1| < π / 2)
    (h2 : |phi2| < π / 2)
    (hne : ¬ (|phi2 - phi1| < 1 / 100000000 ∧ |lam2 - lam1| < 1 / 100000000))
    (hs : sin (Spec.centralAngle phi1 lam1 phi2 lam2) = 0) :
    vincDist (fuel + 1) 0 a phi1 lam1 phi2 lam2 = some (.error .zeroDivisionError) := by
  rw [centralAngle_eq, sin_vSigma, sqrt_eq_zero (vSqr_nonneg _ _ _)] at hs
  unfold vincDist
  rw [if_neg hne]
  simp only
  rw [arctan_reduced h1, arctan_reduced h2, vincLoop, if_pos (vincGoesOn_start _)]
  rw [vincStep_eq, if_pos hs]

/-- C58: on every ellipsoid two points of equal latitude whose longitudes differ by a full turn raise
`ZeroDivisionError`, though they are the same place. -/
theorem C58_wrapped (fuel : ℕ) (f a phi lam : ℝ) :
    vincDist (fuel + 1) f a phi lam phi (lam + 2 * π) = some (.error .zeroDivisionError) := by
  have hp := pi_gt_three
  unfold vincDist
  have e : lam + 2 * π - lam = 2 * π := by ring
  rw [e, if_neg (by rw [abs_of_pos (by linarith : (0 : ℝ) < 2 * π)]; rintro ⟨-, h⟩; linarith)]
  simp only
  rw [vincLoop, if_pos (vincGoesOn_start _)]
  rw [vincStep_eq, if_pos]
  unfold vSqr
  rw [sin_two_pi, cos_two_pi]
  ring

/-! Two places on the equator, a quarter of the circumference apart. -/
example : ∃ a12 a21, vincDist 1 0 6371000 0 0 0 (π / 2) =
      some (.ok (6371000 * (π / 2), a12, a21)) ∧
    Spec.Reached 0 0 a12 (π / 2) 0 (π / 2) ∧ Spec.Reached 0 (π / 2) a21 (π / 2) 0 0 := by
  have hp := pi_gt_three
  have hp4 := pi_le_four
  have hc : Spec.centralAngle 0 0 0 (π / 2) = π / 2 := by simp [Spec.centralAngle]
  have h := C58_sphere 0 6371000 0 0 0 (π / 2) (by simp; linarith) (by simp; linarith)
    (by rw [sub_zero, abs_of_pos (by linarith)]; linarith)
    (by rw [sub_zero, sub_zero, abs_of_pos (by linarith : (0 : ℝ) < π / 2)]; rintro ⟨-, h⟩; linarith)
    (by rw [hc, sin_pi_div_two]; norm_num)
  rwa [hc] at h

/-! ### C73 -/

theorem vincLength_flip (f a : ℝ) (st : VincState) :
    vincLength f a st.flip = vincLength f a st := by
  simp only [vincLength, VincState.flip, cos_neg]

/-- C73: the distance does not depend on the order of the two points: on every oblate ellipsoid the
formula stops after the same number of iterations, with the same distance or the same error. -/
theorem C73_symmetric (fuel : ℕ) (f a phi1 lam1 phi2 lam2 : ℝ) (hf0 : 0 ≤ f) (hf1 : f ≤ 1)
    (hl : |lam2 - lam1| ≤ 1000000) :
    (vincDist fuel f a phi2 lam2 phi1 lam1).map (Except.map Prod.fst) =
      (vincDist fuel f a phi1 lam1 phi2 lam2).map (Except.map Prod.fst) := by
  unfold vincDist
  rw [abs_sub_comm phi1 phi2, abs_sub_comm lam1 lam2]
  split_ifs with hc
  · rfl
  · simp only
    rw [show lam1 - lam2 = -(lam2 - lam1) by ring]
    generalize arctan ((1 - f) * tan phi1) = U1
    generalize arctan ((1 - f) * tan phi2) = U2
    generalize lam2 - lam1 = om at *
    have hloop : vincLoop f (-om) U2 U1 fuel (-4000000) (-om) none =
        (vincLoop f om U1 U2 fuel (-4000000) om none).map
          (Except.map (Option.map VincState.flip)) := by
      cases fuel with
      | zero => rw [vincLoop, vincLoop, if_pos (vincGoesOn_start _), if_pos (vincGoesOn_start _)]; rfl
      | succ n =>
        rw [vincLoop, vincLoop, if_pos (vincGoesOn_start _), if_pos (vincGoesOn_start _)]
        rw [vincStep_flip]
        cases hs : vincStep f om U1 U2 om with
        | error e => rfl
        | ok st' =>
          have hb : |st'.lam| ≤ 3000000 := by
            rw [vincStep_eq] at hs
            split_ifs at hs
            rw [Except.ok.injEq] at hs
            rw [← hs]
            have h1 := abs_vNext_sub_le hf0 hf1 om U1 U2 om
            have h2 := abs_add_le (vNext f om U1 U2 om - om) om
            rw [sub_add_cancel] at h2
            simp only
            linarith
          exact vincLoop_flip hf0 hf1 hl U1 U2 n om st'.lam (some st') (by linarith) hb
    rw [hloop]
    cases vincLoop f om U1 U2 fuel (-4000000) om none with
    | none => rfl
    | some r =>
      rcases r with e | st
      · rfl
      · rcases st with _ | st
        · rfl
        · simp only [Option.map_some, Except.map, vincLength_flip]

example : (vincDist 7 (1 / 298) 6378137 (1 / 2) 2 (1 / 3) 1).map (Except.map Prod.fst) =
      (vincDist 7 (1 / 298) 6378137 (1 / 3) 1 (1 / 2) 2).map (Except.map Prod.fst) :=
  C73_symmetric 7 _ _ _ _ _ _ (by norm_num) (by norm_num) (by norm_num)

/-! ### C74 -/

/-- The second eccentricity, squared, for a flattening of at most 1/200. -/
theorem ecc_bound {f a : ℝ} (hf0 : 0 ≤ f) (hf1 : f ≤ 1 / 200) (ha : 0 < a) :
    0 ≤ (a * a - a * (1 - f) * (a * (1 - f))) / (a * (1 - f) * (a * (1 - f))) ∧
    (a * a - a * (1 - f) * (a * (1 - f))) / (a * (1 - f) * (a * (1 - f))) ≤ 1 / 90 := by
  have hq : 0 < 1 - f := by linarith
  have hb : 0 < a * (1 - f) * (a * (1 - f)) := by positivity
  have ha2 : 0 < a * a := by positivity
  constructor
  · apply div_nonneg _ hb.le
    nlinarith [mul_nonneg ha2.le hf0, mul_nonneg (mul_nonneg ha2.le hf0) hq.le]
  · rw [div_le_iff₀ hb]
    have : a * a * (90 - 91 * (1 - f) ^ 2) ≤ 0 := by
      apply mul_nonpos_of_nonneg_of_nonpos ha2.le
      nlinarith
    nlinarith

theorem vincLength_bound {f a : ℝ} (hf0 : 0 ≤ f) (hf1 : f ≤ 1 / 200) (ha : 0 < a)
    {omega U1 U2 lam : ℝ} {st : VincState} (h : vincStep f omega U1 U2 lam = .ok st) :
    0 < st.sigma ∧ st.sigma ≤ π ∧ 99 / 100 * (a * (1 - f)) * st.sigma ≤ vincLength f a st ∧
      vincLength f a st ≤ 102 / 100 * (a * (1 - f)) * st.sigma := by
  rw [vincStep_eq] at h
  split_ifs at h with h0
  rw [Except.ok.injEq] at h
  rw [← h]
  have hb : 0 < a * (1 - f) := by apply mul_pos ha; linarith
  have hs0 : 0 < sqrt (vSqr U1 U2 lam) :=
    sqrt_pos.mpr (lt_of_le_of_ne (vSqr_nonneg _ _ _) (Ne.symm h0))
  have hsig : 0 < arccos (vCos U1 U2 lam) := by
    rcases (arccos_nonneg (vCos U1 U2 lam)).eq_or_lt with h' | h'
    · have := sin_vSigma U1 U2 lam
      rw [← h', sin_zero] at this
      linarith
    · exact h'
  have hle : sqrt (vSqr U1 U2 lam) ≤ arccos (vCos U1 U2 lam) := by
    rw [← sin_vSigma]; exact sin_le hsig.le
  have hcos : |vCos U1 U2 lam| ≤ 1 := abs_le.mpr (vCos_mem U1 U2 lam)
  have hm := abs_vCos2_le U1 U2 lam
  have hq0 := vSqr_nonneg U1 U2 lam
  have hq1 : vSqr U1 U2 lam ≤ 1 := by rw [vSqr_eq]; nlinarith [sq_nonneg (vCos U1 U2 lam)]
  refine ⟨hsig, arccos_le_pi _, ?_⟩
  unfold vincLength
  simp only
  obtain ⟨e0, e1⟩ := ecc_bound hf0 hf1 ha
  have c0 : 0 ≤ cos (arcsin (vSinAlpha U1 U2 lam)) ^ 2 := by positivity
  have c1 := cos_sq_le_one (arcsin (vSinAlpha U1 U2 lam))
  have hu0 : 0 ≤ cos (arcsin (vSinAlpha U1 U2 lam)) ^ 2 *
      (a * a - a * (1 - f) * (a * (1 - f))) / (a * (1 - f) * (a * (1 - f))) := by
    rw [mul_div_assoc]; positivity
  have hu1 : cos (arcsin (vSinAlpha U1 U2 lam)) ^ 2 *
      (a * a - a * (1 - f) * (a * (1 - f))) / (a * (1 - f) * (a * (1 - f))) ≤ 1 / 90 := by
    rw [mul_div_assoc]
    calc _ ≤ 1 * (1 / 90 : ℝ) := by gcongr
      _ = _ := one_mul _
  generalize cos (arcsin (vSinAlpha U1 U2 lam)) ^ 2 *
      (a * a - a * (1 - f) * (a * (1 - f))) / (a * (1 - f) * (a * (1 - f))) = u at *
  generalize a * (1 - f) = b at *
  generalize vCos2 U1 U2 lam = m at *
  generalize vCos U1 U2 lam = cs at *
  generalize arccos cs = sig at *
  generalize vSqr U1 U2 lam = q at *
  generalize sqrt q = ss at *
  -- the series
  have hA0 : 0 ≤ 320 - 175 * u := by linarith
  have hA : 1 ≤ 1 + u / 16384 * (4096 + u * (-768 + u * (320 - 175 * u))) ∧
      1 + u / 16384 * (4096 + u * (-768 + u * (320 - 175 * u))) ≤ 1 + 1 / 300 := by
    have t1 : 0 ≤ u * (320 - 175 * u) := by positivity
    have t2 : u * (320 - 175 * u) ≤ 768 := by nlinarith
    have t3 : 0 ≤ 4096 + u * (-768 + u * (320 - 175 * u)) := by nlinarith
    have t4 : 4096 + u * (-768 + u * (320 - 175 * u)) ≤ 4096 := by nlinarith
    constructor
    · have : 0 ≤ u / 16384 * (4096 + u * (-768 + u * (320 - 175 * u))) := by positivity
      linarith
    · nlinarith
  have hB : 0 ≤ u / 1024 * (256 + u * (-128 + u * (74 - 47 * u))) ∧
      u / 1024 * (256 + u * (-128 + u * (74 - 47 * u))) ≤ 1 / 360 := by
    have t0 : 0 ≤ 74 - 47 * u := by linarith
    have t1 : 0 ≤ u * (74 - 47 * u) := by positivity
    have t2 : u * (74 - 47 * u) ≤ 128 := by nlinarith
    have t3 : 0 ≤ 256 + u * (-128 + u * (74 - 47 * u)) := by nlinarith
    have t4 : 256 + u * (-128 + u * (74 - 47 * u)) ≤ 256 := by nlinarith
    constructor
    · positivity
    · nlinarith
  generalize 1 + u / 16384 * (4096 + u * (-768 + u * (320 - 175 * u))) = A at *
  generalize u / 1024 * (256 + u * (-128 + u * (74 - 47 * u))) = B at *
  obtain ⟨hB0, hB1⟩ := hB
  have hmm : m ^ 2 ≤ 9 := by rw [abs_le] at hm; nlinarith [hm.1, hm.2]
  have hm2 : |-1 + 2 * m ^ 2| ≤ 19 := by
    rw [abs_le]; constructor <;> nlinarith [sq_nonneg m]
  have hm4 : |-3 + 4 * m ^ 2| ≤ 33 := by
    rw [abs_le]; constructor <;> nlinarith [sq_nonneg m]
  have hq4 : |-3 + 4 * q| ≤ 3 := by
    rw [abs_le]; constructor <;> linarith
  have x1 : |B / 6 * m * (-3 + 4 * q) * (-3 + 4 * m ^ 2)| ≤ 1 := by
    rw [abs_mul, abs_mul, abs_mul, abs_of_nonneg (show 0 ≤ B / 6 by positivity)]
    calc B / 6 * |m| * |-3 + 4 * q| * |-3 + 4 * m ^ 2| ≤ (1 / 360) / 6 * 3 * 3 * 33 := by gcongr
      _ ≤ 1 := by norm_num
  have x2 : |cs * (-1 + 2 * m ^ 2)| ≤ 19 := by
    rw [abs_mul]
    calc |cs| * |-1 + 2 * m ^ 2| ≤ 1 * 19 := by gcongr
      _ = 19 := by norm_num
  have x3 : |B / 4 * (cs * (-1 + 2 * m ^ 2) - B / 6 * m * (-3 + 4 * q) * (-3 + 4 * m ^ 2))| ≤
      1 / 10 := by
    rw [abs_mul, abs_of_nonneg (show 0 ≤ B / 4 by positivity)]
    calc B / 4 * |cs * (-1 + 2 * m ^ 2) - B / 6 * m * (-3 + 4 * q) * (-3 + 4 * m ^ 2)|
        ≤ (1 / 360) / 4 * (19 + 1) := by
          gcongr
          exact (abs_sub _ _).trans (add_le_add x2 x1)
      _ ≤ 1 / 10 := by norm_num
  have x4 : |m + B / 4 * (cs * (-1 + 2 * m ^ 2) -
      B / 6 * m * (-3 + 4 * q) * (-3 + 4 * m ^ 2))| ≤ 31 / 10 :=
    (abs_add_le _ _).trans (by linarith)
  generalize m + B / 4 * (cs * (-1 + 2 * m ^ 2) -
      B / 6 * m * (-3 + 4 * q) * (-3 + 4 * m ^ 2)) = X at *
  have x5 : |B * ss * X| ≤ 1 / 100 * sig := by
    rw [abs_mul, abs_mul, abs_of_nonneg hB0, abs_of_pos hs0]
    calc B * ss * |X| ≤ 1 / 360 * sig * (31 / 10) := by gcongr
      _ = 31 / 3600 * sig := by ring
      _ ≤ 1 / 100 * sig := by linarith
  rw [abs_le] at x5
  have y1 : 99 / 100 * sig ≤ sig - B * ss * X := by linarith [x5.2]
  have y2 : sig - B * ss * X ≤ 101 / 100 * sig := by linarith [x5.1]
  generalize sig - B * ss * X = D at *
  obtain ⟨hA1, hA2⟩ := hA
  constructor
  · calc 99 / 100 * b * sig = b * 1 * (99 / 100 * sig) := by ring
      _ ≤ b * A * D := by gcongr
  · have hD0 : 0 ≤ D := by linarith
    have hbs : 0 < b * sig := mul_pos hb hsig
    calc b * A * D ≤ b * (1 + 1 / 300) * (101 / 100 * sig) := by gcongr
      _ = (1 + 1 / 300) * (101 / 100) * (b * sig) := by ring
      _ ≤ 102 / 100 * (b * sig) := by linarith
      _ = 102 / 100 * b * sig := by ring

/-- C74: on an ellipsoid with a flattening of at most 1/200 (the Earth's is about 1/298) the distance
is positive, unless the points are closer than `1e-8` in both coordinates, and at most 1.02 times
half the circumference of a circle with the polar radius. -/
theorem C74_positive {fuel : ℕ} {f a phi1 lam1 phi2 lam2 s a12 a21 : ℝ} (hf0 : 0 ≤ f)
    (hf1 : f ≤ 1 / 200) (ha : 0 < a)
    (hne : ¬ (|phi2 - phi1| < 1 / 100000000 ∧ |lam2 - lam1| < 1 / 100000000))
    (h : vincDist fuel f a phi1 lam1 phi2 lam2 = some (.ok (s, a12, a21))) :
    0 < s ∧ s ≤ 102 / 100 * (π * (a * (1 - f))) := by
  rcases vincDist_cases h with ⟨-, -, -, hc⟩ | ⟨st, y, x, y', x', hst, rfl, -, -⟩
  · exact absurd hc hne
  · have hb : 0 < a * (1 - f) := by apply mul_pos ha; linarith
    obtain ⟨h1, h2, h3, h4⟩ := vincLoop_ok
      (Q := fun st => 0 < st.sigma ∧ st.sigma ≤ π ∧
        99 / 100 * (a * (1 - f)) * st.sigma ≤ vincLength f a st ∧
        vincLength f a st ≤ 102 / 100 * (a * (1 - f)) * st.sigma)
      (fun lam st' h' => vincLength_bound hf0 hf1 ha h') fuel _ _ none _
      (by rintro s hs; cases hs) hst st rfl
    refine ⟨lt_of_lt_of_le ?_ h3, h4.trans ?_⟩
    · positivity
    · calc 102 / 100 * (a * (1 - f)) * st.sigma ≤ 102 / 100 * (a * (1 - f)) * π := by gcongr
        _ = _ := by ring

theorem abs_arctan_sub_pos {x y : ℝ} (h : x ≠ y) : sin (arctan x - arctan y) ≠ 0 := by
  have hx := arctan_mem_Ioo x
  have hy := arctan_mem_Ioo y
  intro h0
  have := (sin_eq_zero_iff_of_lt_of_lt (by linarith [hx.1, hy.2]) (by linarith [hx.2, hy.1])).mp h0
  exact h (arctan_injective (by linarith))

end WindMult
