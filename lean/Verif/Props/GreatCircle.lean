import Verif.Props.VincentyDirect

/-!
# C91: `GreatCircle`
-/

set_option autoImplicit false

namespace WindMult
open Real

/-- The haversine formula gives the central angle. -/
theorem haversine_eq (lat1 lon1 lat2 lon2 : ℝ) :
    haversine lat1 lon1 lat2 lon2 = Spec.centralAngle lat1 lon1 lat2 lon2 := by
  rw [centralAngle_eq]
  have h0 := arccos_nonneg (vCos lat1 lat2 (lon2 - lon1))
  have h1 := arccos_le_pi (vCos lat1 lat2 (lon2 - lon1))
  have hc := cos_vSigma lat1 lat2 (lon2 - lon1)
  generalize hs : arccos (vCos lat1 lat2 (lon2 - lon1)) = s at *
  have e : sin ((lat1 - lat2) / 2) ^ 2 + cos lat1 * cos lat2 * sin ((lon1 - lon2) / 2) ^ 2 =
      sin (s / 2) ^ 2 := by
    have a1 : sin ((lat1 - lat2) / 2) ^ 2 = (1 - cos (lat1 - lat2)) / 2 := by
      rw [show lat1 - lat2 = 2 * ((lat1 - lat2) / 2) by ring, cos_two_mul, cos_sq']; ring_nf
    have a2 : sin ((lon1 - lon2) / 2) ^ 2 = (1 - cos (lon2 - lon1)) / 2 := by
      rw [← cos_neg (lon2 - lon1), show -(lon2 - lon1) = 2 * ((lon1 - lon2) / 2) by ring,
        cos_two_mul, cos_sq']; ring
    have a3 : sin (s / 2) ^ 2 = (1 - cos s) / 2 := by
      rw [show s = 2 * (s / 2) by ring, cos_two_mul, cos_sq']; ring_nf
    rw [a1, a2, a3, hc, cos_sub lat1]
    unfold vCos
    ring
  unfold haversine
  rw [e, sqrt_sq (sin_nonneg_of_nonneg_of_le_pi (by linarith) (by linarith)),
    arcsin_sin (by linarith) (by linarith)]
  ring

theorem degrees_radians (x : ℝ) : degrees (radians x) = x := by
  have := pi_ne_zero
  unfold degrees radians
  field_simp

theorem radians_degrees (x : ℝ) : radians (degrees x) = x := by
  have := pi_ne_zero
  unfold degrees radians
  field_simp

/-- What the constructor stores. -/
theorem greatCircle_cases {fuel : ℕ} {rmajor rminor lon1 lat1 lon2 lat2 : ℝ} {g : GreatCircle}
    (h : greatCircle fuel rmajor rminor lon1 lat1 lon2 lat2 = some (.ok g)) :
    rmajor ≠ 0 ∧ g.a = rmajor ∧ g.f = (rmajor - rminor) / rmajor ∧ g.lat1 = radians lat1 ∧
    g.lat2 = radians lat2 ∧ g.lon1 = radians lon1 ∧ g.lon2 = radians lon2 ∧
    g.gcarclen = Spec.centralAngle (radians lat1) (radians lon1) (radians lat2) (radians lon2) ∧
    vincDist fuel ((rmajor - rminor) / rmajor) rmajor (radians lat1) (radians lon1) (radians lat2)
      (radians lon2) = some (.ok (g.distance, g.azimuth12, g.azimuth21)) := by
  unfold greatCircle at h
  by_cases h0 : rmajor = 0
  · rw [if_pos h0] at h; cases h
  simp only [if_neg h0] at h
  split at h
  · cases h
  · cases h
  · rename_i d a12 a21 hd
    simp only [Option.some.injEq, Except.ok.injEq] at h
    subst h
    exact ⟨h0, rfl, rfl, rfl, rfl, rfl, rfl, haversine_eq .., hd⟩

/-- **C91** One point or none is a `ValueError`; two points are the end points. -/
theorem C91_few_points (fuel fuel' : ℕ) (rmajor rminor lon1 lat1 lon2 lat2 : ℝ) (g : GreatCircle)
    (h : greatCircle fuel rmajor rminor lon1 lat1 lon2 lat2 = some (.ok g)) :
    (∀ n ≤ 1, g.points fuel' n = some (.error .valueError)) ∧
    g.points fuel' 2 = some (.ok [some (lon1, lat1), some (lon2, lat2)]) := by
  obtain ⟨-, -, -, h1, h2, h3, h4, -⟩ := greatCircle_cases h
  constructor
  · intro n hn
    unfold GreatCircle.points
    rw [if_pos hn]
  · unfold GreatCircle.points
    rw [if_neg (by norm_num), if_pos rfl, h1, h2, h3, h4]
    simp only [degrees_radians]

/-- The point at a fraction of the way: unit vector. -/
theorem slerp_unit {c d p q : ℝ} (hd : sin d ≠ 0) (hpq : p + q = d) (hc : cos d = c) :
    (sin p / sin d) ^ 2 + (sin q / sin d) ^ 2 + 2 * (sin p / sin d) * (sin q / sin d) * c = 1 ∧
    sin p / sin d + sin q / sin d * c = cos q ∧ sin p / sin d * c + sin q / sin d = cos p := by
  subst hpq hc
  have p1 := sin_sq_add_cos_sq p
  have p2 := sin_sq_add_cos_sq q
  refine ⟨?_, ?_, ?_⟩
  · field_simp
    rw [sin_add, cos_add]
    linear_combination (-sin p ^ 2) * p2 + (-sin q ^ 2) * p1
  · field_simp
    rw [sin_add, cos_add]
    linear_combination (-sin p) * p2
  · field_simp
    rw [sin_add, cos_add]
    linear_combination (-sin q) * p1

/-- The point at the fraction `t` of the way. -/
theorem sphereAt_spec (g : GreatCircle)
    (hg : g.gcarclen = Spec.centralAngle g.lat1 g.lon1 g.lat2 g.lon2) (hs : sin g.gcarclen ≠ 0) (t : ℝ)
    (ht0 : 0 ≤ t) (ht1 : t ≤ 1) :
    ∃ lon lat, sphereAt g t = some (lon, lat) ∧ |lat| ≤ 90 ∧ (-180 < lon ∧ lon ≤ 180) ∧
      Spec.centralAngle g.lat1 g.lon1 (radians lat) (radians lon) = t * g.gcarclen ∧
      Spec.centralAngle (radians lat) (radians lon) g.lat2 g.lon2 = (1 - t) * g.gcarclen := by
  unfold sphereAt
  simp only
  rw [if_neg hs]
  have hd0 : 0 ≤ g.gcarclen := by rw [hg]; exact arccos_nonneg _
  have hd1 : g.gcarclen ≤ π := by rw [hg]; exact arccos_le_pi _
  have hc : cos g.gcarclen = cos g.lat1 * cos g.lon1 * (cos g.lat2 * cos g.lon2) +
      cos g.lat1 * sin g.lon1 * (cos g.lat2 * sin g.lon2) + sin g.lat1 * sin g.lat2 := by
    have := cos_vSigma g.lat1 g.lat2 (g.lon2 - g.lon1)
    rw [← centralAngle_eq, ← hg] at this
    rw [this]
    unfold vCos
    rw [cos_sub]
    ring
  obtain ⟨u1, u2, u3⟩ := slerp_unit hs (show (1 - t) * g.gcarclen + t * g.gcarclen = g.gcarclen by ring) hc
  generalize sin ((1 - t) * g.gcarclen) / sin g.gcarclen = A at *
  generalize sin (t * g.gcarclen) / sin g.gcarclen = B at *
  generalize hx : A * cos g.lat1 * cos g.lon1 + B * cos g.lat2 * cos g.lon2 = x at *
  generalize hy : A * cos g.lat1 * sin g.lon1 + B * cos g.lat2 * sin g.lon2 = y at *
  generalize hz : A * sin g.lat1 + B * sin g.lat2 = z at *
  have n1 := sin_sq_add_cos_sq g.lat1
  have n2 := sin_sq_add_cos_sq g.lon1
  have n3 := sin_sq_add_cos_sq g.lat2
  have n4 := sin_sq_add_cos_sq g.lon2
  have hunit : x ^ 2 + y ^ 2 + z ^ 2 = 1 := by
    rw [← u1, ← hx, ← hy, ← hz]
    linear_combination A ^ 2 * n1 + A ^ 2 * cos g.lat1 ^ 2 * n2 + B ^ 2 * n3 +
      B ^ 2 * cos g.lat2 ^ 2 * n4
  have hR0 := sqrt_nonneg (x ^ 2 + y ^ 2)
  have hR2 : sqrt (x ^ 2 + y ^ 2) ^ 2 = x ^ 2 + y ^ 2 := sq_sqrt (by positivity)
  obtain ⟨l1, l2⟩ := atan2_polar y x
  obtain ⟨m1, m2⟩ := atan2_polar_of zero_le_one (show sqrt (x ^ 2 + y ^ 2) ^ 2 + z ^ 2 = 1 ^ 2 by
    rw [hR2]; linarith)
  rw [one_mul] at m1 m2
  have hpi := pi_pos
  have hlat := abs_le.mp (abs_atan2_le (y := z) hR0)
  have hlon := atan2_mem y x
  refine ⟨_, _, rfl, ?_, ⟨?_, ?_⟩, ?_, ?_⟩
  · unfold degrees
    rw [abs_le]
    constructor
    · rw [le_div_iff₀ hpi]; linarith
    · rw [div_le_iff₀ hpi]; linarith
  · unfold degrees; rw [lt_div_iff₀ hpi]; linarith
  · unfold degrees; rw [div_le_iff₀ hpi]; linarith
  · rw [radians_degrees, radians_degrees]
    unfold Spec.centralAngle
    rw [m1, m2, l1, l2, ← arccos_cos (mul_nonneg ht0 hd0)
      ((mul_le_of_le_one_left hd0 ht1).trans hd1), ← u2]
    congr 1
    rw [← hx, ← hy, ← hz]
    linear_combination A * n1 + A * cos g.lat1 ^ 2 * n2 + 0 * n3
  · rw [radians_degrees, radians_degrees]
    unfold Spec.centralAngle
    rw [m1, m2, l1, l2, ← arccos_cos (mul_nonneg (sub_nonneg.mpr ht1) hd0)
      ((mul_le_of_le_one_left hd0 (by linarith)).trans hd1), ← u3]
    congr 1
    rw [← hx, ← hy, ← hz]
    linear_combination B * n3 + B * cos g.lat2 ^ 2 * n4 + 0 * n1

/-- **C91** On a sphere, for points that are neither (nearly) the same nor opposite, the points lie at
equal distances on the great circle: the `k`-th of `n` is `k / (n - 1)` of the way from the first to the
second point. -/
theorem C91_sphere (fuel fuel' : ℕ) (r lon1 lat1 lon2 lat2 : ℝ) (hr : r ≠ 0) (h1 : |lat1| < 90)
    (h2 : |lat2| < 90) (hl : |lon2 - lon1| ≤ 360)
    (hne : ¬ (|radians lat2 - radians lat1| < 1 / 100000000 ∧
      |radians lon2 - radians lon1| < 1 / 100000000))
    (d : ℝ) (hd : d = Spec.centralAngle (radians lat1) (radians lon1) (radians lat2) (radians lon2))
    (hd0 : 0 < d) (hd1 : d < π) (n : ℕ) (hn : 3 ≤ n) :
    ∃ g l, greatCircle (fuel + 1) r r lon1 lat1 lon2 lat2 = some (.ok g) ∧ g.distance = r * d ∧
      g.points fuel' n = some (.ok l) ∧ l.length = n ∧
      ∀ k < n, ∃ lon lat, l[k]? = some (some (lon, lat)) ∧ |lat| ≤ 90 ∧ (-180 < lon ∧ lon ≤ 180) ∧
        Spec.centralAngle (radians lat1) (radians lon1) (radians lat) (radians lon) =
          k / (n - 1 : ℝ) * d ∧
        Spec.centralAngle (radians lat) (radians lon) (radians lat2) (radians lon2) =
          (n - 1 - k) / (n - 1 : ℝ) * d := by
  have hpi := pi_pos
  have hrad : ∀ x : ℝ, |x| < 90 → |radians x| < π / 2 := by
    intro x hx
    unfold radians
    rw [abs_lt] at *
    constructor
    · rw [lt_div_iff₀ (by norm_num)]; nlinarith
    · rw [div_lt_iff₀ (by norm_num)]; nlinarith
  have hsin : 0 < sin d := sin_pos_of_pos_of_lt_pi hd0 hd1
  obtain ⟨a12, a21, hv, -⟩ := C58_sphere fuel r (radians lat1) (radians lon1) (radians lat2)
    (radians lon2) (hrad _ h1) (hrad _ h2)
    (by
      have : radians lon2 - radians lon1 = (lon2 - lon1) * (π / 180) := by unfold radians; ring
      rw [this, abs_mul, abs_of_pos (by positivity : 0 < π / 180)]
      nlinarith [pi_le_four, abs_nonneg (lon2 - lon1)]) hne (by rw [← hd]; exact hsin.ne')
  have hg : ∃ g, greatCircle (fuel + 1) r r lon1 lat1 lon2 lat2 = some (.ok g) ∧
      g.distance = r * d := by
    refine ⟨⟨r, 0, radians lat1, radians lat2, radians lon1, radians lon2, r * d, a12, a21,
      haversine (radians lat1) (radians lon1) (radians lat2) (radians lon2)⟩, ?_, rfl⟩
    unfold greatCircle
    rw [if_neg hr]
    simp only [sub_self, zero_div, hv, hd]
  obtain ⟨g, hg, hdist⟩ := hg
  obtain ⟨-, g1, g2, g3, g4, g5, g6, g7, -⟩ := greatCircle_cases hg
  rw [sub_self, zero_div] at g2
  rw [← hd] at g7
  refine ⟨g, (List.range n).map fun k : ℕ => sphereAt g (1 / ((n : ℝ) - 1) * k), hg, hdist, ?_, by simp,
    ?_⟩
  · unfold GreatCircle.points
    rw [if_neg (by omega), if_neg (by omega), if_neg (by rw [g7]; exact hd1.ne), if_pos g2]
    simp
  · intro k hk
    have hn' : (0 : ℝ) < n - 1 := by
      have : (3 : ℝ) ≤ n := by exact_mod_cast hn
      linarith
    have hk' : (k : ℝ) ≤ n - 1 := by
      have : ((k + 1 : ℕ) : ℝ) ≤ n := by exact_mod_cast hk
      push_cast at this
      linarith
    obtain ⟨lon, lat, s1, s2, s3, s4, s5⟩ := sphereAt_spec g
      (by rw [g7, g3, g4, g5, g6]; exact hd) (by rw [g7]; exact hsin.ne') (1 / ((n : ℝ) - 1) * k)
      (by positivity) (by rw [one_div, inv_mul_le_iff₀ hn']; linarith)
    refine ⟨lon, lat, ?_, s2, s3, ?_, ?_⟩
    · rw [List.getElem?_map, List.getElem?_range hk, Option.map_some, s1]
    · rw [← g3, ← g5, s4, g7]; ring
    · rw [← g4, ← g6, s5, g7]; field_simp

/-- A quarter of the equator in three parts. -/
example : ∃ g l, greatCircle 1 6371000 6371000 0 0 90 0 = some (.ok g) ∧
    g.distance = 6371000 * (π / 2) ∧ g.points 0 (4 : ℕ) = some (.ok l) ∧ l.length = 4 := by
  have hc : π / 2 = Spec.centralAngle (radians 0) (radians 0) (radians 0) (radians 90) := by
    have : (90 : ℝ) * π / 180 = π / 2 := by ring
    simp [Spec.centralAngle, radians, this]
  obtain ⟨g, l, h1, h2, h3, h4, -⟩ := C91_sphere 0 0 6371000 0 0 90 0 (by norm_num) (by norm_num)
    (by norm_num) (by norm_num)
    (by
      rintro ⟨-, h⟩
      have : radians 90 - radians 0 = π / 2 := by unfold radians; ring
      rw [this, abs_of_pos (by positivity)] at h
      linarith [pi_gt_three]) _ hc (by positivity) (by linarith [pi_pos]) 4 (by norm_num)
  exact ⟨g, l, h1, h2, h3, h4⟩

/-- **C91** The check for opposite points comes too late: the constructor has failed before, with
`ZeroDivisionError` (in exact arithmetic). -/
theorem C91_never_antipodal (fuel : ℕ) (rmajor rminor lon1 lat1 lon2 lat2 : ℝ) (g : GreatCircle)
    (h1 : |lat1| < 90) (h2 : |lat2| < 90)
    (h : greatCircle fuel rmajor rminor lon1 lat1 lon2 lat2 = some (.ok g)) : g.gcarclen ≠ π := by
  intro hpi
  obtain ⟨-, -, -, -, -, -, -, g7, hv⟩ := greatCircle_cases h
  have hrad : ∀ x : ℝ, |x| < 90 → |radians x| < π / 2 := by
    intro x hx
    have := pi_pos
    unfold radians
    rw [abs_lt] at *
    constructor
    · rw [lt_div_iff₀ (by norm_num)]; nlinarith
    · rw [div_lt_iff₀ (by norm_num)]; nlinarith
  have k1 := hrad _ h1
  have k2 := hrad _ h2
  rw [g7, centralAngle_eq] at hpi
  generalize radians lat1 = p1 at *
  generalize radians lat2 = p2 at *
  have hc := cos_vSigma p1 p2 (radians lon2 - radians lon1)
  rw [hpi, cos_pi] at hc
  have hcp1 : 0 < cos p1 := cos_pos_of_mem_Ioo (abs_lt.mp k1)
  have hcp2 : 0 < cos p2 := cos_pos_of_mem_Ioo (abs_lt.mp k2)
  have hcd := neg_one_le_cos (radians lon2 - radians lon1)
  have hdir : |radians lon2 - radians lon1| ≥ 1 := by
    by_contra hlt
    push Not at hlt
    have hd : 0 < cos (radians lon2 - radians lon1) := cos_pos_of_mem_Ioo (by
      rw [abs_lt] at hlt
      constructor <;> linarith [pi_gt_three])
    have : -1 < vCos p1 p2 (radians lon2 - radians lon1) := by
      unfold vCos
      have a1 : 0 < cos p1 * cos p2 * cos (radians lon2 - radians lon1) := by positivity
      have a2 := abs_le.mp (abs_sin_le_one p1)
      have a3 := abs_le.mp (abs_sin_le_one p2)
      nlinarith [sq_nonneg (sin p1 + sin p2), sin_sq_le_one p1, sin_sq_le_one p2]
    linarith
  generalize hD : radians lon2 - radians lon1 = D at *
  unfold vCos at hc
  have hsum : cos (p1 + p2) = 1 := by
    apply le_antisymm (cos_le_one _)
    rw [cos_add]
    nlinarith [mul_pos hcp1 hcp2]
  have hp : p2 = -p1 := by
    rw [abs_lt] at k1 k2
    have := (cos_eq_one_iff_of_lt_of_lt (by linarith) (by linarith)).mp hsum
    linarith
  have hcD : cos D = -1 := by
    rw [hp, cos_neg, sin_neg] at hc
    have := sin_sq_add_cos_sq p1
    have e : cos p1 ^ 2 * (cos D + 1) = 0 := by linear_combination -hc + this
    rcases mul_eq_zero.mp e with h | h
    · exact absurd h (by positivity)
    · linarith
  rcases vincDist_cases hv with ⟨-, -, -, -, h'⟩ | ⟨st, _, _, _, _, hst, -⟩
  · rw [hD] at h'; linarith
  · rw [hD, hp, tan_neg, mul_neg, arctan_neg] at hst
    have hz : ∀ U : ℝ, vSqr U (-U) D = 0 := by
      intro U
      rw [vSqr_eq]
      unfold vCos
      rw [hcD, sin_neg, cos_neg]
      have := sin_sq_add_cos_sq U
      have e : sin U * -sin U + cos U * cos U * -1 = -1 := by linarith
      rw [e]; norm_num
    cases fuel with
    | zero => rw [vincLoop, if_pos (vincGoesOn_start _)] at hst; cases hst
    | succ m =>
      rw [vincLoop, if_pos (vincGoesOn_start _), vincStep_eq, if_pos (hz _)] at hst
      cases hst

/-- **C91** For an end point equal to the first the points on a sphere are not numbers. -/
theorem C91_same_place (fuel fuel' : ℕ) (r lon lat : ℝ) (hr : r ≠ 0) (n : ℕ) (hn : 3 ≤ n) :
    ∃ g l, greatCircle fuel r r lon lat lon lat = some (.ok g) ∧ g.points fuel' n = some (.ok l) ∧
      l = List.replicate n none := by
  have hv := C58_coincident fuel 0 r (radians lat) (radians lon) (radians lat) (radians lon) (by simp)
    (by simp)
  have hc : haversine (radians lat) (radians lon) (radians lat) (radians lon) = 0 := by
    simp [haversine]
  refine ⟨⟨r, 0, radians lat, radians lat, radians lon, radians lon, 0, 0, 0, 0⟩, _, ?_, ?_, rfl⟩
  · unfold greatCircle
    rw [if_neg hr]
    simp only [sub_self, zero_div, hv, hc]
  · unfold GreatCircle.points
    rw [if_neg (by omega), if_neg (by omega), if_neg pi_ne_zero.symm, if_pos rfl]
    simp [sphereAt]

theorem ellipsoidLoop_length {fuel : ℕ} {g : GreatCircle} {inc : ℝ} (n : ℕ) {lat lon az : ℝ}
    {l : List (ℝ × ℝ)} (h : ellipsoidLoop fuel g inc n lat lon az = some (.ok l)) : l.length = n := by
  induction n generalizing lat lon az l with
  | zero => simp only [ellipsoidLoop, Option.some.injEq, Except.ok.injEq] at h; rw [← h]; rfl
  | succ n ih =>
    rw [ellipsoidLoop] at h
    split at h
    · cases h
    · cases h
    · split at h
      · cases h
      · cases h
      · split at h
        · cases h
        · cases h
        · rename_i hl
          simp only [Option.some.injEq, Except.ok.injEq] at h
          rw [← h, List.length_cons, ih hl]

/-- **C91** On an ellipsoid, if no error occurs, there are as many points as asked for, the first and the
last are the end points. -/
theorem C91_ellipsoid (fuel fuel' : ℕ) (rmajor rminor lon1 lat1 lon2 lat2 : ℝ) (g : GreatCircle)
    (hne : rmajor ≠ rminor) (h : greatCircle fuel rmajor rminor lon1 lat1 lon2 lat2 = some (.ok g))
    (n : ℕ) (hn : 3 ≤ n) (l : List (Option (ℝ × ℝ))) (hl : g.points fuel' n = some (.ok l)) :
    l.length = n ∧ l[0]? = some (some (lon1, lat1)) ∧ l[n - 1]? = some (some (lon2, lat2)) := by
  obtain ⟨h0, -, g2, g3, g4, g5, g6, -⟩ := greatCircle_cases h
  have hf : g.f ≠ 0 := by rw [g2]; exact div_ne_zero (sub_ne_zero.mpr hne) h0
  unfold GreatCircle.points at hl
  rw [if_neg (by omega), if_neg (by omega)] at hl
  by_cases ha : g.gcarclen = π
  · rw [if_pos ha] at hl; cases hl
  rw [if_neg ha, if_neg hf] at hl
  split at hl
  · cases hl
  · cases hl
  · rename_i l' hl'
    simp only [Option.some.injEq, Except.ok.injEq] at hl
    have hlen := ellipsoidLoop_length _ hl'
    rw [g3, g4, g5, g6] at hl
    simp only [degrees_radians] at hl
    subst hl
    have e : n - 1 = (some (lon1, lat1) :: List.map some l').length := by simp [hlen]; omega
    refine ⟨by simp [hlen]; omega, by simp, ?_⟩
    rw [e, List.getElem?_append_right le_rfl]
    simp

/-! ### The equator of an ellipsoid -/

/-- The state after an iteration on the equator. -/
noncomputable def equatorState (f omega lam : ℝ) : VincState :=
  { sqrSinSigma := sin lam ^ 2, sinSigma := sin lam, cosSigma := cos lam, sigma := lam, alpha := π / 2,
    cos2SigmaM := cos lam, lam := omega + f * lam }

theorem vincStep_equator {f omega lam : ℝ} (h0 : 0 < lam) (h1 : lam < π) :
    vincStep f omega 0 0 lam = .ok (equatorState f omega lam) := by
  have hs : 0 < sin lam := sin_pos_of_pos_of_lt_pi h0 h1
  have e1 : vSqr 0 0 lam = sin lam ^ 2 := by simp [vSqr]
  have e2 : vCos 0 0 lam = cos lam := by simp [vCos]
  have e3 : vSinAlpha 0 0 lam = 1 := by
    simp [vSinAlpha, e1, sqrt_sq hs.le, div_self hs.ne']
  have e4 : vC f 0 0 lam = 0 := by simp [vC, e3]
  have e5 : vCos2 0 0 lam = cos lam := by simp [vCos2, e2]
  have e6 : vNext f omega 0 0 lam = omega + f * lam := by
    unfold vNext; rw [e2, e3, e4, arccos_cos h0.le h1.le]; ring
  rw [vincStep_eq, e1, if_neg (by positivity), e2, e3, e5, e6, sqrt_sq hs.le, arccos_cos h0.le h1.le,
    arcsin_one]
  rfl

theorem vincLoop_equator {f omega : ℝ} (hf0 : 0 ≤ f) (hf1 : f ≤ 1 / 200) (ho : 0 < omega)
    (ho1 : omega < π * (1 - f)) (fuel : ℕ) (last e : ℝ) (hl0 : omega ≤ last)
    (hl1 : last * (1 - f) ≤ omega) (he : omega - last * (1 - f) ≤ e * omega)
    (hfe : e ≤ 1 / 1000000000 * 200 ^ fuel) :
    ∃ x, vincLoop f omega 0 0 fuel last (omega + f * last) (some (equatorState f omega last)) =
        some (.ok (some (equatorState f omega x))) ∧ omega ≤ x ∧ x * (1 - f) ≤ omega ∧
      omega - x * (1 - f) ≤ 1 / 1000000000 * (omega + f * x) := by
  have hq : 0 < 1 - f := by linarith
  have hgo : vincGoesOn last (omega + f * last) ↔
      1 / 1000000000 * (omega + f * last) < omega - last * (1 - f) := by
    have hp : 0 < omega + f * last := by have := mul_nonneg hf0 (ho.le.trans hl0); linarith
    unfold vincGoesOn
    have e1 : last - (omega + f * last) = -(omega - last * (1 - f)) := by ring
    rw [e1, abs_div, abs_neg, abs_of_nonneg (by linarith : 0 ≤ omega - last * (1 - f)), abs_of_pos hp,
      gt_iff_lt, lt_div_iff₀ hp]
    constructor
    · rintro (h | h)
      · linarith
      · exact h.2
    · exact fun h => Or.inr ⟨hp.ne', h⟩
  induction fuel generalizing last e with
  | zero =>
    have hstop : ¬ vincGoesOn last (omega + f * last) := by
      rw [hgo]
      have := mul_nonneg hf0 (ho.le.trans hl0)
      rw [pow_zero, mul_one] at hfe
      nlinarith
    refine ⟨last, ?_, hl0, hl1, not_lt.mp (fun h => hstop (hgo.mpr h))⟩
    rw [vincLoop_stop _ _ _ _ _ _ hstop]
  | succ fuel ih =>
    by_cases h : vincGoesOn last (omega + f * last)
    · have hp : 0 < last := lt_of_lt_of_le ho hl0
      have hx0 : omega ≤ omega + f * last := by have := mul_nonneg hf0 hp.le; linarith
      have hx2 : (omega + f * last) * (1 - f) ≤ omega := by
        have := mul_le_mul_of_nonneg_left hl1 hf0
        linarith
      have hx1 : omega + f * last < π := by nlinarith
      rw [vincLoop, if_pos h]
      simp only [vincStep_equator (f := f) (omega := omega) (lt_of_lt_of_le ho hx0) hx1]
      apply ih (omega + f * last) (e / 200) hx0 hx2
      · have e1 : omega - (omega + f * last) * (1 - f) = f * (omega - last * (1 - f)) := by ring
        rw [e1]
        have : f * (omega - last * (1 - f)) ≤ 1 / 200 * (e * omega) := by
          apply mul_le_mul hf1 he (by linarith) (by norm_num)
        linarith
      · rw [pow_succ] at hfe; linarith
      · have hp' : 0 < omega + f * (omega + f * last) := by
          have := mul_nonneg hf0 (ho.le.trans hx0); linarith
        unfold vincGoesOn
        have e1 : omega + f * last - (omega + f * (omega + f * last)) =
          -(omega - (omega + f * last) * (1 - f)) := by ring
        rw [e1, abs_div, abs_neg, abs_of_nonneg (by linarith :
          0 ≤ omega - (omega + f * last) * (1 - f)), abs_of_pos hp', gt_iff_lt, lt_div_iff₀ hp']
        constructor
        · rintro (h | h)
          · linarith
          · exact h.2
        · exact fun h => Or.inr ⟨hp'.ne', h⟩
    · refine ⟨last, ?_, hl0, hl1, not_lt.mp (fun h' => h (hgo.mpr h'))⟩
      rw [vincLoop_stop _ _ _ _ _ _ h]

theorem atan2_up {y : ℝ} (h : 0 < y) : atan2 y 0 = π / 2 := by
  have e : (⟨0, y⟩ : ℂ) = (y : ℝ) * Complex.I := by apply Complex.ext <;> simp
  unfold atan2
  rw [e, Complex.arg_real_mul _ h, Complex.arg_I]

/-- **C74** Along the equator of an ellipsoid the iteration of the inverse formula ends (four rounds
suffice), for all differences in longitude for which the equator is the shortest line: the distance is
the radius times the difference in longitude, up to two parts in `1e9`, and the azimuths are east and
west. -/
theorem C74_equator (fuel : ℕ) (hfuel : 4 ≤ fuel) (f a lam1 lam2 : ℝ) (hf0 : 0 ≤ f) (hf1 : f ≤ 1 / 200)
    (ha : 0 < a) (h0 : 1 / 100000000 ≤ lam2 - lam1) (h1 : lam2 - lam1 < π * (1 - f)) :
    ∃ d, vincDist fuel f a 0 lam1 0 lam2 = some (.ok (d, π / 2, 3 * π / 2)) ∧
      a * (lam2 - lam1) * (1 - 2 / 1000000000) ≤ d ∧ d ≤ a * (lam2 - lam1) := by
  obtain ⟨fuel, rfl⟩ : ∃ n, fuel = n + 1 := ⟨fuel - 1, by omega⟩
  generalize ho : lam2 - lam1 = omega at *
  have hop : 0 < omega := by linarith
  have hpi := pi_pos
  have hlt : omega < π := by nlinarith
  obtain ⟨x, hx, x0, x1, x2⟩ := vincLoop_equator hf0 hf1 hop h1 fuel omega (1 / 200) le_rfl
    (by nlinarith) (by nlinarith) (by
      calc (1 : ℝ) / 200 ≤ 1 / 1000000000 * 200 ^ 3 := by norm_num
        _ ≤ 1 / 1000000000 * 200 ^ fuel := by
          gcongr
          · norm_num
          · omega)
  have hst : vincLoop f omega 0 0 (fuel + 1) (-4000000) omega none =
      some (.ok (some (equatorState f omega x))) := by
    rw [vincLoop, if_pos (vincGoesOn_start _)]
    simp only [vincStep_equator (f := f) (omega := omega) hop hlt]
    exact hx
  have hxp : 0 < x := lt_of_lt_of_le hop x0
  have hlam0 : 0 < omega + f * x := by have := mul_nonneg hf0 hxp.le; linarith
  have hlam1 : omega + f * x < π := by
    have : omega + f * x ≤ x + 0 ∨ x ≤ omega + f * x := by
      rcases le_total (omega + f * x) x with h | h
      · left; linarith
      · right; exact h
    have hxpi : x < π := by
      by_contra hc
      push Not at hc
      nlinarith
    nlinarith
  have hsin : 0 < sin (omega + f * x) := sin_pos_of_pos_of_lt_pi hlam0 hlam1
  refine ⟨a * (1 - f) * x, ?_, ?_, ?_⟩
  · unfold vincDist
    rw [if_neg (by rintro ⟨-, h⟩; rw [ho, abs_of_pos hop] at h; linarith)]
    simp only [tan_zero, mul_zero, arctan_zero, ho, hst]
    have e1 : (equatorState f omega x).lam = omega + f * x := rfl
    have e2 : vincLength f a (equatorState f omega x) = a * (1 - f) * x := by
      simp [vincLength, equatorState]
    have e3 : vincNormalise (π / 2) = π / 2 := vincNormalise_mem' (by positivity) (by linarith)
    have e4 : vincNormalise (π / 2 + 2 * π / 2) = 3 * π / 2 := by
      rw [vincNormalise_mem' (by positivity) (by linarith)]; ring
    rw [e1, e2]
    simp only [cos_zero, sin_zero, one_mul, mul_zero, zero_mul, sub_zero, neg_zero, add_zero,
      atan2_up hsin, e3, e4]
  · have hfx : f * x ≤ omega := by nlinarith
    nlinarith
  · nlinarith

/-- The WGS84 ellipsoid, from Perth's longitude to Brisbane's along the equator. -/
example : ∃ d, vincDist 4 (1 / 298) 6378137 0 2 0 (5 / 2) = some (.ok (d, π / 2, 3 * π / 2)) ∧
    6378137 * (5 / 2 - 2) * (1 - 2 / 1000000000) ≤ d ∧ d ≤ 6378137 * (5 / 2 - 2) :=
  C74_equator 4 le_rfl _ _ _ _ (by norm_num) (by norm_num) (by norm_num) (by norm_num)
    (by nlinarith [pi_gt_three])

theorem ellipsoidLoop_equator (fuel : ℕ) (hfuel : 4 ≤ fuel) (g : GreatCircle) (hf0 : 0 ≤ g.f)
    (hf1 : g.f ≤ 1 / 200) (ha : 0 < g.a) (hlat : g.lat2 = 0) (inc : ℝ) (hinc0 : 0 < inc) (n : ℕ)
    (lon : ℝ) (hend : 1 / 100000000 ≤ g.lon2 - (lon + n * (inc / g.a)))
    (hfar : g.lon2 - lon < π * (1 - g.f)) (hinc1 : inc ≤ π * (g.a * (1 - g.f))) :
    ellipsoidLoop fuel g inc n 0 lon (π / 2) = some (.ok ((List.range n).map fun k : ℕ =>
      (degrees (lon + (k + 1 : ℕ) * (inc / g.a)), degrees 0))) := by
  have hia : 0 < inc / g.a := div_pos hinc0 ha
  obtain ⟨m, rfl⟩ : ∃ m, fuel = m + 1 := ⟨fuel - 1, by omega⟩
  induction n generalizing lon with
  | zero => simp [ellipsoidLoop]
  | succ n ih =>
    have hn : (0 : ℝ) ≤ n * (inc / g.a) := by positivity
    push_cast at hend
    obtain ⟨d, hd, -⟩ := C74_equator (m + 1) hfuel g.f g.a (lon + inc / g.a) g.lon2 hf0 hf1 ha
      (by linarith) (by linarith)
    rw [ellipsoidLoop, C89_equator m g.f g.a lon inc (by linarith) ha hinc0 hinc1]
    simp only
    rw [hlat, hd]
    simp only
    rw [ih (lon + inc / g.a) (by linarith) (by linarith)]
    simp only [List.range_succ_eq_map, List.map_cons, List.map_map, Option.some.injEq,
      Except.ok.injEq, List.cons.injEq]
    refine ⟨by simp, ?_⟩
    apply List.map_congr_left
    intro k _
    simp only [Function.comp]
    push_cast
    congr 2
    ring

/-- **C91** Along the equator of an ellipsoid (flattening at most 1/200, both ends on the equator, less
than half the way round, points at least `2e-8` radian apart) the intermediate points lie on the
equator at equal distances, the distance being that of the end points up to two parts in `1e9`. -/
theorem C91_equator (fuel : ℕ) (hfuel : 4 ≤ fuel) (rmajor rminor lon1 lon2 f : ℝ) (hr : 0 < rmajor)
    (hf : f = (rmajor - rminor) / rmajor) (hf0 : 0 < f) (hf1 : f ≤ 1 / 200) (n : ℕ) (hn : 3 ≤ n)
    (h0 : 1 / 50000000 * (n - 1) ≤ radians lon2 - radians lon1)
    (h1 : radians lon2 - radians lon1 < π * (1 - f)) :
    ∃ g d, greatCircle fuel rmajor rminor lon1 0 lon2 0 = some (.ok g) ∧
      |d - (lon2 - lon1)| ≤ 2 / 1000000000 * (lon2 - lon1) ∧
      g.points fuel n = some (.ok ((List.range (n - 1)).map (fun k : ℕ =>
        some (lon1 + k * (d / (n - 1)), 0)) ++ [some (lon2, 0)])) := by
  have hpi := pi_pos
  have hn3 : (3 : ℝ) ≤ n := by exact_mod_cast hn
  have hrad0 : radians 0 = 0 := by simp [radians]
  have hdeg0 : degrees 0 = 0 := by simp [degrees]
  obtain ⟨d, hd, d0, d1⟩ := C74_equator fuel hfuel f rmajor (radians lon1) (radians lon2) hf0.le hf1 hr
    (by nlinarith) h1
  have hD : radians lon2 - radians lon1 = (lon2 - lon1) * π / 180 := by unfold radians; ring
  have hDp : 0 < radians lon2 - radians lon1 := by nlinarith
  have hdp : 0 < d := lt_of_lt_of_le (by positivity) d0
  have hg : ∃ g, greatCircle fuel rmajor rminor lon1 0 lon2 0 = some (.ok g) ∧ g.distance = d ∧
      g.azimuth12 = π / 2 := by
    refine ⟨⟨rmajor, f, radians 0, radians 0, radians lon1, radians lon2, d, π / 2, 3 * π / 2,
      haversine (radians 0) (radians lon1) (radians 0) (radians lon2)⟩, ?_, rfl, rfl⟩
    unfold greatCircle
    rw [if_neg hr.ne']
    simp only [← hf, hrad0, hd]
  obtain ⟨g, hg, gd, gaz⟩ := hg
  obtain ⟨-, g1, g2, g3, g4, g5, g6, g7, -⟩ := greatCircle_cases hg
  rw [← hf] at g2
  rw [hrad0] at g3 g4
  have hanti := C91_never_antipodal fuel rmajor rminor lon1 0 lon2 0 g (by norm_num) (by norm_num) hg
  have hn1 : (0 : ℝ) < n - 1 := by linarith
  have hloop := ellipsoidLoop_equator fuel hfuel g (by rw [g2]; exact hf0.le) (by rw [g2]; exact hf1)
    (by rw [g1]; exact hr) g4 (d / (n - 1)) (by positivity) (n - 2) (radians lon1)
    (by
      rw [g1, g6]
      have hle : d / (n - 1) / rmajor ≤ (radians lon2 - radians lon1) / (n - 1) := by
        rw [div_div, div_le_div_iff₀ (by positivity) hn1]
        nlinarith
      have hc : ((n - 2 : ℕ) : ℝ) = n - 2 := by rw [Nat.cast_sub (by omega)]; norm_num
      rw [hc]
      have h2 : ((n : ℝ) - 2) * (d / (n - 1) / rmajor) ≤
          ((n : ℝ) - 2) * ((radians lon2 - radians lon1) / (n - 1)) := by
        apply mul_le_mul_of_nonneg_left hle; linarith
      have h3 : ((n : ℝ) - 2) * ((radians lon2 - radians lon1) / (n - 1)) =
          (radians lon2 - radians lon1) - (radians lon2 - radians lon1) / (n - 1) := by
        field_simp; ring
      have h4 : 1 / 50000000 ≤ (radians lon2 - radians lon1) / (n - 1) := by
        rwa [le_div_iff₀ hn1]
      linarith)
    (by rw [g6, g2]; exact h1)
    (by
      rw [g1, g2]
      have : d / (n - 1) ≤ d := div_le_self hdp.le (by linarith)
      nlinarith)
  refine ⟨g, d / rmajor * 180 / π, hg, ?_, ?_⟩
  · rw [abs_sub_comm, abs_le]
    have e : (lon2 - lon1) = (radians lon2 - radians lon1) * 180 / π := by rw [hD]; field_simp
    have k0 : (radians lon2 - radians lon1) * (1 - 2 / 1000000000) ≤ d / rmajor := by
      rw [le_div_iff₀ hr]; linarith
    have k1 : d / rmajor ≤ radians lon2 - radians lon1 := by
      rw [div_le_iff₀ hr]; linarith
    generalize d / rmajor = z at *
    have e2 : (lon2 - lon1) - z * 180 / π = ((radians lon2 - radians lon1) - z) * (180 / π) := by
      rw [e]; ring
    have e3 : 2 / 1000000000 * (lon2 - lon1) =
        (2 / 1000000000 * (radians lon2 - radians lon1)) * (180 / π) := by rw [e]; ring
    have hq : 0 < 180 / π := by positivity
    rw [e2, e3, ← neg_mul]
    constructor
    · apply mul_le_mul_of_nonneg_right _ hq.le; linarith
    · apply mul_le_mul_of_nonneg_right _ hq.le; linarith
  · unfold GreatCircle.points
    rw [if_neg (by omega), if_neg (by omega), if_neg hanti, if_neg (by rw [g2]; exact hf0.ne')]
    have hc : ((n : ℤ) - 2).toNat = n - 2 := by omega
    rw [hc, g3, g5, gd, gaz, Int.cast_natCast, hloop]
    simp only [g4, g6, degrees_radians, hdeg0]
    obtain ⟨m, rfl⟩ : ∃ m, n = m + 2 := ⟨n - 2, by omega⟩
    simp only [Nat.add_sub_cancel, show m + 2 - 1 = m + 1 by omega, List.range_succ_eq_map,
      List.map_cons, List.map_map, List.cons_append, Option.some.injEq, Except.ok.injEq, List.cons.injEq]
    refine ⟨by simp, ?_⟩
    congr 1
    apply List.map_congr_left
    intro k _
    simp only [Function.comp, Option.some.injEq, Prod.mk.injEq, and_true]
    unfold degrees radians
    rw [g1]
    push_cast
    field_simp

/-- From 110° to 155° east in five parts of nine degrees. -/
example : ∃ g d, greatCircle 4 6378137 (6378137 * (297 / 298)) 110 0 155 0 = some (.ok g) ∧
    |d - (155 - 110)| ≤ 2 / 1000000000 * (155 - 110) ∧
    g.points 4 (6 : ℕ) = some (.ok ((List.range (6 - 1)).map (fun k : ℕ =>
      some (110 + k * (d / ((6 : ℕ) - 1 : ℝ)), 0)) ++ [some (155, 0)])) := by
  have hp := pi_gt_three
  exact C91_equator 4 le_rfl 6378137 (6378137 * (297 / 298)) 110 155 (1 / 298) (by norm_num)
    (by norm_num) (by norm_num) (by norm_num) 6 (by norm_num)
    (by unfold radians; push_cast; linarith) (by unfold radians; nlinarith)

end WindMult
