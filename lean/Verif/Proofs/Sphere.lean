import Verif.Proofs.Vincenty
import Verif.Spec.Geodesic

/-!
# Lemmas about the sphere
-/

set_option autoImplicit false

namespace WindMult
open Real

/-! ### Angles of points -/

/-- `atan2` as polar coordinates. -/
theorem atan2_polar (y x : ℝ) : sqrt (x ^ 2 + y ^ 2) * cos (atan2 y x) = x ∧
    sqrt (x ^ 2 + y ^ 2) * sin (atan2 y x) = y := by
  have hn : ‖(⟨x, y⟩ : ℂ)‖ = sqrt (x ^ 2 + y ^ 2) := by
    rw [Complex.norm_def, Complex.normSq_mk]; congr 1; ring
  unfold atan2
  rw [← hn]
  exact ⟨Complex.norm_mul_cos_arg _, Complex.norm_mul_sin_arg _⟩

/-- Points at distance `r`. -/
theorem atan2_polar_of {y x r : ℝ} (hr : 0 ≤ r) (h : x ^ 2 + y ^ 2 = r ^ 2) :
    r * cos (atan2 y x) = x ∧ r * sin (atan2 y x) = y := by
  have := atan2_polar y x
  rwa [h, sqrt_sq hr] at this

theorem cos_vincNormalise (x : ℝ) : cos (vincNormalise x) = cos x := by
  unfold vincNormalise
  simp only
  split_ifs <;> simp [cos_sub_two_pi, cos_add_two_pi]

theorem sin_vincNormalise (x : ℝ) : sin (vincNormalise x) = sin x := by
  unfold vincNormalise
  simp only
  split_ifs <;> simp [sin_sub_two_pi, sin_add_two_pi]

/-- In `[0, 2π)` sine and cosine determine the angle. -/
theorem angle_unique {x y : ℝ} (hx0 : 0 ≤ x) (hx1 : x < 2 * π) (hy0 : 0 ≤ y) (hy1 : y < 2 * π)
    (hc : cos x = cos y) (hs : sin x = sin y) : x = y := by
  have h1 : cos (x - y) = 1 := by
    rw [cos_sub, hc, hs]; nlinarith [sin_sq_add_cos_sq y]
  have := (cos_eq_one_iff_of_lt_of_lt (by linarith) (by linarith)).mp h1
  linarith

/-! ### Great circles -/

/-- The coordinates with respect to the meridian of the first point. -/
theorem reached_iff (phi lam alpha sigma phi2 lam2 : ℝ) :
    Spec.Reached phi lam alpha sigma phi2 lam2 ↔
      cos phi2 * cos (lam2 - lam) = cos phi * cos sigma - sin phi * sin sigma * cos alpha ∧
      cos phi2 * sin (lam2 - lam) = sin sigma * sin alpha ∧
      sin phi2 = sin phi * cos sigma + cos phi * sin sigma * cos alpha := by
  unfold Spec.Reached
  have h := sin_sq_add_cos_sq lam
  rw [cos_sub, sin_sub]
  constructor
  · rintro ⟨h1, h2, h3⟩
    refine ⟨?_, ?_, by rw [h3]; ring⟩
    · linear_combination cos lam * h1 + sin lam * h2 +
        (cos phi * cos sigma - sin phi * sin sigma * cos alpha) * h
    · linear_combination (-sin lam) * h1 + cos lam * h2 + (sin sigma * sin alpha) * h
  · rintro ⟨h1, h2, h3⟩
    refine ⟨?_, ?_, by rw [h3]; ring⟩
    · linear_combination cos lam * h1 - sin lam * h2 - (cos phi2 * cos lam2) * h
    · linear_combination sin lam * h1 + cos lam * h2 - (cos phi2 * sin lam2) * h

/-- The squares of the distances from the axis. -/
theorem axis_sq (p s al : ℝ) :
    (cos p * cos s - sin p * sin s * cos al) ^ 2 + (sin s * sin al) ^ 2 =
      (cos p * sin al) ^ 2 + (sin p * sin s - cos p * cos s * cos al) ^ 2 := by
  have h1 := sin_sq_add_cos_sq p
  have h2 := sin_sq_add_cos_sq s
  have h3 := sin_sq_add_cos_sq al
  have e1 : sin p ^ 2 = 1 - cos p ^ 2 := by linarith
  have e2 : sin s ^ 2 = 1 - cos s ^ 2 := by linarith
  have e3 : sin al ^ 2 = 1 - cos al ^ 2 := by linarith
  ring_nf
  rw [e1, e2, e3]
  ring

theorem axis_unit (p s al : ℝ) :
    (cos p * cos s - sin p * sin s * cos al) ^ 2 + (sin s * sin al) ^ 2 =
      1 - (sin p * cos s + cos p * sin s * cos al) ^ 2 := by
  have h1 := sin_sq_add_cos_sq p
  have h2 := sin_sq_add_cos_sq s
  have h3 := sin_sq_add_cos_sq al
  have e1 : sin p ^ 2 = 1 - cos p ^ 2 := by linarith
  have e2 : sin s ^ 2 = 1 - cos s ^ 2 := by linarith
  have e3 : sin al ^ 2 = 1 - cos al ^ 2 := by linarith
  ring_nf
  rw [e1, e2, e3]
  ring

/-- The distance from the first point is the angle gone. -/
theorem Reached.dot {phi lam alpha sigma phi2 lam2 : ℝ}
    (h : Spec.Reached phi lam alpha sigma phi2 lam2) : vCos phi phi2 (lam2 - lam) = cos sigma := by
  obtain ⟨h1, h2, h3⟩ := (reached_iff ..).mp h
  unfold vCos
  have := sin_sq_add_cos_sq phi
  rw [mul_assoc (cos phi), h1, h3]
  linear_combination cos sigma * this

/-- The direction back. -/
theorem Reached.back {phi lam alpha sigma phi2 lam2 beta : ℝ}
    (h : Spec.Reached phi lam alpha sigma phi2 lam2) (h0 : cos phi2 ≠ 0)
    (hs : cos phi2 * sin beta = cos phi * sin alpha)
    (hc : cos phi2 * cos beta = -sin phi * sin sigma + cos phi * cos sigma * cos alpha) :
    Spec.Reached phi2 lam2 (beta + π) sigma phi lam := by
  rw [reached_iff] at *
  obtain ⟨h1, h2, h3⟩ := h
  rw [cos_add_pi, sin_add_pi, ← neg_sub lam2 lam, cos_neg, sin_neg]
  have p1 := sin_sq_add_cos_sq phi
  have p2 := sin_sq_add_cos_sq sigma
  have p4 := sin_sq_add_cos_sq phi2
  refine ⟨?_, ?_, ?_⟩
  · apply mul_left_cancel₀ h0
    have : cos phi2 * (cos phi * cos (lam2 - lam)) = cos phi * (cos phi2 * cos (lam2 - lam)) := by ring
    rw [this, h1]
    have : cos phi2 * (cos phi2 * cos sigma - sin phi2 * sin sigma * -cos beta) =
        cos phi2 ^ 2 * cos sigma + sin phi2 * sin sigma * (cos phi2 * cos beta) := by ring
    rw [this, hc, h3, show cos phi2 ^ 2 = 1 - sin phi2 ^ 2 by linarith, h3]
    linear_combination cos sigma * p1 +
      (sin phi * cos sigma + cos phi * sin sigma * cos alpha) * sin phi * p2
  · apply mul_left_cancel₀ h0
    linear_combination (-cos phi) * h2 + sin sigma * hs
  · rw [h3]
    have : cos phi2 * sin sigma * -cos beta = - sin sigma * (cos phi2 * cos beta) := by ring
    rw [this, hc]
    linear_combination (-sin phi) * p2

/-- The direction to a point whose direction has been computed. -/
theorem Reached.of_components {phi lam phi2 lam2 sigma alpha : ℝ}
    (hc : cos sigma = vCos phi phi2 (lam2 - lam)) (hs : sin sigma * sin alpha = cos phi2 * sin (lam2 - lam))
    (hn : sin sigma * cos alpha = cos phi * sin phi2 - sin phi * cos phi2 * cos (lam2 - lam)) :
    Spec.Reached phi lam alpha sigma phi2 lam2 := by
  rw [reached_iff]
  unfold vCos at hc
  have p1 := sin_sq_add_cos_sq phi
  refine ⟨?_, hs.symm, ?_⟩
  · rw [mul_assoc (sin phi), hn, hc]
    linear_combination (-cos phi2 * cos (lam2 - lam)) * p1
  · rw [mul_assoc (cos phi), hn, hc]
    linear_combination (-sin phi2) * p1

/-- What the direction has to be. -/
theorem Reached.components {phi lam phi2 lam2 sigma alpha : ℝ}
    (h : Spec.Reached phi lam alpha sigma phi2 lam2) :
    sin sigma * sin alpha = cos phi2 * sin (lam2 - lam) ∧
    sin sigma * cos alpha = cos phi * sin phi2 - sin phi * cos phi2 * cos (lam2 - lam) := by
  obtain ⟨h1, h2, h3⟩ := (reached_iff ..).mp h
  have p1 := sin_sq_add_cos_sq phi
  refine ⟨h2.symm, ?_⟩
  rw [mul_assoc (sin phi), h1, h3]
  linear_combination (-sin sigma * cos alpha) * p1

end WindMult
