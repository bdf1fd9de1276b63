import Mathlib.Analysis.SpecialFunctions.Trigonometric.Inverse

/-!
# Vincenty's formulae

T. Vincenty, Direct and inverse solutions of geodesics on the ellipsoid with application of nested
equations, Survey Review 23 (1975), equations (3), (4), (6), (10) and (11), (19).  Independent of the
model.
-/

set_option autoImplicit false

noncomputable section

namespace WindMult.Spec

/-- `beta` is the reduced latitude of a point with latitude `phi`, poles included:
`tan β = (1 - f) tan φ`. -/
structure IsReduced (f phi beta : ℝ) : Prop where
  phi_mem : |phi| ≤ Real.pi / 2
  beta_mem : |beta| ≤ Real.pi / 2
  tan_eq : Real.sin beta * Real.cos phi = (1 - f) * Real.sin phi * Real.cos beta

/-- `sigma1` is the angle, along the great circle that passes the latitude `beta` in the direction
`alpha`, from the equator to that point. -/
def FromEquator (beta alpha sigma1 : ℝ) : Prop :=
  ∃ r, 0 ≤ r ∧ r * Real.sin sigma1 = Real.sin beta ∧
    r * Real.cos sigma1 = Real.cos beta * Real.cos alpha

/-- The square of the cosine of the azimuth at the equator. -/
def cosSqEquator (beta alpha : ℝ) : ℝ := 1 - (Real.cos beta * Real.sin alpha) ^ 2

/-- `u²`, (3) and (4) need it: `q` is the square of the cosine of the azimuth at the equator. -/
def vincentyU2 (f a q : ℝ) : ℝ := q * (a ^ 2 - (a * (1 - f)) ^ 2) / (a * (1 - f)) ^ 2

/-- (3) -/
def vincentyA (u2 : ℝ) : ℝ := 1 + u2 / 16384 * (4096 + u2 * (-768 + u2 * (320 - 175 * u2)))

/-- (4) -/
def vincentyB (u2 : ℝ) : ℝ := u2 / 1024 * (256 + u2 * (-128 + u2 * (74 - 47 * u2)))

/-- (6) -/
def vincentyDelta (B sigma1 sigma : ℝ) : ℝ :=
  B * Real.sin sigma * (Real.cos (2 * sigma1 + sigma) + B / 4 * (Real.cos sigma *
    (-1 + 2 * Real.cos (2 * sigma1 + sigma) ^ 2) - B / 6 * Real.cos (2 * sigma1 + sigma) *
      (-3 + 4 * Real.sin sigma ^ 2) * (-3 + 4 * Real.cos (2 * sigma1 + sigma) ^ 2)))

/-- (19): the length of the geodesic. -/
def vincentyDistance (f a q sigma1 sigma : ℝ) : ℝ :=
  a * (1 - f) * vincentyA (vincentyU2 f a q) *
    (sigma - vincentyDelta (vincentyB (vincentyU2 f a q)) sigma1 sigma)

/-- (10) -/
def vincentyC (f q : ℝ) : ℝ := f / 16 * q * (4 + f * (4 - 3 * q))

/-- (11): what has to be subtracted from the difference in longitude on the auxiliary sphere. -/
def vincentyCorrection (f sinAlpha q sigma1 sigma : ℝ) : ℝ :=
  (1 - vincentyC f q) * f * sinAlpha * (sigma + vincentyC f q * Real.sin sigma *
    (Real.cos (2 * sigma1 + sigma) + vincentyC f q * Real.cos sigma *
      (-1 + 2 * Real.cos (2 * sigma1 + sigma) ^ 2)))

end WindMult.Spec
