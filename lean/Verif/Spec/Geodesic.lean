import Mathlib.Analysis.SpecialFunctions.Trigonometric.Inverse

/-!
# Distances on the sphere and on the ellipsoid

Independent of the model.
-/

set_option autoImplicit false

noncomputable section

namespace WindMult.Spec

/-- The central angle between two points given by latitude and longitude: the angle between the
unit vectors `(cos φ cos λ, cos φ sin λ, sin φ)`. -/
def centralAngle (phi1 lam1 phi2 lam2 : ℝ) : ℝ :=
  Real.arccos
    ((Real.cos phi1 * Real.cos lam1) * (Real.cos phi2 * Real.cos lam2) +
     (Real.cos phi1 * Real.sin lam1) * (Real.cos phi2 * Real.sin lam2) +
     Real.sin phi1 * Real.sin phi2)

/-- Going the angle `sigma` along the great circle that leaves the point with latitude `phi` and longitude
`lam` in the direction `alpha` (clockwise from north) one comes to the point with latitude `phi2` and
longitude `lam2`: as unit vectors the second point is `cos σ P + sin σ (cos α N + sin α E)`, with
`N = (-sin φ cos λ, -sin φ sin λ, cos φ)` pointing north and `E = (-sin λ, cos λ, 0)` east. -/
def Reached (phi lam alpha sigma phi2 lam2 : ℝ) : Prop :=
  Real.cos phi2 * Real.cos lam2 = Real.cos sigma * (Real.cos phi * Real.cos lam) +
    Real.sin sigma * (Real.cos alpha * (-Real.sin phi * Real.cos lam) +
      Real.sin alpha * -Real.sin lam) ∧
  Real.cos phi2 * Real.sin lam2 = Real.cos sigma * (Real.cos phi * Real.sin lam) +
    Real.sin sigma * (Real.cos alpha * (-Real.sin phi * Real.sin lam) +
      Real.sin alpha * Real.cos lam) ∧
  Real.sin phi2 = Real.cos sigma * Real.sin phi + Real.sin sigma * (Real.cos alpha * Real.cos phi)

/-- A point of a meridian of the ellipsoid with equatorial radius `a` and flattening `f`: `r` is its
distance from the axis (the radius of its parallel), `z` its height above the plane of the equator,
`phi` its latitude, the angle between the normal there and that plane. -/
structure OnMeridian (f a phi r z : ℝ) : Prop where
  pos : 0 < r
  ellipse : (r / a) ^ 2 + (z / (a * (1 - f))) ^ 2 = 1
  normal : z / (a * (1 - f)) ^ 2 * Real.cos phi = r / a ^ 2 * Real.sin phi

end WindMult.Spec
