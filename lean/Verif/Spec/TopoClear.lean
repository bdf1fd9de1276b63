import Verif.Spec.Topo
import Mathlib.Algebra.Order.Archimedean.Real.Basic

/-!
# Hills whose multiplier does not hang on a rounding
-/

set_option autoImplicit false

namespace WindMult

/-- Rounding errors of relative size `u` cannot change the formula for the multiplier that the hill `v`–`r`
gives the point `p`.  A hill of at least 10 m and two cells must not have a slope within `8u` (relative) of 0.05
or 0.45; and a point behind the crest of a hill steeper than 0.45 must not be that close to the end of the zone
of separation, nor the escarpment factor within `40u` of 0.8 or 1.2. -/
def Line.ClearHill (u : ℝ) (y : Line ℝ) (v r : ℕ) (ds : ℝ) (p : ℕ) : Prop :=
  let H := y.val r - y.val v
  let slope := H / (2 * halfWidth v r ds)
  10 ≤ H → ds ≤ halfWidth v r ds →
    8 * u * (5 / 100) < |slope - 5 / 100| ∧ 8 * u * (45 / 100) < |slope - 45 / 100| ∧
    (r < p → 45 / 100 < slope →
      8 * u * (H / 4) < |((p : ℝ) - r) * ds - H / 4| ∧ 40 * u < |(|y.escarpment v r - 1| - 2 / 10)|)

end WindMult
