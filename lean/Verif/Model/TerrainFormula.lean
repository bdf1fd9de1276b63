import Mathlib.Analysis.SpecialFunctions.Log.Basic

/-!
# Roughness length to initial terrain multiplier
-/

set_option autoImplicit false

namespace WindMult

/-- The formula for `Mz` in `terrain_class2mz_orig` (`/repo/terrain/terrain_mult.py` 193), over the
real numbers.  Where numpy gives NaN or infinity (`z0 ≤ 0`, or inner logarithm not positive) the
Lean value is meaningless; the theorems exclude those inputs. -/
noncomputable def mzFormula (z0 : ℝ) : ℝ :=
  -(2827 / 10000) * Real.log ((4554 / 10000) * Real.log z0 + 3734 / 1000) + 10762 / 10000

end WindMult
