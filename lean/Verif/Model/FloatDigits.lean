import Verif.Model.Terrain
import Mathlib.Data.Int.Log
import Mathlib.Algebra.Order.Archimedean.Real.Basic

/-!
# Rounding to a number of binary digits
-/

set_option autoImplicit false

namespace WindMult

/-- The exponent of the last of `p` binary digits of `x`, negated: part of the arithmetic of floats, used in the
topographic step (`/repo/topographic/mh.py` 11-133). -/
noncomputable def lastDigit (p : ℕ) (x : ℝ) : ℤ := (p : ℤ) - 1 - Int.log 2 |x|

/-- `x` rounded to `p` binary digits, ties to even (53 for Python floats, 24 for `float32`, in which the elevations of
`/repo/topographic/topo_mult.py` 46-138 are).  No limits on the exponent. -/
noncomputable def roundDigits (p : ℕ) (x : ℝ) : ℝ :=
  (around (x * 2 ^ lastDigit p x) : ℝ) / 2 ^ lastDigit p x

end WindMult
