import Verif.Model.Pipeline

/-!
# The same country higher or lower

What C142 speaks of.
-/

set_option autoImplicit false

namespace WindMult.Spec

/-- The same country with all elevations `h` metres higher; cells without elevation stay without. -/
def raisedInputs (h : ℝ) (c : Inputs) : Inputs := { c with dem := c.dem.map (Option.map (· + h)) }

end WindMult.Spec
