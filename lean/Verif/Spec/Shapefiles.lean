import Mathlib.Data.String.Basic

/-!
# Null-normalised attribute values

Independent of the model.
-/

set_option autoImplicit false

namespace WindMult.Spec

/-- The value a feature is grouped by: missing values (null or empty) count as the text `None`. -/
def normalised (v : Option String) : String :=
  if v = none ∨ v = some "" then "None" else v.getD ""

end WindMult.Spec
