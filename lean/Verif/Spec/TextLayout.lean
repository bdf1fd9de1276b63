import Verif.Spec.ConfigText
import Verif.Spec.ClassTable

/-!
# Text files that say the same

What C141 speaks of.
-/

set_option autoImplicit false

namespace WindMult.Spec

/-- Two configuration files set the same options to the same values, whatever their layout. -/
def SameOptions (f g : IniFile) : Prop := ∀ sect option value, f.Sets sect option value ↔ g.Sets sect option value

/-- Two texts are the same, or are tables that give the same roughness lengths and shielding percentages for the same
categories in the same order, whatever their layout. -/
def SameTable (a b : Option (List Char)) : Prop :=
  a = b ∨ ∃ (f g : FileText) (rough pct : List (ℤ × ℚ)), a = some f.text ∧ b = some g.text ∧
    f.Describes "ROUGHNESS_LENGTH_m".toList rough ∧ g.Describes "ROUGHNESS_LENGTH_m".toList rough ∧
    f.Describes "SHIELDING".toList pct ∧ g.Describes "SHIELDING".toList pct

end WindMult.Spec
