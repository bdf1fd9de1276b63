import Verif.Model.Utilities

/-!
# What a configuration file defines

Independent of the reader; only the type of lines is shared.
-/

set_option autoImplicit false

namespace WindMult.Spec

/-- The file gives option `k` of section `s` the value `v`: some entry `k = v` follows a header `[s]`
with no other header in between. -/
def Defines (lines : List CfgLine) (s k v : String) : Prop :=
  ∃ pre mid post, lines = pre ++ CfgLine.header s :: (mid ++ CfgLine.entry k v :: post) ∧
    ∀ s', CfgLine.header s' ∉ mid

end WindMult.Spec
