import Verif.Spec.PreProcess
import Verif.Model.ShapeSave

/-!
# What is saved of the land use (for C155)
-/

set_option autoImplicit false

namespace WindMult

/-- No name has two values. -/
def SingleValued {V : Type} (d : List (String × V)) : Prop := ∀ n v w, (n, v) ∈ d → (n, w) ∈ d → v = w

/-- The text of a value, if it is one. -/
def AttrVal.asText (v : AttrVal) : Option String := match v with
  | .text s => some s
  | .null => none
  | .int _ => none

/-- The attributes of feature `f`, whose land use is `use`, in the file: the code as `CAT`, the settlement found for it,
and all others as they were. -/
structure CodedRecord (settlementCat : String) (f : UseFeature) (use : AttrVal) (r : List (String × AttrVal)) :
    Prop where
  single : SingleValued r
  code : ("CAT", .int (100 * codeIn settlementCodes f.joined.asText + codeIn landUseCodes use.asText)) ∈ r
  settlement : settlementCat ≠ "CAT" → (settlementCat, f.joined) ∈ r
  others : ∀ n v, n ≠ "CAT" → n ≠ settlementCat → ((n, v) ∈ r ↔ (n, v) ∈ f.record)

/-- What stands in the file for feature `f`: its geometry and its attributes with the code.  The code is made from the
land use of the feature, or from the settlement if the two attributes have the same name. -/
def SavedAs (settlementCat landUseCat : String) (f : UseFeature) (x : List (String × AttrVal) × Region) : Prop :=
  x.2 = f.geom ∧ ∃ use, (landUseCat ≠ settlementCat → (landUseCat, use) ∈ f.record) ∧
    (landUseCat = settlementCat → use = f.joined) ∧ CodedRecord settlementCat f use x.1

/-- A feature as it is read: every name of the schema has one value, and there are no other names. -/
def ReadWith (schema : List (String × String)) (f : UseFeature) : Prop :=
  SingleValued f.record ∧ ∀ n, (∃ v, (n, v) ∈ f.record) ↔ ∃ t, (n, t) ∈ schema

/-- One polygon or several: nothing sticks out of the areas but their boundaries. -/
def Polygonal (g : Region) : Prop := ∀ p ∈ g, ∀ U : Set (ℝ × ℝ), IsOpen U → p ∈ U → ∃ V : Set (ℝ × ℝ),
  IsOpen V ∧ V.Nonempty ∧ V ⊆ U ∧ V ⊆ g

end WindMult
