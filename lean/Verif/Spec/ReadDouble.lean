import Verif.Spec.ClassTable

/-!
# Short numbers
-/

set_option autoImplicit false

namespace WindMult

/-- The number of digits, without those of the exponent. -/
def Numeral.size (n : Numeral) : ℕ := n.whole.length + n.frac.elim 0 List.length

/-- The power of ten that the last digit counts. -/
def Numeral.unit (n : Numeral) : ℤ :=
  (n.exp.elim 0 fun x => if x.1 then -(x.2.value : ℤ) else x.2.value) - n.frac.elim 0 fun f => (f.length : ℤ)

/-- At most 15 digits, the last of which counts powers of ten from -15 to 15. -/
def Numeral.Short (n : Numeral) : Prop := n.size ≤ 15 ∧ |n.unit| ≤ 15

/-- A text that is a short number with blanks around it. -/
def IsShortNumber (s : List Char) : Prop :=
  ∃ (n : Numeral) (p : Spelling) (a b : ℕ), n.Ok ∧ n.Short ∧
    s = List.replicate a ' ' ++ n.spelt p ++ List.replicate b ' '

/-- All numbers in the column called `name` are short. -/
def FileText.ShortNumbers (f : FileText) (name : List Char) : Prop :=
  ∀ header recs k, recordValues f.allLines = header :: recs → FirstColumn header name k →
    ∀ r ∈ recs, ∀ s, r[k]? = some s → IsShortNumber s

end WindMult
