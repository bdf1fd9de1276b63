import Verif.Model.SaveText

/-!
# Vocabulary of the specification of arrays in text files
-/

set_option autoImplicit false

namespace WindMult

/-- A number of IEEE 754 double precision: 53 binary digits, the last of which counts powers of two from -1074 to 971. -/
def IsDouble (q : ℚ) : Prop := ∃ n e : ℤ, |n| < 2 ^ 53 ∧ -1074 ≤ e ∧ e ≤ 971 ∧ q = n * 2 ^ e

/-- NaN, an infinity, or a number of double precision. -/
def FloatVal.Ok : FloatVal → Prop
  | .num q => IsDouble q
  | _ => True

/-- The characters that occur in numbers, those that begin a comment or end a line: none of them separates fields. -/
def notDelimiters : List Char := "0123456789+-.eEinfa%\r\n".toList

/-- How many lines a header has. -/
def headerLines (header : List Char) : ℕ := if header = [] then 0 else header.count '\n' + 1

end WindMult
