import Mathlib.Data.Nat.Digits.Defs
import Mathlib.Data.Rat.Defs
import Mathlib.Algebra.Order.Ring.Rat

/-!
# What a table of terrain classes says

How comma-separated tables are written, independently of how they are read.
-/

set_option autoImplicit false

namespace WindMult

/-- A field as it is written: as it is, or in quotes. -/
inductive FieldText
  | plain (s : List Char)
  | quoted (s : List Char)

/-- The characters of a field in the file; quotes inside quotes are doubled. -/
def FieldText.text : FieldText → List Char
  | .plain s => s
  | .quoted s => '"' :: ((s.flatMap fun c => if c = '"' then ['"', '"'] else [c]) ++ ['"'])

/-- What the field says. -/
def FieldText.value : FieldText → List Char
  | .plain s => s
  | .quoted s => s

/-- Only fields in quotes may have commas, number signs and line ends, or begin with a quote. -/
def FieldText.Ok : FieldText → Prop
  | .plain s => (∀ c ∈ s, c ≠ ',' ∧ c ≠ '#' ∧ c ≠ '\n' ∧ c ≠ '\r') ∧ s.head? ≠ some '"'
  | .quoted _ => True

/-- Not in quotes. -/
def FieldText.IsPlain : FieldText → Prop
  | .plain _ => True
  | .quoted _ => False

/-- A line: a record, perhaps with a comment behind it; a comment; or blanks. -/
inductive LineText
  | record (fields : List FieldText) (comment : Option (List Char))
  | comment (s : List Char)
  | blank (s : List Char)

/-- The characters of a line without its end. -/
def LineText.text : LineText → List Char
  | .record fs none => [','].intercalate (fs.map FieldText.text)
  | .record fs (some s) => [','].intercalate (fs.map FieldText.text) ++ '#' :: s
  | .comment s => '#' :: s
  | .blank s => s

/-- A comment has no line end. -/
def InLine (s : List Char) : Prop := ∀ c ∈ s, c ≠ '\n' ∧ c ≠ '\r'

/-- Records have two or more fields and do not begin with a blank; a comment follows a field without quotes. -/
def LineText.Ok : LineText → Prop
  | .record fs cm => 2 ≤ fs.length ∧ (∀ f ∈ fs, f.Ok) ∧
      (∀ f ∈ fs.head?, f.text.head? ≠ some ' ' ∧ f.text.head? ≠ some '\t') ∧
      ∀ s ∈ cm, InLine s ∧ ∀ f ∈ fs.getLast?, f.IsPlain
  | .comment s => InLine s
  | .blank s => ∀ c ∈ s, c = ' ' ∨ c = '\t'

/-- The values of the records among lines. -/
def recordValues (lines : List LineText) : List (List (List Char)) :=
  lines.filterMap fun
    | .record fs _ => some (fs.map FieldText.value)
    | _ => none

/-- A file: lines, each with its line end (`true`: carriage return and line feed), and perhaps a last line
without. -/
structure FileText where
  lines : List (LineText × Bool)
  last : Option LineText

/-- The characters of the file. -/
def FileText.text (f : FileText) : List Char :=
  (f.lines.flatMap fun l => l.1.text ++ (if l.2 then ['\r', '\n'] else ['\n'])) ++
    f.last.elim [] LineText.text

/-- All lines of the file. -/
def FileText.allLines (f : FileText) : List LineText := f.lines.map Prod.fst ++ f.last.toList

/-- Digits, the highest first. -/
abbrev Digits := List (Fin 10)

/-- The number that digits denote. -/
def Digits.value (ds : Digits) : ℕ := Nat.ofDigits 10 (ds.reverse.map Fin.val)

/-- The characters of digits. -/
def Digits.text (ds : Digits) : List Char := ds.map fun d : Fin 10 => Nat.digitChar d.val

/-- A number as it is written: sign, digits, perhaps a point and further digits, perhaps an exponent. -/
structure Numeral where
  neg : Bool
  whole : Digits
  frac : Option Digits
  /-- sign and digits of the exponent -/
  exp : Option (Bool × Digits)

/-- Ways of writing the same: with `+` in front of numbers and exponents that are not negative, with a capital `E`. -/
structure Spelling where
  plus : Bool
  expPlus : Bool
  capital : Bool

/-- Without `+`, with `e`. -/
def Spelling.plain : Spelling := ⟨false, false, false⟩

/-- The characters of a sign. -/
def signText (neg plus : Bool) : List Char := if neg then ['-'] else if plus then ['+'] else []

/-- The characters of a number. -/
def Numeral.spelt (n : Numeral) (p : Spelling) : List Char :=
  signText n.neg p.plus ++ n.whole.text ++ (n.frac.elim [] fun f => '.' :: f.text) ++
    n.exp.elim [] fun x => (if p.capital then 'E' else 'e') :: (signText x.1 p.expPlus ++ x.2.text)

/-- The characters of a number in plain spelling. -/
def Numeral.text (n : Numeral) : List Char := n.spelt .plain

/-- The number. -/
def Numeral.value (n : Numeral) : ℚ :=
  (if n.neg then -1 else 1) *
    ((n.whole.value : ℚ) + n.frac.elim 0 fun f => (f.value : ℚ) / 10 ^ f.length) *
    n.exp.elim 1 fun x => if x.1 then 1 / 10 ^ x.2.value else 10 ^ x.2.value

/-- There are digits before or behind the point, and digits in the exponent if there is one. -/
def Numeral.Ok (n : Numeral) : Prop := n.whole ++ n.frac.getD [] ≠ [] ∧ ∀ x, n.exp = some x → x.2 ≠ []

/-- A text that is a number with blanks around it. -/
def IsNumber (s : List Char) (q : ℚ) : Prop :=
  ∃ (n : Numeral) (p : Spelling) (a b : ℕ), n.Ok ∧ q = n.value ∧
    s = List.replicate a ' ' ++ n.spelt p ++ List.replicate b ' '

/-- `k` is the first column called `name`. -/
def FirstColumn (header : List (List Char)) (name : List Char) (k : ℕ) : Prop :=
  header[k]? = some name ∧ ∀ j < k, header[j]? ≠ some name

/-- The file is a table that gives, for each of the categories in `entries` in order, the number in column
`name`: the first record has the names of the columns; no record is longer. -/
def FileText.Describes (f : FileText) (name : List Char) (entries : List (ℤ × ℚ)) : Prop :=
  (∀ l ∈ f.allLines, l.Ok) ∧
    ∃ header recs kc kv, recordValues f.allLines = header :: recs ∧ FirstColumn header "CATEGORY".toList kc ∧
      FirstColumn header name kv ∧ (∀ r ∈ recs, r.length ≤ header.length) ∧
      List.Forall₂ (fun (r : List (List Char)) (e : ℤ × ℚ) =>
        (∃ s, r[kc]? = some s ∧ IsNumber s e.1) ∧ ∃ s, r[kv]? = some s ∧ IsNumber s e.2) recs entries

end WindMult
