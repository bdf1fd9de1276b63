import Mathlib.Data.List.Nodup

/-!
# What a configuration text says
-/

set_option autoImplicit false

namespace WindMult

/-- An entry of a section: a line without meaning, or an option. -/
inductive IniItem
  /-- a comment or an empty line -/
  | skip (s : List Char)
  /-- name, white space, `=` or `:`, white space, value, white space -/
  | option (name sp : List Char) (colon : Bool) (sp' value trail : List Char)

/-- The line of an entry. -/
def IniItem.line : IniItem → List Char
  | .skip s => s
  | .option name sp colon sp' value trail => name ++ sp ++ (if colon then ':' else '=') :: (sp' ++ value ++ trail)

/-- A section: name, white space behind the header, entries. -/
structure IniSection where
  name : List Char
  trail : List Char
  body : List IniItem

/-- The lines of a section. -/
def IniSection.lines (s : IniSection) : List (List Char) :=
  (('[' :: s.name) ++ ']' :: s.trail) :: s.body.map IniItem.line

/-- A configuration file: lines without meaning, then sections. -/
structure IniFile where
  before : List (List Char)
  sections : List IniSection

/-- The characters of the file. -/
def IniFile.text (f : IniFile) : List Char :=
  ['\n'].intercalate (f.before ++ f.sections.flatMap IniSection.lines)

/-- Blanks and tabs. -/
def Blanks (s : List Char) : Prop := ∀ c ∈ s, c = ' ' ∨ c = '\t' ∨ c = '\r'

/-- Comments begin with `#` or `;`, perhaps behind blanks. -/
def IsSkip (s : List Char) : Prop :=
  Blanks s ∨ ∃ a c t, Blanks a ∧ (c = '#' ∨ c = ';') ∧ s = a ++ c :: t ∧ '\n' ∉ t

/-- No line end inside, no white space at either end. -/
def Trimmed (s : List Char) : Prop :=
  '\n' ∉ s ∧ (∀ c ∈ s.head?, c.isWhitespace = false) ∧ ∀ c ∈ s.getLast?, c.isWhitespace = false

/-- Options begin at the margin; their names have no `=` and `:` and do not look like comments or headers. -/
def IniItem.Ok : IniItem → Prop
  | .skip s => IsSkip s
  | .option name sp _ sp' value trail => name ≠ [] ∧ Trimmed name ∧ (∀ c ∈ name, c ≠ '=' ∧ c ≠ ':') ∧
      (∀ c ∈ name.head?, c ≠ '#' ∧ c ≠ ';' ∧ c ≠ '[') ∧ Blanks sp ∧ Blanks sp' ∧ Trimmed value ∧ Blanks trail

/-- The names of sections are not empty and have no line end and no closing bracket.  The section `DEFAULT` has a special
meaning and is left out. -/
def IniSection.Ok (s : IniSection) : Prop :=
  s.name ≠ [] ∧ '\n' ∉ s.name ∧ ']' ∉ s.name ∧ s.name ≠ "DEFAULT".toList ∧ Blanks s.trail ∧ ∀ i ∈ s.body, i.Ok

/-- Names and values of the options of a section; capital letters in names do not matter. -/
def IniSection.options (s : IniSection) : List (List Char × List Char) :=
  s.body.filterMap fun
    | .option name _ _ _ value _ => some (name.map Char.toLower, value)
    | .skip _ => none

/-- No section and no option of a section occurs twice. -/
def IniFile.Ok (f : IniFile) : Prop :=
  (∀ s ∈ f.before, IsSkip s) ∧ (∀ s ∈ f.sections, s.Ok) ∧ (f.sections.map IniSection.name).Nodup ∧
    ∀ s ∈ f.sections, (s.options.map Prod.fst).Nodup

/-- The file gives option `k` of section `s` the value `v`. -/
def IniFile.Sets (f : IniFile) (s k v : List Char) : Prop :=
  ∃ sec ∈ f.sections, sec.name = s ∧ (k, v) ∈ sec.options

end WindMult
