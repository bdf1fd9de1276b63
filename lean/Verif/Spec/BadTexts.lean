import Verif.Spec.ClassTable
import Verif.Spec.ConfigText

/-!
# What is wrong with a configuration or a table
-/

set_option autoImplicit false

namespace WindMult

/-- The options without which a run cannot start: section and name. -/
def neededOptions : List (String × String) :=
  [("inputValues", "root"), ("inputValues", "upwind_length"), ("inputValues", "terrain_data"),
    ("inputValues", "dem_data"), ("inputValues", "terrain_table"), ("Logging", "logfile"), ("Logging", "loglevel"),
    ("Output", "output_dir")]

/-- A line of a configuration at the margin that is neither comment nor header, and has no `=` and `:`, or has one of
them at the beginning. -/
def Meaningless (line : List Char) : Prop :=
  ∃ c t, line = c :: t ∧ c.isWhitespace = false ∧ (c ≠ '#' ∧ c ≠ ';' ∧ c ≠ '[') ∧
    ((∀ x ∈ line, x ≠ '=' ∧ x ≠ ':') ∨ c = '=' ∨ c = ':')

/-- The characters of numbers, infinities, truth values and the absence of a number. -/
def numberChars : List Char := "0123456789+-._ \tINFTYARUELSinftyaruels".toList

/-- A text with an ASCII character that numbers do not have. -/
def NotNumber (s : List Char) : Prop := ∃ c ∈ s, ' ' < c ∧ c < '\x7f' ∧ c ∉ numberChars

/-- The texts that stand for truth values in configurations, and those that stand for levels of the log. -/
def truthTexts : List (List Char) := ["1", "yes", "true", "on", "0", "no", "false", "off"].map String.toList

/-- The names in Python's `logging` that stand for whole numbers. -/
def levelTexts : List (List Char) :=
  ["NOTSET", "DEBUG", "INFO", "WARN", "WARNING", "ERROR", "CRITICAL", "FATAL", "raiseExceptions", "logThreads",
    "logMultiprocessing", "logProcesses"].map String.toList

/-- The texts with such characters that stand for missing numbers in tables. -/
def missingTexts : List (List Char) :=
  ["#N/A", "#N/A N/A", "#NA", "-1.#IND", "-1.#QNAN", "1.#IND", "1.#QNAN", "<NA>", "N/A", "None",
    "n/a"].map String.toList

/-- A file that is no table with the column `name`: there is no record; or a record has more fields than each of the
first two; or there are records behind the header, and the header has no column `CATEGORY` or no column `name`; or a
field of that column is a text. -/
def FileText.Unusable (f : FileText) (name : List Char) : Prop :=
  recordValues f.allLines = [] ∨
  (∃ h r rs, recordValues f.allLines = h :: r :: rs ∧ ∃ x ∈ rs, h.length < x.length ∧ r.length < x.length) ∨
  (∃ h r rs, recordValues f.allLines = h :: r :: rs ∧ ("CATEGORY".toList ∉ h ∨ name ∉ h)) ∨
  ∃ h rs k, recordValues f.allLines = h :: rs ∧ FirstColumn h name k ∧
    ∃ r ∈ rs, ∃ s, r[k]? = some s ∧ NotNumber s ∧ s ∉ missingTexts

end WindMult
