import Verif.Model.Basic
import Mathlib.Data.Rat.Defs
import Mathlib.Algebra.Order.Ring.Rat

/-!
# Reading the table of terrain classes

`get_terrain_table` (`/repo/terrain/terrain_mult.py` 159-175) and `get_shielding_table`
(`/repo/shielding/shield_mult.py` 153-164) call `pandas.read_csv(file, comment='#', index_col=False)`;
the rows are used in `terrain_class2mz_orig` (`terrain_mult.py` 178-196) and `terrain_class2ms_orig`
(`shield_mult.py` 208-214).

pandas is not part of the repository.  The model of `read_csv` is written from its documentation and from
the state machine of its C tokenizer, with the default options: delimiter `,`, quote `"` doubled inside
quotes, blank lines skipped, the first line the header.
-/

set_option autoImplicit false

namespace WindMult

/-! ### Lines and fields -/

/-- States of the tokenizer behind `pd.read_csv` (`/repo/terrain/terrain_mult.py` 168,
`/repo/shielding/shield_mult.py` 162). -/
inductive CsvSt
  | startRecord
  /-- a line that so far consists of blanks -/
  | blankLine
  | startField
  | inField
  | inQuoted
  /-- after a quote inside a quoted field -/
  | quoteInQuoted
  /-- in a comment behind fields -/
  | eatComment
  /-- in a line that is a comment -/
  | eatLineComment
  /-- after `\r` at the end of a record -/
  | eatCrnl
  /-- after `\r` at the end of a line that is left out -/
  | eatCrnlNop
  deriving DecidableEq

/-- What has been read: the finished lines, the finished fields of the current line and the characters of
the current field, the latest first in each list (`/repo/terrain/terrain_mult.py` 168). -/
structure Csv where
  st : CsvSt
  lines : List (List (List Char))
  fields : List (List Char)
  field : List Char

/-- Start of a file (`/repo/terrain/terrain_mult.py` 168). -/
def Csv.start : Csv := ⟨.startRecord, [], [], []⟩

/-- Append a character to the current field (`/repo/terrain/terrain_mult.py` 168). -/
def Csv.push (a : Csv) (c : Char) : Csv := { a with st := .inField, field := c :: a.field }

/-- Finish the current field and go on in state `st` (`/repo/terrain/terrain_mult.py` 168). -/
def Csv.endField (a : Csv) (st : CsvSt) : Csv :=
  { a with st := st, fields := a.field.reverse :: a.fields, field := [] }

/-- Finish the current line (`/repo/terrain/terrain_mult.py` 168). -/
def Csv.endLine (a : Csv) : Csv := ⟨.startRecord, a.fields.reverse :: a.lines, [], []⟩

/-- One character where a field may begin (`/repo/terrain/terrain_mult.py` 168). -/
def Csv.atField (a : Csv) (c : Char) : Csv :=
  if c = '\n' then (a.endField .startRecord).endLine
  else if c = '\r' then a.endField .eatCrnl
  else if c = '"' then { a with st := .inQuoted }
  else if c = ',' then a.endField .startField
  else if c = '#' then a.endField .eatComment
  else a.push c

/-- One character where a record may begin: empty lines and comment lines are left out, blanks at the
beginning are dropped (`/repo/terrain/terrain_mult.py` 168). -/
def Csv.atRecord (a : Csv) (c : Char) : Csv :=
  if c = '\n' then { a with st := .startRecord }
  else if c = '\r' then { a with st := .eatCrnlNop }
  else if c = '#' then { a with st := .eatLineComment }
  else if c = ' ' ∨ c = '\t' then { a with st := .blankLine }
  else a.atField c

/-- One character (`/repo/terrain/terrain_mult.py` 168, `/repo/shielding/shield_mult.py` 162). -/
def Csv.step (a : Csv) (c : Char) : Csv :=
  match a.st with
  | .startRecord => a.atRecord c
  | .blankLine =>
    if c = '\n' then { a with st := .startRecord }
    else if c = '\r' then { a with st := .eatCrnlNop }
    else if c = ' ' ∨ c = '\t' then a
    else a.atField c
  | .startField => a.atField c
  | .inField =>
    if c = '\n' then (a.endField .startRecord).endLine
    else if c = '\r' then a.endField .eatCrnl
    else if c = ',' then a.endField .startField
    else if c = '#' then a.endField .eatComment
    else a.push c
  | .inQuoted => if c = '"' then { a with st := .quoteInQuoted } else { a with field := c :: a.field }
  | .quoteInQuoted =>
    if c = '\n' then (a.endField .startRecord).endLine
    else if c = '\r' then a.endField .eatCrnl
    else if c = '"' then { a with st := .inQuoted, field := c :: a.field }
    else if c = ',' then a.endField .startField
    else a.push c
  | .eatComment =>
    if c = '\n' then a.endLine else if c = '\r' then { a with st := .eatCrnl } else a
  | .eatLineComment =>
    if c = '\n' then { a with st := .startRecord } else if c = '\r' then { a with st := .eatCrnlNop } else a
  | .eatCrnl => if c = '\n' then a.endLine else a.endLine.atRecord c
  | .eatCrnlNop => if c = '\n' then { a with st := .startRecord } else { a with st := .startRecord }.atRecord c

/-- The end of the file: an open line is finished; an open quote is an error (`ParserError`, a `ValueError`)
(`/repo/terrain/terrain_mult.py` 168). -/
def Csv.finish (a : Csv) : Except PyErr (List (List (List Char))) :=
  match a.st with
  | .startRecord | .blankLine | .eatCrnlNop | .eatLineComment => .ok a.lines.reverse
  | .inQuoted => .error .valueError
  | .startField | .inField | .quoteInQuoted => .ok (a.endField .startRecord).endLine.lines.reverse
  | .eatComment | .eatCrnl => .ok a.endLine.lines.reverse

/-- The records of a text (`/repo/terrain/terrain_mult.py` 168). -/
def csvLines (text : List Char) : Except PyErr (List (List (List Char))) :=
  (text.foldl Csv.step .start).finish

/-! ### Columns -/

/-- A table: the names of the columns and the rows, each as long as the list of names. The frame
returned at `/repo/terrain/terrain_mult.py` 175 and `/repo/shielding/shield_mult.py` 164. -/
structure CsvTable where
  header : List (List Char)
  rows : List (List (List Char))

/-- `pd.read_csv(…, comment='#', index_col=False)` (`/repo/terrain/terrain_mult.py` 168,
`/repo/shielding/shield_mult.py` 162): the first record is the header.  A record may not have more
fields than the header or the first record behind it (`ParserError`); missing fields are empty, and with
`index_col=False` surplus fields are dropped.  A file without records is an `EmptyDataError`.  Renaming of
columns that have the same name is left out: the first one keeps the name. -/
def readCsv (text : List Char) : Except PyErr CsvTable := do
  match ← csvLines text with
  | [] => .error .valueError
  | h :: recs =>
    let width := max h.length (recs.headD []).length
    if recs.any fun r => width < r.length then .error .valueError
    else .ok ⟨h, recs.map fun r => (r ++ List.replicate (h.length - r.length) []).take h.length⟩

/-! ### Numbers -/

/-- The value of a decimal digit. Part of `pd.read_csv`, `/repo/terrain/terrain_mult.py` 168, and of
`float`, `/repo/all_multipliers.py` 721. -/
def digitVal (c : Char) : Option ℕ := if '0' ≤ c ∧ c ≤ '9' then some (c.toNat - '0'.toNat) else none

/-- The digits at the beginning of a text, and the rest. Part of `pd.read_csv`,
`/repo/terrain/terrain_mult.py` 168, and of `float`, `/repo/all_multipliers.py` 721. -/
def takeDigits : List Char → List ℕ × List Char
  | [] => ([], [])
  | c :: s => match digitVal c with
    | some d => let r := takeDigits s; (d :: r.1, r.2)
    | none => ([], c :: s)

/-- The number that a list of decimal digits denotes. Part of `pd.read_csv`,
`/repo/terrain/terrain_mult.py` 168, and of `float`, `/repo/all_multipliers.py` 721. -/
def digitsVal (ds : List ℕ) : ℕ := ds.foldl (fun n d => 10 * n + d) 0

/-- A sign at the beginning of a text (`true`: minus), and the rest. Part of `pd.read_csv`,
`/repo/terrain/terrain_mult.py` 168, and of `float`, `/repo/all_multipliers.py` 721. -/
def takeSign : List Char → Bool × List Char
  | '-' :: s => (true, s)
  | '+' :: s => (false, s)
  | s => (false, s)

/-- A decimal point and the digits behind it, and the rest. Part of `pd.read_csv`,
`/repo/terrain/terrain_mult.py` 168, and of `float`, `/repo/all_multipliers.py` 721. -/
def takeFraction : List Char → List ℕ × List Char
  | '.' :: s => takeDigits s
  | s => ([], s)

/-- The exponent at the end of a number, 0 if there is none. Part of `pd.read_csv`,
`/repo/terrain/terrain_mult.py` 168, and of `float`, `/repo/all_multipliers.py` 721. -/
def readExponent : List Char → Option ℤ
  | [] => some 0
  | c :: s =>
    if c = 'e' ∨ c = 'E' then
      let sg := takeSign s
      match takeDigits sg.2 with
      | (d :: ds, []) => some ((if sg.1 then -1 else 1) * (digitsVal (d :: ds) : ℤ))
      | _ => none
    else none

/-- Blanks at both ends removed. Part of `pd.read_csv`, `/repo/terrain/terrain_mult.py` 168, and of
`float`, `/repo/all_multipliers.py` 721. -/
def stripBlanks (s : List Char) : List Char :=
  let f := fun c : Char => c == ' ' || c == '\t'
  ((s.dropWhile f).reverse.dropWhile f).reverse

/-- The conversion of a field to a number by `pd.read_csv` (`/repo/terrain/terrain_mult.py` 168): sign, digits
with a decimal point, exponent.  Rounding to a float (see `readDouble`), infinities, the words
`True` and `False` and digits outside ASCII are left out. -/
def readNumber (s : List Char) : Option ℚ :=
  let sg := takeSign (stripBlanks s)
  let ip := takeDigits sg.2
  let fp := takeFraction ip.2
  if ip.1 = [] ∧ fp.1 = [] then none
  else match readExponent fp.2 with
    | none => none
    | some x =>
      some ((if sg.1 then -1 else 1) * (digitsVal (ip.1 ++ fp.1) : ℚ) * (10 : ℚ) ^ (x - fp.1.length))

/-- The fields that `pd.read_csv` takes for missing values (default `na_values`).
`/repo/terrain/terrain_mult.py` 168, `/repo/shielding/shield_mult.py` 162. -/
def naFields : List (List Char) :=
  ["", "#N/A", "#N/A N/A", "#NA", "-1.#IND", "-1.#QNAN", "-NaN", "-nan", "1.#IND", "1.#QNAN", "<NA>", "N/A",
    "NA", "NULL", "NaN", "None", "n/a", "nan", "null"].map String.toList

/-- An entry of a column: a number, NaN, or a text. `row[…]`, `/repo/terrain/terrain_mult.py` 191-192,
`/repo/shielding/shield_mult.py` 212-213. -/
inductive CsvCell
  | num (q : ℚ)
  | nan
  | str (s : List Char)
  deriving DecidableEq

/-- The type of a column is common to its entries: numbers if every entry is a number or missing, else
texts (and NaN) (`/repo/terrain/terrain_mult.py` 168). -/
def typedColumn (col : List (List Char)) : List CsvCell :=
  if col.all fun s => s ∈ naFields || (readNumber s).isSome then
    col.map fun s => if s ∈ naFields then .nan else match readNumber s with
      | some q => .num q
      | none => .nan
  else col.map fun s => if s ∈ naFields then .nan else .str s

/-- The entries of the column called `name`; `none`: there is no such column
(`row['CATEGORY']`, `/repo/terrain/terrain_mult.py` 191). -/
def CsvTable.column (t : CsvTable) (name : List Char) : Option (List CsvCell) :=
  match t.header.idxOf? name with
  | none => none
  | some k => some (typedColumn (t.rows.map fun r => r.getD k []))

/-! ### Use of the table -/

/-- One round of `for ix, row in mz_init.iterrows()` up to the assignment (`/repo/terrain/terrain_mult.py`
190-195, `/repo/shielding/shield_mult.py` 211-214): the category and the number of the row.  A text is a
`TypeError` in `np.log` and in the division by 100 (here `runtimeError`).  A category that is a text, NaN or not
a whole number is equal to no cell of the raster: such a row (`none`) has no effect.  The second part is `none`
if the number is NaN. -/
def tableRow (cat val : CsvCell) : Except PyErr (Option (ℤ × Option ℚ)) :=
  match val with
  | .str _ => .error .runtimeError
  | .nan => .ok (match cat with | .num q => if q.den = 1 then some (q.num, none) else none | _ => none)
  | .num v => .ok (match cat with | .num q => if q.den = 1 then some (q.num, some v) else none | _ => none)

/-- The rows of the table that have an effect, in order: category and the number in column `name`
(`/repo/terrain/terrain_mult.py` 190-195 with `ROUGHNESS_LENGTH_m`, `/repo/shielding/shield_mult.py` 211-214 with
`SHIELDING`).  A column that is missing is a `KeyError` as soon as there is a row. -/
def tableRows (t : CsvTable) (name : List Char) : Except PyErr (List (ℤ × Option ℚ)) :=
  if t.rows = [] then .ok []
  else match t.column "CATEGORY".toList, t.column name with
    | some cats, some vals => do
      let rows ← (cats.zip vals).mapM fun p => tableRow p.1 p.2
      return rows.filterMap id
    | _, _ => .error .keyError

/-- `get_terrain_table` and the loop of `terrain_class2mz_orig` (`/repo/terrain/terrain_mult.py` 159-195) on an
existing file: categories and roughness lengths. -/
def terrainTableOf (text : List Char) : Except PyErr (List (ℤ × Option ℚ)) := do
  tableRows (← readCsv text) "ROUGHNESS_LENGTH_m".toList

/-- `get_shielding_table` and the loop of `terrain_class2ms_orig` (`/repo/shielding/shield_mult.py` 153-164,
208-214) on an existing file: categories and shielding percentages. -/
def shieldTableOf (text : List Char) : Except PyErr (List (ℤ × Option ℚ)) := do
  tableRows (← readCsv text) "SHIELDING".toList

end WindMult
