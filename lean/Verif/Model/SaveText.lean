import Verif.Model.ClassTable
import Verif.Model.FileNames
import Mathlib.Data.Int.Log
import Mathlib.Data.Nat.Digits.Defs
import Mathlib.Data.Rat.Floor

/-!
# Arrays in text files: `fl_save_file` and `fl_load_file`
-/

set_option autoImplicit false

namespace WindMult

/-- A float, as an entry of `data` (`/repo/utilities/files.py` 108, 126) and of what `np.genfromtxt` returns
(`/repo/utilities/files.py` 104).  The sign of zero is left out. -/
inductive FloatVal
  | nan
  | inf (neg : Bool)
  | num (q : ℚ)
  deriving DecidableEq

/-- An array of floats: its shape and its entries in C order. `data`, `/repo/utilities/files.py` 108. -/
structure NpArray where
  shape : List ℕ
  data : List FloatVal
  deriving DecidableEq

/-- The last `k` decimal digits of `n`. Part of the format `%.18e`, `/repo/utilities/files.py` 108. -/
def fixedDigits : ℕ → ℕ → List Char
  | 0, _ => []
  | k + 1, n => fixedDigits k (n / 10) ++ [Nat.digitChar (n % 10)]

/-- The 19 significant digits of a number and the power of ten of the first. Part of the format `%.18e`
(`/repo/utilities/files.py` 108), which rounds the exact value, ties to even. -/
def sciParts (q : ℚ) : ℕ × ℤ :=
  let l := Int.log 10 |q|
  let n := (around (|q| * 10 ^ (18 - l))).toNat
  if n = 10 ^ 19 then (10 ^ 18, l + 1) else (n, l)

/-- `'%.18e' % q` (`/repo/utilities/files.py` 108, 126): at least two digits in the exponent. -/
def sciText (q : ℚ) : List Char :=
  let p := sciParts q
  (if q < 0 then ['-'] else []) ++ fixedDigits 1 (p.1 / 10 ^ 18) ++ '.' :: fixedDigits 18 (p.1 % 10 ^ 18) ++
    'e' :: (if p.2 < 0 then '-' else '+') ::
      fixedDigits (max 2 (Nat.digits 10 p.2.natAbs).length) p.2.natAbs

/-- `'%.18e' % v` for any float (`/repo/utilities/files.py` 108, 126). -/
def FloatVal.text : FloatVal → List Char
  | .nan => ['n', 'a', 'n']
  | .inf neg => if neg then ['-', 'i', 'n', 'f'] else ['i', 'n', 'f']
  | .num q => sciText q

/-- The rows that `np.savetxt` writes (`/repo/utilities/files.py` 126): an array with one axis is a column; without axes
or with more than two it is a `ValueError`. -/
def NpArray.rows (a : NpArray) : Except PyErr (List (List FloatVal)) :=
  match a.shape with
  | [_] => .ok (a.data.map fun v => [v])
  | [n, m] => .ok ((List.range n).map fun i => (a.data.drop (i * m)).take m)
  | _ => .error .valueError

/-- What `np.savetxt` writes (`/repo/utilities/files.py` 126-127) with the format `%.18e`: the header, if it is not empty,
with `%` in front of each of its lines, and the rows.  Delimiters are single characters here; the encoding of the
characters is left out. -/
def savetxt (a : NpArray) (header : List Char) (delimiter : Char) : Except PyErr (List Char) := do
  let rows ← a.rows
  let head := if header = [] then []
    else '%' :: (header.flatMap fun c => if c = '\n' then ['\n', '%'] else [c]) ++ ['\n']
  return head ++ rows.flatMap fun r => [delimiter].intercalate (r.map FloatVal.text) ++ ['\n']

/-- `fl_save_file` (`/repo/utilities/files.py` 108-131): the text that is written.  `isDir` are the directories that exist;
`os.makedirs` fails for the empty name, other reasons to fail are left out.  The second attempt after a `TypeError` (129-131)
concerns versions of numpy without headers. -/
def flSaveFile (isDir : List Char → Bool) (filename : List Char) (a : NpArray) (header : List Char)
    (delimiter : Char) : Except PyErr (List Char) :=
  let directory := dirname filename
  if ¬ isDir directory ∧ directory = [] then .error .osError
  else savetxt a header delimiter

/-- The nearest double, ties to even, subnormal ones included; infinity if it is too large. `float` in `np.genfromtxt`,
`/repo/utilities/files.py` 104. -/
def nearestDouble (q : ℚ) : FloatVal :=
  let k := min (52 - Int.log 2 |q|) 1074
  let y := (around (q * 2 ^ k) : ℚ) / 2 ^ k
  if 2 ^ 1024 ≤ |y| then .inf (decide (y < 0)) else .num y

/-- The conversion of a field by `np.genfromtxt` (`/repo/utilities/files.py` 104): `float`, or NaN if that fails.
Underscores between digits and white space other than blanks and tabs are left out. -/
def floatOf (s : List Char) : FloatVal :=
  let sg := takeSign (stripBlanks s)
  let word := sg.2.map Char.toLower
  if word = ['n', 'a', 'n'] then .nan
  else if word = ['i', 'n', 'f'] ∨ word = ['i', 'n', 'f', 'i', 'n', 'i', 't', 'y'] then .inf sg.1
  else match readNumber s with
    | some q => nearestDouble q
    | none => .nan

/-- The line ends of a file that is opened as text: `\r\n` and `\r` count as `\n`; `cr`: the last character was `\r`.
`np.genfromtxt`, `/repo/utilities/files.py` 104. -/
def toNewlines : Bool → List Char → List Char
  | _, [] => []
  | cr, c :: s =>
    if c = '\r' then '\n' :: toNewlines true s
    else if c = '\n' ∧ cr then toNewlines false s
    else c :: toNewlines false s

/-- The lines of a text file. `np.genfromtxt`, `/repo/utilities/files.py` 104. -/
def fileLines (text : List Char) : List (List Char) :=
  let l := (toNewlines false text).splitOn '\n'
  if l.getLast? = some [] then l.dropLast else l

/-- `s.strip(" \r\n")`. `LineSplitter` of `np.genfromtxt`, `/repo/utilities/files.py` 104. -/
def stripLine (s : List Char) : List Char :=
  let f := fun c : Char => c == ' ' || c == '\r' || c == '\n'
  ((s.dropWhile f).reverse.dropWhile f).reverse

/-- The fields of a line, after comments are removed; none if the line is empty. `LineSplitter` of `np.genfromtxt`,
`/repo/utilities/files.py` 104, with `comments='%'`. -/
def lineFields (delimiter : Char) (line : List Char) : List (List Char) :=
  let t := stripLine (line.takeWhile (· ≠ '%'))
  if t = [] then [] else t.splitOn delimiter

/-- `fl_load_file` (`/repo/utilities/files.py` 91-105) on the characters of a file: `np.genfromtxt` skips lines at the
beginning and empty lines, wants the same number of fields in all lines, and removes axes of length one. -/
def flLoadFile (text : List Char) (delimiter : Char) (skiprows : ℕ) : Except PyErr NpArray :=
  match (((fileLines text).drop skiprows).map (lineFields delimiter)).filter (· ≠ []) with
  | [] => .ok ⟨[0], []⟩
  | r :: rows =>
    if rows.any fun x => x.length ≠ r.length then .error .valueError
    else .ok ⟨[rows.length + 1, r.length].filter (· ≠ 1), (r :: rows).flatten.map floatOf⟩

end WindMult
