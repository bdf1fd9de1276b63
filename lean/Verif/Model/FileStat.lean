import Verif.Model.Utilities
import Verif.Model.FileNames
import Verif.Model.ConfigText

/-!
# What `/repo/utilities/files.py` tells about a file, and how it ends a program

`fl_get_stat` (134-182), `fl_mod_date` (304-326), `fl_size` (329-352) and `fl_log_fatal_error`
(289-301).  `fl_get_stat`'s checksum is `chunkedHash` of `Model/Utilities.lean`.
-/

set_option autoImplicit false

namespace WindMult

/-- What a program may hand over as the file (`/repo/utilities/files.py` 134, 304, 329): a text, a whole
number, which Python takes for an open file's descriptor, or something else, like `None` or a list.
Simplified: bytes and `os.PathLike` objects are left out. -/
inductive FileArg
  | text (p : List Char)
  | descriptor (n : ℕ)
  | other
  deriving DecidableEq

/-- A file or folder, as far as `/repo/utilities/files.py` 154-182 uses it.  Simplified: the time of
modification is a whole number of seconds (`ctime` and `localtime` drop the fraction). -/
structure FileEntry (B : Type) where
  folder : Bool
  readable : Bool
  content : List B
  size : ℕ
  mtime : ℤ

/-- What is there (`/repo/utilities/files.py` 154, 167): by name, and by descriptor of this process. -/
structure FileView (B : Type) where
  named : List Char → Option (FileEntry B)
  opened : ℕ → Option (FileEntry B)

/-- The exceptions (`/repo/utilities/files.py` 158, 164, 170); the texts of the messages are left out. -/
inductive FileErr
  | ioError
  | typeError
  | valueError
  deriving DecidableEq

section Files
variable {B H : Type}

/-- `os.stat(filename)` (`/repo/utilities/files.py` 167, 320, 342): a name with a null character is a
`ValueError`, an object that is no name a `TypeError`. -/
def osStat (fs : FileView B) : FileArg → Except FileErr (FileEntry B)
  | .text p =>
    if '\x00' ∈ p then .error .valueError
    else match fs.named p with
      | some e => .ok e
      | none => .error .ioError
  | .descriptor n =>
    match fs.opened n with
    | some e => .ok e
    | none => .error .ioError
  | .other => .error .typeError

/-- `fh = open(filename)`, `fh.close()` (`/repo/utilities/files.py` 155-156): what is there afterwards.  A
descriptor is closed by this.  Simplified: an open descriptor is readable. -/
def openClose (fs : FileView B) : FileArg → Except FileErr (FileView B)
  | .text p =>
    if '\x00' ∈ p then .error .valueError
    else match fs.named p with
      | some e => if e.folder ∨ ¬ e.readable then .error .ioError else .ok fs
      | none => .error .ioError
  | .descriptor n =>
    match fs.opened n with
    | some e => if e.folder then .error .ioError else .ok { fs with opened := Function.update fs.opened n none }
    | none => .error .ioError
  | .other => .error .typeError

/-- `fl_get_stat(filename, chunk_whole)` (`/repo/utilities/files.py` 134-182), with what is there
afterwards.  The hash function is given as in `chunkedHash`, `digest` is `hexdigest`, `ctime` the text of
a time.  Simplified: nothing changes between 155 and 175. -/
def flGetStat (step : H → B → H) (init : H) (digest : H → String) (ctime : ℤ → List Char) (fs : FileView B)
    (filename : FileArg) (chunk : ℤ) : Except FileErr (List Char × List Char × String × List Char) × FileView B :=
  match openClose fs filename with
  | .error _ => (.error .ioError, fs)
  | .ok fs' =>
    match filename with
    | .text p =>
      match osStat fs' (.text p) with
      | .error e => (.error e, fs')
      | .ok e => (.ok (dirname p, basename p, digest (chunkedHash step init chunk e.content), ctime e.mtime), fs')
    | _ => (.error .typeError, fs')

/-- `fl_mod_date(filename, dateformat)` (`/repo/utilities/files.py` 304-326), `format` standing for
`strftime(dateformat, localtime(…))`.  An `IOError` is raised again, others pass through. -/
def flModDate (format : ℤ → List Char) (fs : FileView B) (filename : FileArg) : Except FileErr (List Char) :=
  match osStat fs filename with
  | .error e => .error e
  | .ok e => .ok (format e.mtime)

/-- `fl_size(filename)` (`/repo/utilities/files.py` 329-352).  `WindowsError` is an `IOError` too (24-26). -/
def flSize (fs : FileView B) (filename : FileArg) : Except FileErr ℕ :=
  match osStat fs filename with
  | .error e => .error e
  | .ok e => .ok e.size

end Files

/-! ### Times -/

/-- `time.localtime(…)` (`/repo/utilities/files.py` 324), as far as it is used. -/
structure LocalTime where
  year : ℕ
  month : ℕ
  day : ℕ
  hour : ℕ
  minute : ℕ
  second : ℕ
  deriving DecidableEq

/-- One digit (used for `/repo/utilities/files.py` 172, 326). -/
def timeDigit (n : ℕ) : Char := Char.ofNat (48 + n % 10)

/-- Two digits, filled with a zero: `%m`, `%d`, `%H`, `%M`, `%S` in `/repo/utilities/files.py` 304. -/
def twoDigits (n : ℕ) : List Char := [timeDigit (n / 10), timeDigit n]

/-- `strftime` (`/repo/utilities/files.py` 326) for the directives of the default format and of the example
in 315-316; `%Y` is not filled with zeros (glibc).  Simplified: other directives are left as they are. -/
def strftime : List Char → LocalTime → List Char
  | '%' :: 'Y' :: r, t => Nat.toDigits 10 t.year ++ strftime r t
  | '%' :: 'm' :: r, t => twoDigits t.month ++ strftime r t
  | '%' :: 'd' :: r, t => twoDigits t.day ++ strftime r t
  | '%' :: 'H' :: r, t => twoDigits t.hour ++ strftime r t
  | '%' :: 'M' :: r, t => twoDigits t.minute ++ strftime r t
  | '%' :: 'S' :: r, t => twoDigits t.second ++ strftime r t
  | c :: r, t => c :: strftime r t
  | [], _ => []

/-- The default of `dateformat` (`/repo/utilities/files.py` 304). -/
def defaultDateFormat : List Char := "%Y-%m-%d %H:%M:%S".toList

/-- The names in `time.ctime` (`/repo/utilities/files.py` 172). -/
def monthNames : List (List Char) :=
  ["Jan".toList, "Feb".toList, "Mar".toList, "Apr".toList, "May".toList, "Jun".toList, "Jul".toList, "Aug".toList,
    "Sep".toList, "Oct".toList, "Nov".toList, "Dec".toList]

/-- The names in `time.ctime` (`/repo/utilities/files.py` 172). -/
def dayNames : List (List Char) :=
  ["Mon".toList, "Tue".toList, "Wed".toList, "Thu".toList, "Fri".toList, "Sat".toList, "Sun".toList]

/-- `time.ctime` of a local time (`/repo/utilities/files.py` 172): `"%s %s%3d %.2d:%.2d:%.2d %d"`; the day
of the week as a function of the date. -/
def ctimeText (wday : ℕ → ℕ → ℕ → Fin 7) (t : LocalTime) : List Char :=
  dayNames.getD (wday t.year t.month t.day) [] ++ [' '] ++ monthNames.getD (t.month - 1) [] ++
    [' ', if t.day < 10 then ' ' else timeDigit (t.day / 10), timeDigit t.day, ' '] ++
    twoDigits t.hour ++ [':'] ++ twoDigits t.minute ++ [':'] ++ twoDigits t.second ++ [' '] ++
    Nat.toDigits 10 t.year

/-! ### The end of a program -/

/-- `fl_log_fatal_error(tblines)` (`/repo/utilities/files.py` 289-301): the messages logged, and the argument
of `SystemExit`, none here. -/
def flLogFatalError (tblines : List (List Char)) : List (List Char) × Option ℕ :=
  (tblines.map lstrip, none)

/-- The exit status Python gives for the argument of `sys.exit` (`/repo/utilities/files.py` 301). -/
def exitStatus (arg : Option ℕ) : ℕ := (arg.getD 0) % 256

end WindMult
