import Verif.Model.Utilities
import Verif.Model.ClassTable

/-!
# The text of configuration files

`_ConfigParser` (`/repo/utilities/config.py` 32-54) inherits `read` from Python's `RawConfigParser`.  The model of
`RawConfigParser._read` (Python 3, default options) splits a text into the lines of `CfgLine`, which `cfgRead`
(`Model/Utilities.lean`) stores.  White space is blank, tab, carriage return and line feed only, and a lone carriage
return does not end a line.
-/

set_option autoImplicit false

namespace WindMult

/-- `str.lstrip()`. Used by `read`, `/repo/utilities/config.py` 45. -/
def lstrip (s : List Char) : List Char := s.dropWhile Char.isWhitespace

/-- `str.rstrip()`. Used by `read`, `/repo/utilities/config.py` 45. -/
def rstrip (s : List Char) : List Char := (s.reverse.dropWhile Char.isWhitespace).reverse

/-- `str.strip()`. Used by `read`, `/repo/utilities/config.py` 45. -/
def pyStrip (s : List Char) : List Char := rstrip (lstrip s)

/-- The state of `_read` between two lines (`/repo/utilities/config.py` 45, `self.read`): finished lines (latest first), the
current option with the lines of its value (latest first), whether there was a section header, the indentation of the
last header or option, and whether a line was wrong (reported at the end). -/
structure IniSt where
  out : List CfgLine
  opt : Option (List Char × List (List Char))
  sect : Bool
  indent : ℕ
  bad : Bool

/-- `_join_multiline_values` for the current option (`/repo/utilities/config.py` 45). -/
def IniSt.flush (st : IniSt) : List CfgLine :=
  match st.opt with
  | none => st.out
  | some (k, vs) =>
    .entry (String.ofList k) (String.ofList (rstrip (['\n'].intercalate vs.reverse))) :: st.out

/-- `SECTCRE.match`: `\[(?P<header>.+)\]` (`/repo/utilities/config.py` 45): from the bracket at the beginning to the last
closing one (before Python 3.11: to the first). -/
def sectionName : List Char → Option (List Char)
  | '[' :: s =>
    match s.reverse.dropWhile (fun c => c != ']') with
    | _ :: c :: n => some (c :: n).reverse
    | _ => none
  | _ => none

/-- `OPTCRE.match`: `(?P<option>.*?)\s*(?:(?P<vi>=|:)\s*(?P<value>.*))$` (`/repo/utilities/config.py` 45): split at the first `=`
or `:`. -/
def splitOption (s : List Char) : Option (List Char × List Char) :=
  match s.dropWhile fun c => c != '=' && c != ':' with
  | _ :: v => some (s.takeWhile fun c => c != '=' && c != ':', v)
  | [] => none

/-- One line (`/repo/utilities/config.py` 45): lines that are empty or comments (`#` or `;`), lines that continue a value (deeper
indentation), section headers, options. -/
def IniSt.step (st : IniSt) (line : List Char) : IniSt :=
  let v := pyStrip line
  match v with
  | [] => { st with opt := st.opt.map fun o => (o.1, [] :: o.2) }
  | c :: _ =>
    if c = '#' ∨ c = ';' then st
    else
      let cur := (line.takeWhile Char.isWhitespace).length
      if st.opt.isSome ∧ st.indent < cur then { st with opt := st.opt.map fun o => (o.1, v :: o.2) }
      else match sectionName v with
        | some n => ⟨.header (String.ofList n) :: st.flush, none, true, cur, st.bad⟩
        | none =>
          if st.sect then
            match splitOption v with
            | some (k, w) =>
              if rstrip k = [] then { st with indent := cur, bad := true }
              else ⟨st.flush, some ((rstrip k).map Char.toLower, [pyStrip w]), true, cur, st.bad⟩
            | none => { st with indent := cur, bad := true }
          else { st with indent := cur, bad := true }

/-- The lines of a configuration text; a wrong line is a `ParsingError` or `MissingSectionHeaderError` (here
`runtimeError`) (`/repo/utilities/config.py` 45). -/
def iniLines (text : List Char) : Except PyErr (List CfgLine) :=
  let st := (text.splitOn '\n').foldl IniSt.step ⟨[], none, false, 0, false⟩
  if st.bad then .error .runtimeError else .ok st.flush.reverse

/-- `set_config_file` (`/repo/utilities/config.py` 48-54) with the file's text; a file that does not exist (`none`) is
skipped by `read`. -/
def setConfigText (file : Option (List Char)) (st : CfgState) : Except PyErr CfgState :=
  match file with
  | none => cfgSetFile none st
  | some text => do cfgSetFile (some (← iniLines text)) st

/-- `config.get(section, option)` (e.g. `/repo/all_multipliers.py` 720): the name of the option is lower-cased; a missing
section or option raises (here `keyError`). -/
def configGet (st : CfgState) (sect option : String) : Except PyErr String :=
  match st.values sect (String.ofList (option.toList.map Char.toLower)) with
  | some v => .ok v
  | none => .error .keyError

/-- `float(config.get('inputValues', 'upwind_length'))` (`/repo/all_multipliers.py` 721): a text that is no number is a
`ValueError`.  Infinities, NaN and underscores between digits are left out; rounding see `readNumber`. -/
def configUpwind (st : CfgState) : Except PyErr ℚ := do
  match readNumber (← configGet st "inputValues" "upwind_length").toList with
  | some q => .ok q
  | none => .error .valueError

end WindMult
