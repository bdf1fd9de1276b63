import Verif.Model.ConfigText
import Verif.Model.Pipeline

/-!
# From the text files to the inputs of a run
-/

set_option autoImplicit false

namespace WindMult

/-- `config.getboolean` (`/repo/all_multipliers.py` 738): other texts are a `ValueError`. -/
def configBool (st : CfgState) (sect option : String) : Except PyErr Bool := do
  let v := String.ofList ((← configGet st sect option).toList.map Char.toLower)
  if v ∈ ["1", "yes", "true", "on"] then .ok true
  else if v ∈ ["0", "no", "false", "off"] then .ok false
  else .error .valueError

/-- `level=getattr(logging, log_level)` in `logging.basicConfig` (`/repo/utilities/files.py` 261): the names in Python's
`logging` whose values are whole numbers, the last four being truth values.  Other names are an `AttributeError`,
`TypeError` or `ValueError` (here `runtimeError`). -/
def logLevels : List String :=
  ["NOTSET", "DEBUG", "INFO", "WARN", "WARNING", "ERROR", "CRITICAL", "FATAL", "raiseExceptions", "logThreads",
    "logMultiprocessing", "logProcesses"]

/-- What a run takes from its text files. `/repo/all_multipliers.py` 717-759,
`/repo/terrain/terrain_mult.py` 166-168, `/repo/shielding/shield_mult.py` 160-162. -/
structure Settings where
  upwind : ℚ
  landFile : String
  demFile : String
  out : String
  terrain : List (ℤ × Option ℚ)
  shield : List (ℤ × Option ℚ)
  deriving DecidableEq

/-- The settings of a run (`/repo/all_multipliers.py` 717-759; the table `/repo/terrain/terrain_mult.py` 166-168 and
`/repo/shielding/shield_mult.py` 160-162).  `files` are the text files by name, `arg` is the argument `-c`, `verbose` the
argument `-v`, and `st` the configuration before, that is after the import of `/repo/utilities/config.py`.  The table is
read in every tile; the model reads it once, at the end.  A table that does not exist is an `osError` here (the terrain
step catches it and calls `sys.exit()`, `/repo/terrain/terrain_mult.py` 169-171).  Creating the folder of the log file is
left out. -/
def startSettings (files : String → Option (List Char)) (arg : Option String) (verbose : Bool) (st : CfgState) :
    Except PyErr Settings := do
  let st ← match arg with
    | some name => if name = "" then .ok st else setConfigText (files name) st
    | none => .ok st
  let _ ← configGet st "inputValues" "root"
  let up ← configUpwind st
  let _ ← configGet st "Logging" "LogFile"
  let level ← configGet st "Logging" "LogLevel"
  let _ ← if verbose then .ok true else configBool st "Logging" "Verbose"
  if level ∈ logLevels then pure () else .error .runtimeError
  let land ← configGet st "inputValues" "terrain_data"
  let dem ← configGet st "inputValues" "dem_data"
  let out ← configGet st "Output" "output_dir"
  let name ← configGet st "inputValues" "terrain_table"
  match files name with
  | none => .error .osError
  | some text =>
    let terr ← terrainTableOf text
    let sh ← shieldTableOf text
    .ok ⟨up, land, dem, out, terr, sh⟩

/-- The inputs with the tables that were read (`/repo/terrain/terrain_mult.py` 190-195,
`/repo/shielding/shield_mult.py` 211-214).  Rows whose number is missing are left out (the code gives their category
NaN). -/
noncomputable def Inputs.withTables (c : Inputs) (s : Settings) : Inputs :=
  { c with
    terrainTable := s.terrain.filterMap fun p => p.2.map fun q => ⟨p.1, (q : ℝ)⟩
    shieldTable := s.shield.filterMap fun p => p.2.map fun q => (p.1, (q : ℝ)) }

end WindMult
