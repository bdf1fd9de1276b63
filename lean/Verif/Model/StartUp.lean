import Verif.Model.FileNames
import Mathlib.Data.Nat.Digits.Defs

/-!
# The log files of the processes (`/repo/all_multipliers.py` 723–752, `/repo/utilities/files.py` 216–290)

Every process tests whether the folder of the log file exists, makes it if not, and opens its log.  There is
no synchronisation between processes before the first barrier (770).
-/

set_option autoImplicit false

namespace WindMult

/-- `str(n)` for `n > 0` (`/repo/all_multipliers.py` 747): the decimal digits. -/
def rankText (n : ℕ) : List Char := ((Nat.digits 10 n).map fun d => Char.ofNat (48 + d)).reverse

/-- What the processes have in common: `logfile` of the configuration, the working directory, the number of
processes, and which folders `os.makedirs` may make (permissions, free space).
`/repo/all_multipliers.py` 723-752. -/
structure LogCfg where
  logfile : List Char
  cwd : List Char
  size : ℕ
  allowed : List Char → Bool

/-- `os.path.realpath` (`/repo/all_multipliers.py` 724, `/repo/utilities/files.py` 246).  Simplification:
names have no links and no components `.`, `..` or empty. -/
def LogCfg.real (c : LogCfg) (p : List Char) : List Char := pjoin c.cwd p

/-- `logdir` (`/repo/all_multipliers.py` 724) and `log_dir` (`/repo/utilities/files.py` 246). -/
def LogCfg.dirOf (c : LogCfg) (p : List Char) : List Char := dirname (c.real p)

/-- `pjoin(os.getcwd(), 'multipliers.log')` (`/repo/all_multipliers.py` 731). -/
def LogCfg.fallback (c : LogCfg) : List Char :=
  pjoin c.cwd ['m', 'u', 'l', 't', 'i', 'p', 'l', 'i', 'e', 'r', 's', '.', 'l', 'o', 'g']

/-- `/repo/all_multipliers.py` 746–747. -/
def LogCfg.named (c : LogCfg) (rank : ℕ) (p : List Char) : List Char :=
  if 1 < c.size ∧ 0 < rank then p ++ '_' :: rankText rank else p

/-- Position of a process (`/repo/all_multipliers.py` 723-752): before `isdir` (727), before `makedirs`
(729), in `fl_start_log` before `isdir` (`files.py` 247), before `makedirs` (249), before `basicConfig` opens the file (261), and after that. -/
inductive LogPc
  | test
  | make
  | startTest (p : List Char)
  | startMake (p : List Char)
  | openLog (p : List Char)
  | logging (p : List Char)
  | failed
  deriving DecidableEq

/-- The folders that exist and the positions of the processes (`/repo/all_multipliers.py` 723-752). -/
structure LogSt where
  dirs : List Char → Bool
  pc : ℕ → LogPc

/-- `isdir` of a path with this folder made. `/repo/all_multipliers.py` 727-729,
`/repo/utilities/files.py` 247-249. -/
def addDir (dirs : List Char → Bool) (d : List Char) : List Char → Bool := fun p => p = d || dirs p

/-- Whether `os.makedirs(d)` succeeds: it raises `FileExistsError`, an `OSError`, if the folder exists
(`exist_ok` is not given), also if another process has made it since.  That missing parents are made
too is not represented: nobody tests for them. `/repo/all_multipliers.py` 729,
`/repo/utilities/files.py` 249. -/
def LogCfg.canMake (c : LogCfg) (dirs : List Char → Bool) (d : List Char) : Bool := !dirs d && c.allowed d

/-- What a process does next: the new set of folders and its new position.  The handlers of `logging`
are treated separately (`Logging`). `/repo/all_multipliers.py` 723-752, `/repo/utilities/files.py`
246-265. -/
def LogCfg.next (c : LogCfg) (rank : ℕ) (dirs : List Char → Bool) : LogPc → Option ((List Char → Bool) × LogPc)
  | .test => some (dirs, if dirs (c.dirOf c.logfile) then .startTest (c.named rank c.logfile) else .make)
  | .make =>
    some (if c.canMake dirs (c.dirOf c.logfile) then
      (addDir dirs (c.dirOf c.logfile), .startTest (c.named rank c.logfile))
    else (dirs, .startTest (c.named rank c.fallback)))
  | .startTest p => some (dirs, if dirs (c.dirOf p) then .openLog p else .startMake p)
  | .startMake p =>
    some (if c.canMake dirs (c.dirOf p) then (addDir dirs (c.dirOf p), .openLog p)
    else (dirs, .openLog (pjoin c.cwd (basename p))))
  | .openLog p => some (dirs, if dirs (c.dirOf p) then .logging p else .failed)
  | .logging _ => none
  | .failed => none

/-- One step of one process. `/repo/all_multipliers.py` 723-752. -/
inductive LogStep (c : LogCfg) : LogSt → LogSt → Prop
  | run {s : LogSt} {rank : ℕ} {dirs : List Char → Bool} {pc : LogPc} (hr : rank < c.size)
      (h : c.next rank s.dirs (s.pc rank) = some (dirs, pc)) :
      LogStep c s ⟨dirs, fun r => if r = rank then pc else s.pc r⟩

/-- `n` steps of the processes in any order. `/repo/all_multipliers.py` 723-752. -/
inductive LogSteps (c : LogCfg) : ℕ → LogSt → LogSt → Prop
  | refl (s : LogSt) : LogSteps c 0 s s
  | step {n : ℕ} {s t u : LogSt} : LogSteps c n s t → LogStep c t u → LogSteps c (n + 1) s u

/-- All processes before `/repo/all_multipliers.py` 727. -/
def LogSt.start (dirs : List Char → Bool) : LogSt := ⟨dirs, fun _ => .test⟩

/-! ### The handlers of `logging` -/

/-- A handler of the root logger. `/repo/utilities/files.py` 261-280. -/
inductive Handler
  | file (path : List Char) (append : Bool)
  | console (level : ℕ)
  deriving DecidableEq

/-- `logging.getLogger()` (`/repo/utilities/files.py` 266). -/
structure RootLogger where
  level : ℕ
  handlers : List Handler

/-- `logging.basicConfig` (`/repo/utilities/files.py` 261–265): does nothing if the root logger has a
handler. -/
def basicConfig (level : ℕ) (path : List Char) (append : Bool) (l : RootLogger) : RootLogger :=
  if l.handlers = [] then ⟨level, [.file path append]⟩ else l

/-- `fl_start_log` (`/repo/utilities/files.py` 256–282) once the folder is there; `level` is the value of
`getattr(logging, log_level)`, `tty` that of `sys.stdout.isatty()`. -/
def startLog (path : List Char) (level : ℕ) (verbose newlog tty : Bool) (l : RootLogger) : RootLogger :=
  let l := basicConfig level path (!newlog) l
  if l.handlers.length < 2 then
    if verbose && tty then { l with handlers := l.handlers ++ [.console level] } else l
  else l

/-- Where a message of a level goes: nowhere below the level of the logger, otherwise to the handlers
whose own level (0 for the file) is not above. `/repo/utilities/files.py` 261, 276. -/
def RootLogger.emits (l : RootLogger) (level : ℕ) : List Handler :=
  if level < l.level then []
  else l.handlers.filter fun
    | .file _ _ => true
    | .console k => k ≤ level

end WindMult
