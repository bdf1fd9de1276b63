import Verif.Model.Basic

/-!
# Configuration, singletons, checksums, timing
(`/repo/utilities/config.py`, `meta.py`, `files.py`, `/repo/all_multipliers.py` 531-553)
-/

set_option autoImplicit false

namespace WindMult

/-! ### Configuration files -/

/-- A line of a configuration file as `RawConfigParser._read` tokenises it.  Comments, blank lines,
continuation lines and the spelling of `=` are not modelled; option names have been lower-cased
(`optionxform`). `/repo/utilities/config.py` 45. -/
inductive CfgLine
  | header (section_ : String)
  | entry (option_ value : String)
  deriving DecidableEq

/-- The stored values (`self._sections`); `DEFAULT` is a section like any other here.
`/repo/utilities/config.py` 32-54. -/
abbrev Cfg := String → String → Option String

/-- The parser (`/repo/utilities/config.py` 32-38) with the flag `readonce`. -/
structure CfgState where
  values : Cfg
  readonce : Bool

/-- `RawConfigParser.read` of one file: each line in turn, with the current section, the sections and
the options seen in *this* file.  The parser is strict: a section or option that occurs twice in one
file is an error (`DuplicateSectionError`, `DuplicateOptionError`; here `runtimeError`), as is an
entry before the first header (`MissingSectionHeaderError`). `/repo/utilities/config.py` 45. -/
def cfgRead : List CfgLine → Option String → List String → List (String × String) → Cfg →
    Except PyErr Cfg
  | [], _, _, _, c => .ok c
  | .header s :: rest, _, secs, opts, c =>
    if s ∈ secs then .error .runtimeError else cfgRead rest (some s) (s :: secs) opts c
  | .entry _ _ :: _, none, _, _, _ => .error .runtimeError
  | .entry k v :: rest, some s, secs, opts, c =>
    if (s, k) ∈ opts then .error .runtimeError
    else cfgRead rest (some s) secs ((s, k) :: opts)
      (fun s' k' => if s' = s ∧ k' = k then some v else c s' k')

/-- `_read_file` (`/repo/utilities/config.py` 40-46); a file that does not exist (`none`) is skipped
by `read`. -/
def cfgReadFile (file : Option (List CfgLine)) (st : CfgState) : Except PyErr CfgState :=
  if st.readonce then .ok st
  else match file with
    | none => .ok ⟨st.values, true⟩
    | some lines =>
      match cfgRead lines none [] [] st.values with
      | .error e => .error e
      | .ok c => .ok ⟨c, true⟩

/-- `__init__` (`/repo/utilities/config.py` 33-38): the default file is read if it exists. -/
def cfgInit (dflt : Option (List CfgLine)) : Except PyErr CfgState :=
  match dflt with
  | none => .ok ⟨fun _ _ => none, false⟩
  | some lines => cfgReadFile (some lines) ⟨fun _ _ => none, false⟩

/-- `set_config_file` (`/repo/utilities/config.py` 48-54). -/
def cfgSetFile (file : Option (List CfgLine)) (st : CfgState) : Except PyErr CfgState :=
  cfgReadFile file ⟨st.values, false⟩

/-! ### Singletons -/

/-- Where a thread is in `Singleton.__call__` (`/repo/utilities/meta.py` 27-33). -/
inductive SPc
  /-- before the first check (28) -/
  | start
  /-- waiting for the lock (29) -/
  | waiting
  /-- in the critical section, before the second check (30) -/
  | locked
  /-- in the constructor (32) -/
  | constructing
  /-- the constructor has returned this object, not yet assigned (31) -/
  | built (obj : ℕ)
  /-- leaving the critical section (end of 29) -/
  | releasing
  /-- leaving the critical section because of an exception in the constructor -/
  | failing
  /-- before `return` (33) -/
  | returning
  /-- has returned this object -/
  | done (obj : Option ℕ)
  /-- the constructor's exception has been propagated -/
  | failed
  deriving DecidableEq

/-- The state shared by the threads and the position of each. `/repo/utilities/meta.py` 27-33. -/
structure SState where
  /-- `cls._instance_for_singleton_…` -/
  inst : Option ℕ
  /-- the holder of `cls._lock_for_singleton_…` -/
  lock : Option ℕ
  /-- how often the constructor has been entered; also the identity of the next object -/
  runs : ℕ
  /-- how often it has raised -/
  fails : ℕ
  pc : ℕ → SPc

/-- All threads before their call. `/repo/utilities/meta.py` 27-33. -/
def SState.init : SState := ⟨none, none, 0, 0, fun _ => .start⟩

/-- `not cls._instance_…`: `truthy` says which objects are true in a boolean context.
`/repo/utilities/meta.py` 28, 30. -/
def unset (truthy : ℕ → Bool) : Option ℕ → Bool
  | none => true
  | some o => !truthy o

/-- A thread goes on to another position (`/repo/utilities/meta.py` 27-33). -/
def setPc (pc : ℕ → SPc) (t : ℕ) (p : SPc) : ℕ → SPc := fun t' => if t' = t then p else pc t'

/-- One atomic step of thread `t` (`/repo/utilities/meta.py` 27-33). -/
inductive SStep (truthy : ℕ → Bool) : SState → ℕ → SState → Prop
  | check_unset {s : SState} {t : ℕ} : s.pc t = .start → unset truthy s.inst = true →
      SStep truthy s t { s with pc := setPc s.pc t .waiting }
  | check_set {s : SState} {t : ℕ} : s.pc t = .start → unset truthy s.inst = false →
      SStep truthy s t { s with pc := setPc s.pc t .returning }
  | acquire {s : SState} {t : ℕ} : s.pc t = .waiting → s.lock = none →
      SStep truthy s t { s with lock := some t, pc := setPc s.pc t .locked }
  | recheck_unset {s : SState} {t : ℕ} : s.pc t = .locked → unset truthy s.inst = true →
      SStep truthy s t { s with runs := s.runs + 1, pc := setPc s.pc t .constructing }
  | recheck_set {s : SState} {t : ℕ} : s.pc t = .locked → unset truthy s.inst = false →
      SStep truthy s t { s with pc := setPc s.pc t .releasing }
  | construct {s : SState} {t : ℕ} : s.pc t = .constructing →
      SStep truthy s t { s with pc := setPc s.pc t (.built s.runs) }
  | raise {s : SState} {t : ℕ} : s.pc t = .constructing →
      SStep truthy s t { s with fails := s.fails + 1, pc := setPc s.pc t .failing }
  | assign {s : SState} {t o : ℕ} : s.pc t = .built o →
      SStep truthy s t { s with inst := some o, pc := setPc s.pc t .releasing }
  | release {s : SState} {t : ℕ} : s.pc t = .releasing →
      SStep truthy s t { s with lock := none, pc := setPc s.pc t .returning }
  | release_failed {s : SState} {t : ℕ} : s.pc t = .failing →
      SStep truthy s t { s with lock := none, pc := setPc s.pc t .failed }
  | ret {s : SState} {t : ℕ} : s.pc t = .returning →
      SStep truthy s t { s with pc := setPc s.pc t (.done s.inst) }
  | again {s : SState} {t : ℕ} {o : Option ℕ} : s.pc t = .done o →
      SStep truthy s t { s with pc := setPc s.pc t .start }

/-- States reachable under some schedule; a thread that has returned may call again.
`/repo/utilities/meta.py` 27-33. -/
inductive SReach (truthy : ℕ → Bool) : SState → Prop
  | init : SReach truthy SState.init
  | step {s s' : SState} {t : ℕ} : SReach truthy s → SStep truthy s t s' → SReach truthy s'

/-! ### Checksums -/

/-- The chunks the loop in `fl_get_stat` reads (`/repo/utilities/files.py` 174-178): `f.read(n)`
returns the next `n` bytes, or all remaining ones if there are fewer or `n` is negative; an empty
chunk ends the loop. -/
def readChunks {B : Type} (n : ℤ) (content : List B) : List (List B) :=
  let k := if n < 0 then content.length else n.toNat
  if _h : content.take k = [] then []
  else content.take k :: readChunks n (content.drop k)
termination_by content.length
decreasing_by
  have : 0 < (content.take k).length := List.length_pos_iff.mpr _h
  rw [List.length_take] at this
  rw [List.length_drop]
  omega

/-- `fl_get_stat`'s checksum (`/repo/utilities/files.py` 171-179) for a hash function given by its
initial state and its treatment of one byte; `update` feeds all bytes of a chunk. -/
def chunkedHash {B S : Type} (step : S → B → S) (init : S) (n : ℤ) (content : List B) : S :=
  (readChunks n content).foldl (fun s chunk => chunk.foldl step s) init

/-! ### Timing -/

section
variable {K : Type} [Field K] [LinearOrder K] [IsStrictOrderedRing K] [FloorRing K]

/-- Python `divmod(x, b)` for a float `x` and a positive integer `b`. `/repo/all_multipliers.py` 547. -/
def pyDivmod (x : K) (b : ℤ) : ℤ × K := (⌊x / b⌋, x - b * ⌊x / b⌋)

/-- The three numbers `timer` logs (`/repo/all_multipliers.py` 545-549): the `reduce` splits off the
seconds, then the minutes; `%02d` truncates. -/
def timerSplit (t : K) : ℤ × ℤ × ℤ :=
  let ms := pyDivmod t 60
  let hm := pyDivmod (ms.1 : K) 60
  (hm.1, pyInt hm.2, pyInt ms.2)

end

end WindMult
