import Verif.Model.TempFiles

/-!
# The working directory while the tiles are processed
-/

set_option autoImplicit false

namespace WindMult

/-- What the computation of a tile does to a process and the file system. `/repo/all_multipliers.py`
367-427 with `/repo/shielding/shield_mult.py` 325-347. -/
inductive CwdOp
  /-- an operation on a path, which the operating system takes relative to the working directory -/
  | file (a : FileOp)
  /-- `os.chdir(p)` -/
  | chdir (p : List Char)
  /-- remove the files `*.xml` of the working directory, ignoring errors -/
  | removeXmlHere

/-- The working directory (an absolute path) and the files. `os.chdir`, `/repo/shielding/shield_mult.py`
337. -/
structure CwdState where
  cwd : List Char
  files : FileSys

/-- An operation on paths relative to `cwd`.  `.`, `..` and repeated slashes are not simplified. The
paths of `/repo/all_multipliers.py` 326, 395 below `output_folder` (all_multipliers.py 759). -/
def FileOp.at (cwd : List Char) : FileOp → FileOp
  | .create p => .create (pjoin cwd p)
  | .remove p => .remove (pjoin cwd p)
  | .removeIfThere p => .removeIfThere (pjoin cwd p)
  | .expect p => .expect (pjoin cwd p)
  | .removeXml dir => .removeXml (pjoin cwd dir)

/-- The directory in which an operation creates a file. The files of `/repo/all_multipliers.py` 326, 395
and those of the three steps (`/repo/all_multipliers.py` 403-412). -/
def FileOp.newIn : FileOp → Option (List Char)
  | .create p => some (dirHead p)
  | _ => none

/-- The path of a directory with a final slash. `pjoin`, `/repo/all_multipliers.py` 326. -/
def slashed (a : List Char) : List Char :=
  if a = [] ∨ a.getLast? = some '/' then a else a ++ ['/']

/-- The effect of one operation.  `dirs` are the existing directories (absolute, with a final
slash); none is created or removed while tiles are processed.  A file can be created only in an
existing directory; `os.chdir` needs an existing directory. `/repo/all_multipliers.py` 367-427,
`/repo/shielding/shield_mult.py` 337. -/
def CwdOp.run (dirs : List Char → Bool) (s : CwdState) : CwdOp → Except PyErr CwdState
  | .file a =>
    if (a.at s.cwd).newIn.any (fun d => !dirs d) then .error .osError
    else (a.at s.cwd).run s.files |>.map fun f => ⟨s.cwd, f⟩
  | .chdir p =>
    if dirs (slashed (pjoin s.cwd p)) then .ok ⟨pjoin s.cwd p, s.files⟩ else .error .osError
  | .removeXmlHere => .ok ⟨s.cwd, fun q => if isXmlIn s.cwd q then false else s.files q⟩

/-- A sequence of operations. `/repo/all_multipliers.py` 367-427. -/
def runCwd (dirs : List Char → Bool) : CwdState → List CwdOp → Except PyErr CwdState
  | s, [] => .ok s
  | s, a :: as =>
    match a.run dirs s with
    | .error e => .error e
    | .ok s' => runCwd dirs s' as

/-- The same operation with its use of the working directory: to remove the `*.xml` files the
shielding step changes to their directory, for good
(`os.chdir(ms_folder)`, `glob.glob('*.xml')`, `os.remove(f)`,
`/repo/shielding/shield_mult.py` 337-346).  `save_multiplier` also changes the directory, but
changes back (`/repo/utilities/nctools.py` 321-324; not modelled). -/
def FileOp.toCwd : FileOp → List CwdOp
  | .removeXml dir => [.chdir dir, .removeXmlHere]
  | a => [.file a]

/-- The operations of a tile (`tileOps`) by a process with a working directory.
`/repo/all_multipliers.py` 367-427. -/
def tileCwdOps (out tile : List Char) (empty noLand : Bool) : List CwdOp :=
  (tileOps out tile empty noLand).flatMap FileOp.toCwd

/-- The serial run over the tiles (`/repo/all_multipliers.py` 487-494). -/
def serialCwdOps (out : List Char) (tiles : List (List Char)) (empty noLand : List Char → Bool) :
    List CwdOp :=
  tiles.flatMap fun t => tileCwdOps out t (empty t) (noLand t)

end WindMult
