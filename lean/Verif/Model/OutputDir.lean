import Verif.Model.Basic
import Mathlib.Data.List.Infix

/-!
# Preparing the output directory (`/repo/all_multipliers.py` 556-583) and saving a grid
(`/repo/utilities/nctools.py` 148-293)
-/

set_option autoImplicit false

namespace WindMult

/-- Kinds of directory entries (`/repo/all_multipliers.py` 569-570). -/
inductive FsKind
  | file
  | dir
  deriving DecidableEq

/-- A file system: what is found at each absolute path (a list of names).  Permissions, links and
failing disks are not modelled. `/repo/all_multipliers.py` 569-583. -/
abbrev Fs := List String → Option FsKind

/-- `shutil.rmtree` (`/repo/all_multipliers.py` 570, 579): removes a directory with everything below
it; on a file it raises `NotADirectoryError`. -/
def rmtree (p : List String) (fs : Fs) : Except PyErr Fs :=
  match fs p with
  | some .dir => .ok fun q => if p <+: q then none else fs q
  | _ => .error .osError

open Classical in
/-- `os.makedirs` (`/repo/all_multipliers.py` 572, 581): creates the directory and all missing
directories above it; fails if it exists or if something above it is a file. -/
noncomputable def makedirs (p : List String) (fs : Fs) : Except PyErr Fs :=
  if fs p ≠ none then .error .osError
  else if ∃ q, q <+: p ∧ fs q = some .file then .error .osError
  else .ok fun q => if q <+: p then some .dir else fs q

/-- `if os.path.exists(p): shutil.rmtree(p)` followed by `os.makedirs(p)`
(`/repo/all_multipliers.py` 569-574 and 577-583). -/
noncomputable def freshDir (p : List String) (fs : Fs) : Except PyErr Fs :=
  if fs p = none then makedirs p fs
  else
    match rmtree p fs with
    | .error e => .error e
    | .ok fs' => makedirs p fs'

/-- `subdirs_1` (`/repo/all_multipliers.py` 567). -/
def resultFolders : List String := ["terrain", "shielding", "topographic", "M3", "M3_max"]

/-- `do_output_directory_creation` (`/repo/all_multipliers.py` 556-583) under `disable_on_workers`
(`/repo/utilities/parallel.py` 122-137). -/
noncomputable def prepareOutput (size rank : ℕ) (out : List String) (fs : Fs) : Except PyErr Fs :=
  if size > 1 ∧ rank > 0 then .ok fs
  else
    match freshDir out fs with
    | .error e => .error e
    | .ok fs' => resultFolders.foldlM (fun fs sub => freshDir (out ++ [sub]) fs) fs'

/-! ### Saving a grid -/

/-- An entry of the dictionary `dimensions`; `complete` says that it has all the keys needed
(`/repo/utilities/nctools.py` 241). -/
structure NcDim where
  complete : Bool
  name : String
  size : ℕ

/-- An entry of the dictionary `variables` (`/repo/utilities/nctools.py` 242): `ndim` is the number
of axes of the values, `none` if there are no values (`None`). -/
structure NcVar where
  complete : Bool
  name : String
  dims : List String
  ndim : Option ℕ

/-- The file: the dimensions and variables defined so far, and whether it is still open.
`/repo/utilities/nctools.py` 235-293. -/
structure NcFile where
  isOpen : Bool
  dims : List (String × ℕ)
  vars : List String

/-- The loop over the dimensions (`/repo/utilities/nctools.py` 245-253); `nc_create_dim` (126-145)
defines a dimension and a variable of the same name.  A name used twice makes the netCDF library
raise `RuntimeError`, without the file being closed. -/
def ncDims : List NcDim → NcFile → NcFile × Except PyErr Unit
  | [], f => (f, .ok ())
  | d :: rest, f =>
    if d.complete then
      if d.name ∈ f.vars then (f, .error .runtimeError)
      else ncDims rest { f with dims := f.dims ++ [(d.name, d.size)], vars := f.vars ++ [d.name] }
    else ({ f with isOpen := false }, .error .keyError)

/-- The loop over the variables (`/repo/utilities/nctools.py` 255-293): both branches at the end of
the body (289-293) return.  A dimension that does not exist makes `createVariable` raise (here
`KeyError`), a name in use `RuntimeError`, without the file being closed; values whose shape
disagrees with the dimensions are not modelled beyond the number of axes. -/
def ncVars (keepOpen : Bool) : List NcVar → NcFile → NcFile × Except PyErr Unit
  | [], f => (f, .ok ())
  | v :: _, f =>
    if v.complete then
      if v.ndim.isSome ∧ v.ndim ≠ some v.dims.length then
        ({ f with isOpen := false }, .error .valueError)
      else if v.dims.any (fun d => !(f.dims.map Prod.fst).contains d) then (f, .error .keyError)
      else if v.name ∈ f.vars then (f, .error .runtimeError)
      else ({ f with isOpen := keepOpen, vars := f.vars ++ [v.name] }, .ok ())
    else ({ f with isOpen := false }, .error .keyError)

/-- `nc_save_grid` (`/repo/utilities/nctools.py` 148-293); opening the file (235-238) succeeds. -/
def ncSaveGrid (dims : List NcDim) (vars : List NcVar) (keepOpen : Bool) :
    NcFile × Except PyErr Unit :=
  match ncDims dims ⟨true, [], []⟩ with
  | (f, .error e) => (f, .error e)
  | (f, .ok ()) => ncVars keepOpen vars f

/-- The dictionaries of `save_multiplier` (`/repo/utilities/nctools.py` 360-412) for a grid of the
given shape. -/
def multiplierDims (rows cols : ℕ) : List NcDim := [⟨true, "lat", rows⟩, ⟨true, "lon", cols⟩]

/-- The variables that `save_multiplier` saves (`/repo/utilities/nctools.py` 387-412). -/
def multiplierVars (name : String) : List NcVar :=
  [⟨true, name, ["lat", "lon"], some 2⟩, ⟨true, "crs", [], none⟩]

end WindMult
