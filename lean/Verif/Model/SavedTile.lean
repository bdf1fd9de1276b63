import Verif.Model.Basic

/-!
# What is saved of a tile: coordinates, values and their ranges (`/repo/utilities/nctools.py` 83-145, 248-282, 359-416)

The global attributes are in `Model/Metadata.lean`, the order of the steps and their errors in
`Model/OutputDir.lean`.
-/

set_option autoImplicit false

namespace WindMult

section SavedTile
variable {K : Type}

/-- A coordinate variable (`/repo/utilities/nctools.py` 359-385): its name, its values and the attribute
`actual_range`.  Left out: the attributes that are fixed texts. -/
structure CoordVar (K : Type) where
  name : String
  values : List K
  range : K × K

/-- The variable of a multiplier (`/repo/utilities/nctools.py` 389-402) with its coordinates: NaN is `none`.
Left out: the attributes that are fixed texts, and `crs` (403-414), which is not saved (C63). -/
structure SavedTile (K : Type) where
  lat : CoordVar K
  lon : CoordVar K
  name : String
  dims : List String
  fill : K
  range : Option K × Option K
  data : Grid (Option K)

/-- All cells, row by row: what `np.nanmin` and `np.nanmax` run over (`/repo/utilities/nctools.py` 398-399). -/
def cellList {A : Type} (g : Grid A) : List A :=
  (List.range g.rows).flatMap fun i => (List.range g.cols).map fun j => g.val i j

/-- `np.min`, `np.max` (`/repo/utilities/nctools.py` 368, 379), by the function that takes the one of two
numbers; an empty array is a `ValueError`. -/
def extreme (pick : K → K → K) : List K → Except PyErr K
  | [] => .error .valueError
  | x :: l => .ok (l.foldl pick x)

/-- `np.nanmin`, `np.nanmax` (`/repo/utilities/nctools.py` 398-399): NaN if there is no number, with a
warning only; an empty array is a `ValueError`. -/
def nanExtreme (pick : K → K → K) (l : List (Option K)) : Except PyErr (Option K) :=
  if l = [] then .error .valueError
  else match l.filterMap id with
    | [] => .ok none
    | x :: r => .ok (some (r.foldl pick x))

/-- `save_multiplier` (`/repo/utilities/nctools.py` 359-422) without the global attributes: the dictionaries
are made first (368, 379, 398-399), then the file.  `rnd` rounds to the type of the variable, `f` (393); the
coordinates are of type `d` as they come (142).  Simplified: values in another shape than the
coordinates are an error (282), also where the netCDF library would repeat an axis of length one. -/
def saveTile [LinearOrder K] [Neg K] [OfNat K 9999] (rnd : K → K) (name : String) (values : Grid (Option K))
    (lat lon : List K) : Except PyErr (SavedTile K) := do
  let lat0 ← extreme min lat
  let lat1 ← extreme max lat
  let lon0 ← extreme min lon
  let lon1 ← extreme max lon
  let lo ← nanExtreme min (cellList values)
  let hi ← nanExtreme max (cellList values)
  if values.rows = lat.length ∧ values.cols = lon.length then
    pure ⟨⟨"lat", lat, (lat0, lat1)⟩, ⟨"lon", lon, (lon0, lon1)⟩, name, ["lat", "lon"], -9999, (lo, hi),
      values.map fun x => x.map rnd⟩
  else .error .valueError

/-- The argument `data` of `nc_create_var` (`/repo/utilities/nctools.py` 88): nothing, a list, or an array. -/
inductive VarData (K : Type)
  | none
  | list (l : List (Option K))
  | array (l : List (Option K))

/-- What `nc_create_var` stores (`/repo/utilities/nctools.py` 117-118), if anything, by `if data:`, that is, by the
truth value: of a list, that it is not empty; of an array of one number, that it is not zero; an
array of more has none.  Simplified: an empty array is taken to be false (numpy before version 2.2). -/
def createVarStores [Zero K] [DecidableEq K] : VarData K → Except PyErr (Option (List (Option K)))
  | .none => .ok Option.none
  | .list l => .ok (if l = [] then Option.none else some l)
  | .array [] => .ok Option.none
  | .array [x] => .ok (if x = some 0 then Option.none else some [x])
  | .array _ => .error .valueError

end SavedTile

end WindMult
