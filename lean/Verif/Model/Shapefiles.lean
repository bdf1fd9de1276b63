import Verif.Model.Basic
import Mathlib.Data.List.Sort
import Mathlib.Data.String.Basic

/-!
# Shape files (`/repo/utilities/shapefiles.py`) and the category code (`/repo/pre_process.py`)

Geometries are an arbitrary type with the operations of shapely that the code uses.
-/

set_option autoImplicit false

namespace WindMult

/-- The attributes of a feature: name to value, `none` for null.  Only string values are modelled.
`/repo/utilities/shapefiles.py` 17, 27. -/
abbrev ShpAttr := String → Option String

/-- `attribute_name or "None"` (`/repo/utilities/shapefiles.py` 38, 42): null and the empty string
are false. -/
def dissolveKey (name : String) (a : ShpAttr) : String :=
  match a name with
  | none => "None"
  | some v => if v = "" then "None" else v

/-- `itertools.groupby` (`/repo/utilities/shapefiles.py` 41-42): maximal runs of equal keys. -/
def groupRuns {α : Type} (key : α → String) : List α → List (List α)
  | [] => []
  | x :: rest =>
    match groupRuns key rest with
    | [] => [[x]]
    | [] :: gs => [x] :: gs
    | (y :: g) :: gs => if key x = key y then (x :: y :: g) :: gs else [x] :: (y :: g) :: gs

/-- `dissolve` (`/repo/utilities/shapefiles.py` 36-48).  `sorted` is stable.  `union` is
`unary_union`; each group keeps the attributes of its first feature (44-47).  A feature is a pair of
attributes and geometry, so `zip` pairs the two lists (37) beforehand. -/
def dissolve {G : Type} (union : List G → G) (name : String) (features : List (ShpAttr × G)) :
    List (ShpAttr × G) :=
  let sorted := features.insertionSort (fun f g => dissolveKey name f.1 ≤ dissolveKey name g.1)
  (groupRuns (fun f => dissolveKey name f.1) sorted).map fun group =>
    ((group.head?.map Prod.fst).getD (fun _ => none), union (group.map Prod.snd))

section
variable {K : Type} [Field K] [LinearOrder K] [IsStrictOrderedRing K]

/-- The loop of `crop` (`/repo/utilities/shapefiles.py` 60-64), from feature `idx` on.  `clip` is
`polybox.intersection`; the result is kept if its area is not zero (`IndexError` if there are fewer
attributes than geometries). -/
def cropLoop {G A : Type} (clip : G → G) (area : G → K) (attr : List A) :
    ℕ → List G → Except PyErr (List G × List A)
  | _, [] => .ok ([], [])
  | idx, poly :: rest =>
    if area (clip poly) ≠ 0 then
      match attr[idx]? with
      | none => .error .indexError
      | some a =>
        match cropLoop clip area attr (idx + 1) rest with
        | .error e => .error e
        | .ok (gs, as) => .ok (clip poly :: gs, a :: as)
    else cropLoop clip area attr (idx + 1) rest

/-- `crop` (`/repo/utilities/shapefiles.py` 50-66): geometries are clipped to the *bounding box*
(53-59) of the mask. -/
def crop {G A : Type} (box : G → G) (inter : G → G → G) (area : G → K) (mask : G)
    (geom : List G) (attr : List A) : Except PyErr (List G × List A) :=
  cropLoop (inter (box mask)) area attr 0 geom

/-- `numpy.argmax`: the first position of the largest entry (`/repo/utilities/shapefiles.py` 88). -/
def argmaxFirst : List K → ℕ
  | [] => 0
  | x :: rest => if ∀ y ∈ rest, y ≤ x then 0 else argmaxFirst rest + 1

/-- `process` in `spatial_join` (`/repo/utilities/shapefiles.py` 75-89) for one feature `poly`.
`candidates` are the indices the search tree returns, in its order; `touches` is
`poly.intersects`, `overlap` the area of `poly.intersection`, both by index; `area` is `poly.area`.
Dividing by a zero area raises `ZeroDivisionError`. -/
def joinOne (candidates : List ℕ) (touches : ℕ → Bool) (overlap : ℕ → K) (area : K) :
    Except PyErr (Option ℕ) :=
  let fids := candidates.filter touches
  match fids with
  | [] => .ok none
  | [i] => .ok (some i)
  | _ =>
    if area = 0 then .error .zeroDivisionError
    else .ok fids[argmaxFirst (fids.map fun i => overlap i / area)]?

end

/-- `list(executor.map(f, range(n)))` (`/repo/utilities/shapefiles.py` 91-93): the calls finish in
the order `finish`; each result goes to its own slot, and the slots are read in order of the
arguments.  A call that never finishes leaves `none`. -/
def poolMap {β : Type} (n : ℕ) (finish : List ℕ) (f : ℕ → β) : List (Option β) :=
  let slots := finish.foldl (fun (s : ℕ → Option β) i => fun j => if j = i then some (f i) else s j)
    (fun _ => none)
  (List.range n).map slots

/-- The end of `spatial_join` (`/repo/utilities/shapefiles.py` 95-99): attribute `var` of each
feature is set to that of the feature found, or to null. -/
def joinUpdate (var : String) (other : List ShpAttr) (res : Option ℕ) (a : ShpAttr) :
    Except PyErr ShpAttr :=
  match res with
  | none => .ok fun k => if k = var then none else a k
  | some i =>
    match other[i]? with
    | none => .error .indexError
    | some b => .ok fun k => if k = var then b var else a k

/-- `spatial_join` (`/repo/utilities/shapefiles.py` 68-99).  `found i` is the outcome of `process`
for feature `i`; an exception of a call is raised again when its result is read (95). -/
def spatialJoin (var : String) (found : ℕ → Except PyErr (Option ℕ)) (finish : List ℕ)
    (self other : List ShpAttr) : Except PyErr (List ShpAttr) :=
  match (poolMap self.length finish found).mapM (fun r => r.getD (.error .runtimeError)) with
  | .error e => .error e
  | .ok res => (res.zip self).mapM fun p => joinUpdate var other p.1 p.2

/-! ### Category code -/

/-- `SETTLEMENT_map` (`/repo/pre_process.py` 155-160), a `defaultdict` with default `0`. -/
def settlementClass : Option String → ℕ
  | some s =>
    if s = "Major CBD" then 1 else if s = "City" then 2 else if s = "Urban" then 3
    else if s = "Large Town" then 4 else if s = "Small Town" then 5 else 0
  | none => 0

/-- `Local_use_map` (`/repo/pre_process.py` 162-172). -/
def landUseClass : Option String → ℕ
  | some s =>
    if s = "Parkland" then 1 else if s = "Primary Production" then 2 else if s = "Education" then 4
    else if s = "Residential" then 5 else if s = "Water" then 6 else if s = "Other" then 7
    else if s = "Commercial" then 8 else if s = "Industrial" then 9
    else if s = "Hospital/Medical" then 10 else if s = "Transport" then 11 else 0
  | none => 0

/-- The code `CAT` of a feature (`/repo/pre_process.py` 174-176). -/
def catCode (settlement landUse : Option String) : ℕ :=
  settlementClass settlement * 100 + landUseClass landUse

/-- Settlement names outside the list become null (`/repo/pre_process.py` 110-114). -/
def authorise (v : Option String) : Option String :=
  match v with
  | some s =>
    if s ∈ ["City", "Large Town", "Major CBD", "Small Town", "Urban"] then some s else none
  | none => none

end WindMult
