import Verif.Model.PreProcess

/-!
# Saving the land use with its codes (`/repo/pre_process.py` 147-181, `/repo/utilities/shapefiles.py` 29-34)

`Model/PreProcess.lean` gives the geometries and codes that are to be saved; here the attributes are dictionaries
with their names, and the file is written record by record, as the schema allows.
-/

set_option autoImplicit false

namespace WindMult

/-- The value of an attribute (`/repo/utilities/shapefiles.py` 27, `/repo/pre_process.py` 175): null, a text or a
whole number. -/
inductive AttrVal
  | null
  | text (s : String)
  | int (n : ℕ)
  deriving DecidableEq

/-- The value as the key of one of the two maps (`/repo/pre_process.py` 175-176): only texts are found there. -/
def AttrVal.key : AttrVal → Option String
  | .text s => some s
  | _ => none

/-- A dictionary (`poly['properties']`, `/repo/utilities/shapefiles.py` 27; `schema['properties']`,
`/repo/pre_process.py` 178), in the order of insertion. -/
abbrev NamedValues (V : Type) := List (String × V)

/-- `d.update({name: v})` (`/repo/utilities/shapefiles.py` 97, 99, `/repo/pre_process.py` 175, 178-179). -/
def NamedValues.put {V : Type} (d : NamedValues V) (name : String) (v : V) : NamedValues V :=
  if name ∈ d.map Prod.fst then d.map fun x => if x.1 = name then (name, v) else x else d ++ [(name, v)]

/-- The attributes of a feature in `pre_process`: after the join, which puts the value found
(`/repo/utilities/shapefiles.py` 97, 99), and with the code (`/repo/pre_process.py` 174-176).  A `KeyError` if there
is no attribute of land use. -/
def tagRecord (settlementCat landUseCat : String) (joined : AttrVal) (r : NamedValues AttrVal) :
    Except PyErr (NamedValues AttrVal) :=
  let r' := r.put settlementCat joined
  match r'.lookup settlementCat, r'.lookup landUseCat with
  | some s, some u => .ok (r'.put "CAT" (.int (catCode s.key u.key)))
  | _, _ => .error .keyError

/-- The schema of the file to be written (`/repo/pre_process.py` 178-179): names and types. -/
def tagSchema (settlementCat : String) (schema : NamedValues String) : NamedValues String :=
  (schema.put settlementCat "str:100").put "CAT" "int"

open Classical in
/-- Whether fiona takes a record (`output.write`, `/repo/utilities/shapefiles.py` 32-34): its names are those of the
schema, and the geometry is a polygon or several polygons, as in the file that was read.  A geometry that has
points or lines besides, a `GeometryCollection`, is one that is not the closure of its interior.  Not
checked here: the types of the values. -/
noncomputable def takesRecord (schema : NamedValues String) (f : NamedValues AttrVal × Region) : Bool :=
  decide ((∀ n, n ∈ f.1.map Prod.fst ↔ n ∈ schema.map Prod.fst) ∧ f.2 = closure (interior f.2))

/-- `save` (`/repo/utilities/shapefiles.py` 29-34): the records in the file, and the outcome.  A record that fiona does
not take is a `ValueError`; those before it stay in the file. -/
noncomputable def shpSave (schema : NamedValues String) :
    List (NamedValues AttrVal × Region) → List (NamedValues AttrVal × Region) × Except PyErr Unit
  | [] => ([], .ok ())
  | f :: l =>
    if takesRecord schema f then
      let r := shpSave schema l
      (f :: r.1, r.2)
    else ([], .error .valueError)

/-- A feature of land use before it gets its code: attributes, geometry, and what the join finds for it
(`/repo/utilities/shapefiles.py` 91-99). -/
structure UseFeature where
  record : NamedValues AttrVal
  geom : Region
  joined : AttrVal

/-- The end of `pre_process` (`/repo/pre_process.py` 147-181): the attributes of all features, then the file. -/
noncomputable def saveUses (settlementCat landUseCat : String) (schema : NamedValues String) (l : List UseFeature) :
    List (NamedValues AttrVal × Region) × Except PyErr Unit :=
  match l.mapM fun f => tagRecord settlementCat landUseCat f.joined f.record with
  | .error e => ([], .error e)
  | .ok rs => shpSave (tagSchema settlementCat schema) (rs.zip (l.map UseFeature.geom))

end WindMult
