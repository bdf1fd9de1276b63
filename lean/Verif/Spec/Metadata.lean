import Verif.Model.Metadata
import Verif.Model.Utilities
import Mathlib.Data.List.Nodup

/-!
# Vocabulary for the names taken from the call stack and the record kept in the multiplier files
-/

set_option autoImplicit false

namespace WindMult

/-- A file in the folder `dir` (without final slash; empty for the root) with this name and extension. -/
structure Located (file dir base ext : List Char) : Prop where
  path : file = dir ++ '/' :: (base ++ '.' :: ext)
  plain : dir.getLast? ≠ some '/'
  noSlash : '/' ∉ base ∧ '/' ∉ ext
  noDot : '.' ∉ ext
  visible : ∃ c ∈ base, c ≠ '.'

/-- The configuration has this option, with this value. -/
def Sections.Sets (c : Sections) (s o v : List Char) : Prop := ∃ os, (s, os) ∈ c ∧ (o, v) ∈ os

/-- Sections, and options of a section, occur once. -/
def Sections.Ok (c : Sections) : Prop := (c.map Prod.fst).Nodup ∧ ∀ x ∈ c, (x.2.map Prod.fst).Nodup

/-- The attributes that do not come from the configuration. -/
def Spec.reserved : List (List Char) :=
  ["Abstract", "Lineage", "Inputs", "Conventions", "Custodian", "Created_on", "Created_by", "Python_version",
    "Git_version", "Wind_multipler_code_version"].map String.toList

/-- What a multiplier is called. -/
def Spec.title (m : Mult) : List Char :=
  (match m with
    | .mz => "terrain"
    | .ms => "shielding"
    | .mt => "topographic").toList ++ " multiplier".toList

/-- Different options have different attributes, and none has the name of another attribute. -/
def Sections.NoClash (c : Sections) : Prop :=
  ∀ s o v, c.Sets s o v → s ++ '_' :: o ∉ Spec.reserved ∧
    ∀ s' o' v', c.Sets s' o' v' → s ++ '_' :: o = s' ++ '_' :: o' → s = s' ∧ o = o'

/-- The ten attributes that do not come from the configuration, for the multiplier `m` in direction `d`. -/
structure Recorded (a : Atts) (e : Env) (m : Mult) (d : Dir) (land dem version git : List Char) : Prop where
  abstract : a "Abstract".toList = some ("This dataset is the local ".toList ++ Spec.title m ++
    " for each grid cell in ".toList ++ d.letters ++ " direction for this tile".toList)
  inputs : a "Inputs".toList = some ("terrain data: ".toList ++ land ++ ", dem data: ".toList ++ dem)
  version : a "Wind_multipler_code_version".toList = some version
  git : a "Git_version".toList = some git
  python : a "Python_version".toList = some e.python
  time : a "Created_on".toList = some e.time
  user : a "Created_by".toList = some e.user
  conventions : a "Conventions".toList = some "CF-1.6".toList
  custodian : a "Custodian".toList = some "Geoscience Australia".toList
  lineage : (a "Lineage".toList).isSome

/-- The parser's state, in the order in which it lists sections and options. -/
def Sections.Lists (c : Sections) (st : CfgState) : Prop :=
  c.Ok ∧ ∀ s o v, st.values (String.ofList s) (String.ofList o) = some (String.ofList v) ↔ c.Sets s o v

end WindMult
