import Verif.Model.PreProcess
import Verif.Props.GeoClip

/-!
# Vocabulary of the specification of the pre-processing

Of the model only the input (`PreCfg`) and sets of points with their area occur.
-/

set_option autoImplicit false

namespace WindMult

/-- Codes of the settlement types. -/
def settlementCodes : List (String × ℕ) :=
  [("Major CBD", 1), ("City", 2), ("Urban", 3), ("Large Town", 4), ("Small Town", 5)]

/-- Codes of the land uses. -/
def landUseCodes : List (String × ℕ) :=
  [("Parkland", 1), ("Primary Production", 2), ("Education", 4), ("Residential", 5), ("Water", 6),
    ("Other", 7), ("Commercial", 8), ("Industrial", 9), ("Hospital/Medical", 10), ("Transport", 11)]

/-- Code of a value; 0 for null and values not in the list. -/
def codeIn (codes : List (String × ℕ)) (v : Option String) : ℕ := (v.bind fun s => codes.lookup s).getD 0

/-- The settlements of a type; `none` stands for all types that are not in the list. -/
def PreCfg.ofType (c : PreCfg) (v : Option String) : Region :=
  {p | ∃ f ∈ c.settlement, p ∈ f.2 ∧
    (f.1 c.settlementCat).filter (fun s => s ∈ settlementCodes.map Prod.fst) = v}

/-- The area that is processed: the bounding box of the mask, or everything. -/
def PreCfg.domain (c : PreCfg) : Region :=
  match c.mask with
  | none => Set.univ
  | some l => {p | ∃ m, l.head? = some m ∧ (∃ a ∈ m, a.1 ≤ p.1) ∧ (∃ a ∈ m, p.1 ≤ a.1) ∧
      (∃ a ∈ m, a.2 ≤ p.2) ∧ ∃ a ∈ m, p.2 ≤ a.2}

/-- No settlement type covers more of `P` than `v` does.  (`none`, other types or no settlement at
all, counts like a type.) -/
def PreCfg.Dominates (c : PreCfg) (P : Region) (v : Option String) : Prop :=
  (∀ w, Region.area (P ∩ c.ofType w) ≤ Region.area (P ∩ c.ofType v)) ∧
  (v = none ∨ (P ∩ c.ofType v).Nonempty)

/-- What is assumed of the input: the mask file is not empty; areas are finite, those of land use
positive where nothing is cropped; the search tree finds what it should; all calls finish. -/
structure PreCfg.Good (c : PreCfg) : Prop where
  names : c.settlementCat ≠ c.landUseCat
  maskFile : c.mask ≠ some []
  finiteS : ∀ f ∈ c.settlement, MeasureTheory.volume f.2 ≠ ⊤
  finiteL : ∀ f ∈ c.landUse, MeasureTheory.volume f.2 ≠ ⊤
  positive : c.mask = none → ∀ f ∈ c.landUse, 0 < Region.area f.2
  found : ∀ gs P i (h : i < gs.length), (P ∩ gs[i]).Nonempty → i ∈ c.query gs P
  valid : ∀ gs P, ∀ i ∈ c.query gs P, i < gs.length
  finishes : ∀ n, (c.finish n).Perm (List.range n)

/-- The land-use features inside the domain. -/
noncomputable def PreCfg.inside (c : PreCfg) : List (ShpAttr × Region) :=
  open Classical in c.landUse.filter fun f => 0 < Region.area (f.2 ∩ c.domain)

/-- `cat` is the land cover of the input on the grid `r`: where the centre of a pixel is in no feature
it is 0, otherwise it is made up of the codes of the last such feature and of a settlement type that
covers most of that feature. -/
def PreCfg.IsCover (c : PreCfg) (r : RasterInfo ℝ) (cat : Grid ℕ) : Prop :=
  cat.rows = r.yDim ∧ cat.cols = r.xDim ∧ ∀ px py : ℕ, px < r.xDim → py < r.yDim →
    ((∀ f ∈ c.inside, (r.lonCentre px, r.latCentre py) ∉ f.2 ∩ c.domain) → cat.val py px = 0) ∧
    (∀ before f after, c.inside = before ++ f :: after →
      (r.lonCentre px, r.latCentre py) ∈ f.2 ∩ c.domain →
      (∀ g ∈ after, (r.lonCentre px, r.latCentre py) ∉ g.2 ∩ c.domain) →
      ∃ v, c.Dominates (f.2 ∩ c.domain) v ∧ cat.val py px =
        100 * codeIn settlementCodes v + codeIn landUseCodes (f.1 c.landUseCat))

end WindMult
