import Verif.Spec.PreProcess

/-!
# Shape files that say the same

What C150 speaks of.
-/

set_option autoImplicit false

namespace WindMult.Spec

/-- There is a land-use feature with this outline and this use (uses not in the list count as one). -/
def HasUse (p : PreCfg) (P : Region) (u : ℕ) : Prop :=
  ∃ f ∈ p.landUse, f.2 = P ∧ codeIn landUseCodes (f.1 p.landUseCat) = u

/-- The two sets of shape files say the same: the same domain; for every settlement type the same points belong to it,
whatever features they are cut into; the same outlines have the same land uses, in whatever order. -/
structure SaySame (p p' : PreCfg) : Prop where
  domain : p'.domain = p.domain
  settlements : ∀ v, p'.ofType v = p.ofType v
  uses : ∀ P u, HasUse p' P u ↔ HasUse p P u

/-- Features that contain a common pixel centre have one outline and one use. -/
def OneUse (p : PreCfg) (r : RasterInfo ℝ) : Prop :=
  ∀ (px py : ℕ) (P Q : Region) (u v : ℕ), px < r.xDim → py < r.yDim → HasUse p P u → HasUse p Q v →
    (r.lonCentre px, r.latCentre py) ∈ P → (r.lonCentre px, r.latCentre py) ∈ Q → P = Q ∧ u = v

/-- No feature is shared evenly: one settlement type covers more of it than any other that reaches into it. -/
def Uneven (p : PreCfg) : Prop :=
  ∀ f ∈ p.inside, ∃ v, ∀ w, w ≠ v → (w = none ∨ ((f.2 ∩ p.domain) ∩ p.ofType w).Nonempty) →
    Region.area ((f.2 ∩ p.domain) ∩ p.ofType w) < Region.area ((f.2 ∩ p.domain) ∩ p.ofType v)

end WindMult.Spec
