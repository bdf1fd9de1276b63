import Verif.Spec.Transect

/-!
# Relief exaggerated by a factor
-/

set_option autoImplicit false

namespace WindMult
variable {K : Type} [Field K] [LinearOrder K] [IsStrictOrderedRing K] [FloorRing K]

/-- `y'` is the line `y` with all elevations multiplied by `c`; the elevations of both are whole metres. -/
def Line.Exaggerated (c : K) (y y' : Line K) : Prop :=
  y'.size = y.size ∧ ∀ i, i < y.size → y'.val i = c * y.val i ∧ (∃ a : ℤ, y.val i = a) ∧ ∃ a : ℤ, y'.val i = a

/-- No two points of the line differ by more than 4141 m. -/
def Line.Moderate (y : Line K) : Prop := ∀ i j, i < y.size → j < y.size → y.val i - y.val j ≤ 4141

/-- `dem'` is `dem` with all elevations multiplied by `c` (and missing where it is missing); the elevations of
both are whole metres. -/
def Grid.Exaggerated (c : K) (dem dem' : Grid (Option K)) : Prop :=
  dem'.rows = dem.rows ∧ dem'.cols = dem.cols ∧ ∀ i j, i < dem.rows → j < dem.cols →
    (dem.val i j = none ∧ dem'.val i j = none) ∨
      ∃ a b : ℤ, (b : K) = c * a ∧ dem.val i j = some (a : K) ∧ dem'.val i j = some (b : K)

/-- No two elevations of the raster, nor one of them and sea level if any is missing, differ by more than
4141 m. -/
def Grid.Moderate (dem : Grid (Option K)) : Prop := ∀ i j i' j', i < dem.rows → j < dem.cols →
  i' < dem.rows → j' < dem.cols → (dem.val i j).getD 0 - (dem.val i' j').getD 0 ≤ 4141

end WindMult
