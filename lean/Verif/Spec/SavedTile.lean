import Verif.Model.Basic

/-!
# Specification: ranges
-/

set_option autoImplicit false

namespace WindMult

/-- `lo` and `hi` are the smallest and the largest of the numbers with `P`. -/
def RangeOf {K : Type} [LE K] (P : K → Prop) (lo hi : K) : Prop := P lo ∧ P hi ∧ ∀ x, P x → lo ≤ x ∧ x ≤ hi

/-- The number stands in a cell of the grid. -/
def InGrid {K : Type} (g : Grid (Option K)) (x : K) : Prop := ∃ i j, i < g.rows ∧ j < g.cols ∧ g.val i j = some x

end WindMult
