import Verif.Spec.Pipeline

/-!
# A larger map of the same country

Specification for C147.
-/

set_option autoImplicit false

namespace WindMult
namespace Spec

/-- The raster `r'` is `r` with more columns in the east, more rows in the south, or both. -/
structure LargerMap {K : Type} (r r' : RasterInfo K) : Prop where
  west : r'.gt0 = r.gt0
  north : r'.gt3 = r.gt3
  width : r'.gt1 = r.gt1
  height : r'.gt5 = r.gt5
  cols : r.xDim ≤ r'.xDim
  rows : r.yDim ≤ r'.yDim

/-- The pixels with the limits `B` do not reach an edge of `r` beyond which `r'` goes on. -/
def InnerPart {K : Type} (r r' : RasterInfo K) (B : Limits) : Prop :=
  (B.x2 < r.xDim ∨ r'.xDim = r.xDim) ∧ (B.y2 < r.yDim ∨ r'.yDim = r.yDim)

end Spec
end WindMult
