import Verif.Model.Pipeline

/-!
# Ways of storing a land-cover map

What C149 speaks of.
-/

set_option autoImplicit false

namespace WindMult.Spec

/-- The inputs with another land-cover raster. -/
def withCover (c : Inputs) (lr : RasterInfo ℝ) (lcv : Grid (Option ℤ)) : Inputs := { c with lr := lr, lcv := lcv }

/-- The map shows the class at the point `(x, y)`: it is that of the cell that contains the point (with its western and
northern edge). -/
def ClassAt (lr : RasterInfo ℝ) (lcv : Grid (Option ℤ)) (x y : ℝ) (v : ℤ) : Prop :=
  ∃ col row : ℕ, col < lr.xDim ∧ row < lr.yDim ∧
    lr.gt0 + col * lr.gt1 ≤ x ∧ x < lr.gt0 + (col + 1) * lr.gt1 ∧
    lr.gt3 + (row + 1) * lr.gt5 < y ∧ y ≤ lr.gt3 + row * lr.gt5 ∧ lcv.val row col = some v

/-- Every cell cut into `m` columns and `n` rows: the raster. -/
noncomputable def finerInfo (m n : ℕ) (lr : RasterInfo ℝ) : RasterInfo ℝ :=
  ⟨lr.xDim * m, lr.yDim * n, lr.gt0, lr.gt1 / m, lr.gt3, lr.gt5 / n⟩

/-- Every cell cut into `m` columns and `n` rows: the cells. -/
def finerCells (m n : ℕ) (lcv : Grid (Option ℤ)) : Grid (Option ℤ) :=
  ⟨lcv.rows * n, lcv.cols * m, fun i j => lcv.val (i / n) (j / m)⟩

/-- A raster with a margin: `west` and `east` columns, `north` and `south` rows more. -/
def marginInfo (west east north south : ℕ) (lr : RasterInfo ℝ) : RasterInfo ℝ :=
  ⟨west + lr.xDim + east, north + lr.yDim + south, lr.gt0 - west * lr.gt1, lr.gt1, lr.gt3 - north * lr.gt5, lr.gt5⟩

/-- The cells with a margin without data. -/
def marginCells (west east north south : ℕ) (lr : RasterInfo ℝ) (lcv : Grid (Option ℤ)) : Grid (Option ℤ) :=
  ⟨north + lr.yDim + south, west + lr.xDim + east, fun i j =>
    if north ≤ i ∧ i < north + lr.yDim ∧ west ≤ j ∧ j < west + lr.xDim then lcv.val (i - north) (j - west) else none⟩

end WindMult.Spec
