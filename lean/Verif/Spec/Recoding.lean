import Verif.Model.Pipeline

/-!
# Land-cover codes and the table of classes

What C140 speaks of.
-/

set_option autoImplicit false

namespace WindMult.Spec

/-- The inputs with another number for each land-cover code, in the raster and in the tables. -/
def recoded (f : ℤ → ℤ) (c : Inputs) : Inputs :=
  { c with
    lcv := c.lcv.map (Option.map f)
    terrainTable := c.terrainTable.map fun x => ⟨f x.category, x.roughness⟩
    shieldTable := c.shieldTable.map fun x => (f x.1, x.2) }

/-- The code is in the land-cover raster, or is 0, which stands for no data. -/
def Occurs (c : Inputs) (code : ℤ) : Prop :=
  code = 0 ∨ ∃ i < c.lr.yDim, ∃ j < c.lr.xDim, c.lcv.val i j = some code

/-- The last row of the table for the code gives the value. -/
def Gives (table : List (ℤ × ℝ)) (code : ℤ) (value : ℝ) : Prop :=
  ∃ before after, table = before ++ (code, value) :: after ∧ ∀ row ∈ after, row.1 ≠ code

/-- The roughness lengths of the table for the terrain step. -/
def roughnessRows (c : Inputs) : List (ℤ × ℝ) := c.terrainTable.map fun x => (x.category, x.roughness)

/-- The inputs with other tables. -/
def withRows (c : Inputs) (roughness shielding : List (ℤ × ℝ)) : Inputs :=
  { c with
    terrainTable := roughness.map fun x => ⟨x.1, x.2⟩
    shieldTable := shielding }

end WindMult.Spec
