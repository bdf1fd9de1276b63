import Verif.Model.DataTypes

/-!
# Which numbers a raster can hold
-/

set_option autoImplicit false

namespace WindMult

/-- `x` is a whole number between two bounds. -/
def WholeIn (lo hi : ℤ) (x : ℝ) : Prop := ∃ n : ℤ, x = n ∧ lo ≤ n ∧ n ≤ hi

/-- `x` is a whole number of at most `p` binary digits times a power of two. -/
def BinaryOf (p : ℕ) (x : ℝ) : Prop := ∃ n k : ℤ, x = n * (2 : ℝ) ^ k ∧ |n| ≤ 2 ^ p

/-- The numbers a cell of the given type can hold (`/repo/all_multipliers.py` 303, 622), leaving out the infinities and
the limits of the exponent. -/
def BandType.Holds : BandType → ℝ → Prop
  | .uint8 => WholeIn 0 (2 ^ 8 - 1)
  | .uint16 => WholeIn 0 (2 ^ 16 - 1)
  | .int16 => WholeIn (-2 ^ 15) (2 ^ 15 - 1)
  | .uint32 => WholeIn 0 (2 ^ 32 - 1)
  | .int32 => WholeIn (-2 ^ 31) (2 ^ 31 - 1)
  | .float32 => BinaryOf 24
  | .float64 => BinaryOf 53

/-- All elevations of the raster can be held by a type (`/repo/all_multipliers.py` 303). -/
def Inputs.DemIn (c : Inputs) (t : BandType) : Prop :=
  ∀ i < c.r.yDim, ∀ j < c.r.xDim, ∀ x, c.dem.val i j = some x → t.Holds x

/-- All land-cover codes of the raster can be held by a type (`/repo/all_multipliers.py` 622). -/
def Inputs.CodesIn (c : Inputs) (t : BandType) : Prop :=
  ∀ i < c.lr.yDim, ∀ j < c.lr.xDim, ∀ x, c.lcv.val i j = some x → t.Holds (x : ℤ)

end WindMult
