import Verif.Model.Terrain
import Verif.Model.Convert
import Mathlib.Algebra.Order.Archimedean.Real.Basic

/-!
# Terrain averaging and conversion with rounded arithmetic (`/repo/terrain/terrain_mult.py` 199-248,
`/repo/utilities/convert.py` 31-149)
-/

set_option autoImplicit false

namespace WindMult

/-- A floating-point format as far as it is used: every real number is rounded with relative error at
most `u` (`2⁻⁵³` for `float64`, `2⁻²⁴` for `float32`).  Overflow, underflow and NaN are not modelled.
The arrays of `/repo/terrain/terrain_mult.py` 186, 212 are `float32`, the averages (242) `float64`. -/
structure FpRound (u : ℝ) where
  rnd : ℝ → ℝ
  near : ∀ x, |rnd x - x| ≤ u * |x|

/-- The accumulation `neighbour_sum += data[...]` (`/repo/terrain/terrain_mult.py` 235-240), every sum
rounded.  `data` is a `float32` array and `neighbour_sum` starts as the integer 0, so numpy before
version 2 adds in `float64` and later versions in `float32`; the format is an argument. -/
noncomputable def neighbourSumFl {u : ℝ} (A : FpRound u) (d : Dir) (data : Grid ℝ) (lag : ℤ) (i jj : ℕ) :
    List ℕ → ℝ → Except PyErr ℝ
  | [], acc => .ok acc
  | m :: ms, acc => do
    let v ← data.pyGet (pointR d i m lag) (pointC d jj m lag)
    neighbourSumFl A d data lag i jj ms (A.rnd (acc + v))

/-- One cell of `convo` (`/repo/terrain/terrain_mult.py` 221-246): the sums are rounded by `A`, the
quotient of two Python floats by `D`, and storing the value in the `float32` array `outdata` by `S`. -/
noncomputable def convoCellFl {u v w : ℝ} (A : FpRound u) (D : FpRound v) (S : FpRound w) (d : Dir)
    (data : Grid ℝ) (avg lag : ℤ) (i jj : ℕ) : Except PyErr ℝ :=
  let allNo := allNeighb d i jj data.rows data.cols lag
  if 0 < allNo then
    let maxNo := if allNo < avg then allNo else avg
    do
      let sum ← neighbourSumFl A d data lag i jj (List.range maxNo.toNat) 0
      if (maxNo : ℝ) = 0 then .error .zeroDivisionError else return S.rnd (D.rnd (sum / (maxNo : ℝ)))
  else do
    let v ← data.pyGet i jj
    return S.rnd v

/-- `convo` (`/repo/terrain/terrain_mult.py` 199-248) with rounded arithmetic. -/
noncomputable def convoFl {u v w : ℝ} (A : FpRound u) (D : FpRound v) (S : FpRound w) (d : Dir)
    (data : Grid ℝ) (avg lag : ℤ) : Except PyErr (Grid ℝ) :=
  Grid.tabulateM 0 data.rows data.cols fun i jj => convoCellFl A D S d data avg lag i jj

/-- A number of the format `R`, by its value.  The bands of the multiplier files are `float32` and
numpy multiplies them in that format (`/repo/utilities/convert.py` 125-135). -/
structure Fl {w : ℝ} (R : FpRound w) where
  val : ℝ

namespace Fl
variable {w : ℝ} {R : FpRound w}

/-- The arrays of `/repo/utilities/convert.py` 96 are filled with 0. -/
instance : Zero (Fl R) := ⟨⟨0⟩⟩
/-- `np.ones`, `/repo/utilities/convert.py` 124. -/
instance : One (Fl R) := ⟨⟨1⟩⟩

/-- `np.multiply` (`/repo/utilities/convert.py` 135): the product is rounded. -/
noncomputable instance : Mul (Fl R) := ⟨fun a b => ⟨R.rnd (a.val * b.val)⟩⟩

/-- `np.max` (`/repo/utilities/convert.py` 57). -/
noncomputable instance : Max (Fl R) := ⟨fun a b => ⟨max a.val b.val⟩⟩

end Fl

end WindMult
