import Verif.Model.Shield
import Mathlib.Analysis.SpecialFunctions.Complex.Arg
import Mathlib.Analysis.SpecialFunctions.Trigonometric.Arctan

/-!
# Slope and aspect (`get_slope_aspect`, `/repo/shielding/shield_mult.py` 89-150)

Real numbers; NaN is `none`.  `RADIANS_PER_DEGREE` is π/180.
-/

set_option autoImplicit false

namespace WindMult

/-- The cell of an array at an index that may be one step outside: `scipy.ndimage` mode `reflect`
(the default of `sobel`) repeats the edge cell there. `/repo/shielding/shield_mult.py` 125, 129. -/
def Grid.edge {α : Type} (g : Grid α) (r c : ℤ) : α :=
  g.val (max 0 (min r (g.rows - 1))).toNat (max 0 (min c (g.cols - 1))).toNat

/-- The 3 × 3 window around `(i, j)` as numbers, if none of them is NaN.
`/repo/shielding/shield_mult.py` 125, 129. -/
def window3 (g : Grid (Option ℝ)) (i j : ℕ) : Option (ℤ → ℤ → ℝ) :=
  if (∀ a ∈ [(-1 : ℤ), 0, 1], ∀ b ∈ [(-1 : ℤ), 0, 1], (g.edge (i + a) (j + b)).isSome) then
    some fun a b => (g.edge (i + a) (j + b)).getD 0
  else none

/-- `ndimage.sobel(elevation, axis=1)` (line 125): differences along columns, weights 1 2 1 along
rows.  Both passes read the whole 3 × 3 window, so any NaN there gives NaN.
`/repo/shielding/shield_mult.py` 125. -/
def sobelX (g : Grid (Option ℝ)) (i j : ℕ) : Option ℝ :=
  (window3 g i j).map fun w =>
    (w (-1) 1 - w (-1) (-1)) + 2 * (w 0 1 - w 0 (-1)) + (w 1 1 - w 1 (-1))

/-- `ndimage.sobel(elevation, axis=0)` (line 129). `/repo/shielding/shield_mult.py` 129. -/
def sobelY (g : Grid (Option ℝ)) (i j : ℕ) : Option ℝ :=
  (window3 g i j).map fun w =>
    (w 1 (-1) - w (-1) (-1)) + 2 * (w 1 0 - w (-1) 0) + (w 1 1 - w (-1) 1)

/-- `dzdx_array` (lines 125-126): `px` pixel width in degrees, `xm` its width in metres.
`/repo/shielding/shield_mult.py` 125-126. -/
noncomputable def dzdx (g : Grid (Option ℝ)) (px xm : ℝ) (i j : ℕ) : Option ℝ :=
  (sobelX g i j).map fun s => s / (8 * px) * px / xm

/-- `dzdy_array` (lines 129-130); rows run southward. `/repo/shielding/shield_mult.py` 129-130. -/
noncomputable def dzdy (g : Grid (Option ℝ)) (py ym : ℝ) (i j : ℕ) : Option ℝ :=
  (sobelY g i j).map fun s => s / (8 * py) * py / ym

/-- Slope in degrees from the two derivatives (lines 134-136). `/repo/shielding/shield_mult.py` 134-136. -/
noncomputable def slopeDegrees (dx dy : ℝ) : ℝ := Real.arctan (√(dx ^ 2 + dy ^ 2)) / (Real.pi / 180)

/-- `%` of numexpr on a non-negative left operand. `/repo/shielding/shield_mult.py` 143. -/
noncomputable def fmod (x m : ℝ) : ℝ := x - m * ⌊x / m⌋

/-- Aspect in degrees (lines 142-143).  `arctan2 y x` is the argument of `x + iy`.  For a flat cell
(both derivatives 0) Python gets `arctan2(0, -0.0) = π` where this gives 0; flat cells are excluded
from the theorems on aspect. `/repo/shielding/shield_mult.py` 142-143. -/
noncomputable def aspectDegrees (dx dy : ℝ) : ℝ :=
  fmod (450 - Complex.arg (⟨-dx, dy⟩ : ℂ) / (Real.pi / 180)) 360

/-- `get_slope_aspect` on one cell (lines 89-150): slope in degrees and aspect class.
`/repo/shielding/shield_mult.py` 89-150. -/
noncomputable def slopeAspect (g : Grid (Option ℝ)) (px py xm ym : ℝ) (i j : ℕ) :
    Option ℝ × ℕ :=
  match dzdx g px xm i j, dzdy g py ym i j with
  | some dx, some dy => (if (g.val i j).isNone then none else some (slopeDegrees dx dy),
      reclassifyAspect (some (aspectDegrees dx dy)))
  | _, _ => (none, reclassifyAspect (none : Option ℝ))

end WindMult
