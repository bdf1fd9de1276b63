import Verif.Model.SlopeAspect
import Verif.Model.FloatShield

/-!
# Slope and aspect with rounded arithmetic (`get_slope_aspect`, `/repo/shielding/shield_mult.py` 89-150)

All arrays are `float64` (`elevation_array.astype(float)`, line 112; `numexpr` and `scipy` compute in the format of
the array), so there is one format `W`.  Overflow, underflow and signed zeros are not modelled; NaN is `none`.
-/

set_option autoImplicit false

namespace WindMult
variable {w : ℝ}

/-- The library functions `np.hypot`, `arctan` and `arctan2` (`/repo/shielding/shield_mult.py` 134-143) as far as
they are used: results within one unit in the last place (relative error `2 w`).  For `arctan2` only the error as an
angle matters: on the negative axis the library returns π or -π depending on the sign of a zero; for two zeros it
returns some angle. -/
structure FpTrig (w : ℝ) where
  hypot : ℝ → ℝ → ℝ
  arctan : ℝ → ℝ
  arctan2 : ℝ → ℝ → ℝ
  hypot_near : ∀ x y, |hypot x y - √(x ^ 2 + y ^ 2)| ≤ 2 * w * √(x ^ 2 + y ^ 2)
  arctan_near : ∀ x, |arctan x - Real.arctan x| ≤ 2 * w * |Real.arctan x|
  arctan2_range : ∀ y x, |arctan2 y x| ≤ 4
  arctan2_near : ∀ y x, x ≠ 0 ∨ y ≠ 0 →
    ∃ k : ℤ, |arctan2 y x - (Complex.arg ⟨x, y⟩ + 2 * Real.pi * k)| ≤ 2 * w * Real.pi

/-- `RADIANS_PER_DEGREE` (`/repo/utilities/get_pixel_size_grid.py` 17), the literal rounded. -/
noncomputable def radiansPerDegreeFl (W : FpRound w) : ℝ :=
  W.rnd (0.01745329251994329576923690768489 : ℝ)

/-- `ndimage.sobel(elevation_array, axis=1)` (`/repo/shielding/shield_mult.py` 125): `scipy` filters first along the
axis with -1, 0, 1, then along the other axis with 1, 2, 1, adding the outer two first.  Products with these weights
are exact. -/
noncomputable def sobelXFl (W : FpRound w) (g : Grid (Option ℝ)) (i j : ℕ) : Option ℝ :=
  (window3 g i j).map fun v =>
    W.rnd (2 * W.rnd (v 0 1 - v 0 (-1)) +
      W.rnd (W.rnd (v (-1) 1 - v (-1) (-1)) + W.rnd (v 1 1 - v 1 (-1))))

/-- `ndimage.sobel(elevation_array, axis=0)` (`/repo/shielding/shield_mult.py` 129). -/
noncomputable def sobelYFl (W : FpRound w) (g : Grid (Option ℝ)) (i j : ℕ) : Option ℝ :=
  (window3 g i j).map fun v =>
    W.rnd (2 * W.rnd (v 1 0 - v (-1) 0) +
      W.rnd (W.rnd (v 1 (-1) - v (-1) (-1)) + W.rnd (v 1 1 - v (-1) 1)))

/-- One derivative from the sum of differences (`/repo/shielding/shield_mult.py` 125-126, 129-130): `p` is the pixel
size in degrees, `m` in metres. -/
noncomputable def derivFl (W : FpRound w) (p m s : ℝ) : ℝ :=
  W.rnd (W.rnd (W.rnd (s / W.rnd (8 * p)) * p) / m)

/-- Slope in degrees (`/repo/shielding/shield_mult.py` 134-137). -/
noncomputable def slopeDegreesFl (W : FpRound w) (T : FpTrig w) (dx dy : ℝ) : ℝ :=
  W.rnd (T.arctan (T.hypot dx dy) / radiansPerDegreeFl W)

/-- Aspect in degrees (`/repo/shielding/shield_mult.py` 142-143); the remainder is exact. -/
noncomputable def aspectDegreesFl (W : FpRound w) (T : FpTrig w) (dx dy : ℝ) : ℝ :=
  fmod (W.rnd (450 - W.rnd (T.arctan2 dy (-dx) / radiansPerDegreeFl W))) 360

/-- `get_slope_aspect` on one cell (`/repo/shielding/shield_mult.py` 89-150), rounded. -/
noncomputable def slopeAspectFl (W : FpRound w) (T : FpTrig w) (g : Grid (Option ℝ)) (px py xm ym : ℝ) (i j : ℕ) :
    Option ℝ × ℕ :=
  match (sobelXFl W g i j).map (derivFl W px xm), (sobelYFl W g i j).map (derivFl W py ym) with
  | some dx, some dy => (if (g.val i j).isNone then none else some (slopeDegreesFl W T dx dy),
      reclassifyAspect (some (aspectDegreesFl W T dx dy)))
  | _, _ => (none, reclassifyAspect (none : Option ℝ))

end WindMult
