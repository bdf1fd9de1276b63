import Verif.Model.Basic
import Mathlib.Analysis.SpecialFunctions.Trigonometric.Basic

/-!
# Vocabulary for the inclination of the ground

Rows run southward, columns eastward.
-/

set_option autoImplicit false

namespace WindMult

/-- The elevation at integer coordinates; one step outside the raster it is that of the edge. -/
def Grid.clamped (g : Grid ℝ) (r c : ℤ) : ℝ :=
  g.val (if r < 0 then 0 else if g.rows ≤ r then g.rows - 1 else r.toNat)
    (if c < 0 then 0 else if g.cols ≤ c then g.cols - 1 else c.toNat)

/-- Rise per cell eastward: the weighted mean (1, 2, 1) over three rows of half the difference between
the cells to the east and to the west. -/
noncomputable def riseEast (g : Grid ℝ) (r c : ℤ) : ℝ :=
  ((g.clamped (r - 1) (c + 1) - g.clamped (r - 1) (c - 1)) / 2 +
    2 * ((g.clamped r (c + 1) - g.clamped r (c - 1)) / 2) +
    (g.clamped (r + 1) (c + 1) - g.clamped (r + 1) (c - 1)) / 2) / 4

/-- Rise per cell northward. -/
noncomputable def riseNorth (g : Grid ℝ) (r c : ℤ) : ℝ :=
  ((g.clamped (r - 1) (c - 1) - g.clamped (r + 1) (c - 1)) / 2 +
    2 * ((g.clamped (r - 1) c - g.clamped (r + 1) c) / 2) +
    (g.clamped (r - 1) (c + 1) - g.clamped (r + 1) (c + 1)) / 2) / 4

/-- Ground that rises by `east` per metre eastward and by `north` per metre northward falls towards
the compass heading `h` at an angle of `s` degrees. -/
def FallsTowards (east north h s : ℝ) : Prop :=
  0 ≤ h ∧ h < 360 ∧ 0 ≤ s ∧ s < 90 ∧
  -east = Real.tan (s * (Real.pi / 180)) * Real.sin (h * (Real.pi / 180)) ∧
  -north = Real.tan (s * (Real.pi / 180)) * Real.cos (h * (Real.pi / 180))

/-- Around the cell the ground is nowhere steeper than the gradient `G` in the east or north direction: cells two
columns or two rows apart differ by at most `2 G` times the cell size. -/
def GradientAtMost (g : Grid ℝ) (r c : ℤ) (xm ym G : ℝ) : Prop :=
  ∀ a : ℤ, -1 ≤ a → a ≤ 1 →
    |g.clamped (r + a) (c + 1) - g.clamped (r + a) (c - 1)| ≤ 2 * (G * xm) ∧
    |g.clamped (r + 1) (c + a) - g.clamped (r - 1) (c + a)| ≤ 2 * (G * ym)

/-- The elevations of the cell and its neighbours are known; `g` has them. -/
def KnownAround (e : Grid (Option ℝ)) (g : Grid ℝ) (i j : ℕ) : Prop :=
  e.rows = g.rows ∧ e.cols = g.cols ∧ ∀ r < g.rows, ∀ c < g.cols, |(r : ℤ) - i| ≤ 1 → |(c : ℤ) - j| ≤ 1 →
    e.val r c = some (g.val r c)

/-- The heading is more than `θ` degrees away from every boundary between two of the eight sectors. -/
def ClearHeading (θ h : ℝ) : Prop := ∀ n : ℤ, θ < |h - (45 / 2 + 45 * n)|

end WindMult
