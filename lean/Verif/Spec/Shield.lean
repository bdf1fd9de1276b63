import Verif.Spec.Compass
import Mathlib.Algebra.Order.Field.Basic

/-!
# Vocabulary of the shielding specifications
-/

set_option autoImplicit false

namespace WindMult

/-- Compass bearing of a direction in degrees, clockwise from north. -/
def Dir.bearing : Dir → ℕ
  | .n => 0 | .ne => 45 | .e => 90 | .se => 135 | .s => 180 | .sw => 225 | .w => 270 | .nw => 315

/-- `a` lies in the 45° sector centred on the bearing of `d` (modulo full turns); the sector
includes its anticlockwise end. -/
def InSector {K : Type} [Field K] [LinearOrder K] (d : Dir) (a : K) : Prop :=
  ∃ turns : ℤ, (d.bearing : K) - 45 / 2 ≤ a + 360 * turns ∧ a + 360 * turns < d.bearing + 45 / 2

/-- The cells that shield a site from wind of direction `d`, as offsets `(dr, dc)` in rows
(southward) and columns (eastward) from the site, for a radius of `k` cells.
For N, E, S, W: the cells 1 … k steps upwind and, from the second step on, the cells on both sides
of them.  For the diagonals: the triangle of cells at least one step away in both upwind axes, with
at most `k + 1` steps in total. -/
def shieldCells (d : Dir) (k : ℕ) : Finset (ℤ × ℤ) :=
  ((Finset.Icc (-(k : ℤ)) k) ×ˢ (Finset.Icc (-(k : ℤ)) k)).filter fun o =>
    if d.north = 0 ∨ d.east = 0 then
      -- along-wind and cross-wind distance
      let along := -o.1 * d.north + o.2 * d.east
      let cross := -o.1 * d.east + o.2 * d.north
      1 ≤ along ∧ along ≤ k ∧ (cross = 0 ∨ 2 ≤ along ∧ (cross = 1 ∨ cross = -1))
    else
      1 ≤ -o.1 * d.north ∧ 1 ≤ o.2 * d.east ∧ -o.1 * d.north + o.2 * d.east ≤ k + 1

/-- How much of the shielding a slope (in degrees, `none` = unknown) takes away: nothing up to 3.27°,
everything from 12.30°, linear between. -/
def slopeWeight {K : Type} [Field K] [LinearOrder K] : Option K → K
  | none => 0
  | some s => max 0 (min 1 ((s - 3.27) / (12.30 - 3.27)))

/-- Slope-adjusted shielding: moved from `m` towards 1 by the slope weight, if the slope faces the
wind. -/
def slopeAdjusted {K : Type} [Field K] [LinearOrder K] (facing : Prop) [Decidable facing] (m : K)
    (slope : Option K) : K :=
  if facing then m + (1 - m) * slopeWeight slope else m

/-- The value of a raster with NaN at integer coordinates; outside the raster there is no shielding
(value 1). -/
def Grid.cellOrOne {K : Type} [Field K] (g : Grid (Option K)) (r c : ℤ) : Option K :=
  if InRaster g.rows g.cols r c then g.val r.toNat c.toNat else some 1

/-- Mean of the shielding values over the shielding cells of `(i, j)`; NaN if one of them is. -/
def shieldMean {K : Type} [Field K] (g : Grid (Option K)) (d : Dir) (k i j : ℕ) : Option K :=
  if ∃ o ∈ shieldCells d k, g.cellOrOne (i + o.1) (j + o.2) = none then none
  else some ((∑ o ∈ shieldCells d k, (g.cellOrOne (i + o.1) (j + o.2)).getD 0) /
    ((shieldCells d k).card : K))

end WindMult
