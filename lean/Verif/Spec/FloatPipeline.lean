import Verif.Model.FloatPipeline
import Verif.Props.FloatDriver
import Verif.Props.FloatTopo
import Verif.Spec.Pipeline

/-!
# Vocabulary of the end-to-end specifications with rounded arithmetic
-/

set_option autoImplicit false

namespace WindMult
open Spec

/-- The table of shielding percentages as read: the categories, and percentages between 0 and 100 up to two units in
the last place. -/
def ShieldRead (h : ℝ) (table read : List (ℤ × ℝ)) : Prop :=
  List.Forall₂ (fun a b => b.1 = a.1 ∧ 0 ≤ a.2 ∧ a.2 ≤ 100 ∧ |b.2 - a.2| ≤ 4 * h * a.2) table read

/-- `cf` is what a run has of the inputs `c`: the same rasters, the tables up to the rounding of decimal fractions, the
pixel sizes `xm`, `ym` of the tile, computed to 1 in 2²⁵ and then stored, as `xmf`, `ymf`; and the tile is not one for
which rounding changes the numbers of cells in 500 m, 200 m or 100 m.  `gw` is the mean pixel size. -/
structure AsRead (N : TileFp) (c cf : Inputs) (B : Limits) (EB : Extent ℝ) (xm ym xmf ymf : Grid ℝ) (gw : ℝ) :
    Prop where
  rasters : cf.r = c.r ∧ cf.dem = c.dem ∧ cf.lr = c.lr ∧ cf.lcv = c.lcv ∧ cf.checksum = c.checksum
  terrain : TableRead (1 / 2 ^ 53) c.terrainTable cf.terrainTable
  shield : ShieldRead (1 / 2 ^ 53) c.shieldTable cf.shieldTable
  sizes : cf.pixelSizes (clipInfo c.r EB) = .ok (xmf, ymf)
  stored : SizesStored N.terr.store xm ym xmf ymf
  shape : (xm.rows : ℤ) = B.y2 - B.y1 ∧ (xm.cols : ℤ) = B.x2 - B.x1
  /-- every cell is added once, and goes through at most 60 additions -/
  sums : (N.tree xm.rows xm.cols).Covers xm.rows xm.cols
  depth : (N.tree xm.rows xm.cols).depth ≤ 60
  /-- the topographic step computes in `float32` or better -/
  digits : 24 ≤ N.P
  gwOne : 1 ≤ gw
  clear500 : ClearDistance gw (1 / 2 ^ 16) 500
  clear200 : ClearDistance gw (1 / 2 ^ 16) 200
  clear100 : ∀ n : ℤ, 1 / 2 ^ 16 * (100 / gw) < |100 / gw - n|
  elevations : ∀ i < c.r.yDim, ∀ j < c.r.xDim, |c.elevation.val i j| ≤ 4000
  side : B.y2 - B.y1 ≤ 2 ^ 22 ∧ B.x2 - B.x1 ≤ 2 ^ 22

/-- The ground around pixel `(px, py)` of a tile is such that rounding cannot change what is computed by more than
rounding: the gradient is at most 1 (45°), ground steeper than 3.27° does not fall to a heading `h` at the border of
two sectors, and no hill on the transects through the pixel and its neighbours is borderline. -/
structure ClearPixel (c : Inputs) (B : Limits) (xm ym : Grid ℝ) (gw : ℝ) (d : Dir) (px py : ℕ) (h s : ℝ) : Prop where
  gradient : GradientAtMost c.elevation py px (xm.val (py - B.y1.toNat) (px - B.x1.toNat))
    (ym.val (py - B.y1.toNat) (px - B.x1.toNat)) 1
  heading : 3.27 < s → ClearHeading (1 / 2000) h
  hills : ∀ i j : ℕ, (i : ℤ) < B.y2 - B.y1 → (j : ℤ) < B.x2 - B.x1 → |(i : ℤ) - (py - B.y1)| ≤ 1 →
    |(j : ℤ) - (px - B.x1)| ≤ 1 →
    ClearCell (1 / 2 ^ 15) ((c.elevation.window B).map some) (stepLength d gw) d i j

/-- `p` is the documented multiplier of pixel `(px, py)` for wind from `d`, with exact arithmetic on the inputs as they
are in the files: the product of the shielding multiplier (the mean shielding `m` over the whole raster's cells within
100 m upwind, adjusted to ground that falls at `s` degrees to the heading `h`), the terrain multiplier (the mean over
the whole raster's upwind cells) and the topographic multiplier (the mean over the pixel and its neighbours of the
values `x` along the transects of the buffered tile). -/
def M3Value (c : Inputs) (B : Limits) (xm ym : Grid ℝ) (gw : ℝ) (cat : Grid ℤ) (d : Dir) (px py : ℕ) (h s p : ℝ) :
    Prop :=
  classMz c.terrainTable (cat.val py px) ≠ 0 ∧
  FallsTowards (riseEast c.elevation py px / xm.val (py - B.y1.toNat) (px - B.x1.toNat))
    (riseNorth c.elevation py px / ym.val (py - B.y1.toNat) (px - B.x1.toNat)) h s ∧
  ∃ (m : ℝ) (x : ℤ → ℤ → ℝ) (_ : Decidable (InSector d h)),
    shieldMean (cat.map (classMs c.shieldTable)) d ⌊100 / gw⌋.toNat py px = some m ∧
    (∀ a b, IsRawMt (c.elevation.window B) d (stepLength d gw) (143 < c.r.lonEdge B.x1 ∧ c.r.latEdge B.y1 < -40)
      (py - B.y1 + a) (px - B.x1 + b) (x a b)) ∧
    p = finalMs (slopeAdjusted (InSector d h) m (some s)) *
      upwindMean (waterMz c.terrainTable cat) d (terrainWidths d gw).1.toNat (terrainWidths d gw).2.toNat py px *
      ((∑ a ∈ {-1, 0, 1}, ∑ b ∈ {-1, 0, 1}, x a b) / 9)

end WindMult
