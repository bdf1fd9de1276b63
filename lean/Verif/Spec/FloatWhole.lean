import Verif.Model.FloatWhole
import Verif.Spec.FloatPipeline
import Verif.Props.FloatGeo
import Verif.Props.TileNames

/-!
# Vocabulary of the specification of a run in which the geometry is rounded, too
-/

set_option autoImplicit false

namespace WindMult
namespace Spec

/-- Allowance for rounding of a longitude of the raster `r`: `2⁻⁵⁰` of the largest. -/
noncomputable def slackX (r : RasterInfo ℝ) : ℝ := (|r.gt0| + r.xDim * r.gt1) / 2 ^ 50

/-- Allowance for rounding of a latitude. -/
noncomputable def slackY (r : RasterInfo ℝ) : ℝ := (|r.gt3| + r.yDim * -r.gt5) / 2 ^ 50

/-- The part of the raster `r` within the limits `B`: its size, and the corner and the pixel size of the raster. -/
noncomputable def part (r : RasterInfo ℝ) (B : Limits) : RasterInfo ℝ where
  xDim := (B.x2 - B.x1).toNat
  yDim := (B.y2 - B.y1).toNat
  gt0 := r.lonEdge B.x1
  gt1 := r.gt1
  gt3 := r.latEdge B.y1
  gt5 := r.gt5

/-- `coords` are the longitudes and latitudes of the pixel centres of the tile `L`, up to rounding. -/
def CentresNear (r : RasterInfo ℝ) (L : Limits) (coords : List ℝ × List ℝ) : Prop :=
  (coords.1.length : ℤ) = L.x2 - L.x1 ∧ (coords.2.length : ℤ) = L.y2 - L.y1 ∧
  (∀ (j : ℕ) (x : ℝ), coords.1[j]? = some x → |x - r.lonCentre (L.x1 + j)| ≤ slackX r) ∧
  (∀ (i : ℕ) (y : ℝ), coords.2[i]? = some y → |y - r.latCentre (L.y1 + i)| ≤ slackY r)

/-- What is assumed of Python's `str(float)` for coordinates below 1000 in magnitude, besides `RendersDecimal`: the
first seven characters have a digit after the point, so that numbers with the same first seven characters differ by
less than 0.2 (in fact by little more than 0.1, as seven characters have at least one digit after the point).
Trusted base: CPython float formatting. -/
def RendersFine (str : ℝ → List Char) : Prop :=
  ∀ x y : ℝ, PlainCoord x → PlainCoord y → |x| < 1000 → |y| < 1000 → (str x).take 7 = (str y).take 7 → |x - y| < 1 / 5

/-- A tile of a run as in `TileCase`, with limits computed in rounded arithmetic.  In addition, no pixel centre is on
the border of two land-cover pixels, and the corner of the tile is not on 143° E or 40° S, up to rounding. -/
structure TileCaseFl (R : Rounding) (c : Inputs) (up : ℝ) (k : ℕ) (L B : Limits) (xm ym : Grid ℝ) (gw : ℝ)
    (cat : Grid ℤ) : Prop where
  pw : 0 < c.r.gt1
  ph : c.r.gt5 < 0
  lw : 0 < c.lr.gt1
  lh : c.lr.gt5 < 0
  upPos : 0 ≤ up
  moderate : c.r.Moderate
  limits : (TileGrid.initFl R up c.r).getGridlimit k = .ok L
  limitsB : (TileGrid.initFl R up c.r).getGridlimitBuffer k = .ok B
  land : IsLandcover c cat
  clearLand : ∀ px py : ℕ, B.Has px py → ∀ n : ℤ,
    slackX c.r ≤ |c.r.lonCentre px - c.lr.lonEdge n| ∧ slackY c.r ≤ |c.r.latCentre py - c.lr.latEdge n|
  clearCorner : c.r.lonEdge B.x1 + slackX c.r ≤ 143 ∨ -40 + slackY c.r ≤ c.r.latEdge B.y1 ∨
    (143 + slackX c.r ≤ c.r.lonEdge B.x1 ∧ c.r.latEdge B.y1 + slackY c.r ≤ -40)
  sizes : c.pixelSizes (part c.r B) = .ok (xm, ym)
  width : gw = gridWidth xm ym
  gwPos : 0 < gw
  sizesPos : ∀ i j : ℕ, (i : ℤ) < B.y2 - B.y1 → (j : ℤ) < B.x2 - B.x1 → 0 < xm.val i j ∧ 0 < ym.val i j
  gwFine : gw ≤ 100
  bufferX : 700 / gw + 1 ≤ (TileGrid.initFl R up c.r).xBuffer
  bufferY : 700 / gw + 1 ≤ (TileGrid.initFl R up c.r).yBuffer
  height : 700 / gw + 1 ≤ c.r.yDim
  /-- the tile is not taken for empty -/
  notEmpty : c.checksum (cutDemFl R c.r c.dem ((TileGrid.initFl R up c.r).extentFl R B) 0) ≠ 0
  someLand : ∃ px py : ℕ, B.Has px py ∧ 0 < classMz c.terrainTable (cat.val py px)

/-- The tiles of a run as in `RunCase`, with rounded geometry.  Tiles do not overlap by the condition of C02, read off
the computed steps and buffers. -/
structure RunCaseFl (R : Rounding) (c : Inputs) (up : ℝ) (cat : Grid ℤ) (str : ℝ → List Char) (out : List Char)
    (tiles : List (List Char × Extent ℝ × Extent ℝ)) : Prop where
  renders : RendersDecimal str
  fine : RendersFine str
  plain : ∀ k p, (TileGrid.initFl R up c.r).getStartcordFl R k = .ok p →
    (PlainCoord p.1 ∧ |p.1| < 1000) ∧ PlainCoord p.2 ∧ |p.2| < 1000
  outPath : ¬ ['/', '/'] <:+ out
  pw : 0 < c.r.gt1
  ph : c.r.gt5 < 0
  upPos : 0 ≤ up
  wide : 0 < c.r.xDim
  high : 0 < c.r.yDim
  moderate : c.r.Moderate
  disjointX : (c.r.xDim : ℤ) ≤ (TileGrid.initFl R up c.r).xStep ∨
    (TileGrid.initFl R up c.r).xBuffer < ((c.r.xDim : ℤ) - 1) % (TileGrid.initFl R up c.r).xStep + 1
  disjointY : (c.r.yDim : ℤ) ≤ (TileGrid.initFl R up c.r).yStep ∨
    (TileGrid.initFl R up c.r).yBuffer < ((c.r.yDim : ℤ) - 1) % (TileGrid.initFl R up c.r).yStep + 1
  listed : (TileGrid.initFl R up c.r).getTilesFl R str = .ok tiles
  each : ∀ k < (TileGrid.initFl R up c.r).numTiles,
    (∃ B, (TileGrid.initFl R up c.r).getGridlimitBuffer k = .ok B ∧
      c.checksum (cutDemFl R c.r c.dem ((TileGrid.initFl R up c.r).extentFl R B) 0) = 0) ∨
    ∃ L B xm ym gw, TileCaseFl R c up k L B xm ym gw cat

/-- The inputs are read as `cf`, and no tile is one for which rounding changes the numbers of cells. -/
structure RunReadFl (R : Rounding) (N : TileFp) (c cf : Inputs) (up : ℝ) (cat : Grid ℤ) : Prop where
  rasters : cf.r = c.r ∧ cf.dem = c.dem ∧ cf.checksum = c.checksum
  read : ∀ k L B xm ym gw, TileCaseFl R c up k L B xm ym gw cat →
    ∃ xmf ymf, AsRead N c cf B ((TileGrid.initFl R up c.r).extentFl R B) xm ym xmf ymf gw

end Spec
end WindMult
