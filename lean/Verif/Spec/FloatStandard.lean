import Verif.Model.FloatPixel
import Verif.Spec.FloatWhole

/-!
# Vocabulary of the specification of a run in the standard configuration, everything rounded
-/

set_option autoImplicit false

namespace WindMult
namespace Spec

variable (R : Rounding) (W : FpRound (1 / 2 ^ 53)) (M : FpMath (1 / 2 ^ 53)) (N : TileFp)

/-- The rasters of the standard configuration: square pixels of 1/4000° to 0.00085°, a DEM in latitudes from 2° S to
43.9° S that extends over at least 0.01° both ways.  `cf` is what a run has of the inputs `c`; the pixel sizes are
computed by the code, in `c` exactly. -/
structure StandardRasterFl (fuel : ℕ) (c cf : Inputs) : Prop where
  rounds : 12 ≤ fuel
  sizes : c.pixelSizes = pixelSizes fuel
  sizesFl : cf.pixelSizes = pixelSizesFl W M N.terr.store fuel
  rasters : cf.r = c.r ∧ cf.dem = c.dem ∧ cf.lr = c.lr ∧ cf.lcv = c.lcv ∧ cf.checksum = c.checksum
  coarse : 1 / 4000 ≤ c.r.gt1
  fine : c.r.gt1 ≤ 0.00085
  square : c.r.gt5 = -c.r.gt1
  lw : 0 < c.lr.gt1
  lh : c.lr.gt5 < 0
  wide : 0.01 ≤ c.r.xDim * c.r.gt1
  high : 0.01 ≤ c.r.yDim * c.r.gt1
  north : c.r.gt3 ≤ -2
  south : -43.9 ≤ c.r.gt3 + c.r.yDim * c.r.gt5
  east : |c.r.gt0| + c.r.xDim * c.r.gt1 ≤ 199
  /-- `np.mean` adds every cell once, and no cell goes through more than 60 additions -/
  sums : ∀ rows cols : ℕ, 0 < rows → rows ≤ c.r.yDim → 0 < cols → cols ≤ c.r.xDim →
    (N.tree rows cols).Covers rows cols ∧ (N.tree rows cols).depth ≤ 60
  digits : 24 ≤ N.P
  elevations : ∀ i < c.r.yDim, ∀ j < c.r.xDim, |c.elevation.val i j| ≤ 4000

/-- The standard configuration: such rasters, the tables as read, and a buffer of 0.01° (as read). -/
structure StandardFl (fuel : ℕ) (c cf : Inputs) (up : ℝ) : Prop extends StandardRasterFl W M N fuel c cf where
  terrain : TableRead (1 / 2 ^ 53) c.terrainTable cf.terrainTable
  shield : ShieldRead (1 / 2 ^ 53) c.shieldTable cf.shieldTable
  buffer : |up - 0.01| ≤ 1 / 10 ^ 6

/-- A tile with land in which no pixel centre is on the border of two land-cover pixels and whose corner is not on
143° E or 40° S, up to rounding; and rounding does not change the numbers of cells in 500 m, 200 m or 100 m. -/
structure ClearTile (c : Inputs) (B : Limits) (cat : Grid ℤ) : Prop where
  land : ∀ px py : ℕ, B.Has px py → ∀ n : ℤ,
    slackX c.r ≤ |c.r.lonCentre px - c.lr.lonEdge n| ∧ slackY c.r ≤ |c.r.latCentre py - c.lr.latEdge n|
  corner : c.r.lonEdge B.x1 + slackX c.r ≤ 143 ∨ -40 + slackY c.r ≤ c.r.latEdge B.y1 ∨
    (143 + slackX c.r ≤ c.r.lonEdge B.x1 ∧ c.r.latEdge B.y1 + slackY c.r ≤ -40)
  someLand : ∃ px py : ℕ, B.Has px py ∧ 0 < classMz c.terrainTable (cat.val py px)
  cells : ∀ xm ym, c.pixelSizes (part c.r B) = .ok (xm, ym) →
    ClearDistance (gridWidth xm ym) (1 / 2 ^ 16) 500 ∧ ClearDistance (gridWidth xm ym) (1 / 2 ^ 16) 200 ∧
    ∀ n : ℤ, 1 / 2 ^ 16 * (100 / gridWidth xm ym) < |100 / gridWidth xm ym - n|

/-- The tiles of a run: the last column and row of tiles are wider than the buffer (or the only ones), the corners have
coordinates that are rendered in decimals, and every tile is empty or clear. -/
structure StandardTiles (c : Inputs) (up : ℝ) (cat : Grid ℤ) (str : ℝ → List Char) (out : List Char)
    (tiles : List (List Char × Extent ℝ × Extent ℝ)) : Prop where
  land : IsLandcover c cat
  renders : RendersDecimal str
  renderFine : RendersFine str
  plain : ∀ k p, (TileGrid.initFl R up c.r).getStartcordFl R k = .ok p → PlainCoord p.1 ∧ PlainCoord p.2
  outPath : ¬ ['/', '/'] <:+ out
  disjointX : (c.r.xDim : ℤ) ≤ (TileGrid.initFl R up c.r).xStep ∨
    (TileGrid.initFl R up c.r).xBuffer < ((c.r.xDim : ℤ) - 1) % (TileGrid.initFl R up c.r).xStep + 1
  disjointY : (c.r.yDim : ℤ) ≤ (TileGrid.initFl R up c.r).yStep ∨
    (TileGrid.initFl R up c.r).yBuffer < ((c.r.yDim : ℤ) - 1) % (TileGrid.initFl R up c.r).yStep + 1
  listed : (TileGrid.initFl R up c.r).getTilesFl R str = .ok tiles
  each : ∀ k L B, (TileGrid.initFl R up c.r).getGridlimit k = .ok L →
    (TileGrid.initFl R up c.r).getGridlimitBuffer k = .ok B →
    c.checksum (cutDemFl R c.r c.dem ((TileGrid.initFl R up c.r).extentFl R B) 0) = 0 ∨ ClearTile c B cat

/-- A run in the standard configuration. -/
structure StandardRun (fuel : ℕ) (c cf : Inputs) (up : ℝ) (cat : Grid ℤ) (str : ℝ → List Char) (out : List Char)
    (tiles : List (List Char × Extent ℝ × Extent ℝ)) : Prop extends StandardTiles R c up cat str out tiles where
  std : StandardFl W M N fuel c cf up

end Spec
end WindMult
