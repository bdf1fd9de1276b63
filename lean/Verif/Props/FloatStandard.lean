import Verif.Spec.FloatStandard
import Verif.Props.FloatPixelSize
import Verif.Props.FloatWhole

/-!
# C121: a run in the standard configuration with everything rounded, the pixel sizes included
-/

set_option autoImplicit false
set_option linter.unusedSectionVars false

namespace WindMult
open Spec

section
variable {R : Rounding} {W : FpRound (1 / 2 ^ 53)} {M : FpMath (1 / 2 ^ 53)} {N : TileFp} {fuel : ℕ} {c cf : Inputs}
  {up : ℝ} {k : ℕ} {L B : Limits} {cat : Grid ℤ} {str : ℝ → List Char} {out : List Char}
  {tiles : List (List Char × Extent ℝ × Extent ℝ)}

local notation "extFl" => fun (R : Rounding) (c : Inputs) (up : ℝ) (B : Limits) =>
  TileGrid.extentFl R (TileGrid.initFl R up c.r) B

/-- The raster of a tile has the size of the tile. -/
theorem clipInfo_extFl {r : RasterInfo ℝ} (hpw : 0 < r.gt1) (hph : r.gt5 < 0) (hup : 0 ≤ up) (hm : r.Moderate)
    (hL : (TileGrid.initFl R up r).getGridlimit k = .ok L)
    (hB : (TileGrid.initFl R up r).getGridlimitBuffer k = .ok B) :
    (clipInfo r ((TileGrid.initFl R up r).extentFl R B)).xDim = (B.x2 - B.x1).toNat ∧
    (clipInfo r ((TileGrid.initFl R up r).extentFl R B)).yDim = (B.y2 - B.y1).toNat := by
  obtain ⟨⟨dx, dy⟩, ⟨⟨c0, c1, c2, c3, c4⟩, d0, d1, d2, d3, d4⟩, hE⟩ := geoFl R hpw hph hup hm hL hB
  obtain ⟨e1, e2, e3, e4⟩ := hE B (.inr rfl)
  generalize (TileGrid.initFl R up r).extentFl R B = E' at *
  have h5' : 0 < -r.gt5 := by linarith
  rw [abs_lt] at e1 e2 e3 e4
  rw [RasterInfo.lonEdge] at e1 e2
  rw [RasterInfo.latEdge] at e3 e4
  have b1 : |E'.xEnd - E'.xStart - ((B.x2 - B.x1 : ℤ) : ℝ) * r.gt1| ≤ 3 / 8 * r.gt1 := by
    push_cast
    rw [abs_le]
    constructor <;> linarith [e1.1, e1.2, e2.1, e2.2]
  have b2 : |E'.yStart - E'.yEnd - ((B.y2 - B.y1 : ℤ) : ℝ) * -r.gt5| ≤ 3 / 8 * -r.gt5 := by
    push_cast
    rw [abs_le]
    constructor <;> linarith [e3.1, e3.2, e4.1, e4.2]
  simp only [clipInfo, around_quot_near hpw b1, around_quot_near h5' b2, and_self]

theorem rnd_bounds (R : Rounding) {q : ℝ} (h : 0 ≤ q) : q * (1 - 1 / 10 ^ 6) ≤ R.rnd q ∧ R.rnd q ≤ q * (1 + 1 / 10 ^ 6) := by
  have := R.near q
  rw [abs_of_nonneg h, abs_le] at this
  norm_num at this ⊢
  constructor <;> linarith [this.1, this.2]

namespace Spec.StandardFl
variable (h : StandardFl W M N fuel c cf up)
include h

theorem pw : 0 < c.r.gt1 := by linarith [h.coarse]
theorem ph : c.r.gt5 < 0 := by linarith [h.pw, h.square]
theorem upBounds : 0.009999 ≤ up ∧ up ≤ 0.010001 := by
  have := abs_le.mp h.buffer
  norm_num at this ⊢
  constructor <;> linarith [this.1, this.2]
theorem upPos : 0 ≤ up := by
  have := h.upBounds.1
  norm_num at this
  linarith

theorem dims : 12 ≤ c.r.xDim ∧ 12 ≤ c.r.yDim := by
  have hp := h.fine
  have hdim : ∀ n : ℕ, 0.01 ≤ (n : ℝ) * c.r.gt1 → 12 ≤ n := by
    intro n hn
    have h11 : (11 : ℝ) < n := by
      by_contra hlt
      push Not at hlt
      have := h.pw
      have : (n : ℝ) * c.r.gt1 ≤ 11 * 0.00085 := by gcongr
      norm_num at this hn; linarith
    exact_mod_cast h11
  exact ⟨hdim _ h.wide, hdim _ h.high⟩

theorem edges : |c.r.gt3| + c.r.yDim * -c.r.gt5 ≤ 43.9 := by
  have := h.south
  rw [abs_of_neg (by linarith [h.north])]
  linarith

theorem moderate : c.r.Moderate := by
  have h1 := h.east
  have h2 := h.edges
  have h3 := h.coarse
  have h4 := h.square
  unfold RasterInfo.Moderate
  constructor
  · refine h1.trans ?_
    norm_num
    linarith
  · refine h2.trans ?_
    rw [h4, neg_neg]
    norm_num
    linarith

/-- Steps and buffers. -/
theorem grid : (TileGrid.initFl R up c.r).yStep = (TileGrid.initFl R up c.r).xStep ∧
    (TileGrid.initFl R up c.r).yBuffer = (TileGrid.initFl R up c.r).xBuffer ∧
    (TileGrid.initFl R up c.r).xStep * c.r.gt1 ≤ 1.0009 ∧
    0.0099 / c.r.gt1 - 1 ≤ (TileGrid.initFl R up c.r).xBuffer ∧ (TileGrid.initFl R up c.r).xBuffer * c.r.gt1 ≤ 0.0101 ∧
    11 ≤ (TileGrid.initFl R up c.r).xBuffer := by
  have hp := h.pw
  have hu := h.upPos
  obtain ⟨u0, u1⟩ := h.upBounds
  have hf := h.fine
  norm_num at u0 u1 hf
  have e5 : -c.r.gt5 = c.r.gt1 := by rw [h.square, neg_neg]
  obtain ⟨s0, s1⟩ := rnd_bounds R (q := 1 / c.r.gt1) (by positivity)
  obtain ⟨b0, b1⟩ := rnd_bounds R (q := up / c.r.gt1) (by positivity)
  have hb : (TileGrid.initFl R up c.r).xBuffer = ⌊R.rnd (up / c.r.gt1)⌋ := by
    show pyInt (R.rnd (up / c.r.gt1)) = _
    refine pyInt_of_nonneg (le_trans ?_ b0)
    have : 0 ≤ up / c.r.gt1 := by positivity
    norm_num; linarith
  have hs : (TileGrid.initFl R up c.r).xStep = ⌈R.rnd (1 / c.r.gt1)⌉ := rfl
  have e1 : up / c.r.gt1 * c.r.gt1 = up := by field_simp
  have e2 : 1 / c.r.gt1 * c.r.gt1 = 1 := by field_simp
  have e3 : 0.0099 / c.r.gt1 * c.r.gt1 = 0.0099 := by field_simp
  have hlow : 0.0099 / c.r.gt1 ≤ R.rnd (up / c.r.gt1) := by
    refine le_trans ?_ b0
    rw [div_mul_eq_mul_div]
    gcongr
    norm_num; linarith
  refine ⟨?_, ?_, ?_, ?_, ?_, ?_⟩
  · show ⌈R.rnd (1 / -c.r.gt5)⌉ = ⌈R.rnd (1 / c.r.gt1)⌉
    rw [e5]
  · show pyInt (R.rnd (up / -c.r.gt5)) = pyInt (R.rnd (up / c.r.gt1))
    rw [e5]
  · rw [hs]
    have := Int.ceil_lt_add_one (R.rnd (1 / c.r.gt1))
    calc (⌈R.rnd (1 / c.r.gt1)⌉ : ℝ) * c.r.gt1 ≤ (1 / c.r.gt1 * (1 + 1 / 10 ^ 6) + 1) * c.r.gt1 := by
          gcongr; linarith
      _ = 1 / c.r.gt1 * c.r.gt1 * (1 + 1 / 10 ^ 6) + c.r.gt1 := by ring
      _ ≤ 1.0009 := by rw [e2]; norm_num; linarith
  · rw [hb]
    have := Int.lt_floor_add_one (R.rnd (up / c.r.gt1))
    linarith
  · rw [hb]
    calc (⌊R.rnd (up / c.r.gt1)⌋ : ℝ) * c.r.gt1 ≤ up / c.r.gt1 * (1 + 1 / 10 ^ 6) * c.r.gt1 := by
          gcongr; exact (Int.floor_le _).trans b1
      _ = up / c.r.gt1 * c.r.gt1 * (1 + 1 / 10 ^ 6) := by ring
      _ ≤ 0.0101 := by rw [e1]; norm_num; linarith
  · rw [hb, Int.le_floor]
    refine le_trans ?_ hlow
    rw [le_div_iff₀ hp]
    norm_num; linarith

/-- The size and place of a tile with its buffer. -/
theorem place (hL : (TileGrid.initFl R up c.r).getGridlimit k = .ok L)
    (hB : (TileGrid.initFl R up c.r).getGridlimitBuffer k = .ok B) :
    (0 ≤ B.x1 ∧ B.x2 ≤ c.r.xDim ∧ 12 ≤ B.x2 - B.x1 ∧ ((B.x2 - B.x1 : ℤ) : ℝ) * c.r.gt1 ≤ 1.03) ∧
    0 ≤ B.y1 ∧ B.y2 ≤ c.r.yDim ∧ 12 ≤ B.y2 - B.y1 ∧ ((B.y2 - B.y1 : ℤ) : ℝ) * c.r.gt1 ≤ 1.03 := by
  obtain ⟨⟨dx, dy⟩, ⟨⟨c0, c1, c2, c3, c4⟩, d0, d1, d2, d3, d4⟩, -⟩ := geoFl R h.pw h.ph h.upPos h.moderate hL hB
  obtain ⟨b1, b2, b3, b4⟩ := limitsFl_buffer R up c.r h.pw h.ph h.upPos
    (by exact_mod_cast (by omega : (c.r.xDim : ℤ) < 2 ^ 53))
    (by exact_mod_cast (by omega : (c.r.yDim : ℤ) < 2 ^ 53)) k L B hL hB
  obtain ⟨g1, g2, g3, g4, g5, g6⟩ := h.grid (R := R)
  obtain ⟨x12, y12⟩ := h.dims
  have hk := gridlimitFl_lt hL
  rw [gridlimitBufferFl_ok hk] at hB
  cases hB
  simp only [g1, g2] at *
  have hp := h.pw
  have key : ∀ {s b : ℤ} {n : ℤ}, s * c.r.gt1 ≤ 1.0009 → b * c.r.gt1 ≤ 0.0101 → n ≤ s + 2 * b →
      (n : ℝ) * c.r.gt1 ≤ 1.03 := by
    intro s b n h1 h2 h3
    have h4 : (n : ℝ) ≤ s + 2 * b := by exact_mod_cast h3
    have h5 : (n : ℝ) * c.r.gt1 ≤ (s + 2 * b) * c.r.gt1 := by gcongr
    norm_num at h1 h2 ⊢
    linarith
  generalize ((k / nRowsFl R c.r : ℕ) : ℤ) = i at *
  generalize ((k % nRowsFl R c.r : ℕ) : ℤ) = j at *
  generalize (TileGrid.initFl R up c.r).xStep = s at *
  generalize (TileGrid.initFl R up c.r).xBuffer = b at *
  have wx : ∀ {i n : ℤ}, min ((i + 1) * s + b) n - max 0 (i * s - b) ≤ s + 2 * b := by
    intro i n
    have := min_le_left ((i + 1) * s + b) n
    have := le_max_right 0 (i * s - b)
    linarith
  refine ⟨⟨c0, c4, by omega, key g3 g5 wx⟩, d0, d4, by omega, key g3 g5 wx⟩

end Spec.StandardFl

/-- **C121** (pixel sizes of a tile) They are found exactly and in rounded arithmetic; the latter are the former to one
part in 2²⁵ before they are stored, although the corner of the tile is rounded.  With `e` the size of a pixel on the
equator, the mean is between 0.805 `e` and 1.045 `e`. -/
theorem C121_sizes (h : StandardFl W M N fuel c cf up) (hL : (TileGrid.initFl R up c.r).getGridlimit k = .ok L)
    (hB : (TileGrid.initFl R up c.r).getGridlimitBuffer k = .ok B) :
    ∃ xm ym xmf ymf, c.pixelSizes (part c.r B) = .ok (xm, ym) ∧
      cf.pixelSizes (clipInfo c.r (extFl R c up B)) = .ok (xmf, ymf) ∧ SizesStored N.terr.store xm ym xmf ymf ∧
      ((xm.rows : ℤ) = B.y2 - B.y1 ∧ (xm.cols : ℤ) = B.x2 - B.x1) ∧
      (∀ i j : ℕ, (i : ℤ) < B.y2 - B.y1 → (j : ℤ) < B.x2 - B.x1 → 0 < xm.val i j ∧ 0 < ym.val i j) ∧
      0.805 * (111319 * c.r.gt1) ≤ gridWidth xm ym ∧ gridWidth xm ym ≤ 1.045 * (111320 * c.r.gt1) := by
  obtain ⟨⟨x0, x1, x2, x3⟩, y0, y1, y2, y3⟩ := h.place hL hB
  obtain ⟨i1, i2⟩ := clipInfo_extFl (R := R) h.pw h.ph h.upPos h.moderate hL hB
  have hp := h.pw
  have hc := h.coarse
  have hf := h.fine
  have hsq := h.square
  have hsouth := h.south
  have hnorth := h.north
  have heast := h.east
  have hedge := h.edges
  have e5 : -c.r.gt5 = c.r.gt1 := by rw [h.square, neg_neg]
  norm_num at hf x3 y3 hsouth hedge
  have xd : (((B.x2 - B.x1).toNat : ℕ) : ℝ) = ((B.x2 - B.x1 : ℤ) : ℝ) := by
    rw [← Int.cast_natCast, Int.toNat_of_nonneg (by omega)]
  have yd : (((B.y2 - B.y1).toNat : ℕ) : ℝ) = ((B.y2 - B.y1 : ℤ) : ℝ) := by
    rw [← Int.cast_natCast, Int.toNat_of_nonneg (by omega)]
  push_cast at xd yd
  obtain ⟨n1, n2⟩ := extentFl_corner R up c.r h.pw h.ph B x0 (by omega) y0 (by omega)
  have hy1 : (0 : ℝ) ≤ B.y1 := by exact_mod_cast y0
  have hy1' : (B.y1 : ℝ) ≤ c.r.yDim := by exact_mod_cast (by omega : B.y1 ≤ c.r.yDim)
  have hx1 : (0 : ℝ) ≤ B.x1 := by exact_mod_cast x0
  have hx1' : (B.x1 : ℝ) ≤ c.r.xDim := by exact_mod_cast (by omega : B.x1 ≤ c.r.xDim)
  have hsouth' : -45 ≤ (part c.r B).gt3 + (part c.r B).xDim * (part c.r B).gt5 := by
    show -45 ≤ c.r.gt3 + B.y1 * c.r.gt5 + (((B.x2 - B.x1).toNat : ℕ) : ℝ) * c.r.gt5
    rw [xd, hsq]
    rw [hsq] at hsouth
    have : (B.y1 : ℝ) * c.r.gt1 ≤ c.r.yDim * c.r.gt1 := by gcongr
    linarith
  have hnorth' : (part c.r B).gt3 ≤ -2 := by
    show c.r.gt3 + B.y1 * c.r.gt5 ≤ -2
    rw [hsq]
    have : 0 ≤ (B.y1 : ℝ) * c.r.gt1 := by positivity
    linarith
  obtain ⟨xm, ym, xmf, ymf, h1, h2, h3, h4, h5⟩ := C120_pixel_sizes W M N.terr.store fuel h.rounds (part c.r B)
    (clipInfo c.r (extFl R c up B)) ⟨i1, i2⟩ ⟨rfl, neg_neg _⟩ (by
      show |((TileGrid.initFl R up c.r).extentFl R B).xStart| ≤ 200
      have hlon : |c.r.lonEdge B.x1| ≤ 199 := by
        unfold RasterInfo.lonEdge
        have t := abs_add_le c.r.gt0 (B.x1 * c.r.gt1)
        have t1 : (B.x1 : ℝ) * c.r.gt1 ≤ c.r.xDim * c.r.gt1 := by gcongr
        rw [abs_of_nonneg (by positivity : 0 ≤ (B.x1 : ℝ) * c.r.gt1)] at t
        linarith
      have hsl : slackX c.r ≤ 1 := by
        unfold slackX
        norm_num
        linarith
      have t := abs_add_le (((TileGrid.initFl R up c.r).extentFl R B).xStart - c.r.lonEdge B.x1) (c.r.lonEdge B.x1)
      rw [sub_add_cancel] at t
      linarith) (by
      show |((TileGrid.initFl R up c.r).extentFl R B).yStart - c.r.latEdge B.y1| ≤ _
      refine n2.le.trans ?_
      unfold slackY
      norm_num
      linarith)
    (by show 12 ≤ (B.y2 - B.y1).toNat; omega) (by show 12 ≤ (B.x2 - B.x1).toNat; omega) hc
    (by show c.r.gt1 ≤ 1 / 2; linarith) (by show 1 / 4000 ≤ -c.r.gt5; rw [e5]; exact hc)
    (by show -c.r.gt5 ≤ 1 / 2; rw [e5]; linarith)
    (by show (((B.y2 - B.y1).toNat : ℕ) : ℝ) * c.r.gt1 ≤ 2; rw [yd]; linarith)
    (by show (((B.x2 - B.x1).toNat : ℕ) : ℝ) * -c.r.gt5 ≤ 2; rw [xd, e5]; linarith) hnorth' hsouth'
  obtain ⟨xm', ym', g1, ⟨g2, g3⟩, ⟨g4, g5⟩, g6⟩ := C88_grids fuel (by linarith [h.rounds]) (part c.r B)
    (by show 3 ≤ (B.y2 - B.y1).toNat; omega) (by show 12 ≤ (B.x2 - B.x1).toNat; omega)
    (by show 1 / 1000000 ≤ c.r.gt1; linarith) (by show c.r.gt1 ≤ 5; linarith)
    (by show 1 / 1000000 ≤ -c.r.gt5; rw [e5]; linarith) (by linarith) hsouth'
  rw [h1, Except.ok.injEq, Prod.mk.injEq] at g1
  obtain ⟨rfl, rfl⟩ := g1
  have p1 : (part c.r B).yDim = (B.y2 - B.y1).toNat := rfl
  have p2 : (part c.r B).xDim = (B.x2 - B.x1).toNat := rfl
  have p3 : (part c.r B).gt1 = c.r.gt1 := rfl
  have p4 : -(part c.r B).gt5 = c.r.gt1 := e5
  rw [p1, p2, p3, p4] at g6
  have he0 : 111319 * c.r.gt1 ≤ earthA * (c.r.gt1 * radPerDeg) := by
    have : (111319 : ℝ) ≤ earthA * radPerDeg := by unfold earthA radPerDeg; norm_num
    calc 111319 * c.r.gt1 ≤ earthA * radPerDeg * c.r.gt1 := by gcongr
      _ = _ := by ring
  have he1 : earthA * (c.r.gt1 * radPerDeg) ≤ 111320 * c.r.gt1 := by
    have : earthA * radPerDeg ≤ (111320 : ℝ) := by unfold earthA radPerDeg; norm_num
    calc earthA * (c.r.gt1 * radPerDeg) = earthA * radPerDeg * c.r.gt1 := by ring
      _ ≤ _ := by gcongr
  generalize earthA * (c.r.gt1 * radPerDeg) = e at *
  have hepos : 0 < e := by linarith
  rw [p1] at h4
  rw [p2] at h5
  have mx := Grid.mean_mem xm (by omega) (by omega) (0.64 * e) (1.06 * e) (fun i hi j hj =>
    (g6 i (by omega) j (by omega)).1)
  have my := Grid.mean_mem ym (by omega) (by omega) (0.97 * e) (1.03 * e) (fun i hi j hj =>
    (g6 i (by omega) j (by omega)).2)
  refine ⟨xm, ym, xmf, ymf, by rw [h.sizes]; exact h1, by rw [h.sizesFl]; exact h2, h3, ⟨by omega, by omega⟩, ?_, ?_, ?_⟩
  · intro i j hi hj
    obtain ⟨⟨c1, -⟩, c2, -⟩ := g6 i (by omega) j (by omega)
    norm_num at c1 c2
    exact ⟨by linarith, by linarith⟩
  · unfold gridWidth; norm_num at mx my ⊢; linarith
  · unfold gridWidth; norm_num at mx my ⊢; linarith

/-- **C121** (a tile) In the standard configuration every clear tile that is not empty meets the conditions of C119. -/
theorem C121_tile (h : StandardFl W M N fuel c cf up) (hcat : IsLandcover c cat) (ht : ClearTile c B cat)
    (hL : (TileGrid.initFl R up c.r).getGridlimit k = .ok L)
    (hB : (TileGrid.initFl R up c.r).getGridlimitBuffer k = .ok B)
    (hne : c.checksum (cutDemFl R c.r c.dem (extFl R c up B) 0) ≠ 0) :
    ∃ xm ym xmf ymf, TileCaseFl R c up k L B xm ym (gridWidth xm ym) cat ∧
      AsRead N c cf B (extFl R c up B) xm ym xmf ymf (gridWidth xm ym) := by
  obtain ⟨xm, ym, xmf, ymf, h1, h2, h3, ⟨h4, h5⟩, h6, h7, h8⟩ := C121_sizes h hL hB
  obtain ⟨⟨x0, x1, x2, x3⟩, y0, y1, y2, y3⟩ := h.place hL hB
  obtain ⟨g1, g2, g3, g4, g5, g6⟩ := h.grid (R := R)
  obtain ⟨k1, k2, k3⟩ := ht.cells xm ym h1
  have hp := h.pw
  have hc := h.coarse
  have hf := h.fine
  have hhigh := h.high
  norm_num at h7 h8 hf
  have hgw : 0 < gridWidth xm ym := by linarith
  have hb : 700 / gridWidth xm ym + 1 ≤ 0.0099 / c.r.gt1 - 1 := by
    have q1 : 700 / gridWidth xm ym ≤ 0.0079 / c.r.gt1 := by
      rw [div_le_div_iff₀ hgw hp]
      norm_num
      linarith
    have q2 : 0.0099 / c.r.gt1 - 0.0079 / c.r.gt1 ≥ 2 := by
      rw [← sub_div, ge_iff_le, le_div_iff₀ hp]
      norm_num
      linarith
    linarith
  obtain ⟨s1, s2⟩ := h.sums xm.rows xm.cols (by omega) (by omega) (by omega) (by omega)
  have side : ∀ n : ℤ, (n : ℝ) * c.r.gt1 ≤ 1.03 → n ≤ 2 ^ 22 := by
    intro n hn
    by_contra hlt
    push Not at hlt
    have : (2 ^ 22 : ℝ) ≤ n := by exact_mod_cast hlt.le
    norm_num at hn this
    nlinarith
  refine ⟨xm, ym, xmf, ymf, ⟨hp, h.ph, h.lw, h.lh, h.upPos, h.moderate, hL, hB, hcat, ht.land, ht.corner, h1, rfl, hgw,
    h6, by linarith, by linarith, by rw [g2]; linarith, ?_, hne, ht.someLand⟩,
    ⟨h.rasters, h.terrain, h.shield, h2, h3, ⟨h4, h5⟩, s1, s2, h.digits, by linarith, k1, k2, k3, h.elevations,
      side _ y3, side _ x3⟩⟩
  have : 0.01 / c.r.gt1 ≤ c.r.yDim := by rwa [div_le_iff₀ hp]
  have : 0.0099 / c.r.gt1 ≤ 0.01 / c.r.gt1 := by gcongr; norm_num
  linarith

/-- The conditions of C119 on the run. -/
theorem Spec.StandardRun.runCase (h : StandardRun R W M N fuel c cf up cat str out tiles) :
    RunCaseFl R c up cat str out tiles := by
  refine ⟨h.renders, h.renderFine, ?_, h.outPath, h.std.pw, h.std.ph, h.std.upPos, by linarith [h.std.dims.1],
    by linarith [h.std.dims.2], h.std.moderate, h.disjointX, h.disjointY, h.listed, ?_⟩
  · intro k p hp
    obtain ⟨p1, p2⟩ := h.plain k p hp
    unfold TileGrid.getStartcordFl at hp
    match hL : (TileGrid.initFl R up c.r).getGridlimit k with
    | .error e => rw [hL] at hp; cases hp
    | .ok L =>
      rw [hL] at hp
      cases hp
      obtain ⟨⟨dx, dy⟩, ⟨⟨c0, c1, c2, c3, c4⟩, d0, d1, d2, d3, d4⟩, -⟩ := geoFl R h.std.pw h.std.ph h.std.upPos
        h.std.moderate hL (gridlimitBufferFl_ok (gridlimitFl_lt hL))
      obtain ⟨n1, n2⟩ := extentFl_corner R up c.r h.std.pw h.std.ph L (by omega) (by omega) (by omega) (by omega)
      have hpw := h.std.pw
      have hx0 : (0 : ℝ) ≤ L.x1 := by exact_mod_cast (by omega : 0 ≤ L.x1)
      have hy0 : (0 : ℝ) ≤ L.y1 := by exact_mod_cast (by omega : 0 ≤ L.y1)
      have hx1 : (L.x1 : ℝ) ≤ c.r.xDim := by exact_mod_cast (by omega : L.x1 ≤ c.r.xDim)
      have hy1 : (L.y1 : ℝ) ≤ c.r.yDim := by exact_mod_cast (by omega : L.y1 ≤ c.r.yDim)
      have he := h.std.east
      have hs := h.std.edges
      have hsq := h.std.square
      have a1 : |c.r.lonEdge L.x1| ≤ |c.r.gt0| + c.r.xDim * c.r.gt1 := by
        refine (abs_add_le _ _).trans ?_
        rw [abs_of_nonneg (mul_nonneg hx0 hpw.le)]
        gcongr
      have a2 : |c.r.latEdge L.y1| ≤ |c.r.gt3| + c.r.yDim * -c.r.gt5 := by
        refine (abs_add_le _ _).trans ?_
        rw [hsq, mul_neg, abs_neg, abs_of_nonneg (mul_nonneg hy0 hpw.le), neg_neg]
        gcongr
      have s1 : slackX c.r ≤ 1 := by unfold slackX; norm_num; linarith
      have s2 : slackY c.r ≤ 1 := by unfold slackY; norm_num at hs ⊢; linarith
      have t1 := abs_add_le (((TileGrid.initFl R up c.r).extentFl R L).xStart - c.r.lonEdge L.x1) (c.r.lonEdge L.x1)
      have t2 := abs_add_le (((TileGrid.initFl R up c.r).extentFl R L).yStart - c.r.latEdge L.y1) (c.r.latEdge L.y1)
      rw [sub_add_cancel] at t1 t2
      norm_num at hs
      refine ⟨⟨p1, ?_⟩, p2, ?_⟩
      · exact lt_of_le_of_lt (t1.trans (add_le_add n1.le a1)) (by linarith)
      · rw [← abs_neg]
        exact lt_of_le_of_lt (t2.trans (add_le_add n2.le a2)) (by linarith)
  · intro k hk
    rw [numTilesFl] at hk
    obtain ⟨B, hB⟩ : ∃ B, (TileGrid.initFl R up c.r).getGridlimitBuffer k = .ok B := ⟨_, gridlimitBufferFl_ok hk⟩
    rcases h.each k _ B (gridlimitFl_ok hk) hB with he | ht
    · exact .inl ⟨B, hB, he⟩
    · by_cases hne : c.checksum (cutDemFl R c.r c.dem (extFl R c up B) 0) = 0
      · exact .inl ⟨B, hB, hne⟩
      · obtain ⟨xm, ym, -, -, t, -⟩ := C121_tile h.std h.land ht (gridlimitFl_ok hk) hB hne
        exact .inr ⟨_, B, xm, ym, _, t⟩

theorem Spec.StandardRun.runRead (h : StandardRun R W M N fuel c cf up cat str out tiles) :
    RunReadFl R N c cf up cat := by
  refine ⟨⟨h.std.rasters.1, h.std.rasters.2.1, h.std.rasters.2.2.2.2⟩, ?_⟩
  intro k L B xm ym gw t
  rcases h.each k L B t.limits t.limitsB with he | ht
  · exact absurd he t.notEmpty
  · obtain ⟨xm', ym', xmf, ymf, t', q⟩ := C121_tile h.std h.land ht t.limits t.limitsB t.notEmpty
    have e := t'.sizes.symm.trans t.sizes
    rw [Except.ok.injEq, Prod.mk.injEq] at e
    obtain ⟨rfl, rfl⟩ := e
    have e := t.width
    subst e
    exact ⟨xmf, ymf, q⟩

/-- **C121** (a run) In the standard configuration, with the pixel sizes computed by the code and everything rounded:
any interleaving of the processes is finite and can go on until all is done, and then the output of every tile is within
1/2000 of the exact values, at the right place. -/
theorem C121_run (h : StandardRun R W M N fuel c cf up cat str out tiles) (nW : ℕ)
    (st0 : Store (NanNum (Fl N.file)) (List ℝ × List ℝ)) (j : ℕ)
    (s : RunState (NanNum (Fl N.file)) (List ℝ × List ℝ))
    (hrun : RunSteps (cf.runCfgGeo R N out nW tiles) j ((cf.runCfgGeo R N out nW tiles).start st0) s) :
    j ≤ 45 * (TileGrid.initFl R up c.r).numTiles + 9 * nW + 9 ∧
    (¬ (cf.runCfgGeo R N out nW tiles).Done s → ∃ s', RunStep (cf.runCfgGeo R N out nW tiles) s s') ∧
    ((cf.runCfgGeo R N out nW tiles).Done s → ∀ k L B n,
      (TileGrid.initFl R up c.r).getGridlimit k = .ok L → (TileGrid.initFl R up c.r).getGridlimitBuffer k = .ok B →
      c.checksum (cutDemFl R c.r c.dem (extFl R c up B) 0) ≠ 0 →
      (TileGrid.initFl R up c.r).getTilenameFl R str k = .ok n →
      ∃ xm ym tif mx, pixelSizes fuel (part c.r B) = .ok (xm, ym) ∧
        s.store (pjoin out (m3File n)) = some (.tif tif) ∧ CentresNear c.r L tif.transform ∧
        BandsNear (1 / 2000) c L B xm ym (gridWidth xm ym) cat tif ∧
        s.store (pjoin out (m3MaxFile n)) = some (.maxTif mx) ∧
        IsM3MaxNear (1 / 2000) c L B xm ym (gridWidth xm ym) cat mx) := by
  obtain ⟨b1, b2, b3⟩ := C119_run h.runCase h.runRead nW st0 j s hrun
  refine ⟨b1, b2, fun hd k L B n hL hB hne hn => ?_⟩
  obtain ⟨xm, ym, -, -, t, -⟩ := C121_tile h.std h.land ((h.each k L B hL hB).resolve_left hne) hL hB hne
  obtain ⟨tif, mx, r⟩ := b3 hd k L B xm ym _ n t hn
  exact ⟨xm, ym, tif, mx, by rw [← h.std.sizes]; exact t.sizes, r⟩

/-- **C121** (every pixel) After the run every pixel of the DEM is in exactly one tile; if that tile has data, the
values of the pixel in its output are within 1/2000 of the exact ones, and otherwise it has no output. -/
theorem C121_every_pixel (h : StandardRun R W M N fuel c cf up cat str out tiles) (nW : ℕ)
    (st0 : Store (NanNum (Fl N.file)) (List ℝ × List ℝ)) (j : ℕ)
    (s : RunState (NanNum (Fl N.file)) (List ℝ × List ℝ))
    (hrun : RunSteps (cf.runCfgGeo R N out nW tiles) j ((cf.runCfgGeo R N out nW tiles).start st0) s)
    (hdone : (cf.runCfgGeo R N out nW tiles).Done s) (px py : ℕ) (hx : px < c.r.xDim) (hy : py < c.r.yDim) :
    ∃ k L B n, (TileGrid.initFl R up c.r).getGridlimit k = .ok L ∧ L.Has px py ∧
      (∀ k' L', (TileGrid.initFl R up c.r).getGridlimit k' = .ok L' → L'.Has px py → k' = k) ∧
      (TileGrid.initFl R up c.r).getTilenameFl R str k = .ok n ∧
      (TileGrid.initFl R up c.r).getGridlimitBuffer k = .ok B ∧
      ((c.checksum (cutDemFl R c.r c.dem (extFl R c up B) 0) = 0 ∧ s.store (pjoin out (m3File n)) = none ∧
          s.store (pjoin out (m3MaxFile n)) = none) ∨
        ∃ xm ym tif mx, pixelSizes fuel (part c.r B) = .ok (xm, ym) ∧
          s.store (pjoin out (m3File n)) = some (.tif tif) ∧ CentresNear c.r L tif.transform ∧
          BandsNear (1 / 2000) c L B xm ym (gridWidth xm ym) cat tif ∧
          s.store (pjoin out (m3MaxFile n)) = some (.maxTif mx) ∧
          IsM3MaxNear (1 / 2000) c L B xm ym (gridWidth xm ym) cat mx) := by
  obtain ⟨k, L, n, h1, h2, h3, h4, h5⟩ := C119_every_pixel h.runCase h.runRead nW st0 j s hrun hdone px py hx hy
  rcases h5 with ⟨B, b1, b2⟩ | ⟨B, xm, ym, gw, tif, mx, t, r⟩
  · exact ⟨k, L, B, n, h1, h2, h3, h4, b1, .inl b2⟩
  · have e := t.width
    subst e
    exact ⟨k, L, B, n, h1, h2, h3, h4, t.limitsB, .inr ⟨xm, ym, tif, mx, by rw [← h.std.sizes]; exact t.sizes, r⟩⟩


/-! ### A raster in the standard configuration

24 × 24 pixels of about 85 m at 3° S, rising to the south; the land cover on the same raster.  Its pixel sizes are those
the code computes. -/

noncomputable def plateau : Inputs where
  r := ⟨24, 24, 149, 25 / 32768, -3, -(25 / 32768)⟩
  dem := ⟨24, 24, fun i _ => some (9 * i)⟩
  lr := ⟨24, 24, 149, 25 / 32768, -3, -(25 / 32768)⟩
  lcv := ⟨24, 24, fun _ _ => some 1⟩
  terrainTable := [⟨1, 0.2⟩]
  shieldTable := [(1, 80)]
  pixelSizes := pixelSizes 20
  checksum := fun _ => 1

/-- The same as a run has it, with the pixel sizes it computes in double precision and stores in single precision. -/
noncomputable def plateauRead : Inputs :=
  { plateau with
    terrainTable := [⟨1, roundDigits 53 0.2⟩]
    pixelSizes := pixelSizesFl (digits 53) roundedMath slopeFp.terr.store 20 }

noncomputable def plateauCat : Grid ℤ := ⟨24, 24, fun i j => (plateau.lcv.val i j).getD 0⟩

theorem plateau_std : StandardFl (digits 53) roundedMath slopeFp 20 plateau plateauRead 0.01 where
  rounds := by norm_num
  sizes := rfl
  sizesFl := rfl
  rasters := ⟨rfl, rfl, rfl, rfl, rfl⟩
  terrain := slopeAsRead.terrain
  shield := slopeAsRead.shield
  buffer := by norm_num
  coarse := by norm_num [plateau]
  fine := by norm_num [plateau]
  square := rfl
  lw := by norm_num [plateau]
  lh := by norm_num [plateau]
  wide := by norm_num [plateau]
  high := by norm_num [plateau]
  north := by norm_num [plateau]
  south := by norm_num [plateau]
  east := by norm_num [plateau, abs_of_pos]
  sums := by
    intro rows cols h0 h1 h2 h3
    have h1 : rows ≤ 24 := h1
    have h3 : cols ≤ 24 := h3
    constructor
    · have := rowsTree_covers (cols - 1) (rows - 1)
      rwa [Nat.sub_add_cancel (by omega), Nat.sub_add_cancel (by omega)] at this
    · refine (rowsTree_depth _ _).trans ?_
      omega
  digits := le_rfl
  elevations := by
    intro i hi j _
    show |9 * (i : ℝ)| ≤ 4000
    have hi : (i : ℝ) ≤ 24 := by exact_mod_cast hi.le
    rw [abs_of_nonneg (by positivity)]
    linarith

/-- The mean size of the pixels of a tile. -/
theorem plateau_width {B : Limits} (x0 : 0 ≤ B.x1) (x1 : B.x2 ≤ 24) (x2 : 12 ≤ B.x2 - B.x1) (y0 : 0 ≤ B.y1)
    (y1 : B.y2 ≤ 24) (y2 : 12 ≤ B.y2 - B.y1) {xm ym : Grid ℝ} (h : pixelSizes 20 (part plateau.r B) = .ok (xm, ym)) :
    82.5 ≤ gridWidth xm ym ∧ gridWidth xm ym ≤ 87.5 := by
  have hB0 : (0 : ℝ) ≤ B.y1 := by exact_mod_cast y0
  have hB1 : (B.y1 : ℝ) ≤ 24 := by exact_mod_cast (by omega : B.y1 ≤ 24)
  have g3 : (part plateau.r B).gt3 = -3 + B.y1 * -(25 / 32768) := rfl
  have g5 : (part plateau.r B).gt5 = -(25 / 32768) := rfl
  have g1 : (part plateau.r B).gt1 = 25 / 32768 := rfl
  have dx : (part plateau.r B).xDim = (B.x2 - B.x1).toNat := rfl
  have dy : (part plateau.r B).yDim = (B.y2 - B.y1).toNat := rfl
  have hd : ((part plateau.r B).xDim : ℝ) ≤ 24 := by
    rw [dx]
    exact_mod_cast (by omega : (B.x2 - B.x1).toNat ≤ 24)
  obtain ⟨xm', ym', h1, ⟨h2, h3⟩, ⟨h4, h5⟩, h6⟩ := grids_mem 20 (part plateau.r B) (by omega) (by omega) _ _ _ _
    (fun j hj => row_sizes_le 20 (by norm_num) (part plateau.r B) (by rw [g1]; norm_num) (by rw [g1]; norm_num)
      (by rw [g5]; norm_num) (by rw [g3]; linarith) (by rw [g3, g5]; linarith) j hj 0.054 (by
        have hj1 : (j : ℝ) ≤ 24 := le_trans (by exact_mod_cast hj.le) hd
        have hj0 : (0 : ℝ) ≤ j := by positivity
        unfold rowLat
        rw [g3, g5, abs_mul, abs_of_pos (by unfold radPerDeg; norm_num : 0 < radPerDeg), Int.cast_natCast,
          abs_of_neg (by linarith)]
        have hr : radPerDeg ≤ 0.01746 := by unfold radPerDeg; norm_num
        have hr0 : 0 < radPerDeg := by unfold radPerDeg; norm_num
        norm_num at hr ⊢
        nlinarith))
  rw [h, Except.ok.injEq, Prod.mk.injEq] at h1
  obtain ⟨rfl, rfl⟩ := h1
  rw [g1, g5, neg_neg] at h6
  have he0 : (84.92 : ℝ) ≤ earthA * (25 / 32768 * radPerDeg) := by unfold earthA radPerDeg; norm_num
  have he1 : earthA * (25 / 32768 * radPerDeg) ≤ (84.94 : ℝ) := by unfold earthA radPerDeg; norm_num
  generalize earthA * (25 / 32768 * radPerDeg) = q at *
  have mx := Grid.mean_mem xm (by omega) (by omega) _ _ (fun i hi j hj => (h6 i (by omega) j (by omega)).1)
  have my := Grid.mean_mem ym (by omega) (by omega) _ _ (fun i hi j hj => (h6 i (by omega) j (by omega)).2)
  unfold gridWidth
  norm_num at mx my he0 he1 ⊢
  constructor <;> linarith [mx.1, mx.2, my.1, my.2]

theorem plateau_clear {B : Limits} (x0 : 0 ≤ B.x1) (x1 : B.x2 ≤ 24) (x2 : 12 ≤ B.x2 - B.x1) (y0 : 0 ≤ B.y1)
    (y1 : B.y2 ≤ 24) (y2 : 12 ≤ B.y2 - B.y1) {tt : List (TerrainRow ℤ ℝ)} (st : List (ℤ × ℝ))
    (htt : 0 < classMz tt 1) :
    ClearTile { plateau with terrainTable := tt, shieldTable := st } B plateauCat where
  land := by
    intro px py _ n
    have key : ∀ m : ℤ, (25 : ℝ) / 65536 ≤ |((m : ℝ) + 1 / 2) * (25 / 32768)| := by
      intro m
      rw [abs_mul, abs_of_pos (by norm_num : (0 : ℝ) < 25 / 32768)]
      rcases lt_or_ge m 0 with h | h
      · have : (m : ℝ) ≤ -1 := by exact_mod_cast (by omega : m ≤ -1)
        rw [abs_of_neg (by linarith)]
        linarith
      · have : (0 : ℝ) ≤ m := by exact_mod_cast h
        rw [abs_of_nonneg (by linarith)]
        linarith
    have s1 : slackX plateau.r ≤ 25 / 65536 := by norm_num [slackX, plateau, abs_of_pos]
    have s2 : slackY plateau.r ≤ 25 / 65536 := by norm_num [slackY, plateau, abs_of_pos]
    constructor
    · refine s1.trans ((key (px - n)).trans (le_of_eq ?_))
      congr 1
      simp only [plateau, RasterInfo.lonCentre, RasterInfo.lonEdge]
      push_cast
      ring
    · refine s2.trans ((key (py - n)).trans (le_of_eq ?_))
      rw [← abs_neg]
      congr 1
      simp only [plateau, RasterInfo.latCentre, RasterInfo.latEdge]
      push_cast
      ring
  corner := by
    right; left
    have h1 : (B.y1 : ℝ) ≤ 24 := by exact_mod_cast (by omega : B.y1 ≤ 24)
    have h2 : plateau.r.latEdge B.y1 = -3 + B.y1 * -(25 / 32768) := rfl
    have s2 : slackY plateau.r ≤ 1 := by norm_num [slackY, plateau, abs_of_pos]
    rw [h2]
    linarith
  someLand := by
    exact ⟨B.x1.toNat, B.y1.toNat, ⟨by omega, by omega, by omega, by omega⟩, htt⟩
  cells := by
    intro xm ym h
    obtain ⟨h0, h1⟩ := plateau_width x0 x1 x2 y0 y1 y2 h
    generalize gridWidth xm ym = gw at *
    norm_num at h0 h1
    have hq0 : 8 / 7 ≤ 100 / gw := by rw [div_le_div_iff₀ (by norm_num) (by linarith)]; linarith
    have hq1 : 100 / gw ≤ 40 / 33 := by rw [div_le_div_iff₀ (by linarith) (by norm_num)]; linarith
    have e5 : 500 / gw = 5 * (100 / gw) := by ring
    have e2 : 200 / gw = 2 * (100 / gw) := by ring
    have f5 : 500 / (gw * 1.414) = 5 / 1.414 * (100 / gw) := by field_simp; norm_num
    have f2 : 200 / (gw * 1.414) = 2 / 1.414 * (100 / gw) := by field_simp; norm_num
    unfold ClearDistance
    rw [e5, e2, f5, f2]
    generalize 100 / gw = t at *
    refine ⟨⟨clear_half (n := 5) ?_ ?_ ?_, clear_of_floor (n := 4) ?_ ?_ ?_⟩,
      ⟨clear_half (n := 1) ?_ ?_ ?_, clear_of_floor (n := 1) ?_ ?_ ?_⟩, clear_of_floor (n := 1) ?_ ?_ ?_⟩ <;>
    norm_num <;> linarith

/-- Its tiles, with any tables. -/
theorem plateau_tiles (R : Rounding) (out : List Char) (ho : ¬ ['/', '/'] <:+ out) {tt : List (TerrainRow ℤ ℝ)}
    {st : List (ℤ × ℝ)} (htt : 0 < classMz tt 1) {cf : Inputs} {up : ℝ}
    (hs : StandardFl (digits 53) roundedMath slopeFp 20 { plateau with terrainTable := tt, shieldTable := st } cf up) :
    ∃ tiles, StandardTiles R { plateau with terrainTable := tt, shieldTable := st } up plateauCat oneDecimal out
      tiles := by
  have hstep : (24 : ℤ) ≤ (TileGrid.initFl R up plateau.r).xStep ∧
      (24 : ℤ) ≤ (TileGrid.initFl R up plateau.r).yStep := by
    have n := R.near (1 / (25 / 32768))
    rw [abs_le, abs_of_pos (by norm_num)] at n
    have hc : (24 : ℤ) ≤ ⌈R.rnd (1 / (25 / 32768))⌉ := by
      have h1 : (24 : ℝ) ≤ R.rnd (1 / (25 / 32768)) := by
        have := n.1
        norm_num at this
        norm_num
        linarith
      exact_mod_cast h1.trans (Int.le_ceil _)
    simp only [TileGrid.initFl, plateau, neg_neg]
    exact ⟨hc, hc⟩
  obtain ⟨tiles, ht⟩ : ∃ l, (TileGrid.initFl R up plateau.r).getTilesFl R oneDecimal = .ok l := by
    refine mapM_exists fun k hk => ?_
    have hk : k < nColsFl R plateau.r * nRowsFl R plateau.r := by
      rw [← numTilesFl R up]; exact List.mem_range.mp hk
    simp only [TileGrid.getTilenameFl, TileGrid.getStartcordFl, TileGrid.getTileExtentBufferFl,
      TileGrid.getTileExtentFl, gridlimitFl_ok hk, gridlimitBufferFl_ok hk]
    exact ⟨_, rfl⟩
  refine ⟨tiles, isLandcover_same plateau rfl hs.pw hs.ph, oneDecimal_renders, oneDecimal_fine, ?_, ho,
    .inl hstep.1, .inl hstep.2, ht, ?_⟩
  · intro k p hp
    unfold TileGrid.getStartcordFl at hp
    match hL : (TileGrid.initFl R up plateau.r).getGridlimit k with
    | .error e => rw [hL] at hp; cases hp
    | .ok L =>
      rw [hL] at hp
      cases hp
      obtain ⟨-, ⟨⟨c0, c1, c2, c3, c4⟩, d0, d1, d2, d3, d4⟩, -⟩ := geoFl R hs.pw hs.ph hs.upPos hs.moderate hL
        (gridlimitBufferFl_ok (gridlimitFl_lt hL))
      have hx : L.x1 < 24 := lt_of_lt_of_le c2 (c3.trans c4)
      have hy : L.y1 < 24 := lt_of_lt_of_le d2 (d3.trans d4)
      obtain ⟨n1, n2⟩ := extentFl_corner R up plateau.r hs.pw hs.ph L (by omega) hx (by omega) hy
      have s1 : slackX plateau.r ≤ 1 := by norm_num [slackX, plateau, abs_of_pos]
      have s2 : slackY plateau.r ≤ 1 := by norm_num [slackY, plateau, abs_of_pos]
      have f1 : (L.x1 : ℝ) ≤ 24 := by exact_mod_cast hx.le
      have f2 : (L.y1 : ℝ) ≤ 24 := by exact_mod_cast hy.le
      have f3 : (0 : ℝ) ≤ L.x1 := by exact_mod_cast (by omega : 0 ≤ L.x1)
      have f4 : (0 : ℝ) ≤ L.y1 := by exact_mod_cast (by omega : 0 ≤ L.y1)
      have e1 : plateau.r.lonEdge L.x1 = 149 + L.x1 * (25 / 32768) := rfl
      have e2 : plateau.r.latEdge L.y1 = -3 + L.y1 * -(25 / 32768) := rfl
      rw [abs_lt] at n1 n2
      rw [e1] at n1
      rw [e2] at n2
      change -slackX plateau.r < R.rnd _ - _ ∧ R.rnd _ - _ < _ at n1
      change -slackY plateau.r < -R.rnd _ - _ ∧ -R.rnd _ - _ < _ at n2
      unfold PlainCoord
      dsimp only
      rw [abs_of_pos (by linarith [n1.1]), abs_of_pos (by linarith [n2.2])]
      refine ⟨⟨.inr ?_, ?_⟩, .inr ?_, ?_⟩ <;> linarith [n1.1, n1.2, n2.1, n2.2]
  · intro k L B hL hB
    obtain ⟨⟨x0, x1, x2, -⟩, y0, y1, y2, -⟩ := hs.place hL hB
    exact .inr (plateau_clear x0 x1 x2 y0 y1 y2 st htt)

theorem plateau_run (R : Rounding) : ∃ tiles, StandardRun R (digits 53) roundedMath slopeFp 20 plateau plateauRead 0.01
    plateauCat oneDecimal ['/', 'o'] tiles := by
  have hc := slope_class
  obtain ⟨tiles, h⟩ := plateau_tiles R ['/', 'o'] (by decide) (tt := plateau.terrainTable) (st := plateau.shieldTable)
    (by rw [show plateau.terrainTable = slopeInputs.terrainTable from rfl, hc.1]
        exact lt_of_lt_of_le (by norm_num) hc.2) plateau_std
  exact ⟨tiles, h, plateau_std⟩

/-- A run with three workers on this raster in double precision, completed: there is a GeoTIFF with the multipliers of
pixel (20, 15). -/
example : ∃ tiles j s,
    RunSteps (plateauRead.runCfgGeo ieee slopeFp ['/', 'o'] 3 tiles) j
      ((plateauRead.runCfgGeo ieee slopeFp ['/', 'o'] 3 tiles).start fun _ => none) s ∧
    (plateauRead.runCfgGeo ieee slopeFp ['/', 'o'] 3 tiles).Done s ∧
    ∃ k n L B xm ym tif, (TileGrid.initFl ieee 0.01 plateau.r).getTilenameFl ieee oneDecimal k = .ok n ∧
      L.Has 20 15 ∧ pixelSizes 20 (part plateau.r B) = .ok (xm, ym) ∧
      s.store (pjoin ['/', 'o'] (m3File n)) = some (.tif tif) ∧ CentresNear plateau.r L tif.transform ∧
      BandsNear (1 / 2000) plateau L B xm ym (gridWidth xm ym) plateauCat tif := by
  obtain ⟨tiles, h⟩ := plateau_run ieee
  obtain ⟨j, s, h1, -, h2⟩ := C94_completes _ (h.runCase.good (N := slopeFp) (cf := plateauRead) 3)
    (h.runCase.shapes h.runRead 3) (fun _ => none) 0 _ (.refl _)
  refine ⟨tiles, j, s, h1, h2, ?_⟩
  obtain ⟨k, L, B, n, -, hp, -, hn, hB, h3⟩ := C121_every_pixel h 3 _ j s h1 h2 20 15
    (by norm_num [plateau]) (by norm_num [plateau])
  rcases h3 with ⟨h4, -⟩ | ⟨xm, ym, tif, mx, h4, h5, h6, h7, -⟩
  · exact absurd h4 one_ne_zero
  · exact ⟨k, n, L, B, xm, ym, tif, hn, hp, h4, h5, h6, h7⟩

end
end WindMult
