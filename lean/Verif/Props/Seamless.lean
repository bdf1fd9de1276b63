import Verif.Proofs.Seamless
import Verif.Props.Pipeline
import Mathlib.Data.Rat.Floor

/-!
# C86: topographic multipliers across tiles
-/

set_option linter.unusedSectionVars false
set_option autoImplicit false

namespace WindMult
open Spec

variable {c : Inputs} {up : ℝ} {k : ℕ} {L B : Limits} {E EB : Extent ℝ} {xm ym : Grid ℝ} {gw : ℝ}
  {cat : Grid ℤ}

/-- **C86, partial**: if the buffer, less one cell, is at least 63.2 times the relief `H` of the DEM
(in whole metres), the topographic multiplier of a pixel is the one that the transects of the *whole*
DEM give.  Pixels on the edge of the DEM or next to it are left out, as are the cell size and the
Tasmania rule, which depend on the tile (`gw` and the corner of the buffered tile).

Full claim (false, see `C86_not_seamless`): whatever the relief. -/
theorem C86_topographic_seamless_partial (t : TileCase c up k L B E EB xm ym gw cat) (H : ℝ)
    (hH : ∀ i < c.r.yDim, ∀ j < c.r.xDim, ∀ i' < c.r.yDim, ∀ j' < c.r.xDim,
      (⌊c.elevation.val i j⌋ : ℝ) - ⌊c.elevation.val i' j'⌋ ≤ H)
    (hX : 63.2 * H ≤ ((TileGrid.init up c.r).xBuffer - 1) * gw)
    (hY : 63.2 * H ≤ ((TileGrid.init up c.r).yBuffer - 1) * gw) (d : Dir)
    (r : Raster (NanNum ℝ) (List ℝ × List ℝ)) (hr : tileFiles c EB E .mt d = some r) (px py : ℕ)
    (hp : L.Has px py) (hpx : 2 ≤ px ∧ px + 2 < c.r.xDim) (hpy : 2 ≤ py ∧ py + 2 < c.r.yDim) :
    ∃ x : ℤ → ℤ → ℝ,
      (∀ a ∈ ({-1, 0, 1} : Finset ℤ), ∀ b ∈ ({-1, 0, 1} : Finset ℤ),
        IsRawMt c.elevation d (stepLength d gw) (143 < c.r.lonEdge B.x1 ∧ c.r.latEdge B.y1 < -40)
          (py + a) (px + b) (x a b)) ∧
      r.band.val (py - L.y1.toNat) (px - L.x1.toNat) =
        .num ((∑ a ∈ {-1, 0, 1}, ∑ b ∈ {-1, 0, 1}, x a b) / 9) := by
  obtain ⟨x, x1, x2⟩ := C84_topographic_pixel t d r hr px py hp
  refine ⟨x, fun a ha b hb => ?_, x2⟩
  obtain ⟨⟨a0, a1, a2, a3, a4⟩, ⟨b0, b1, b2, b3, b4⟩, g1, g2, g3, g4⟩ := t.geometry
  have hgw := t.gwPos
  have hbuf : (8 : ℤ) ≤ (TileGrid.init up c.r).xBuffer ∧ (8 : ℤ) ≤ (TileGrid.init up c.r).yBuffer := by
    have h7 : (7 : ℝ) ≤ 700 / gw := by
      rw [le_div_iff₀ hgw]; linarith [t.gwFine]
    constructor
    · have : (8 : ℝ) ≤ (TileGrid.init up c.r).xBuffer := by linarith [t.bufferX]
      exact_mod_cast this
    · have : (8 : ℝ) ≤ (TileGrid.init up c.r).yBuffer := by linarith [t.bufferY]
      exact_mod_cast this
  generalize (TileGrid.init up c.r).xBuffer = bx at *
  generalize (TileGrid.init up c.r).yBuffer = by' at *
  obtain ⟨p1, p2, p3, p4⟩ := hp
  have ha' : -1 ≤ a ∧ a ≤ 1 := by
    simp only [Finset.mem_insert, Finset.mem_singleton] at ha; omega
  have hb' : -1 ≤ b ∧ b ≤ 1 := by
    simp only [Finset.mem_insert, Finset.mem_singleton] at hb; omega
  have hstep : gw ≤ stepLength d gw := by
    unfold stepLength
    split_ifs
    · exact le_rfl
    · have : (1 : ℝ) ≤ √2 := by
        rw [show (1 : ℝ) = √1 by simp]; exact Real.sqrt_le_sqrt (by norm_num)
      nlinarith
  have hr1 : c.elevation.rows = c.r.yDim := rfl
  have hc1 : c.elevation.cols = c.r.xDim := rfl
  refine rawMt_window c.elevation B ⟨b0, by omega, by rw [hr1]; exact b4, a0, by omega,
    by rw [hc1]; exact a4⟩ d (stepLength d gw) H (by linarith) hH _ (py + a) (px + b)
    (min (bx - 1) (by' - 1)) ?_ ?_ ?_ ?_ _ ?_
  · rw [hr1, hc1]
    exact ⟨by omega, by omega, by omega, by omega⟩
  · have hm : 63.2 * H ≤ ((min (bx - 1) (by' - 1) : ℤ) : ℝ) * gw := by
      rcases min_choice (bx - 1) (by' - 1) with h | h <;> rw [h] <;> push_cast <;> assumption
    have h0 : (0 : ℝ) ≤ ((min (bx - 1) (by' - 1) : ℤ) : ℝ) := by
      have : (0 : ℤ) ≤ min (bx - 1) (by' - 1) := by omega
      exact_mod_cast this
    nlinarith
  · omega
  · unfold Dir.rowUp Dir.colUp
    cases d <;> simp only [Dir.north, Dir.east] <;> omega
  · have h := x1 a b
    rwa [show (py : ℤ) - B.y1 + a = py + a - B.y1 by ring,
      show (px : ℤ) - B.x1 + b = px + b - B.x1 by ring] at h

/-- A raster of three rows with a 100 m high escarpment facing west, ten cells wide. -/
def escarpmentDem : Grid (Option ℚ) :=
  ⟨3, 34, fun _ j => some (if j < 2 then 0 else if j < 12 then 10 * (j - 2) else 100)⟩

/-- **C86 is false**: cells 12 cells behind the crest of an escarpment of 100 m are within its reach,
but a tile whose buffer of eight cells begins behind the crest does not know about it. -/
theorem C86_not_seamless : ¬ ∀ (dem : Grid (Option ℚ)) (B : Limits) (cellsize root2 : ℚ) (d : Dir)
    (whole part : Grid (Option ℚ)), 0 < cellsize →
    topoDir dem cellsize root2 0 0 d = .ok whole →
    topoDir (dem.window B) cellsize root2 0 0 d = .ok part →
    ∀ px py : ℕ, 2 ≤ px → px + 2 < dem.cols → B.y1 = 0 → B.y2 = dem.rows → py < dem.rows →
      B.x1 + 8 ≤ px → px + 8 < B.x2 → B.x2 ≤ dem.cols →
      part.val (py - B.y1.toNat) (px - B.x1.toNat) = whole.val py px := by
  intro h
  have key : (match topoDir escarpmentDem 100 1 0 0 .w,
      topoDir (escarpmentDem.window ⟨16, 34, 0, 3⟩) 100 1 0 0 .w with
    | .ok whole, .ok part => !(decide (part.val 1 8 = whole.val 1 24))
    | _, _ => false) = true := by decide +kernel
  split at key
  · rename_i whole part h1 h2
    have := h escarpmentDem ⟨16, 34, 0, 3⟩ 100 1 .w whole part (by norm_num) h1 h2 24 1 (by decide)
      (by decide) rfl rfl (by decide) (by decide) (by decide) (by decide)
    rw [show (1 : ℕ) - (0 : ℤ).toNat = 1 from rfl, show (24 : ℕ) - (16 : ℤ).toNat = 8 from rfl] at this
    simp [this] at key
  · simp at key

/-- Another DEM. -/
theorem TileCase.withDem (t : TileCase c up k L B E EB xm ym gw cat) (dem : Grid (Option ℝ))
    (hne : c.checksum (cutDem c.r dem EB 0) ≠ 0) :
    TileCase { c with dem := dem } up k L B E EB xm ym gw cat where
  pw := t.pw
  ph := t.ph
  lw := t.lw
  lh := t.lh
  upPos := t.upPos
  limits := t.limits
  limitsB := t.limitsB
  extent := t.extent
  extentB := t.extentB
  land := t.land
  sizes := t.sizes
  width := t.width
  gwPos := t.gwPos
  sizesPos := t.sizesPos
  gwFine := t.gwFine
  bufferX := t.bufferX
  bufferY := t.bufferY
  height := t.height
  notEmpty := hne
  someLand := t.someLand
  roughness := t.roughness

/-- A DEM with a step of 11 m, two cells wide. -/
noncomputable def lowHill : Grid (Option ℝ) :=
  ⟨30, 30, fun _ j => some (if j < 14 then 0 else if j = 14 then 5 else 11)⟩

example : ∃ r, tileFiles { sampleInputs with dem := lowHill }
      ⟨150 + 2 / 10, -(30 + 2 / 10), 150 + 28 / 10, -(30 + 28 / 10)⟩ ⟨151, -31, 152, -32⟩ .mt .w = some r ∧
    ∃ x : ℤ → ℤ → ℝ,
      (∀ a ∈ ({-1, 0, 1} : Finset ℤ), ∀ b ∈ ({-1, 0, 1} : Finset ℤ),
        IsRawMt ({ sampleInputs with dem := lowHill } : Inputs).elevation .w (stepLength .w 100)
          (143 < sampleInputs.r.lonEdge 2 ∧ sampleInputs.r.latEdge 2 < -40)
          ((15 : ℕ) + a) ((17 : ℕ) + b) (x a b)) ∧
      r.band.val 5 7 = .num ((∑ a ∈ {-1, 0, 1}, ∑ b ∈ {-1, 0, 1}, x a b) / 9) := by
  have t := sampleCase.withDem lowHill one_ne_zero
  obtain ⟨r, hr, -⟩ := (C81_tile_completes t).2 .mt .w
  refine ⟨r, hr, C86_topographic_seamless_partial t 11 ?_ ?_ ?_ .w r hr 17 15 (by simp [Limits.Has])
    ⟨by norm_num, by norm_num [sampleInputs]⟩ ⟨by norm_num, by norm_num [sampleInputs]⟩⟩
  · intro i _ j _ i' _ j' _
    have hz : ∀ j : ℕ, (0 : ℝ) ≤ (if j < 14 then 0 else if j = 14 then 5 else 11) ∧
        (if j < 14 then (0 : ℝ) else if j = 14 then 5 else 11) ≤ 11 := by
      intro j; split_ifs <;> norm_num
    show (⌊(if j < 14 then (0 : ℝ) else if j = 14 then 5 else 11)⌋ : ℝ) -
      ⌊(if j' < 14 then (0 : ℝ) else if j' = 14 then 5 else 11)⌋ ≤ 11
    have h1 := (Int.floor_le (if j < 14 then (0 : ℝ) else if j = 14 then 5 else 11)).trans (hz j).2
    have h2 : (0 : ℝ) ≤ (⌊(if j' < 14 then (0 : ℝ) else if j' = 14 then 5 else 11)⌋ : ℝ) := by
      exact_mod_cast Int.floor_nonneg.mpr (hz j').1
    linarith
  · show 63.2 * 11 ≤ (((TileGrid.init (8 / 10) sampleInputs.r).xBuffer : ℝ) - 1) * 100
    rw [sampleGrid]; norm_num
  · show 63.2 * 11 ≤ (((TileGrid.init (8 / 10) sampleInputs.r).yBuffer : ℝ) - 1) * 100
    rw [sampleGrid]; norm_num

end WindMult
