import Verif.Proofs.Terrain
import Verif.Props.Tiles

/-!
# C20–C26, C28: the terrain multiplier
-/

set_option linter.unusedSectionVars false
set_option autoImplicit false

namespace WindMult
open Finset
variable {K : Type} [Field K] [LinearOrder K] [IsStrictOrderedRing K] [FloorRing K]

/-! ### C20 -/

/-- **C20** The `m`-th cell read for a cell of the raster (`m` below the neighbour count that the
lookup tables give) lies inside the raster and is the cell exactly `lag + 1 + m` steps upwind. -/
theorem C20_reads_are_upwind_cells (d : Dir) (rows cols i j lag m : ℕ) (hi : i < rows)
    (hj : j < cols) (hm : (m : ℤ) < allNeighb d i j rows cols lag) :
    pointR d i m lag = d.rowUp i (lag + 1 + m) ∧ pointC d j m lag = d.colUp j (lag + 1 + m) ∧
    InRaster rows cols (pointR d i m lag) (pointC d j m lag) := by
  refine ⟨pointR_eq d i m lag, pointC_eq d j m lag, ?_⟩
  have := (inRaster_iff_reach d (t := lag + 1 + m) hi hj (by omega) lag).mpr (by push_cast; omega)
  rw [pointR_eq, pointC_eq]
  push_cast at this
  exact this

example : (2 : ℤ) < allNeighb .nw 4 5 10 10 1 ∧ pointR .nw 4 2 1 = 0 ∧ pointC .nw 5 2 1 = 1 := by
  decide

/-- **C20** Terrain averaging never raises `IndexError` (nor anything but
`ZeroDivisionError`). -/
theorem C20_no_index_error (d : Dir) (data : Grid K) (width lag : ℕ) (e : PyErr)
    (h : convo d data width lag = .error e) : e = .zeroDivisionError := by
  obtain ⟨i, hi, j, hj, hc⟩ := tabulateM_error _ _ _ _ _ h
  rcases Nat.eq_zero_or_pos width with h0 | h0
  · subst h0
    by_cases hall : 0 < allNeighb d i j data.rows data.cols lag
    · rw [Nat.cast_zero, convoCell_zero d data lag i j hall] at hc
      cases hc; rfl
    · rw [convoCell_none d data _ lag i j hi hj (not_lt.mp hall)] at hc
      cases hc
  · rw [convoCell_ok d data width lag i j h0 hi hj] at hc
    cases hc

/-- **C20** The averaged value of a cell depends on nothing but the upwind cells at distances
`lag+1 … lag+width` and the cell itself: two rasters that agree there give the same value. -/
theorem C20_depends_only_on_upwind_cells (d : Dir) (g h og oh : Grid K) (width lag : ℕ)
    (hrows : g.rows = h.rows) (hcols : g.cols = h.cols) (i j : ℕ) (hi : i < g.rows)
    (hj : j < g.cols) (hw : 1 ≤ width)
    (hg : convo d g width lag = .ok og) (hh : convo d h width lag = .ok oh)
    (hself : g.val i j = h.val i j)
    (hup : ∀ t, lag < t → t ≤ lag + width → InRaster g.rows g.cols (d.rowUp i t) (d.colUp j t) →
      g.upwind d i j t = h.upwind d i j t) :
    og.val i j = oh.val i j := by
  obtain ⟨o1, e1, -, -, v1⟩ := tabulateM_ok 0 g.rows g.cols _ (upwindMean g d width lag)
    (fun i hi j hj => convoCell_ok d g width lag i j hw hi hj)
  obtain ⟨o2, e2, -, -, v2⟩ := tabulateM_ok 0 h.rows h.cols _ (upwindMean h d width lag)
    (fun i hi j hj => convoCell_ok d h width lag i j hw hi hj)
  have : og = o1 := by unfold convo at hg; rw [e1] at hg; cases hg; rfl
  subst this
  have : oh = o2 := by unfold convo at hh; rw [e2] at hh; cases hh; rfl
  subst this
  rw [v1 i hi j hj, v2 i (hrows ▸ hi) j (hcols ▸ hj)]
  have hsum : ∑ t ∈ upwindDistances g.rows g.cols d width lag i j, g.upwind d i j t
      = ∑ t ∈ upwindDistances g.rows g.cols d width lag i j, h.upwind d i j t := by
    apply Finset.sum_congr rfl
    intro t ht
    have ht' := mem_filter.mp ht
    have := mem_Icc.mp ht'.1
    exact hup t (by omega) (by omega) ht'.2
  unfold upwindMean
  rw [← hrows, ← hcols, hsum, hself]

/-! ### C21, C22, C24 -/

/-- **C21** With an averaging width of at least one cell the terrain averaging succeeds and every
cell of the result is the mean of the existing upwind cells at distances `lag+1 … lag+width`,
or the cell's own value if there is none. -/
theorem C21_convo_is_upwind_mean (d : Dir) (data : Grid K) (width lag : ℕ) (hw : 1 ≤ width) :
    ∃ out, convo d data width lag = .ok out ∧ out.rows = data.rows ∧ out.cols = data.cols ∧
      ∀ i < data.rows, ∀ j < data.cols, out.val i j = upwindMean data d width lag i j :=
  tabulateM_ok 0 data.rows data.cols _ (upwindMean data d width lag)
    (fun i hi j hj => convoCell_ok d data width lag i j hw hi hj)

/-- A concrete value: wind from the west, width 2, lag 1 on `1 2 4 8`. -/
example : ∃ out, convo .w (⟨1, 4, fun _ j => 2 ^ j⟩ : Grid ℚ) 2 1 = .ok out ∧
    out.val 0 3 = 3 / 2 ∧ out.val 0 2 = 1 ∧ out.val 0 1 = 2 := by
  refine ⟨_, rfl, ?_, ?_, ?_⟩ <;> decide +kernel

theorem upwindMean_mem (g : Grid K) (d : Dir) (width lag i j : ℕ) (hi : i < g.rows)
    (hj : j < g.cols) (lo hi' : K)
    (hall : ∀ a < g.rows, ∀ b < g.cols, lo ≤ g.val a b ∧ g.val a b ≤ hi') :
    lo ≤ upwindMean g d width lag i j ∧ upwindMean g d width lag i j ≤ hi' := by
  unfold upwindMean
  split_ifs with hne
  · have hcard : (0 : K) < ((upwindDistances g.rows g.cols d width lag i j).card : K) := by
      exact_mod_cast Finset.card_pos.mpr hne
    have hb : ∀ t ∈ upwindDistances g.rows g.cols d width lag i j,
        lo ≤ g.upwind d i j t ∧ g.upwind d i j t ≤ hi' := by
      intro t ht
      obtain ⟨h1, h2, h3, h4⟩ := (mem_filter.mp ht).2
      exact hall _ (by omega) _ (by omega)
    rw [le_div_iff₀ hcard, div_le_iff₀ hcard]
    constructor
    · have := Finset.card_nsmul_le_sum _ _ lo (fun t ht => (hb t ht).1)
      rw [nsmul_eq_mul] at this
      linarith
    · have := Finset.sum_le_card_nsmul _ _ hi' (fun t ht => (hb t ht).2)
      rw [nsmul_eq_mul] at this
      linarith
  · exact hall i hi j hj

/-- **C22** The averaged multiplier stays between any bounds of the initial multipliers. -/
theorem C22_convo_in_range (d : Dir) (data out : Grid K) (width lag : ℕ) (hw : 1 ≤ width)
    (hout : convo d data width lag = .ok out) (lo hi : K)
    (hall : ∀ a < data.rows, ∀ b < data.cols, lo ≤ data.val a b ∧ data.val a b ≤ hi)
    (i j : ℕ) (hi' : i < data.rows) (hj : j < data.cols) :
    lo ≤ out.val i j ∧ out.val i j ≤ hi := by
  obtain ⟨o, e, -, -, v⟩ := C21_convo_is_upwind_mean d data width lag hw
  rw [hout] at e
  cases e
  rw [v i hi' j hj]
  exact upwindMean_mem data d width lag i j hi' hj lo hi hall

/-- **C22** Uniform terrain is unchanged. -/
theorem C22_convo_uniform (d : Dir) (data out : Grid K) (width lag : ℕ) (hw : 1 ≤ width)
    (hout : convo d data width lag = .ok out) (c : K)
    (hall : ∀ a < data.rows, ∀ b < data.cols, data.val a b = c) (i j : ℕ) (hi : i < data.rows)
    (hj : j < data.cols) : out.val i j = c := by
  obtain ⟨h1, h2⟩ := C22_convo_in_range d data out width lag hw hout c c
    (fun a ha b hb => ⟨(hall a ha b hb).ge, (hall a ha b hb).le⟩) i j hi hj
  exact le_antisymm h2 h1

example : ∃ out, convo .se (⟨4, 4, fun _ _ => 7 / 10⟩ : Grid ℚ) 2 1 = .ok out ∧
    ∀ i < 4, ∀ j < 4, out.val i j = 7 / 10 := by
  obtain ⟨out, h, -⟩ := C21_convo_is_upwind_mean .se (⟨4, 4, fun _ _ => 7 / 10⟩ : Grid ℚ) 2 1
    (by norm_num)
  exact ⟨out, h, fun i hi j hj => C22_convo_uniform .se ⟨4, 4, fun _ _ => 7 / 10⟩ out 2 1
    (by norm_num) h _ (fun _ _ _ _ => rfl) i j hi hj⟩

/-- **C24** Terrain averaging fails exactly when the averaging width is zero and some cell of the
raster has an upwind cell (in the raster) beyond the lag; the error is `ZeroDivisionError`. -/
theorem C24_convo_fails_iff (d : Dir) (data : Grid K) (width lag : ℕ) :
    convo d data width lag = .error .zeroDivisionError ↔
      width = 0 ∧ ∃ i < data.rows, ∃ j < data.cols,
        InRaster data.rows data.cols (d.rowUp i (lag + 1)) (d.colUp j (lag + 1)) := by
  constructor
  · intro h
    obtain ⟨i, hi, j, hj, hc⟩ := tabulateM_error _ _ _ _ _ h
    have hw : width = 0 := by
      by_contra hw
      rw [convoCell_ok d data width lag i j (by omega) hi hj] at hc
      cases hc
    refine ⟨hw, i, hi, j, hj, ?_⟩
    by_contra hno
    have := (inRaster_iff_reach d (t := lag + 1) hi hj (by omega) lag).not.mp
      (by push_cast; exact hno)
    rw [convoCell_none d data _ lag i j hi hj (by push_cast at this; omega)] at hc
    cases hc
  · rintro ⟨rfl, i, hi, j, hj, hin⟩
    have hreach := (inRaster_iff_reach d (t := lag + 1) hi hj (by omega) lag).mp
      (by push_cast; exact hin)
    cases hc : convo d data (0 : ℕ) lag with
    | error e => rw [C20_no_index_error d data 0 lag e hc]
    | ok g =>
      obtain ⟨v, hv⟩ := (tabulateM_ok_iff 0 data.rows data.cols _).mp ⟨g, hc⟩ i hi j hj
      rw [Nat.cast_zero, convoCell_zero d data lag i j (by push_cast at hreach; omega)] at hv
      cases hv

/-- The failure is reachable: with a 400 m grid the diagonal averaging width is 0, so any tile of
at least 2 × 2 cells fails in the first diagonal direction after the four cardinal directions have
been saved. -/
theorem C24_coarse_grid_fails (recl : Grid ℚ) (mask : ℕ → ℕ → Bool) (hr : 2 ≤ recl.rows)
    (hc : 2 ≤ recl.cols) : terrainDir .nw 400 recl mask = .error .zeroDivisionError := by
  have hw : terrainWidths .nw (400 : ℚ) = (0, 0) := by decide +kernel
  unfold terrainDir
  simp only [hw]
  rw [if_neg (by omega), if_neg (by omega)]
  have := (C24_convo_fails_iff .nw recl 0 0).mpr
    ⟨rfl, 1, by omega, 1, by omega, by simp [InRaster, Dir.rowUp, Dir.colUp, Dir.north, Dir.east]; omega⟩
  simp only [Nat.cast_zero] at this
  rw [this]
  rfl

/-- It is not confined to coarse grids: a tile with as many rows as the lag and more columns
fails for wind from the west (here 20 m cells, lag 10, a 10-row tile). -/
theorem C24_wide_tile_fails (recl : Grid ℚ) (mask : ℕ → ℕ → Bool) (hr : recl.rows = 10)
    (hc : 12 ≤ recl.cols) : terrainDir .w 20 recl mask = .error .zeroDivisionError := by
  have hw : terrainWidths .w (20 : ℚ) = (25, 10) := by decide +kernel
  unfold terrainDir
  simp only [hw, hr]
  norm_num
  have := (C24_convo_fails_iff .w recl 0 10).mpr
    ⟨rfl, 0, by omega, 11, by omega, by simp [InRaster, Dir.rowUp, Dir.colUp, Dir.north, Dir.east]; omega⟩
  push_cast at this
  rw [this]
  rfl

/-- With grids finer than 200 m the averaging width is at least one cell in every direction. -/
theorem C24_fine_grid_width_pos (d : Dir) (gw : K) (h0 : 0 < gw) (h : gw ≤ 200) :
    1 ≤ (terrainWidths d gw).1 := by
  unfold terrainWidths
  split_ifs
  · have h1 : (1 : K) ≤ 500 / gw := by rw [le_div_iff₀ h0]; linarith
    have h2 : (1 : ℤ) ≤ ⌊500 / gw⌋ := Int.le_floor.mpr (by exact_mod_cast h1)
    unfold around
    simp only
    split_ifs <;> omega
  · have hp : 0 < gw * (1414 / 1000) := by positivity
    have h1 : (1 : K) ≤ 500 / (gw * (1414 / 1000)) := by rw [le_div_iff₀ hp]; linarith
    have h2 : (1 : ℤ) ≤ ⌊500 / (gw * (1414 / 1000))⌋ := Int.le_floor.mpr (by exact_mod_cast h1)
    simp only
    rw [pyInt, if_pos (by linarith)]
    exact h2

/-! ### C80 -/

/-- Specification: metres from a cell to its neighbour in direction `d` on a grid of width `gw`
(1.414 for the root of 2). -/
def stepMetres (d : Dir) (gw : K) : K :=
  match d with
  | .n | .s | .e | .w => gw
  | .ne | .nw | .se | .sw => gw * 1.414

/-- **C80** In every direction the averaging width is 500 m and the lag 200 m, to within one cell
along that direction (half a cell for N, E, S, W; rounded down for the diagonals). -/
theorem C80_averaging_distance (d : Dir) (gw : K) (h0 : 0 < gw) :
    |500 - (terrainWidths d gw).1 * stepMetres d gw| < stepMetres d gw ∧
    |200 - (terrainWidths d gw).2 * stepMetres d gw| < stepMetres d gw := by
  have hcard : ∀ m : K, |m - around (m / gw) * gw| < gw := by
    intro m
    have h := abs_sub_around_le (m / gw)
    have e : m - around (m / gw) * gw = (m / gw - around (m / gw)) * gw := by
      rw [sub_mul, div_mul_cancel₀ _ h0.ne']
    rw [e, abs_mul, abs_of_pos h0]
    nlinarith
  have hdiag : ∀ m : K, 0 ≤ m → |m - pyInt (m / (gw * (1414 / 1000))) * (gw * (1414 / 1000))| <
      gw * (1414 / 1000) := by
    intro m hm
    have hp : 0 < gw * (1414 / 1000) := by positivity
    rw [pyInt, if_pos (by positivity)]
    have h1 := Int.floor_le (m / (gw * (1414 / 1000)))
    have h2 := Int.lt_floor_add_one (m / (gw * (1414 / 1000)))
    rw [le_div_iff₀ hp] at h1
    rw [div_lt_iff₀ hp, add_mul, one_mul] at h2
    rw [abs_lt]
    constructor <;> linarith
  have e : (1.414 : K) = 1414 / 1000 := by norm_num
  cases d <;> simp only [stepMetres, terrainWidths, Dir.isCardinal, e, if_true, Bool.false_eq_true,
    if_false]
  all_goals first
    | exact ⟨hcard 500, hcard 200⟩
    | exact ⟨hdiag 500 (by norm_num), hdiag 200 (by norm_num)⟩

example : terrainWidths .w (25 : ℚ) = (20, 8) ∧ terrainWidths .nw (25 : ℚ) = (14, 5) := by
  constructor <;> decide +kernel

/-! ### C23 -/

/-- Specification: the part of a raster inside limits `B`, as its own raster. -/
def Grid.window {α : Type} (g : Grid α) (B : Limits) : Grid α where
  rows := (B.y2 - B.y1).toNat
  cols := (B.x2 - B.x1).toNat
  val := fun i j => g.val (B.y1.toNat + i) (B.x1.toNat + j)

/-- **C23** If the buffer of the tile grid is at least `lag + width` cells, averaging the buffered
tile gives on every cell of the tile's own limits the value that averaging the whole raster
gives. -/
theorem C23_terrain_seamless (up : K) (r : RasterInfo K) (hpw : 0 < r.gt1) (hph : r.gt5 < 0)
    (hup : 0 ≤ up) (whole : Grid K) (hrows : whole.rows = r.yDim) (hcols : whole.cols = r.xDim)
    (d : Dir) (width lag : ℕ) (hw : 1 ≤ width)
    (hbx : (lag + width : ℤ) ≤ (TileGrid.init up r).xBuffer)
    (hby : (lag + width : ℤ) ≤ (TileGrid.init up r).yBuffer)
    (k : ℕ) (L B : Limits) (hL : (TileGrid.init up r).getGridlimit k = .ok L)
    (hB : (TileGrid.init up r).getGridlimitBuffer k = .ok B)
    (outW outT : Grid K) (hW : convo d whole width lag = .ok outW)
    (hT : convo d (whole.window B) width lag = .ok outT)
    (px py : ℕ) (hp : L.Has px py) :
    outT.val (py - B.y1.toNat) (px - B.x1.toNat) = outW.val py px := by
  have hk : k < (TileGrid.init up r).numTiles :=
    (C01_gridlimit_defined_iff up r k).mp ⟨L, hL⟩
  obtain ⟨L', B', h1, h2, ⟨a0, a1, a2, a3, a4⟩, ⟨b0, b1, b2, b3, b4⟩, c1, c2, c3, c4⟩ :=
    C03_buffer_surrounds_core up r hpw hph hup k hk
  rw [hL] at h1; rw [hB] at h2
  cases h1; cases h2
  obtain ⟨p1, p2, p3, p4⟩ := hp
  obtain ⟨o1, e1, -, -, v1⟩ := C21_convo_is_upwind_mean d whole width lag hw
  obtain ⟨o2, e2, -, -, v2⟩ := C21_convo_is_upwind_mean d (whole.window B) width lag hw
  rw [hW] at e1; rw [hT] at e2
  cases e1; cases e2
  generalize (TileGrid.init up r).xBuffer = bx at *
  generalize (TileGrid.init up r).yBuffer = by' at *
  have hwr : ((whole.window B).rows : ℤ) = B.y2 - B.y1 := by simp [Grid.window]; omega
  have hwc : ((whole.window B).cols : ℤ) = B.x2 - B.x1 := by simp [Grid.window]; omega
  rw [v1 py (by omega) px (by omega), v2 _ (by omega) _ (by omega)]
  have hset : upwindDistances (whole.window B).rows (whole.window B).cols d width lag
      (py - B.y1.toNat) (px - B.x1.toNat) = upwindDistances whole.rows whole.cols d width lag py px := by
    unfold upwindDistances
    apply Finset.filter_congr
    intro t ht
    have ht' := mem_Icc.mp ht
    simp only [InRaster, hwr, hwc]
    cases d <;> simp only [Dir.rowUp, Dir.colUp, Dir.north, Dir.east] <;> omega
  have hval : ∀ t ∈ upwindDistances whole.rows whole.cols d width lag py px,
      (whole.window B).upwind d (py - B.y1.toNat) (px - B.x1.toNat) t = whole.upwind d py px t := by
    intro t ht
    have hmem := ht
    rw [← hset] at hmem
    obtain ⟨q1, q2, q3, q4⟩ := (mem_filter.mp ht).2
    obtain ⟨r1, r2, r3, r4⟩ := (mem_filter.mp hmem).2
    simp only [Grid.upwind, Grid.window]
    congr 1
    · cases d <;> simp only [Dir.rowUp, Dir.north] at * <;> omega
    · cases d <;> simp only [Dir.colUp, Dir.east] at * <;> omega
  unfold upwindMean
  rw [hset, Finset.sum_congr rfl hval]
  have hself : (whole.window B).val (py - B.y1.toNat) (px - B.x1.toNat) = whole.val py px := by
    simp only [Grid.window]
    congr 1 <;> omega
  rw [hself]

/-- The hypotheses of C23 are met by the example raster (buffer 2, width 1, lag 1). -/
example : ∃ L B, (TileGrid.init (1 / 5) exRaster).getGridlimit 3 = .ok L ∧
    (TileGrid.init (1 / 5) exRaster).getGridlimitBuffer 3 = .ok B ∧
    ((1 : ℕ) + (1 : ℕ) : ℤ) ≤ (TileGrid.init (1 / 5) exRaster).xBuffer ∧
    ((1 : ℕ) + (1 : ℕ) : ℤ) ≤ (TileGrid.init (1 / 5) exRaster).yBuffer ∧ L.Has 10 12 := by
  refine ⟨⟨10, 20, 10, 13⟩, ⟨8, 22, 8, 13⟩, ?_⟩
  decide +kernel

/-! ### C25 -/

/-- Mirror images of an array. -/
def Grid.mirrorEW {α : Type} (g : Grid α) : Grid α :=
  ⟨g.rows, g.cols, fun i j => g.val i (g.cols - 1 - j)⟩
def Grid.mirrorNS {α : Type} (g : Grid α) : Grid α :=
  ⟨g.rows, g.cols, fun i j => g.val (g.rows - 1 - i) j⟩
def Grid.transpose {α : Type} (g : Grid α) : Grid α := ⟨g.cols, g.rows, fun i j => g.val j i⟩

/-- Mirror images of a direction. -/
def Dir.mirrorEW : Dir → Dir
  | .w => .e | .e => .w | .nw => .ne | .ne => .nw | .sw => .se | .se => .sw | .n => .n | .s => .s
def Dir.mirrorNS : Dir → Dir
  | .n => .s | .s => .n | .nw => .sw | .sw => .nw | .ne => .se | .se => .ne | .w => .w | .e => .e
def Dir.transpose : Dir → Dir
  | .n => .w | .w => .n | .s => .e | .e => .s | .ne => .sw | .sw => .ne | .nw => .nw | .se => .se

/-- **C25** (east-west) -/
theorem C25_mirror_east_west (d : Dir) (g out out' : Grid K) (width lag : ℕ) (hw : 1 ≤ width)
    (h : convo d g width lag = .ok out)
    (h' : convo d.mirrorEW g.mirrorEW width lag = .ok out') : out'.Same out.mirrorEW := by
  obtain ⟨o1, e1, r1, c1, v1⟩ := C21_convo_is_upwind_mean d g width lag hw
  obtain ⟨o2, e2, r2, c2, v2⟩ := C21_convo_is_upwind_mean d.mirrorEW g.mirrorEW width lag hw
  rw [h] at e1; rw [h'] at e2
  cases e1; cases e2
  refine ⟨by rw [r2]; exact r1.symm, by rw [c2]; exact c1.symm, ?_⟩
  intro i hi j hj
  rw [r2] at hi; rw [c2] at hj
  have hi : i < g.rows := hi
  have hj : j < g.cols := hj
  rw [v2 i hi j hj]
  simp only [Grid.mirrorEW, c1]
  rw [v1 i hi _ (by omega)]
  have hset : upwindDistances g.rows g.cols d.mirrorEW width lag i j
      = upwindDistances g.rows g.cols d width lag i (g.cols - 1 - j) := by
    unfold upwindDistances
    apply Finset.filter_congr
    intro t _
    cases d <;>
      simp only [InRaster, Dir.mirrorEW, Dir.rowUp, Dir.colUp, Dir.north, Dir.east] <;> omega
  unfold upwindMean
  simp only [hset]
  congr 2
  apply Finset.sum_congr rfl
  intro t ht
  obtain ⟨q1, q2, q3, q4⟩ := (mem_filter.mp ht).2
  simp only [Grid.upwind]
  congr 1
  · cases d <;> simp only [Dir.mirrorEW, Dir.rowUp, Dir.north]
  · cases d <;> simp only [Dir.mirrorEW, Dir.colUp, Dir.east] at * <;> omega

/-- **C25** (north-south) -/
theorem C25_mirror_north_south (d : Dir) (g out out' : Grid K) (width lag : ℕ) (hw : 1 ≤ width)
    (h : convo d g width lag = .ok out)
    (h' : convo d.mirrorNS g.mirrorNS width lag = .ok out') : out'.Same out.mirrorNS := by
  obtain ⟨o1, e1, r1, c1, v1⟩ := C21_convo_is_upwind_mean d g width lag hw
  obtain ⟨o2, e2, r2, c2, v2⟩ := C21_convo_is_upwind_mean d.mirrorNS g.mirrorNS width lag hw
  rw [h] at e1; rw [h'] at e2
  cases e1; cases e2
  refine ⟨by rw [r2]; exact r1.symm, by rw [c2]; exact c1.symm, ?_⟩
  intro i hi j hj
  rw [r2] at hi; rw [c2] at hj
  have hi : i < g.rows := hi
  have hj : j < g.cols := hj
  rw [v2 i hi j hj]
  simp only [Grid.mirrorNS, r1]
  rw [v1 _ (by omega) j hj]
  have hset : upwindDistances g.rows g.cols d.mirrorNS width lag i j
      = upwindDistances g.rows g.cols d width lag (g.rows - 1 - i) j := by
    unfold upwindDistances
    apply Finset.filter_congr
    intro t _
    cases d <;>
      simp only [InRaster, Dir.mirrorNS, Dir.rowUp, Dir.colUp, Dir.north, Dir.east] <;> omega
  unfold upwindMean
  simp only [hset]
  congr 2
  apply Finset.sum_congr rfl
  intro t ht
  obtain ⟨q1, q2, q3, q4⟩ := (mem_filter.mp ht).2
  simp only [Grid.upwind]
  congr 1
  · cases d <;> simp only [Dir.mirrorNS, Dir.rowUp, Dir.north] at * <;> omega
  · cases d <;> simp only [Dir.mirrorNS, Dir.colUp, Dir.east]

/-- **C25** (transposition) -/
theorem C25_transpose (d : Dir) (g out out' : Grid K) (width lag : ℕ) (hw : 1 ≤ width)
    (h : convo d g width lag = .ok out)
    (h' : convo d.transpose g.transpose width lag = .ok out') : out'.Same out.transpose := by
  obtain ⟨o1, e1, r1, c1, v1⟩ := C21_convo_is_upwind_mean d g width lag hw
  obtain ⟨o2, e2, r2, c2, v2⟩ := C21_convo_is_upwind_mean d.transpose g.transpose width lag hw
  rw [h] at e1; rw [h'] at e2
  cases e1; cases e2
  refine ⟨by rw [r2]; exact c1.symm, by rw [c2]; exact r1.symm, ?_⟩
  intro i hi j hj
  rw [r2] at hi; rw [c2] at hj
  rw [v2 i hi j hj]
  have hi : i < g.cols := hi
  have hj : j < g.rows := hj
  simp only [Grid.transpose]
  rw [v1 j hj i hi]
  have hset : upwindDistances g.cols g.rows d.transpose width lag i j
      = upwindDistances g.rows g.cols d width lag j i := by
    unfold upwindDistances
    apply Finset.filter_congr
    intro t _
    cases d <;>
      simp only [InRaster, Dir.transpose, Dir.rowUp, Dir.colUp, Dir.north, Dir.east] <;> omega
  unfold upwindMean
  simp only [hset]
  congr 2
  apply Finset.sum_congr rfl
  intro t ht
  simp only [Grid.upwind]
  congr 1
  · cases d <;> simp only [Dir.transpose, Dir.rowUp, Dir.north, Dir.colUp, Dir.east] at * <;> omega
  · cases d <;> simp only [Dir.transpose, Dir.rowUp, Dir.north, Dir.colUp, Dir.east] at * <;> omega

/-- Hypotheses of C25 are met for every raster (averaging succeeds by C21). -/
example (g : Grid ℚ) : ∃ out out', convo .ne g 3 2 = .ok out ∧
    convo (Dir.ne).mirrorEW g.mirrorEW 3 2 = .ok out' := by
  obtain ⟨o, h, -⟩ := C21_convo_is_upwind_mean .ne g 3 2 (by norm_num)
  obtain ⟨o', h', -⟩ := C21_convo_is_upwind_mean (Dir.ne).mirrorEW g.mirrorEW 3 2 (by norm_num)
  exact ⟨o, o', h, h'⟩

end WindMult
