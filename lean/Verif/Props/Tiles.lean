import Verif.Proofs.TileGrid
import Mathlib.Data.Rat.Floor
import Mathlib.Tactic.NormNum

/-!
# C01, C02, C03, C05: the tile grid
-/

set_option linter.unusedSectionVars false

set_option autoImplicit false

namespace WindMult
variable {K : Type} [Field K] [LinearOrder K] [IsStrictOrderedRing K] [FloorRing K]

/-- Specification vocabulary: pixel `(px, py)` lies in limits `L` (upper limits exclusive). -/
def Limits.Has (L : Limits) (px py : ℤ) : Prop :=
  L.x1 ≤ px ∧ px < L.x2 ∧ L.y1 ≤ py ∧ py < L.y2

instance (L : Limits) (px py : ℤ) : Decidable (L.Has px py) := by
  unfold Limits.Has; infer_instance

/-- **C01** Every pixel of the raster is in the unbuffered limits of some tile. -/
theorem C01_tiles_cover (up : K) (r : RasterInfo K) (hpw : 0 < r.gt1) (hph : r.gt5 < 0)
    (hup : 0 ≤ up) (px py : ℤ) (hx0 : 0 ≤ px) (hx : px < r.xDim) (hy0 : 0 ≤ py)
    (hy : py < r.yDim) :
    ∃ k < (TileGrid.init up r).numTiles, ∃ L,
      (TileGrid.init up r).getGridlimit k = .ok L ∧ L.Has px py := by
  obtain ⟨i, hi, -, -, h1, h2⟩ := axis_cover (axisX (r := r) hpw hup) hx0 hx
  obtain ⟨j, hj, -, -, h3, h4⟩ := axis_cover (axisY (r := r) hph hup) hy0 hy
  have hk := index_lt hi hj
  refine ⟨i * nRows r + j, by rwa [init_numTiles], _, gridlimit_ok hk, ?_⟩
  · simp only [Limits.Has, index_div hj, index_mod hj]
    exact ⟨h1, h2, h3, h4⟩

/-- Tile numbers outside `0 … numTiles-1` raise `IndexError`, those inside do not. -/
theorem C01_gridlimit_defined_iff (up : K) (r : RasterInfo K) (k : ℕ) :
    (∃ L, (TileGrid.init up r).getGridlimit k = .ok L) ↔ k < (TileGrid.init up r).numTiles := by
  rw [init_numTiles, getGridlimit_init]
  split_ifs with h <;> simp [h]

/-- A 25 × 13 raster of 0.1° pixels with a 0.2° buffer. -/
def exRaster : RasterInfo ℚ := ⟨25, 13, 1435 / 10, 1 / 10, -41, -1 / 10⟩

example : 0 < exRaster.gt1 ∧ exRaster.gt5 < 0 ∧ (0 : ℚ) ≤ 1 / 5 ∧ (24 : ℤ) < exRaster.xDim ∧
    (TileGrid.init (1 / 5) exRaster).numTiles = 6 := by
  refine ⟨by norm_num [exRaster], by norm_num [exRaster], by norm_num, by norm_num [exRaster], ?_⟩
  decide +kernel

/-- No two different tiles share a pixel. -/
def TilesDisjoint (g : TileGrid K) : Prop :=
  ∀ k k' L L', g.getGridlimit k = .ok L → g.getGridlimit k' = .ok L' →
    (∃ px py, L.Has px py ∧ L'.Has px py) → k = k'

theorem axisGood_iff {s b dim : ℤ} {m : ℕ} (h : AxisOK s b dim m) (hd : 0 < dim) :
    AxisGood s b dim m ↔ (dim ≤ s ∨ b ≤ (dim - 1) % s) := by
  have hs : 0 < s := by linarith [h.s_pos]
  have hm : 1 ≤ m := by
    rcases Nat.eq_zero_or_pos m with h0 | h0
    · have := h.le; rw [h0] at this; simp at this; omega
    · exact h0
  have hlt := h.lt hm
  have hle := h.le
  have hq : (dim - 1) / s = (m : ℤ) - 1 := by
    have h1 : ((m : ℤ) - 1) * s ≤ dim - 1 := by omega
    have h2 : dim - 1 < ((m : ℤ) - 1 + 1) * s := by
      have : ((m : ℤ) - 1 + 1) * s = m * s := by ring
      omega
    apply le_antisymm
    · have := (Int.ediv_lt_iff_lt_mul hs).mpr h2
      omega
    · exact (Int.le_ediv_iff_mul_le hs).mpr h1
  have hmod := Int.emod_add_mul_ediv (dim - 1) s
  rw [hq] at hmod
  unfold AxisGood
  have e : s * ((m : ℤ) - 1) = ((m : ℤ) - 1) * s := by ring
  rw [e] at hmod
  constructor
  · rintro (h1 | h1)
    · left
      have : m = 1 := by omega
      rw [this] at hle
      simpa using hle
    · right; omega
  · rintro (h1 | h1)
    · left
      by_contra hc
      have : (1 : ℤ) * s ≤ ((m : ℤ) - 1) * s := mul_le_mul_of_nonneg_right (by omega) hs.le
      omega
    · right; omega

/-- **C02** (exact condition) For a non-empty raster the tiles are pairwise disjoint if and
only if in each axis either there is a single column (row) of tiles or the last column (row),
`(dim - 1) % step + 1` cells wide, is wider than the buffer. -/
theorem C02_tiles_disjoint_iff (up : K) (r : RasterInfo K) (hpw : 0 < r.gt1) (hph : r.gt5 < 0)
    (hup : 0 ≤ up) (hx : 0 < r.xDim) (hy : 0 < r.yDim) :
    TilesDisjoint (TileGrid.init up r) ↔
      ((r.xDim : ℤ) ≤ (TileGrid.init up r).xStep ∨
        (TileGrid.init up r).xBuffer < ((r.xDim : ℤ) - 1) % (TileGrid.init up r).xStep + 1) ∧
      ((r.yDim : ℤ) ≤ (TileGrid.init up r).yStep ∨
        (TileGrid.init up r).yBuffer < ((r.yDim : ℤ) - 1) % (TileGrid.init up r).yStep + 1) := by
  have aX := axisX (r := r) hpw hup
  have aY := axisY (r := r) hph hup
  have gX := axisGood_iff aX (by exact_mod_cast hx)
  have gY := axisGood_iff aY (by exact_mod_cast hy)
  have hcond : ∀ a b : ℤ, a < b + 1 ↔ a ≤ b := fun a b => Int.lt_add_one_iff
  simp only [hcond]
  rw [← gX, ← gY]
  have hcols : 0 < nCols r := by
    rcases Nat.eq_zero_or_pos (nCols r) with h0 | h0
    · have := aX.le; rw [h0] at this; simp at this; omega
    · exact h0
  have hrows : 0 < nRows r := by
    rcases Nat.eq_zero_or_pos (nRows r) with h0 | h0
    · have := aY.le; rw [h0] at this; simp at this; omega
    · exact h0
  constructor
  · intro hd
    constructor
    · by_contra hbad
      obtain ⟨i, j, hi, hj, hij, p, hp1, hp2⟩ := axis_overlap aX hbad
      have hki := index_lt hi hrows
      have hkj := index_lt hj hrows
      have := hd (i * nRows r + 0) (j * nRows r + 0) _ _
        (gridlimit_ok hki) (gridlimit_ok hkj)
        ⟨p, coreLo (TileGrid.init up r).yStep (TileGrid.init up r).yBuffer (0 : ℕ), by
          simp only [Limits.Has, index_div hrows, index_mod hrows]
          exact ⟨⟨hp1.1, hp1.2, le_refl _, coreLo_lt_coreHi aY hrows⟩,
            ⟨hp2.1, hp2.2, le_refl _, coreLo_lt_coreHi aY hrows⟩⟩⟩
      have := Nat.eq_of_mul_eq_mul_right hrows (by omega : i * nRows r = j * nRows r)
      exact hij this
    · by_contra hbad
      obtain ⟨i, j, hi, hj, hij, p, hp1, hp2⟩ := axis_overlap aY hbad
      have hki := index_lt hcols hi
      have hkj := index_lt hcols hj
      have := hd (0 * nRows r + i) (0 * nRows r + j) _ _
        (gridlimit_ok hki) (gridlimit_ok hkj)
        ⟨coreLo (TileGrid.init up r).xStep (TileGrid.init up r).xBuffer (0 : ℕ), p, by
          simp only [Limits.Has, index_div hi, index_mod hi, index_div hj, index_mod hj]
          exact ⟨⟨le_refl _, coreLo_lt_coreHi aX hcols, hp1.1, hp1.2⟩,
            ⟨le_refl _, coreLo_lt_coreHi aX hcols, hp2.1, hp2.2⟩⟩⟩
      omega
  · rintro ⟨hgx, hgy⟩ k k' L L' hL hL' ⟨px, py, hp, hp'⟩
    rw [getGridlimit_init] at hL hL'
    split_ifs at hL with hk
    split_ifs at hL' with hk'
    cases hL
    cases hL'
    simp only [Limits.Has] at hp hp'
    have e1 := axis_disjoint aX hgx (div_lt_nCols hk) (div_lt_nCols hk')
      ⟨hp.1, hp.2.1⟩ ⟨hp'.1, hp'.2.1⟩
    have e2 := axis_disjoint aY hgy (mod_lt_nRows hk) (mod_lt_nRows hk')
      ⟨hp.2.2.1, hp.2.2.2⟩ ⟨hp'.2.2.1, hp'.2.2.2⟩
    rw [← Nat.div_add_mod k (nRows r), ← Nat.div_add_mod k' (nRows r), e1, e2]

/-- **C02, partial**: the tiles are pairwise disjoint *when* the last row and column are wider
than the buffer.  Full claim (false, see `C02_not_disjoint`): for every raster. -/
theorem C02_tiles_disjoint_partial (up : K) (r : RasterInfo K) (hpw : 0 < r.gt1)
    (hph : r.gt5 < 0) (hup : 0 ≤ up) (hx : 0 < r.xDim) (hy : 0 < r.yDim)
    (hlx : (TileGrid.init up r).xBuffer < ((r.xDim : ℤ) - 1) % (TileGrid.init up r).xStep + 1)
    (hly : (TileGrid.init up r).yBuffer < ((r.yDim : ℤ) - 1) % (TileGrid.init up r).yStep + 1) :
    TilesDisjoint (TileGrid.init up r) :=
  (C02_tiles_disjoint_iff up r hpw hph hup hx hy).mpr ⟨.inr hlx, .inr hly⟩

example : (TileGrid.init (1 / 5) exRaster).xBuffer <
      ((exRaster.xDim : ℤ) - 1) % (TileGrid.init (1 / 5) exRaster).xStep + 1 ∧
    (TileGrid.init (1 / 5) exRaster).yBuffer <
      ((exRaster.yDim : ℤ) - 1) % (TileGrid.init (1 / 5) exRaster).yStep + 1 := by
  decide +kernel

/-- **C02 is false of the code**: a 21-pixel wide raster of 0.1° pixels with a 0.2° buffer
has its last tile column inside the core of the one before it. -/
theorem C02_not_disjoint :
    ¬ ∀ (up : ℚ) (r : RasterInfo ℚ), 0 < r.gt1 → r.gt5 < 0 → 0 ≤ up →
      TilesDisjoint (TileGrid.init up r) := by
  intro h
  have := h (1 / 5) ⟨21, 10, 0, 1 / 10, 0, -1 / 10⟩ (by norm_num) (by norm_num) (by norm_num)
    1 2 ⟨10, 21, 0, 10⟩ ⟨20, 21, 0, 10⟩ (by decide +kernel) (by decide +kernel)
    ⟨20, 0, by decide, by decide⟩
  omega

/-- **C03** For every tile the buffered limits are a non-empty part of the raster, contain the
unbuffered limits, which are non-empty too, and on each side either reach the raster edge or
extend exactly `buffer` cells beyond the unbuffered limits. -/
theorem C03_buffer_surrounds_core (up : K) (r : RasterInfo K) (hpw : 0 < r.gt1) (hph : r.gt5 < 0)
    (hup : 0 ≤ up) (k : ℕ) (hk : k < (TileGrid.init up r).numTiles) :
    ∃ L B, (TileGrid.init up r).getGridlimit k = .ok L ∧
      (TileGrid.init up r).getGridlimitBuffer k = .ok B ∧
      (0 ≤ B.x1 ∧ B.x1 ≤ L.x1 ∧ L.x1 < L.x2 ∧ L.x2 ≤ B.x2 ∧ B.x2 ≤ r.xDim) ∧
      (0 ≤ B.y1 ∧ B.y1 ≤ L.y1 ∧ L.y1 < L.y2 ∧ L.y2 ≤ B.y2 ∧ B.y2 ≤ r.yDim) ∧
      (B.x1 = 0 ∨ L.x1 - B.x1 = (TileGrid.init up r).xBuffer) ∧
      (B.x2 = r.xDim ∨ B.x2 - L.x2 = (TileGrid.init up r).xBuffer) ∧
      (B.y1 = 0 ∨ L.y1 - B.y1 = (TileGrid.init up r).yBuffer) ∧
      (B.y2 = r.yDim ∨ B.y2 - L.y2 = (TileGrid.init up r).yBuffer) := by
  rw [init_numTiles] at hk
  have aX := axisX (r := r) hpw hup
  have aY := axisY (r := r) hph hup
  refine ⟨_, _, (gridlimit_ok hk), (gridlimitBuffer_ok hk), ?_⟩
  simp only
  generalize hsx : (TileGrid.init up r).xStep = sx at *
  generalize hbx : (TileGrid.init up r).xBuffer = bx at *
  generalize hsy : (TileGrid.init up r).yStep = sy at *
  generalize hby : (TileGrid.init up r).yBuffer = by' at *
  have x1 := coreLo_lt_coreHi aX (div_lt_nCols hk)
  have y1 := coreLo_lt_coreHi aY (mod_lt_nRows hk)
  have bx0 := aX.b_nonneg
  have by0 := aY.b_nonneg
  have sx0 := aX.s_pos
  have sy0 := aY.s_pos
  have px : (0 : ℤ) ≤ ((k / nRows r : ℕ) : ℤ) * sx := by positivity
  have py : (0 : ℤ) ≤ ((k % nRows r : ℕ) : ℤ) * sy := by positivity
  rw [coreLo_eq, coreHi_eq] at x1 y1 ⊢
  rw [coreLo_eq, coreHi_eq]
  generalize ((k / nRows r : ℕ) : ℤ) * sx = a at *
  generalize (((k / nRows r : ℕ) : ℤ) + 1) * sx = a' at *
  generalize ((k % nRows r : ℕ) : ℤ) * sy = c at *
  generalize (((k % nRows r : ℕ) : ℤ) + 1) * sy = c' at *
  refine ⟨?_, ?_, ?_, ?_, ?_, ?_⟩ <;> split_ifs at * <;> omega

/-- **C03** (buffer behind every pixel) Every pixel has a tile whose core contains it and whose
buffered limits contain every raster pixel at most `buffer` columns and rows away. -/
theorem C03_pixel_has_full_neighbourhood (up : K) (r : RasterInfo K) (hpw : 0 < r.gt1)
    (hph : r.gt5 < 0) (hup : 0 ≤ up) (px py : ℤ) (hx0 : 0 ≤ px) (hx : px < r.xDim)
    (hy0 : 0 ≤ py) (hy : py < r.yDim) :
    ∃ k L B, (TileGrid.init up r).getGridlimit k = .ok L ∧
      (TileGrid.init up r).getGridlimitBuffer k = .ok B ∧ L.Has px py ∧
      ∀ qx qy : ℤ, 0 ≤ qx → qx < r.xDim → 0 ≤ qy → qy < r.yDim →
        |qx - px| ≤ (TileGrid.init up r).xBuffer → |qy - py| ≤ (TileGrid.init up r).yBuffer →
        B.Has qx qy := by
  obtain ⟨i, hi, a1, a2, h1, h2⟩ := axis_cover (axisX (r := r) hpw hup) hx0 hx
  obtain ⟨j, hj, b1, b2, h3, h4⟩ := axis_cover (axisY (r := r) hph hup) hy0 hy
  have hk := index_lt hi hj
  refine ⟨i * nRows r + j, _, _, (gridlimit_ok hk),
    (gridlimitBuffer_ok hk), ?_, ?_⟩
  · simp only [Limits.Has, index_div hj, index_mod hj]
    exact ⟨h1, h2, h3, h4⟩
  · intro qx qy hqx hqx' hqy hqy' hdx hdy
    rw [abs_le] at hdx hdy
    simp only [Limits.Has, index_div hj, index_mod hj]
    refine ⟨max_le hqx (by omega), lt_min (by omega) hqx', max_le hqy (by omega),
      lt_min (by omega) hqy'⟩

example : ∃ k < (TileGrid.init (1 / 5) exRaster).numTiles,
    (TileGrid.init (1 / 5) exRaster).getGridlimit k = .ok ⟨10, 20, 0, 10⟩ ∧
    (TileGrid.init (1 / 5) exRaster).getGridlimitBuffer k = .ok ⟨8, 22, 0, 12⟩ := by
  refine ⟨2, ?_, ?_, ?_⟩ <;> decide +kernel

/-- **C03** (buffer in degrees) Every pixel has a tile whose core contains it and whose buffered
limits contain every raster pixel that is, along each axis, no farther away than the configured
upwind length, measured in degrees with the pixel size of that axis. -/
theorem C03_buffer_covers_upwind_length (up : K) (r : RasterInfo K) (hpw : 0 < r.gt1)
    (hph : r.gt5 < 0) (hup : 0 ≤ up) (px py : ℤ) (hx0 : 0 ≤ px) (hx : px < r.xDim)
    (hy0 : 0 ≤ py) (hy : py < r.yDim) :
    ∃ k L B, (TileGrid.init up r).getGridlimit k = .ok L ∧
      (TileGrid.init up r).getGridlimitBuffer k = .ok B ∧ L.Has px py ∧
      ∀ qx qy : ℤ, 0 ≤ qx → qx < r.xDim → 0 ≤ qy → qy < r.yDim →
        |((qx - px : ℤ) : K)| * r.gt1 ≤ up → |((qy - py : ℤ) : K)| * (-r.gt5) ≤ up →
        B.Has qx qy := by
  obtain ⟨k, L, B, h1, h2, h3, h4⟩ :=
    C03_pixel_has_full_neighbourhood up r hpw hph hup px py hx0 hx hy0 hy
  refine ⟨k, L, B, h1, h2, h3, fun qx qy a b c d hdx hdy => h4 qx qy a b c d ?_ ?_⟩
  · show _ ≤ pyInt (up / r.gt1)
    rw [pyInt, if_pos (by positivity), Int.le_floor, Int.cast_abs, le_div_iff₀ hpw]
    exact hdx
  · have h5 : 0 < -r.gt5 := by linarith
    show _ ≤ pyInt (up / -r.gt5)
    rw [pyInt, if_pos (by positivity), Int.le_floor, Int.cast_abs, le_div_iff₀ h5]
    exact hdy

/-- With pixels twice as high as wide (0.1° by 0.2°) a buffer of 0.4° is four columns and two
rows. -/
example : (TileGrid.init (2 / 5) ⟨25, 13, 1435 / 10, 1 / 10, -41, -1 / 5⟩ : TileGrid ℚ).getGridlimit 4
      = .ok ⟨10, 20, 5, 10⟩ ∧
    (TileGrid.init (2 / 5) ⟨25, 13, 1435 / 10, 1 / 10, -41, -1 / 5⟩ : TileGrid ℚ).getGridlimitBuffer 4
      = .ok ⟨6, 24, 3, 12⟩ := by
  constructor <;> decide +kernel

theorem axis_size {p up : K} (hp : 0 < p) (hup : 0 ≤ up) (hup1 : up < 1) (dim i : ℕ)
    (h : (i : ℤ) * ⌈1 / p⌉ < dim) :
    let s := ⌈1 / p⌉
    let b := pyInt (up / p)
    (coreHi s b dim i < dim → 1 ≤ ((coreHi s b dim i - coreLo s b i : ℤ) : K) * p ∧
      ((coreHi s b dim i - coreLo s b i : ℤ) : K) * p < 1 + p) ∧
    ((coreHi s b dim i - coreLo s b i : ℤ) : K) * p < 1 + p + up := by
  intro s b
  have hs1 : 1 / p ≤ (s : K) := Int.le_ceil _
  have hs2 : (s : K) < 1 / p + 1 := Int.ceil_lt_add_one _
  have hb0 : (0 : ℤ) ≤ b := pyInt_nonneg (by positivity)
  have hb : (b : K) ≤ up / p := by
    show ((pyInt (up / p) : ℤ) : K) ≤ _
    rw [pyInt_of_nonneg (by positivity)]
    exact Int.floor_le _
  have hbs : b < s := by
    have : (b : K) < s := lt_of_le_of_lt hb (lt_of_lt_of_le ((div_lt_div_iff_of_pos_right hp).mpr hup1) hs1)
    exact_mod_cast this
  have hlo : coreLo s b i = i * s := by
    rw [coreLo_eq]
    rcases Nat.eq_zero_or_pos i with h0 | h0
    · subst h0; simp
    · rw [if_pos]
      have : (1 : ℤ) * s ≤ i * s := mul_le_mul_of_nonneg_right (by omega) (by omega)
      omega
  have e1 : (1 : K) ≤ s * p := by rwa [div_le_iff₀ hp] at hs1
  have e2 : (s : K) * p < 1 + p := by
    have := mul_lt_mul_of_pos_right hs2 hp
    rwa [add_mul, one_mul, div_mul_cancel₀ _ hp.ne'] at this
  have e3 : (b : K) * p ≤ up := by rwa [le_div_iff₀ hp] at hb
  have hmul : ((i : ℤ) + 1) * s = i * s + s := by ring
  rw [hlo, coreHi_eq]
  constructor
  · intro hlt
    split_ifs at hlt ⊢ with hc
    · rw [hmul, add_sub_cancel_left]
      exact ⟨e1, e2⟩
    · exact absurd hlt (lt_irrefl _)
  · have hw : (if ((i : ℤ) + 1) * s + b < dim then ((i : ℤ) + 1) * s else (dim : ℤ)) - i * s ≤ s + b := by
      split_ifs <;> omega
    have hw' : (((if ((i : ℤ) + 1) * s + b < dim then ((i : ℤ) + 1) * s else (dim : ℤ)) - i * s : ℤ) : K)
        ≤ s + b := by exact_mod_cast hw
    have := mul_le_mul_of_nonneg_right hw' hp.le
    rw [add_mul (s : K)] at this
    linarith

/-- **C77** With a buffer below one degree, the unbuffered part of a tile that ends before the
raster's last column is at least one degree and less than one degree and a pixel wide; every tile is
narrower than one degree, a pixel and the buffer together.  The same holds for rows. -/
theorem C77_tile_size (up : K) (r : RasterInfo K) (hpw : 0 < r.gt1) (hph : r.gt5 < 0)
    (hup : 0 ≤ up) (hup1 : up < 1) (k : ℕ) (L : Limits) (hL : (TileGrid.init up r).getGridlimit k = .ok L) :
    (L.x2 < r.xDim → 1 ≤ ((L.x2 - L.x1 : ℤ) : K) * r.gt1 ∧
      ((L.x2 - L.x1 : ℤ) : K) * r.gt1 < 1 + r.gt1) ∧
    (L.y2 < r.yDim → 1 ≤ ((L.y2 - L.y1 : ℤ) : K) * (-r.gt5) ∧
      ((L.y2 - L.y1 : ℤ) : K) * (-r.gt5) < 1 + (-r.gt5)) ∧
    ((L.x2 - L.x1 : ℤ) : K) * r.gt1 < 1 + r.gt1 + up ∧
    ((L.y2 - L.y1 : ℤ) : K) * (-r.gt5) < 1 + (-r.gt5) + up := by
  have hk : k < (TileGrid.init up r).numTiles :=
    (C01_gridlimit_defined_iff up r k).mp ⟨L, hL⟩
  rw [init_numTiles] at hk
  have h5 : 0 < -r.gt5 := by linarith
  have aX := axisX (r := r) hpw hup
  have aY := axisY (r := r) hph hup
  have e := gridlimit_ok (up := up) (r := r) hk
  rw [hL] at e
  cases e
  have hrow : 0 < nRows r := by
    rcases Nat.eq_zero_or_pos (nRows r) with h | h
    · rw [h] at hk; omega
    · exact h
  have x := axis_size hpw hup hup1 r.xDim (k / nRows r)
    (start_lt aX (Nat.div_lt_of_lt_mul (by rwa [mul_comm])))
  have y := axis_size h5 hup hup1 r.yDim (k % nRows r) (start_lt aY (Nat.mod_lt _ hrow))
  exact ⟨x.1, y.1, x.2, y.2⟩

/-- A tile in the middle, and one that takes in the strip left over at the edge. -/
example : (TileGrid.init (1 / 5) exRaster).getGridlimit 2 = .ok ⟨10, 20, 0, 10⟩ ∧
    (TileGrid.init (1 / 5) ⟨21, 10, 0, 1 / 10, 0, -1 / 10⟩ : TileGrid ℚ).getGridlimit 1 =
      .ok ⟨10, 21, 0, 10⟩ := by
  constructor <;> decide +kernel

/-- Specification: longitude of the left edge of pixel column `c` in a geotransform. -/
def RasterInfo.lonEdge (r : RasterInfo K) (c : ℤ) : K := r.gt0 + c * r.gt1
/-- Specification: latitude of the upper edge of pixel row `c` in a geotransform. -/
def RasterInfo.latEdge (r : RasterInfo K) (c : ℤ) : K := r.gt3 + c * r.gt5

/-- **C05** The extent of a tile is made of the geotransform's coordinates of the pixel edges
given by its limits, with and without buffer; extents are non-empty (west < east,
south < north) and nested. -/
theorem C05_extent_is_corner_coordinates (up : K) (r : RasterInfo K) (hpw : 0 < r.gt1)
    (hph : r.gt5 < 0) (hup : 0 ≤ up) (k : ℕ) (hk : k < (TileGrid.init up r).numTiles) :
    ∃ L B E EB, (TileGrid.init up r).getGridlimit k = .ok L ∧
      (TileGrid.init up r).getGridlimitBuffer k = .ok B ∧
      (TileGrid.init up r).getTileExtent k = .ok E ∧
      (TileGrid.init up r).getTileExtentBuffer k = .ok EB ∧
      (E.xStart = r.lonEdge L.x1 ∧ E.xEnd = r.lonEdge L.x2 ∧
        E.yStart = r.latEdge L.y1 ∧ E.yEnd = r.latEdge L.y2) ∧
      (EB.xStart = r.lonEdge B.x1 ∧ EB.xEnd = r.lonEdge B.x2 ∧
        EB.yStart = r.latEdge B.y1 ∧ EB.yEnd = r.latEdge B.y2) ∧
      (EB.xStart ≤ E.xStart ∧ E.xStart < E.xEnd ∧ E.xEnd ≤ EB.xEnd) ∧
      (EB.yEnd ≤ E.yEnd ∧ E.yEnd < E.yStart ∧ E.yStart ≤ EB.yStart) := by
  obtain ⟨L, B, hL, hB, ⟨-, c1, c2, c3, -⟩, ⟨-, d1, d2, d3, -⟩, -⟩ :=
    C03_buffer_surrounds_core up r hpw hph hup k hk
  refine ⟨L, B, _, _, hL, hB, by rw [TileGrid.getTileExtent, hL]; rfl,
    by rw [TileGrid.getTileExtentBuffer, hB]; rfl, ?_, ?_, ?_, ?_⟩
  · simp only [TileGrid.extentOf, TileGrid.init, RasterInfo.lonEdge, RasterInfo.latEdge]
    refine ⟨trivial, trivial, by ring, by ring⟩
  · simp only [TileGrid.extentOf, TileGrid.init, RasterInfo.lonEdge, RasterInfo.latEdge]
    refine ⟨trivial, trivial, by ring, by ring⟩
  · have e1 : (B.x1 : K) ≤ L.x1 := by exact_mod_cast c1
    have e2 : (L.x1 : K) < L.x2 := by exact_mod_cast c2
    have e3 : (L.x2 : K) ≤ B.x2 := by exact_mod_cast c3
    simp only [TileGrid.extentOf, TileGrid.init]
    have f1 := mul_le_mul_of_nonneg_right e1 hpw.le
    have f2 := mul_lt_mul_of_pos_right e2 hpw
    have f3 := mul_le_mul_of_nonneg_right e3 hpw.le
    refine ⟨by linarith, by linarith, by linarith⟩
  · have e1 : (B.y1 : K) ≤ L.y1 := by exact_mod_cast d1
    have e2 : (L.y1 : K) < L.y2 := by exact_mod_cast d2
    have e3 : (L.y2 : K) ≤ B.y2 := by exact_mod_cast d3
    simp only [TileGrid.extentOf, TileGrid.init]
    have h5 : 0 < -r.gt5 := by linarith
    have f1 := mul_le_mul_of_nonneg_right e1 h5.le
    have f2 := mul_lt_mul_of_pos_right e2 h5
    have f3 := mul_le_mul_of_nonneg_right e3 h5.le
    refine ⟨by linarith, by linarith, by linarith⟩

example : 0 < exRaster.gt1 ∧ exRaster.gt5 < 0 ∧
    3 < (TileGrid.init (1 / 5) exRaster).numTiles := by
  refine ⟨by norm_num [exRaster], by norm_num [exRaster], by decide +kernel⟩

end WindMult
