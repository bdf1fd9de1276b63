import Verif.Model.FloatGeo
import Verif.Props.Reproject
import Verif.Proofs.Ieee

/-!
# C101: the geometry of the tiles in floating-point arithmetic
-/

set_option autoImplicit false

namespace WindMult

/-! ### Rounding -/

theorem Rounding.err (R : Rounding) {x M : ℝ} (h : |x| ≤ M) : |R.rnd x - x| ≤ M / 2 ^ 53 :=
  (R.near x).trans (by gcongr)

theorem Rounding.nonneg (R : Rounding) {x : ℝ} (h : 0 ≤ x) : 0 ≤ R.rnd x := by
  have h0 : R.rnd ((0 : ℤ) : ℝ) = ((0 : ℤ) : ℝ) := R.int 0 (by norm_num)
  have := R.mono h
  rw [Int.cast_zero] at h0
  rwa [h0] at this

theorem Rounding.pos (R : Rounding) {x : ℝ} (h : 0 < x) : 0 < R.rnd x := by
  have := (abs_le.mp (R.near x)).1
  rw [abs_of_pos h] at this
  have : x / 2 ^ 53 < x := by
    rw [div_lt_iff₀ (by norm_num)]
    nlinarith
  linarith

/-- A rounded quotient of integers has the ceiling of the quotient. -/
theorem Rounding.ceil_div (R : Rounding) {d s : ℤ} (hs : 1 ≤ s) (hd : 0 ≤ d) (hd' : d < 2 ^ 53) :
    ⌈R.rnd ((d : ℝ) / s)⌉ = ⌈(d : ℝ) / s⌉ := by
  have hsR : (0 : ℝ) < s := by exact_mod_cast hs
  have hsR1 : (1 : ℝ) ≤ s := by exact_mod_cast hs
  have hdR : (0 : ℝ) ≤ d := by exact_mod_cast hd
  have hdR' : (d : ℝ) < 2 ^ 53 := by exact_mod_cast hd'
  have hq0 : (0 : ℝ) ≤ (d : ℝ) / s := by positivity
  have hq1 : (d : ℝ) / s ≤ d := div_le_self hdR hsR1
  set n := ⌈(d : ℝ) / s⌉ with hn
  have hn0 : 0 ≤ n := Int.ceil_nonneg hq0
  have hn1 : n ≤ d := Int.ceil_le.mpr hq1
  rw [Int.ceil_eq_iff]
  constructor
  · have hlt : (n : ℝ) - 1 < (d : ℝ) / s := by linarith [Int.ceil_lt_add_one ((d : ℝ) / s)]
    rw [lt_div_iff₀ hsR] at hlt
    have hlt' : (n - 1) * s < d := by exact_mod_cast hlt
    have hle : ((n - 1) * s + 1 : ℤ) ≤ d := by omega
    have hle' : ((n : ℝ) - 1) * s + 1 ≤ d := by exact_mod_cast hle
    have hgap : (n : ℝ) - 1 + 1 / s ≤ (d : ℝ) / s := by
      rw [le_div_iff₀ hsR, add_mul, one_div, inv_mul_cancel₀ hsR.ne']
      exact hle'
    have herr := (abs_le.mp (R.near ((d : ℝ) / s))).1
    rw [abs_of_nonneg hq0] at herr
    have : (d : ℝ) / s / 2 ^ 53 < 1 / s := by
      rw [div_div, div_lt_div_iff₀ (by positivity) hsR]
      nlinarith
    linarith
  · have := R.mono (Int.le_ceil ((d : ℝ) / s))
    rwa [← hn, R.int n (by rw [abs_of_nonneg hn0]; omega)] at this

/-! ### The tile grid -/

/-- What rounding leaves of one axis. -/
theorem axisOK_fl (R : Rounding) {pw up : ℝ} (hpw : 0 < pw) (hup : 0 ≤ up) (dim : ℕ)
    (hdim : dim < 2 ^ 53) :
    AxisOK ⌈R.rnd (1 / pw)⌉ (pyInt (R.rnd (up / pw))) dim
      (⌈R.rnd ((dim : ℝ) / ((⌈R.rnd (1 / pw)⌉ : ℤ) : ℝ))⌉).toNat := by
  have hs : (1 : ℤ) ≤ ⌈R.rnd (1 / pw)⌉ := Int.one_le_ceil_iff.mpr (R.pos (by positivity))
  generalize ⌈R.rnd (1 / pw)⌉ = s at *
  have hsK : (0 : ℝ) < (s : ℝ) := by exact_mod_cast hs
  have hq : (0 : ℝ) ≤ (dim : ℝ) / (s : ℝ) := by positivity
  have hc : (0 : ℤ) ≤ ⌈(dim : ℝ) / (s : ℝ)⌉ := Int.ceil_nonneg hq
  have e : ⌈R.rnd ((dim : ℝ) / (s : ℝ))⌉ = ⌈(dim : ℝ) / (s : ℝ)⌉ := by
    have := R.ceil_div (d := dim) hs (by positivity) (by exact_mod_cast hdim)
    rwa [Int.cast_natCast] at this
  rw [e]
  refine ⟨hs, pyInt_nonneg (R.nonneg (by positivity)), by positivity, ?_, ?_⟩
  · rw [Int.toNat_of_nonneg hc]
    have := Int.le_ceil ((dim : ℝ) / (s : ℝ))
    rw [div_le_iff₀ hsK] at this
    exact_mod_cast this
  · intro _
    rw [Int.toNat_of_nonneg hc]
    have := Int.ceil_lt_add_one ((dim : ℝ) / (s : ℝ))
    have h2 : ((⌈(dim : ℝ) / (s : ℝ)⌉ : ℝ) - 1) < (dim : ℝ) / (s : ℝ) := by linarith
    rw [lt_div_iff₀ hsK] at h2
    exact_mod_cast h2

/-- Number of tile columns and rows. -/
noncomputable def nColsFl (R : Rounding) (r : RasterInfo ℝ) : ℕ :=
  (⌈R.rnd ((r.xDim : ℝ) / ((⌈R.rnd (1 / r.gt1)⌉ : ℤ) : ℝ))⌉).toNat
noncomputable def nRowsFl (R : Rounding) (r : RasterInfo ℝ) : ℕ :=
  (⌈R.rnd ((r.yDim : ℝ) / ((⌈R.rnd (1 / (-r.gt5))⌉ : ℤ) : ℝ))⌉).toNat

theorem initFl_tiles (R : Rounding) (up : ℝ) (r : RasterInfo ℝ) :
    (TileGrid.initFl R up r).tiles = (List.range (nColsFl R r * nRowsFl R r)).map fun k =>
      let i : ℤ := ((k / nRowsFl R r : ℕ) : ℤ)
      let j : ℤ := ((k % nRowsFl R r : ℕ) : ℤ)
      { xStart := max 0 (i * (TileGrid.initFl R up r).xStep - (TileGrid.initFl R up r).xBuffer)
        xEnd := min ((i + 1) * (TileGrid.initFl R up r).xStep + (TileGrid.initFl R up r).xBuffer)
          r.xDim - 1
        yStart := max 0 (j * (TileGrid.initFl R up r).yStep - (TileGrid.initFl R up r).yBuffer)
        yEnd := min ((j + 1) * (TileGrid.initFl R up r).yStep + (TileGrid.initFl R up r).yBuffer)
          r.yDim - 1 } := by
  unfold TileGrid.initFl tileGridLoop
  simp only
  exact flatMap_range_range _ _ (fun i j => ({
    xStart := max 0 ((i : ℤ) * ⌈R.rnd (1 / r.gt1)⌉ - pyInt (R.rnd (up / r.gt1)))
    xEnd := min (((i : ℤ) + 1) * ⌈R.rnd (1 / r.gt1)⌉ + pyInt (R.rnd (up / r.gt1))) r.xDim - 1
    yStart := max 0 ((j : ℤ) * ⌈R.rnd (1 / (-r.gt5))⌉ - pyInt (R.rnd (up / (-r.gt5))))
    yEnd := min (((j : ℤ) + 1) * ⌈R.rnd (1 / (-r.gt5))⌉ + pyInt (R.rnd (up / (-r.gt5)))) r.yDim - 1 } :
      TileIdx))

theorem gridlimitFl_ok {R : Rounding} {up : ℝ} {r : RasterInfo ℝ} {k : ℕ}
    (hk : k < nColsFl R r * nRowsFl R r) :
    (TileGrid.initFl R up r).getGridlimit k =
        .ok ⟨coreLo (TileGrid.initFl R up r).xStep (TileGrid.initFl R up r).xBuffer (k / nRowsFl R r : ℕ),
             coreHi (TileGrid.initFl R up r).xStep (TileGrid.initFl R up r).xBuffer r.xDim
               (k / nRowsFl R r : ℕ),
             coreLo (TileGrid.initFl R up r).yStep (TileGrid.initFl R up r).yBuffer (k % nRowsFl R r : ℕ),
             coreHi (TileGrid.initFl R up r).yStep (TileGrid.initFl R up r).yBuffer r.yDim
               (k % nRowsFl R r : ℕ)⟩ := by
  unfold TileGrid.getGridlimit TileGrid.idx
  rw [initFl_tiles, List.getElem?_map, List.getElem?_range hk]
  rfl

theorem gridlimitBufferFl_ok {R : Rounding} {up : ℝ} {r : RasterInfo ℝ} {k : ℕ}
    (hk : k < nColsFl R r * nRowsFl R r) :
    (TileGrid.initFl R up r).getGridlimitBuffer k =
        .ok ⟨max 0 (((k / nRowsFl R r : ℕ) : ℤ) * (TileGrid.initFl R up r).xStep
                - (TileGrid.initFl R up r).xBuffer),
             min ((((k / nRowsFl R r : ℕ) : ℤ) + 1) * (TileGrid.initFl R up r).xStep
                + (TileGrid.initFl R up r).xBuffer) r.xDim,
             max 0 (((k % nRowsFl R r : ℕ) : ℤ) * (TileGrid.initFl R up r).yStep
                - (TileGrid.initFl R up r).yBuffer),
             min ((((k % nRowsFl R r : ℕ) : ℤ) + 1) * (TileGrid.initFl R up r).yStep
                + (TileGrid.initFl R up r).yBuffer) r.yDim⟩ := by
  unfold TileGrid.getGridlimitBuffer TileGrid.idx
  rw [initFl_tiles, List.getElem?_map, List.getElem?_range hk]
  simp only [Option.map_some]
  simp only [bind, Except.bind, pure, Except.pure, sub_add_cancel]

theorem axisXFl {R : Rounding} {up : ℝ} {r : RasterInfo ℝ} (h1 : 0 < r.gt1) (hup : 0 ≤ up)
    (hd : r.xDim < 2 ^ 53) :
    AxisOK (TileGrid.initFl R up r).xStep (TileGrid.initFl R up r).xBuffer r.xDim (nColsFl R r) :=
  axisOK_fl R h1 hup r.xDim hd

theorem axisYFl {R : Rounding} {up : ℝ} {r : RasterInfo ℝ} (h5 : r.gt5 < 0) (hup : 0 ≤ up)
    (hd : r.yDim < 2 ^ 53) :
    AxisOK (TileGrid.initFl R up r).yStep (TileGrid.initFl R up r).yBuffer r.yDim (nRowsFl R r) :=
  axisOK_fl R (by linarith) hup r.yDim hd

theorem numTilesFl (R : Rounding) (up : ℝ) (r : RasterInfo ℝ) :
    (TileGrid.initFl R up r).numTiles = nColsFl R r * nRowsFl R r := by
  simp [TileGrid.numTiles, initFl_tiles]

/-- C101: with rounding, too, every pixel of the raster is in the unbuffered limits of a tile, and the
buffered limits of that tile contain all pixels within the upwind length. -/
theorem C101_tiles (R : Rounding) (up : ℝ) (r : RasterInfo ℝ) (hpw : 0 < r.gt1) (hph : r.gt5 < 0)
    (hup : 0 ≤ up) (hupx : up / r.gt1 < 2 ^ 53) (hupy : up / (-r.gt5) < 2 ^ 53)
    (hdx : r.xDim < 2 ^ 53) (hdy : r.yDim < 2 ^ 53) (px py : ℤ) (hx0 : 0 ≤ px) (hx : px < r.xDim)
    (hy0 : 0 ≤ py) (hy : py < r.yDim) :
    ∃ k < (TileGrid.initFl R up r).numTiles, ∃ L B, (TileGrid.initFl R up r).getGridlimit k = .ok L ∧
      (TileGrid.initFl R up r).getGridlimitBuffer k = .ok B ∧ L.Has px py ∧
      ∀ qx qy : ℤ, 0 ≤ qx → qx < r.xDim → 0 ≤ qy → qy < r.yDim →
        |((qx - px : ℤ) : ℝ)| * r.gt1 ≤ up → |((qy - py : ℤ) : ℝ)| * (-r.gt5) ≤ up →
        B.Has qx qy := by
  have hbuf : ∀ (pw : ℝ) (n : ℤ), 0 < pw → up / pw < 2 ^ 53 → |(n : ℝ)| * pw ≤ up →
      |n| ≤ pyInt (R.rnd (up / pw)) := by
    intro pw n hpw hlt h
    have hq : 0 ≤ up / pw := by positivity
    rw [pyInt, if_pos (R.nonneg hq), Int.le_floor, Int.cast_abs]
    have h1 : |(n : ℝ)| ≤ up / pw := by rwa [le_div_iff₀ hpw]
    have h2 : ((|n| : ℤ) : ℝ) ≤ up / pw := by rwa [Int.cast_abs]
    have h3 : |(|n|)| ≤ 2 ^ 53 := by
      rw [abs_abs]
      have : ((|n| : ℤ) : ℝ) < 2 ^ 53 := by linarith
      exact_mod_cast this.le
    have h4 := R.mono h2
    rw [R.int _ h3, Int.cast_abs] at h4
    exact h4
  obtain ⟨i, hi, a1, a2, h1, h2⟩ := axis_cover (axisXFl (R := R) (r := r) hpw hup hdx) hx0 hx
  obtain ⟨j, hj, b1, b2, h3, h4⟩ := axis_cover (axisYFl (R := R) (r := r) hph hup hdy) hy0 hy
  have hk := index_lt hi hj
  refine ⟨i * nRowsFl R r + j, by rwa [numTilesFl], _, _, gridlimitFl_ok hk, gridlimitBufferFl_ok hk,
    ?_, ?_⟩
  · simp only [Limits.Has, index_div hj, index_mod hj]
    exact ⟨h1, h2, h3, h4⟩
  · intro qx qy hqx hqx' hqy hqy' hdx hdy
    have hdx := hbuf r.gt1 (qx - px) hpw hupx hdx
    have hdy := hbuf (-r.gt5) (qy - py) (by linarith) hupy hdy
    have ex : (TileGrid.initFl R up r).xBuffer = pyInt (R.rnd (up / r.gt1)) := rfl
    have ey : (TileGrid.initFl R up r).yBuffer = pyInt (R.rnd (up / (-r.gt5))) := rfl
    rw [← ex] at hdx
    rw [← ey] at hdy
    rw [abs_le] at hdx hdy
    simp only [Limits.Has, index_div hj, index_mod hj]
    refine ⟨max_le hqx (by omega), lt_min (by omega) hqx', max_le hqy (by omega),
      lt_min (by omega) hqy'⟩

theorem gridlimitFl_lt {R : Rounding} {up : ℝ} {r : RasterInfo ℝ} {k : ℕ} {L : Limits}
    (hL : (TileGrid.initFl R up r).getGridlimit k = .ok L) : k < nColsFl R r * nRowsFl R r := by
  rw [← numTilesFl R up r]
  by_contra h
  have h0 : (TileGrid.initFl R up r).tiles[k]? = none := by
    rw [List.getElem?_eq_none]; exact not_lt.mp h
  rw [TileGrid.getGridlimit, TileGrid.idx, h0] at hL
  simp [bind, Except.bind] at hL

/-- C101: the tiles are disjoint under the condition of C02, read off the computed steps and buffers. -/
theorem C101_disjoint (R : Rounding) (up : ℝ) (r : RasterInfo ℝ) (hpw : 0 < r.gt1) (hph : r.gt5 < 0)
    (hup : 0 ≤ up) (hdx : r.xDim < 2 ^ 53) (hdy : r.yDim < 2 ^ 53) (hx : 0 < r.xDim) (hy : 0 < r.yDim)
    (hlx : (r.xDim : ℤ) ≤ (TileGrid.initFl R up r).xStep ∨ (TileGrid.initFl R up r).xBuffer <
      ((r.xDim : ℤ) - 1) % (TileGrid.initFl R up r).xStep + 1)
    (hly : (r.yDim : ℤ) ≤ (TileGrid.initFl R up r).yStep ∨ (TileGrid.initFl R up r).yBuffer <
      ((r.yDim : ℤ) - 1) % (TileGrid.initFl R up r).yStep + 1) :
    TilesDisjoint (TileGrid.initFl R up r) := by
  have aX := axisXFl (R := R) (r := r) hpw hup hdx
  have aY := axisYFl (R := R) (r := r) hph hup hdy
  have hcond : ∀ a b : ℤ, a < b + 1 ↔ a ≤ b := fun a b => Int.lt_add_one_iff
  have hgx := (axisGood_iff aX (by exact_mod_cast hx)).mpr (by simpa only [hcond] using hlx)
  have hgy := (axisGood_iff aY (by exact_mod_cast hy)).mpr (by simpa only [hcond] using hly)
  rintro k k' L L' hL hL' ⟨px, py, hp, hp'⟩
  have hk := gridlimitFl_lt hL
  have hk' := gridlimitFl_lt hL'
  rw [gridlimitFl_ok hk] at hL
  rw [gridlimitFl_ok hk'] at hL'
  cases hL
  cases hL'
  simp only [Limits.Has] at hp hp'
  have hrow : 0 < nRowsFl R r := Nat.pos_of_ne_zero (by rintro h; simp [h] at hk)
  have e1 := axis_disjoint aX hgx (Nat.div_lt_of_lt_mul (by rwa [Nat.mul_comm]))
    (Nat.div_lt_of_lt_mul (by rwa [Nat.mul_comm])) ⟨hp.1, hp.2.1⟩ ⟨hp'.1, hp'.2.1⟩
  have e2 := axis_disjoint aY hgy (Nat.mod_lt k hrow) (Nat.mod_lt k' hrow)
    ⟨hp.2.2.1, hp.2.2.2⟩ ⟨hp'.2.2.1, hp'.2.2.2⟩
  rw [← Nat.div_add_mod k (nRowsFl R r), ← Nat.div_add_mod k' (nRowsFl R r), e1, e2]

/-! ### Edges, windows and centres -/

/-- The raster is at most `2⁴⁰` pixels wide and high, and from the origin of the coordinates: met by
rasters in degrees with pixels from `10⁻⁹` degrees. -/
def RasterInfo.Moderate (r : RasterInfo ℝ) : Prop :=
  |r.gt0| + r.xDim * r.gt1 ≤ 2 ^ 40 * r.gt1 ∧ |r.gt3| + r.yDim * (-r.gt5) ≤ 2 ^ 40 * (-r.gt5)

theorem edge_err (R : Rounding) {a pw M : ℝ} {n : ℤ} (hpw : 0 < pw) (hn : 0 ≤ n)
    (h : |a| + n * pw ≤ M) : |R.rnd (a + R.rnd (n * pw)) - (a + n * pw)| ≤ 3 * M / 2 ^ 53 := by
  have hn' : (0 : ℝ) ≤ n * pw := by
    have : (0 : ℝ) ≤ n := by exact_mod_cast hn
    positivity
  have ha := abs_nonneg a
  have h1 : |R.rnd (n * pw) - n * pw| ≤ M / 2 ^ 53 := R.err (by rw [abs_of_nonneg hn']; linarith)
  have hM : 0 ≤ M := by linarith
  have hMs : M / 2 ^ 53 ≤ M := div_le_self hM (by norm_num)
  have h2 : |a + R.rnd (n * pw)| ≤ 2 * M := by
    have : a + R.rnd (n * pw) = a + n * pw + (R.rnd (n * pw) - n * pw) := by ring
    rw [this]
    have e1 := abs_add_le (a + n * pw) (R.rnd (n * pw) - n * pw)
    have e2 := abs_add_le a (n * pw)
    rw [abs_of_nonneg hn'] at e2
    linarith
  have h3 := R.err h2
  have : R.rnd (a + R.rnd (n * pw)) - (a + n * pw) =
      (R.rnd (a + R.rnd (n * pw)) - (a + R.rnd (n * pw))) + (R.rnd (n * pw) - n * pw) := by ring
  rw [this]
  have e1 := abs_add_le (R.rnd (a + R.rnd (n * pw)) - (a + R.rnd (n * pw))) (R.rnd (n * pw) - n * pw)
  have : 3 * M / 2 ^ 53 = 2 * M / 2 ^ 53 + M / 2 ^ 53 := by ring
  linarith

theorem edge_near (R : Rounding) {a pw : ℝ} {n : ℤ} (hpw : 0 < pw) (hn : 0 ≤ n)
    (h : |a| + n * pw ≤ 2 ^ 40 * pw) : |R.rnd (a + R.rnd (n * pw)) - (a + n * pw)| < pw / 1024 := by
  have := edge_err R hpw hn h
  have e : 3 * (2 ^ 40 * pw) / 2 ^ 53 = 3 / 8192 * pw := by ring
  rw [e] at this
  linarith

theorem around_quot_fl (R : Rounding) {d pw : ℝ} {n : ℤ} (hpw : 0 < pw) (hn : |n| ≤ 2 ^ 41)
    (h : |d - n * pw| ≤ 3 / 8 * pw) : around (R.rnd (R.rnd d / pw)) = n := by
  apply around_eq_of_abs_lt
  have hnR : |(n : ℝ)| ≤ 2 ^ 41 := by
    have : ((|n| : ℤ) : ℝ) ≤ ((2 ^ 41 : ℤ) : ℝ) := by exact_mod_cast hn
    rw [Int.cast_abs] at this
    exact_mod_cast this
  have hd : |d| ≤ (2 ^ 41 + 1) * pw := by
    have e : d = n * pw + (d - n * pw) := by ring
    rw [e]
    have e1 := abs_add_le (n * pw) (d - n * pw)
    rw [abs_mul, abs_of_pos hpw] at e1
    nlinarith
  have h1 := R.err hd
  have hq : |R.rnd d / pw - n| ≤ 3 / 8 + 1 / 2048 := by
    have e : R.rnd d / pw - n = (R.rnd d - n * pw) / pw := by field_simp
    rw [e, abs_div, abs_of_pos hpw, div_le_iff₀ hpw]
    have e2 : R.rnd d - n * pw = (R.rnd d - d) + (d - n * pw) := by ring
    rw [e2]
    have e3 := abs_add_le (R.rnd d - d) (d - n * pw)
    have e4 : (2 ^ 41 + 1) * pw / 2 ^ 53 ≤ 1 / 2048 * pw := by
      rw [div_le_iff₀ (by norm_num)]
      nlinarith
    linarith
  have hq2 : |R.rnd d / pw| ≤ 2 ^ 41 + 1 := by
    have e : R.rnd d / pw = n + (R.rnd d / pw - n) := by ring
    rw [e]
    have := abs_add_le (n : ℝ) (R.rnd d / pw - n)
    linarith
  have h2 := R.err hq2
  have e : R.rnd (R.rnd d / pw) - n =
      (R.rnd (R.rnd d / pw) - R.rnd d / pw) + (R.rnd d / pw - n) := by ring
  rw [e]
  have e3 := abs_add_le (R.rnd (R.rnd d / pw) - R.rnd d / pw) (R.rnd d / pw - n)
  have e4 : ((2 : ℝ) ^ 41 + 1) / 2 ^ 53 ≤ 1 / 2048 := by norm_num
  linarith

theorem limitsFl (R : Rounding) (up : ℝ) (r : RasterInfo ℝ) (hpw : 0 < r.gt1) (hph : r.gt5 < 0)
    (hup : 0 ≤ up) (hdx : r.xDim < 2 ^ 53) (hdy : r.yDim < 2 ^ 53) (k : ℕ) (L B : Limits)
    (hL : (TileGrid.initFl R up r).getGridlimit k = .ok L)
    (hB : (TileGrid.initFl R up r).getGridlimitBuffer k = .ok B) :
    (0 ≤ B.x1 ∧ B.x1 ≤ L.x1 ∧ L.x1 < L.x2 ∧ L.x2 ≤ B.x2 ∧ B.x2 ≤ r.xDim) ∧
    (0 ≤ B.y1 ∧ B.y1 ≤ L.y1 ∧ L.y1 < L.y2 ∧ L.y2 ≤ B.y2 ∧ B.y2 ≤ r.yDim) := by
  have hk := gridlimitFl_lt hL
  have aX := axisXFl (R := R) (r := r) hpw hup hdx
  have aY := axisYFl (R := R) (r := r) hph hup hdy
  rw [gridlimitFl_ok hk] at hL
  rw [gridlimitBufferFl_ok hk] at hB
  cases hL
  cases hB
  simp only
  generalize hsx : (TileGrid.initFl R up r).xStep = sx at *
  generalize hbx : (TileGrid.initFl R up r).xBuffer = bx at *
  generalize hsy : (TileGrid.initFl R up r).yStep = sy at *
  generalize hby : (TileGrid.initFl R up r).yBuffer = by' at *
  have hrow : 0 < nRowsFl R r := Nat.pos_of_ne_zero (by rintro h; simp [h] at hk)
  have x1 := coreLo_lt_coreHi aX (Nat.div_lt_of_lt_mul (by rwa [Nat.mul_comm]) : k / nRowsFl R r < _)
  have y1 := coreLo_lt_coreHi aY (Nat.mod_lt k hrow)
  have bx0 := aX.b_nonneg
  have by0 := aY.b_nonneg
  have sx0 := aX.s_pos
  have sy0 := aY.s_pos
  have px : (0 : ℤ) ≤ ((k / nRowsFl R r : ℕ) : ℤ) * sx := by positivity
  have py : (0 : ℤ) ≤ ((k % nRowsFl R r : ℕ) : ℤ) * sy := by positivity
  rw [coreLo_eq, coreHi_eq] at x1 y1 ⊢
  rw [coreLo_eq, coreHi_eq]
  generalize ((k / nRowsFl R r : ℕ) : ℤ) * sx = a at *
  generalize (((k / nRowsFl R r : ℕ) : ℤ) + 1) * sx = a' at *
  generalize ((k % nRowsFl R r : ℕ) : ℤ) * sy = c at *
  generalize (((k % nRowsFl R r : ℕ) : ℤ) + 1) * sy = c' at *
  refine ⟨?_, ?_⟩ <;> split_ifs at * <;> omega

theorem moderate_dim {r : RasterInfo ℝ} (hpw : 0 < r.gt1) (hph : r.gt5 < 0) (hm : r.Moderate) :
    (r.xDim : ℤ) ≤ 2 ^ 40 ∧ (r.yDim : ℤ) ≤ 2 ^ 40 := by
  obtain ⟨h1, h2⟩ := hm
  constructor
  · have : (r.xDim : ℝ) * r.gt1 ≤ 2 ^ 40 * r.gt1 := by linarith [abs_nonneg r.gt0]
    exact_mod_cast le_of_mul_le_mul_right this hpw
  · have : (r.yDim : ℝ) * (-r.gt5) ≤ 2 ^ 40 * (-r.gt5) := by linarith [abs_nonneg r.gt3]
    exact_mod_cast le_of_mul_le_mul_right this (by linarith)

/-- Computed extents are pixel edges up to a thousandth of a pixel. -/
theorem extentFl_near (R : Rounding) (up : ℝ) (r : RasterInfo ℝ) (hpw : 0 < r.gt1) (hph : r.gt5 < 0)
    (hm : r.Moderate) (L : Limits) (hx1 : 0 ≤ L.x1) (hx : L.x1 ≤ L.x2) (hx2 : L.x2 ≤ r.xDim)
    (hy1 : 0 ≤ L.y1) (hy : L.y1 ≤ L.y2) (hy2 : L.y2 ≤ r.yDim) :
    let E := (TileGrid.initFl R up r).extentFl R L
    |E.xStart - r.lonEdge L.x1| < r.gt1 / 1024 ∧ |E.xEnd - r.lonEdge L.x2| < r.gt1 / 1024 ∧
    |E.yStart - r.latEdge L.y1| < -r.gt5 / 1024 ∧ |E.yEnd - r.latEdge L.y2| < -r.gt5 / 1024 := by
  have h5 : 0 < -r.gt5 := by linarith
  have kx : ∀ n : ℤ, n ≤ r.xDim → |r.gt0| + n * r.gt1 ≤ 2 ^ 40 * r.gt1 := by
    intro n hn
    have : (n : ℝ) ≤ r.xDim := by exact_mod_cast hn
    nlinarith [hm.1]
  have ky : ∀ n : ℤ, n ≤ r.yDim → |(-r.gt3)| + n * (-r.gt5) ≤ 2 ^ 40 * (-r.gt5) := by
    intro n hn
    rw [abs_neg]
    have : (n : ℝ) ≤ r.yDim := by exact_mod_cast hn
    nlinarith [hm.2]
  have yy : ∀ n : ℤ, 0 ≤ n → n ≤ r.yDim →
      |(-R.rnd (-r.gt3 + R.rnd (n * (-r.gt5)))) - r.latEdge n| < -r.gt5 / 1024 := by
    intro n h0 hn
    have := edge_near R h5 h0 (ky n hn)
    rw [RasterInfo.latEdge, ← abs_neg]
    convert this using 2
    ring
  exact ⟨edge_near R hpw hx1 (kx _ (by omega)), edge_near R hpw (by omega) (kx _ hx2),
    yy _ hy1 (by omega), yy _ (by omega) hy2⟩

/-- C101: the DEM tile cut with rounded extents is the block of the DEM given by the buffered limits:
nothing is shifted, repeated or lost by rounding. -/
theorem C101_dem_tile {α : Type} (R : Rounding) (up : ℝ) (r : RasterInfo ℝ) (hpw : 0 < r.gt1)
    (hph : r.gt5 < 0) (hup : 0 ≤ up) (hm : r.Moderate) (dem : Grid (Option α)) (fill : α) (k : ℕ)
    (L B : Limits) (hL : (TileGrid.initFl R up r).getGridlimit k = .ok L)
    (hB : (TileGrid.initFl R up r).getGridlimitBuffer k = .ok B) :
    let tile := cutDemFl R r dem ((TileGrid.initFl R up r).extentFl R B) fill
    (tile.rows : ℤ) = B.y2 - B.y1 ∧ (tile.cols : ℤ) = B.x2 - B.x1 ∧
    ∀ px py : ℕ, B.Has px py →
      tile.val (py - B.y1.toNat) (px - B.x1.toNat) = (dem.val py px).getD fill := by
  obtain ⟨dx, dy⟩ := moderate_dim hpw hph hm
  obtain ⟨⟨c0, c1, c2, c3, c4⟩, d0, d1, d2, d3, d4⟩ := limitsFl R up r hpw hph hup
    (by exact_mod_cast (by omega : (r.xDim : ℤ) < 2 ^ 53))
    (by exact_mod_cast (by omega : (r.yDim : ℤ) < 2 ^ 53)) k L B hL hB
  obtain ⟨e1, e2, e3, e4⟩ := extentFl_near R up r hpw hph hm B c0 (by omega) c4 d0 (by omega) d4
  generalize (TileGrid.initFl R up r).extentFl R B = E' at *
  have h5' : 0 < -r.gt5 := by linarith
  have n1 := e1
  have n3 := e3
  rw [abs_lt] at e1 e2 e3 e4
  rw [RasterInfo.lonEdge] at e1 e2 n1
  rw [RasterInfo.latEdge] at e3 e4 n3
  have l3 : around (R.rnd (R.rnd (E'.xEnd - E'.xStart) / r.gt1)) = B.x2 - B.x1 :=
    around_quot_fl R hpw (by rw [abs_le]; omega)
      (by push_cast; rw [abs_le]; constructor <;> linarith [e1.1, e1.2, e2.1, e2.2])
  have l4 : around (R.rnd (R.rnd (E'.yStart - E'.yEnd) / (-r.gt5))) = B.y2 - B.y1 :=
    around_quot_fl R h5' (by rw [abs_le]; omega)
      (by push_cast; rw [abs_le]; constructor <;> linarith [e3.1, e3.2, e4.1, e4.2])
  refine ⟨?_, ?_, ?_⟩
  · simp only [cutDemFl, reprojectNearest, clipInfoFl, l4]; omega
  · simp only [cutDemFl, reprojectNearest, clipInfoFl, l3]; omega
  rintro px py ⟨p1, p2, p3, p4⟩
  have hx : ⌊((clipInfoFl R r E').gt0 + (((px - B.x1.toNat : ℕ) : ℝ) + 1 / 2) * (clipInfoFl R r E').gt1
      - r.gt0) / r.gt1⌋ = px := by
    have hc : ((px - B.x1.toNat : ℕ) : ℝ) = (px : ℝ) - (B.x1 : ℝ) := by
      rw [Nat.cast_sub (by omega)]
      congr 1
      exact_mod_cast Int.toNat_of_nonneg c0
    have : ((clipInfoFl R r E').gt0 + (((px - B.x1.toNat : ℕ) : ℝ) + 1 / 2) * (clipInfoFl R r E').gt1
        - r.gt0) / r.gt1 = ((px : ℤ) : ℝ) + 1 / 2 + (E'.xStart - (r.gt0 + B.x1 * r.gt1)) / r.gt1 := by
      simp only [clipInfoFl, hc]
      field_simp
      push_cast
      ring
    rw [this]
    apply floor_middle
    rw [abs_div, abs_of_pos hpw, div_lt_iff₀ hpw]
    linarith
  have hy : ⌊((clipInfoFl R r E').gt3 + (((py - B.y1.toNat : ℕ) : ℝ) + 1 / 2) * (clipInfoFl R r E').gt5
      - r.gt3) / r.gt5⌋ = py := by
    have hc : ((py - B.y1.toNat : ℕ) : ℝ) = (py : ℝ) - (B.y1 : ℝ) := by
      rw [Nat.cast_sub (by omega)]
      congr 1
      exact_mod_cast Int.toNat_of_nonneg d0
    have h5 : r.gt5 ≠ 0 := hph.ne
    have : ((clipInfoFl R r E').gt3 + (((py - B.y1.toNat : ℕ) : ℝ) + 1 / 2) * (clipInfoFl R r E').gt5
        - r.gt3) / r.gt5 = ((py : ℤ) : ℝ) + 1 / 2 + (E'.yStart - (r.gt3 + B.y1 * r.gt5)) / r.gt5 := by
      simp only [clipInfoFl, hc]
      field_simp
      push_cast
      ring
    rw [this]
    apply floor_middle
    rw [abs_div, abs_of_neg hph, div_lt_iff₀ (by linarith)]
    linarith
  unfold cutDemFl reprojectNearest
  simp only [hx, hy]
  rw [if_pos (by omega), Int.toNat_natCast, Int.toNat_natCast]

/-- C101: clipping an array on the buffered tile with rounded extents (origin as read back from the tile,
up to an eighth of a pixel) returns exactly the cells inside the unbuffered limits, and the coordinate
vectors have matching lengths. -/
theorem C101_clip {α : Type} (R : Rounding) (up : ℝ) (r : RasterInfo ℝ) (hpw : 0 < r.gt1)
    (hph : r.gt5 < 0) (hup : 0 ≤ up) (hm : r.Moderate) (k : ℕ) (whole data : Grid α) (L B : Limits)
    (xl yu : ℝ) (hL : (TileGrid.initFl R up r).getGridlimit k = .ok L)
    (hB : (TileGrid.initFl R up r).getGridlimitBuffer k = .ok B)
    (hrows : (data.rows : ℤ) = B.y2 - B.y1) (hcols : (data.cols : ℤ) = B.x2 - B.x1)
    (hdata : ∀ i j, data.val i j = whole.val (B.y1.toNat + i) (B.x1.toNat + j))
    (hx : |xl - ((TileGrid.initFl R up r).extentFl R B).xStart| < r.gt1 / 8)
    (hy : |-yu - ((TileGrid.initFl R up r).extentFl R B).yStart| < -r.gt5 / 8) :
    let E := (TileGrid.initFl R up r).extentFl R L
    let clip := clipArrayFl R data xl yu r.gt1 (-r.gt5) E
    (clip.rows : ℤ) = L.y2 - L.y1 ∧ (clip.cols : ℤ) = L.x2 - L.x1 ∧
    (∀ i j, clip.val i j = whole.val (L.y1.toNat + i) (L.x1.toNat + j)) ∧
    (getLatLonFl R E r.gt1 (-r.gt5)).1.length = clip.cols ∧
    (getLatLonFl R E r.gt1 (-r.gt5)).2.length = clip.rows := by
  obtain ⟨dx, dy⟩ := moderate_dim hpw hph hm
  obtain ⟨⟨c0, c1, c2, c3, c4⟩, d0, d1, d2, d3, d4⟩ := limitsFl R up r hpw hph hup
    (by exact_mod_cast (by omega : (r.xDim : ℤ) < 2 ^ 53))
    (by exact_mod_cast (by omega : (r.yDim : ℤ) < 2 ^ 53)) k L B hL hB
  obtain ⟨e1, e2, e3, e4⟩ := extentFl_near R up r hpw hph hm B c0 (by omega) c4 d0 (by omega) d4
  obtain ⟨f1, f2, f3, f4⟩ := extentFl_near R up r hpw hph hm L (by omega) (by omega) (by omega)
    (by omega) (by omega) (by omega)
  intro E
  have hE : E = (TileGrid.initFl R up r).extentFl R L := rfl
  rw [← hE] at f1 f2 f3 f4
  generalize (TileGrid.initFl R up r).extentFl R B = EB at *
  clear_value E
  have h5' : 0 < -r.gt5 := by linarith
  rw [abs_lt] at e1 e2 e3 e4 f1 f2 f3 f4 hx hy
  rw [RasterInfo.lonEdge] at e1 e2 f1 f2
  rw [RasterInfo.latEdge] at e3 e4 f3 f4
  have l1 : around (R.rnd (R.rnd (E.xStart - xl) / r.gt1)) = L.x1 - B.x1 :=
    around_quot_fl R hpw (by rw [abs_le]; omega)
      (by push_cast; rw [abs_le]; constructor <;> linarith [e1.1, e1.2, f1.1, f1.2, hx.1, hx.2])
  have l2 : around (R.rnd (R.rnd (-yu - E.yStart) / (-r.gt5))) = L.y1 - B.y1 :=
    around_quot_fl R h5' (by rw [abs_le]; omega)
      (by push_cast; rw [abs_le]; constructor <;> linarith [e3.1, e3.2, f3.1, f3.2, hy.1, hy.2])
  have l3 : around (R.rnd (R.rnd (E.xEnd - E.xStart) / r.gt1)) = L.x2 - L.x1 :=
    around_quot_fl R hpw (by rw [abs_le]; omega)
      (by push_cast; rw [abs_le]; constructor <;> linarith [f1.1, f1.2, f2.1, f2.2])
  have l4 : around (R.rnd (R.rnd (E.yStart - E.yEnd) / (-r.gt5))) = L.y2 - L.y1 :=
    around_quot_fl R h5' (by rw [abs_le]; omega)
      (by push_cast; rw [abs_le]; constructor <;> linarith [f3.1, f3.2, f4.1, f4.2])
  unfold clipArrayFl getLatLonFl
  simp only [l1, l2, l3, l4, Grid.slice, List.length_map, List.length_range]
  rw [Grid.sliceBound_of_mem (i := L.y1 - B.y1) (by omega) (by omega),
    Grid.sliceBound_of_mem (i := L.x1 - B.x1) (by omega) (by omega),
    Grid.sliceBound_of_mem (i := L.y1 - B.y1 + (L.y2 - L.y1)) (by omega) (by omega),
    Grid.sliceBound_of_mem (i := L.x1 - B.x1 + (L.x2 - L.x1)) (by omega) (by omega)]
  refine ⟨by omega, by omega, ?_, by omega, by omega⟩
  intro i j
  rw [hdata]
  congr 1 <;> omega

/-- A sum of three terms, rounded as in `get_lat_lon`. -/
theorem sum3_err (R : Rounding) {a b c a' b' c' M : ℝ} (hM : |a| + |b| + |c| ≤ M)
    (ha : |a' - a| ≤ 3 * M / 2 ^ 53) (hb : |b' - b| ≤ M / 2 ^ 53) (hc : |c' - c| ≤ M / 2 ^ 53) :
    |R.rnd (R.rnd (a' + b') + c') - (a + b + c)| ≤ M / 2 ^ 50 := by
  have a0 := abs_nonneg a
  have b0 := abs_nonneg b
  have c0 := abs_nonneg c
  have h1 : |a' + b' - (a + b)| ≤ 4 * M / 2 ^ 53 := by
    have e : a' + b' - (a + b) = (a' - a) + (b' - b) := by ring
    have := abs_add_le (a' - a) (b' - b)
    rw [e]
    linarith
  have h2 : |a' + b'| ≤ 5 / 4 * M := by
    have e : a' + b' = a + b + (a' + b' - (a + b)) := by ring
    have := abs_add_le (a + b) (a' + b' - (a + b))
    have := abs_add_le a b
    rw [e]
    linarith
  have h3 := R.err h2
  have h4 : |R.rnd (a' + b') + c' - (a + b + c)| ≤ 25 / 4 * M / 2 ^ 53 := by
    have e : R.rnd (a' + b') + c' - (a + b + c) =
        (R.rnd (a' + b') - (a' + b')) + (a' + b' - (a + b)) + (c' - c) := by ring
    have := abs_add_three (R.rnd (a' + b') - (a' + b')) (a' + b' - (a + b)) (c' - c)
    rw [e]
    linarith
  have h5 : |R.rnd (a' + b') + c'| ≤ 5 / 4 * M := by
    have e : R.rnd (a' + b') + c' = a + b + c + (R.rnd (a' + b') + c' - (a + b + c)) := by ring
    have := abs_add_le (a + b + c) (R.rnd (a' + b') + c' - (a + b + c))
    have := abs_add_three a b c
    rw [e]
    linarith
  have h6 := R.err h5
  have e : R.rnd (R.rnd (a' + b') + c') - (a + b + c) =
      (R.rnd (R.rnd (a' + b') + c') - (R.rnd (a' + b') + c')) +
        (R.rnd (a' + b') + c' - (a + b + c)) := by ring
  have := abs_add_le (R.rnd (R.rnd (a' + b') + c') - (R.rnd (a' + b') + c'))
    (R.rnd (a' + b') + c' - (a + b + c))
  rw [e]
  linarith

/-- C101: the coordinates written with the tile are the centres of its pixels, up to `2⁻⁵⁰` of the
largest coordinate: for rasters in degrees less than a ten-thousandth of a millimetre. -/
theorem C101_coordinates (R : Rounding) (up : ℝ) (r : RasterInfo ℝ) (hpw : 0 < r.gt1)
    (hph : r.gt5 < 0) (hup : 0 ≤ up) (hm : r.Moderate) (k : ℕ) (L : Limits)
    (hL : (TileGrid.initFl R up r).getGridlimit k = .ok L) :
    let E := (TileGrid.initFl R up r).extentFl R L
    let lonlat := getLatLonFl R E r.gt1 (-r.gt5)
    (lonlat.1.length : ℤ) = L.x2 - L.x1 ∧ (lonlat.2.length : ℤ) = L.y2 - L.y1 ∧
    (∀ (j : ℕ) (x : ℝ), lonlat.1[j]? = some x →
      |x - r.lonCentre (L.x1 + j)| ≤ (|r.gt0| + r.xDim * r.gt1) / 2 ^ 50) ∧
    (∀ (i : ℕ) (y : ℝ), lonlat.2[i]? = some y →
      |y - r.latCentre (L.y1 + i)| ≤ (|r.gt3| + r.yDim * -r.gt5) / 2 ^ 50) := by
  obtain ⟨dx, dy⟩ := moderate_dim hpw hph hm
  have hk := gridlimitFl_lt hL
  obtain ⟨⟨c0, c1, c2, c3, c4⟩, d0, d1, d2, d3, d4⟩ := limitsFl R up r hpw hph hup
    (by exact_mod_cast (by omega : (r.xDim : ℤ) < 2 ^ 53))
    (by exact_mod_cast (by omega : (r.yDim : ℤ) < 2 ^ 53)) k L _ hL (gridlimitBufferFl_ok hk)
  have hLx : L.x2 ≤ r.xDim := by omega
  have hLy : L.y2 ≤ r.yDim := by omega
  have hLx0 : 0 ≤ L.x1 := by omega
  have hLy0 : 0 ≤ L.y1 := by omega
  clear c0 c1 c3 c4 d0 d1 d3 d4
  obtain ⟨f1, f2, f3, f4⟩ := extentFl_near R up r hpw hph hm L hLx0 c2.le hLx hLy0 d2.le hLy
  have h5' : 0 < -r.gt5 := by linarith
  have g1 : |((TileGrid.initFl R up r).extentFl R L).xStart - r.lonEdge L.x1| ≤
      3 * (|r.gt0| + L.x1 * r.gt1) / 2 ^ 53 := edge_err R hpw hLx0 le_rfl
  have g3 : |((TileGrid.initFl R up r).extentFl R L).yStart - r.latEdge L.y1| ≤
      3 * (|r.gt3| + L.y1 * -r.gt5) / 2 ^ 53 := by
    have := edge_err R (a := -r.gt3) h5' hLy0 le_rfl
    rw [abs_neg] at this
    rw [RasterInfo.latEdge, ← abs_neg]
    convert this using 2
    simp only [TileGrid.extentFl, TileGrid.initFl]
    ring
  intro E
  have hE : E = (TileGrid.initFl R up r).extentFl R L := rfl
  rw [← hE] at f1 f2 f3 f4 g1 g3
  clear_value E
  rw [abs_lt] at f1 f2 f3 f4
  rw [RasterInfo.lonEdge] at f1 f2 g1
  rw [RasterInfo.latEdge] at f3 f4 g3
  have l3 : around (R.rnd (R.rnd (E.xEnd - E.xStart) / r.gt1)) = L.x2 - L.x1 :=
    around_quot_fl R hpw (by rw [abs_le]; omega)
      (by push_cast; rw [abs_le]; constructor <;> linarith [f1.1, f1.2, f2.1, f2.2])
  have l4 : around (R.rnd (R.rnd (E.yStart - E.yEnd) / (-r.gt5))) = L.y2 - L.y1 :=
    around_quot_fl R h5' (by rw [abs_le]; omega)
      (by push_cast; rw [abs_le]; constructor <;> linarith [f3.1, f3.2, f4.1, f4.2])
  unfold getLatLonFl
  simp only [l3, l4, List.length_map, List.length_range]
  have x1R : (0 : ℝ) ≤ L.x1 := by exact_mod_cast hLx0
  have y1R : (0 : ℝ) ≤ L.y1 := by exact_mod_cast hLy0
  have px := mul_nonneg x1R hpw.le
  have py := mul_nonneg y1R h5'.le
  refine ⟨by omega, by omega, ?_, ?_⟩
  · intro j x hx
    rw [List.getElem?_map, Option.map_eq_some_iff] at hx
    obtain ⟨j', hj, rfl⟩ := hx
    obtain ⟨hj1, rfl⟩ := List.getElem?_eq_some_iff.mp hj
    rw [List.length_range] at hj1
    rw [List.getElem_range]
    have hjR : (L.x1 : ℝ) + j + 1 ≤ r.xDim := by
      exact_mod_cast (by omega : L.x1 + j + 1 ≤ r.xDim)
    have hM : (L.x1 : ℝ) * r.gt1 + j * r.gt1 + r.gt1 ≤ r.xDim * r.gt1 := by nlinarith
    have j0 : (0 : ℝ) ≤ j * r.gt1 := by positivity
    have a0 := abs_nonneg r.gt0
    have b1 : |r.gt0 + L.x1 * r.gt1| ≤ |r.gt0| + L.x1 * r.gt1 := by
      have := abs_add_le r.gt0 (L.x1 * r.gt1)
      rwa [abs_of_nonneg px] at this
    have key := sum3_err R (M := |r.gt0| + r.xDim * r.gt1) (a := r.gt0 + L.x1 * r.gt1)
      (b := 1 / 2 * r.gt1) (c := j * r.gt1) (a' := E.xStart) (b' := R.rnd (1 / 2 * r.gt1))
      (c' := R.rnd (j * r.gt1))
      (by rw [abs_of_nonneg j0, abs_of_pos (by linarith : 0 < 1 / 2 * r.gt1)]; linarith)
      (g1.trans (by gcongr; linarith))
      (R.err (by rw [abs_of_pos (by linarith : 0 < 1 / 2 * r.gt1)]; linarith))
      (R.err (by rw [abs_of_nonneg j0]; linarith))
    convert key using 2
    rw [RasterInfo.lonCentre]
    push_cast
    ring
  · intro i y hy
    rw [List.getElem?_map, Option.map_eq_some_iff] at hy
    obtain ⟨i', hi, rfl⟩ := hy
    obtain ⟨hi1, rfl⟩ := List.getElem?_eq_some_iff.mp hi
    rw [List.length_range] at hi1
    rw [List.getElem_range]
    have hiR : (L.y1 : ℝ) + i + 1 ≤ r.yDim := by
      exact_mod_cast (by omega : L.y1 + i + 1 ≤ r.yDim)
    have hM : (L.y1 : ℝ) * -r.gt5 + i * -r.gt5 + -r.gt5 ≤ r.yDim * -r.gt5 := by nlinarith
    have i0 : (0 : ℝ) ≤ i * -r.gt5 := by positivity
    have a0 := abs_nonneg r.gt3
    have b1 : |r.gt3 + L.y1 * r.gt5| ≤ |r.gt3| + L.y1 * -r.gt5 := by
      have := abs_add_le r.gt3 (L.y1 * r.gt5)
      rwa [← abs_neg (L.y1 * r.gt5), ← mul_neg, abs_of_nonneg py] at this
    have key := sum3_err R (M := |r.gt3| + r.yDim * -r.gt5) (a := r.gt3 + L.y1 * r.gt5)
      (b := -(1 / 2 * -r.gt5)) (c := -(i * -r.gt5)) (a' := E.yStart) (b' := -R.rnd (1 / 2 * -r.gt5))
      (c' := -R.rnd (i * -r.gt5))
      (by rw [abs_neg, abs_neg, abs_of_nonneg i0, abs_of_pos (by linarith : 0 < 1 / 2 * -r.gt5)]
          linarith)
      (g3.trans (by gcongr; linarith))
      (by
        rw [← abs_neg, show -(-R.rnd (1 / 2 * -r.gt5) - -(1 / 2 * -r.gt5)) =
          R.rnd (1 / 2 * -r.gt5) - 1 / 2 * -r.gt5 by ring]
        exact R.err (by rw [abs_of_pos (by linarith : 0 < 1 / 2 * -r.gt5)]; linarith))
      (by
        rw [← abs_neg, show -(-R.rnd (i * -r.gt5) - -(i * -r.gt5)) =
          R.rnd (i * -r.gt5) - i * -r.gt5 by ring]
        exact R.err (by rw [abs_of_nonneg i0]; linarith))
    convert key using 2
    rw [RasterInfo.latCentre]
    simp only [neg_neg]
    push_cast
    ring_nf

/-! ### Examples -/

/-- 1/3 in double precision. -/
example : ieee.rnd (1 / 3) = 6004799503160661 / 2 ^ 54 := by
  have h : Int.log 2 |(1 / 3 : ℝ)| = -2 := by
    rw [abs_of_pos (by norm_num)]
    have h1 : Int.log 2 (1 / 3 : ℝ) < -1 := by
      rw [← Int.lt_zpow_iff_log_lt (by norm_num) (by norm_num)]
      norm_num
    have h2 : -2 ≤ Int.log 2 (1 / 3 : ℝ) := by
      rw [← Int.zpow_le_iff_le_log (by norm_num) (by norm_num)]
      norm_num
    omega
  have hu : ulpExp (1 / 3) = (54 : ℕ) := by
    unfold ulpExp
    rw [h]
    norm_num
  have ha : around ((1 / 3 : ℝ) * 2 ^ (54 : ℕ)) = 6004799503160661 := by
    apply around_eq_of_abs_lt
    rw [abs_lt]
    constructor <;> norm_num
  show rnd53 (1 / 3) = _
  unfold rnd53
  rw [hu, zpow_natCast, ha]
  norm_num

/-- A raster whose pixels have the width 0.1 of double precision, which is not 1/10. -/
noncomputable def exRasterFl : RasterInfo ℝ :=
  ⟨25, 13, 1435 / 10, 3602879701896397 / 2 ^ 55, -41, -(3602879701896397 / 2 ^ 55)⟩

theorem exRasterFl_moderate : exRasterFl.Moderate := by
  unfold RasterInfo.Moderate exRasterFl
  rw [abs_of_pos (by norm_num), abs_of_neg (by norm_num)]
  norm_num

/-- In double precision the tile with pixel (24, 12) is cut from the right place. -/
example (dem : Grid (Option ℝ)) : ∃ k L B,
    (TileGrid.initFl ieee (1 / 5) exRasterFl).getGridlimit k = .ok L ∧
    (TileGrid.initFl ieee (1 / 5) exRasterFl).getGridlimitBuffer k = .ok B ∧ L.Has 24 12 ∧
    (cutDemFl ieee exRasterFl dem ((TileGrid.initFl ieee (1 / 5) exRasterFl).extentFl ieee B) 0).val
      (12 - B.y1.toNat) (24 - B.x1.toNat) = (dem.val 12 24).getD 0 := by
  have h1 : 0 < exRasterFl.gt1 := by unfold exRasterFl; norm_num
  have h5 : exRasterFl.gt5 < 0 := by unfold exRasterFl; norm_num
  obtain ⟨k, -, L, B, hL, hB, hh, hb⟩ := C101_tiles ieee (1 / 5) exRasterFl h1 h5 (by norm_num)
    (by unfold exRasterFl; norm_num) (by unfold exRasterFl; norm_num) (by unfold exRasterFl; norm_num)
    (by unfold exRasterFl; norm_num) 24 12 (by norm_num) (by unfold exRasterFl; norm_num) (by norm_num)
    (by unfold exRasterFl; norm_num)
  have hB2 : B.Has 24 12 := hb 24 12 (by norm_num) (by unfold exRasterFl; norm_num) (by norm_num)
    (by unfold exRasterFl; norm_num) (by simp) (by simp)
  exact ⟨k, L, B, hL, hB, hh, (C101_dem_tile ieee (1 / 5) exRasterFl h1 h5 (by norm_num)
    exRasterFl_moderate dem 0 k L B hL hB).2.2 24 12 hB2⟩

/-- The tiles of another raster, with pixels of 1/8: the condition for disjointness holds. -/
example : TilesDisjoint (TileGrid.initFl ieee (1 / 4) ⟨20, 12, 144, 1 / 8, -41, -(1 / 8)⟩) := by
  have h8 : (TileGrid.initFl ieee (1 / 4) ⟨20, 12, 144, 1 / 8, -41, -(1 / 8)⟩).xStep = 8 ∧
      (TileGrid.initFl ieee (1 / 4) ⟨20, 12, 144, 1 / 8, -41, -(1 / 8)⟩).yStep = 8 ∧
      (TileGrid.initFl ieee (1 / 4) ⟨20, 12, 144, 1 / 8, -41, -(1 / 8)⟩).xBuffer = 2 ∧
      (TileGrid.initFl ieee (1 / 4) ⟨20, 12, 144, 1 / 8, -41, -(1 / 8)⟩).yBuffer = 2 := by
    have e8 := ieee.int 8 (by norm_num)
    have e2 := ieee.int 2 (by norm_num)
    have a8 : (1 : ℝ) / (1 / 8) = ((8 : ℤ) : ℝ) := by norm_num
    have a2 : (1 / 4 : ℝ) / (1 / 8) = ((2 : ℤ) : ℝ) := by norm_num
    have p2 : pyInt ((2 : ℤ) : ℝ) = 2 := by rw [pyInt, if_pos (by norm_num), Int.floor_intCast]
    simp only [TileGrid.initFl, neg_neg, a8, a2, e8, e2, p2, Int.ceil_intCast, and_self]
  obtain ⟨h1, h2, h3, h4⟩ := h8
  apply C101_disjoint <;> (try simp only [h1, h2, h3, h4]) <;> first | omega | norm_num

/-- The core of a tile of `exRasterFl`, clipped from an array on the buffered tile, and its coordinates. -/
example (whole data : Grid ℝ) (k : ℕ) (L B : Limits)
    (hL : (TileGrid.initFl ieee (1 / 5) exRasterFl).getGridlimit k = .ok L)
    (hB : (TileGrid.initFl ieee (1 / 5) exRasterFl).getGridlimitBuffer k = .ok B)
    (hrows : (data.rows : ℤ) = B.y2 - B.y1) (hcols : (data.cols : ℤ) = B.x2 - B.x1)
    (hdata : ∀ i j, data.val i j = whole.val (B.y1.toNat + i) (B.x1.toNat + j)) :
    let g := TileGrid.initFl ieee (1 / 5) exRasterFl
    let clip := clipArrayFl ieee data (g.extentFl ieee B).xStart (-(g.extentFl ieee B).yStart)
      exRasterFl.gt1 (-exRasterFl.gt5) (g.extentFl ieee L)
    (clip.cols : ℤ) = L.x2 - L.x1 ∧
    (∀ i j, clip.val i j = whole.val (L.y1.toNat + i) (L.x1.toNat + j)) ∧
    ∀ (j : ℕ) (x : ℝ), (getLatLonFl ieee (g.extentFl ieee L) exRasterFl.gt1 (-exRasterFl.gt5)).1[j]?
      = some x → |x - exRasterFl.lonCentre (L.x1 + j)| < 1 / 10 ^ 12 := by
  have h1 : 0 < exRasterFl.gt1 := by unfold exRasterFl; norm_num
  have h5 : exRasterFl.gt5 < 0 := by unfold exRasterFl; norm_num
  have hc := C101_clip ieee (1 / 5) exRasterFl h1 h5 (by norm_num) exRasterFl_moderate k whole data L B
    ((TileGrid.initFl ieee (1 / 5) exRasterFl).extentFl ieee B).xStart
    (-((TileGrid.initFl ieee (1 / 5) exRasterFl).extentFl ieee B).yStart) hL hB hrows hcols hdata
    (by rw [sub_self, abs_zero]; linarith) (by rw [neg_neg, sub_self, abs_zero]; linarith)
  refine ⟨hc.2.1, hc.2.2.1, fun j x hx => ?_⟩
  refine ((C101_coordinates ieee (1 / 5) exRasterFl h1 h5 (by norm_num) exRasterFl_moderate k L hL).2.2.1
    j x hx).trans_lt ?_
  unfold exRasterFl
  rw [abs_of_pos (by norm_num)]
  norm_num

end WindMult
