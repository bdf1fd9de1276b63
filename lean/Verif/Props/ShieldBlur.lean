import Verif.Proofs.Kernel
import Verif.Props.ShieldCell
import Verif.Props.Tiles

/-!
# C31–C33, C37, C70: the shielding convolution
-/

set_option linter.unusedSectionVars false
set_option autoImplicit false

namespace WindMult
open Finset
variable {K : Type} [Field K] [LinearOrder K] [IsStrictOrderedRing K] [FloorRing K]

/-! ### C31 -/

/-- **C31** For every direction and size at least 1 the kernel entries are not negative, sum to 1
and the centre is zero. -/
theorem C31_kernel_is_mean (d : Dir) (k : ℕ) (hk : 1 ≤ k) :
    (kern d k : Grid K).rows = 2 * k + 1 ∧ (kern d k : Grid K).cols = 2 * k + 1 ∧
    (∀ a ≤ 2 * k, ∀ b ≤ 2 * k, 0 ≤ (kern d k : Grid K).val a b) ∧
    (∑ a ∈ range (2 * k + 1), ∑ b ∈ range (2 * k + 1), (kern d k : Grid K).val a b) = 1 ∧
    (kern d k : Grid K).val k k = 0 := by
  obtain ⟨r, c, v⟩ := kern_spec (K := K) d k hk
  have hp := card_pos' (K := K) d k hk
  refine ⟨r, c, ?_, ?_, ?_⟩
  · intro a ha b hb
    rw [v a b (by omega) (by omega)]
    split_ifs
    · positivity
    · exact le_rfl
  · have h := sum_reflect k _ (shieldCells_bounds d k)
      (fun _ => 1 / ((shieldCells d k).card : K))
    rw [Finset.sum_const, nsmul_eq_mul, mul_one_div, div_self hp.ne'] at h
    rw [← h]
    apply Finset.sum_congr rfl
    intro a ha
    apply Finset.sum_congr rfl
    intro b hb
    exact v a b (mem_range.mp ha) (mem_range.mp hb)
  · rw [v k k (by omega) (by omega), if_neg]
    simp only [shieldCells, mem_filter, sub_self]
    cases d <;> norm_num [Dir.north, Dir.east]

/-- **C31** (direction) A nonzero entry `(a, b)`, which convolution applies to the cell
`(k - a, k - b)` rows and columns away, belongs to a cell upwind of the site. -/
theorem C31_kernel_is_upwind (d : Dir) (k : ℕ) (hk : 1 ≤ k) (a b : ℕ) (ha : a ≤ 2 * k)
    (hb : b ≤ 2 * k) (h : (kern d k : Grid K).val a b ≠ 0) :
    0 < -((k : ℤ) - a) * d.north + ((k : ℤ) - b) * d.east := by
  obtain ⟨-, -, v⟩ := kern_spec (K := K) d k hk
  rw [v a b (by omega) (by omega)] at h
  have hmem : ((k : ℤ) - a, (k : ℤ) - b) ∈ shieldCells d k := by
    by_contra hn
    exact h (if_neg hn)
  have h2 := (mem_filter.mp hmem).2
  cases d <;> norm_num [Dir.north, Dir.east] at h2 ⊢ <;> omega

theorem padded_eq (im : Grid (Option K)) (r c : ℤ) :
    im.padded (some 1) r c = im.cellOrOne r c := rfl

/-- **C31** (result) Convolution with the kernel of direction `d` gives the mean over the shielding
cells, with value 1 outside the raster; NaN exactly if one of those cells is NaN. -/
theorem C31_blur_is_sector_mean (d : Dir) (k : ℕ) (hk : 1 ≤ k) (im : Grid (Option K)) (i j : ℕ) :
    (blurImage im (kern d k)).val i j = shieldMean im d k i j := by
  obtain ⟨r, c, v⟩ := kern_spec (K := K) d k hk
  have hp := card_pos' (K := K) d k hk
  have hhalf : (2 * k + 1) / 2 = k := by omega
  have hne : ∀ a b, a < 2 * k + 1 → b < 2 * k + 1 → ((kern d k : Grid K).val a b ≠ 0 ↔
      ((k : ℤ) - a, (k : ℤ) - b) ∈ shieldCells d k) := by
    intro a b ha hb
    rw [v a b ha hb]
    split_ifs with h
    · simp [h, hp.ne']
    · simp [h]
  unfold shieldMean blurImage
  split_ifs with hex
  · obtain ⟨o, ho, hnone⟩ := hex
    have hb := shieldCells_bounds d k o ho
    apply ndConvolve_none
    refine ⟨((k : ℤ) - o.1).toNat, by omega, ((k : ℤ) - o.2).toNat, by omega, ?_, ?_⟩
    · rw [hne _ _ (by omega) (by omega)]
      have e1 : (k : ℤ) - (((k : ℤ) - o.1).toNat : ℤ) = o.1 := by omega
      have e2 : (k : ℤ) - (((k : ℤ) - o.2).toNat : ℤ) = o.2 := by omega
      rw [e1, e2]
      exact ho
    · rw [padded_eq, r, c, hhalf, ← hnone]
      congr 1 <;> omega
  · push Not at hex
    rw [ndConvolve_some (1 : K) im (kern d k) i j
      (fun a b => (im.cellOrOne ((i : ℤ) + (k - a)) ((j : ℤ) + (k - b))).getD 0)]
    · rw [r, c]
      have h := sum_reflect k _ (shieldCells_bounds d k) (fun o =>
        1 / ((shieldCells d k).card : K) * (im.cellOrOne ((i : ℤ) + o.1) ((j : ℤ) + o.2)).getD 0)
      rw [← Finset.mul_sum, one_div_mul_eq_div] at h
      rw [← h]
      congr 1
      apply Finset.sum_congr rfl
      intro a ha
      apply Finset.sum_congr rfl
      intro b hb
      rw [v a b (mem_range.mp ha) (mem_range.mp hb)]
      split_ifs <;> simp
    · intro a ha b hb hw
      rw [r] at ha
      rw [c] at hb
      have hmem := (hne a b ha hb).mp hw
      have := hex _ hmem
      rw [padded_eq, r, c, hhalf]
      simp only at this
      have e1 : (i : ℤ) + (k : ℕ) - a = i + (k - a) := by ring
      have e2 : (j : ℤ) + (k : ℕ) - b = j + (k - b) := by ring
      rw [e1, e2]
      cases hc : im.cellOrOne ((i : ℤ) + (k - a)) ((j : ℤ) + (k - b)) with
      | none => exact absurd hc this
      | some x => rfl

example : (blurImage (⟨3, 3, fun i _ => some (if i = 0 then 1 / 2 else 1)⟩ : Grid (Option ℚ))
    (kern .n 2)).val 2 1 = some (5 / 8) := by decide +kernel

/-! ### C32 -/

/-- **C32** Shielding values from an interval containing 1 stay in the interval. -/
theorem C32_blur_in_range (d : Dir) (k : ℕ) (hk : 1 ≤ k) (im : Grid (Option K)) (lo hi : K)
    (h1 : lo ≤ 1) (h2 : 1 ≤ hi)
    (hall : ∀ a < im.rows, ∀ b < im.cols, ∃ v, im.val a b = some v ∧ lo ≤ v ∧ v ≤ hi) (i j : ℕ) :
    ∃ v, (blurImage im (kern d k)).val i j = some v ∧ lo ≤ v ∧ v ≤ hi := by
  have hp := card_pos' (K := K) d k hk
  have hcell : ∀ r c : ℤ, ∃ v, im.cellOrOne r c = some v ∧ lo ≤ v ∧ v ≤ hi := by
    intro r c
    unfold Grid.cellOrOne
    split_ifs with h
    · obtain ⟨x1, x2, x3, x4⟩ := h
      exact hall _ (by omega) _ (by omega)
    · exact ⟨1, rfl, h1, h2⟩
  rw [C31_blur_is_sector_mean d k hk]
  unfold shieldMean
  rw [if_neg]
  · refine ⟨_, rfl, ?_⟩
    have hb : ∀ o ∈ shieldCells d k, lo ≤ (im.cellOrOne (i + o.1) (j + o.2)).getD 0 ∧
        (im.cellOrOne (i + o.1) (j + o.2)).getD 0 ≤ hi := by
      intro o _
      obtain ⟨v, hv, hlo, hhi⟩ := hcell (i + o.1) (j + o.2)
      rw [hv]
      exact ⟨hlo, hhi⟩
    rw [le_div_iff₀ hp, div_le_iff₀ hp]
    constructor
    · have := Finset.card_nsmul_le_sum _ _ lo (fun o ho => (hb o ho).1)
      rw [nsmul_eq_mul] at this
      linarith
    · have := Finset.sum_le_card_nsmul _ _ hi (fun o ho => (hb o ho).2)
      rw [nsmul_eq_mul] at this
      linarith
  · rintro ⟨o, _, ho⟩
    obtain ⟨v, hv, -⟩ := hcell (i + o.1) (j + o.2)
    rw [hv] at ho
    simp at ho

/-- **C32** An unshielded raster stays unshielded, edges included, and through the slope step. -/
theorem C32_unshielded_stays (d : Dir) (k : ℕ) (hk : 1 ≤ k) (im slope : Grid (Option K))
    (aspect : Grid ℕ) (hall : ∀ a < im.rows, ∀ b < im.cols, im.val a b = some 1) (i j : ℕ) :
    (blurImage im (kern d k)).val i j = some 1 ∧
    (combine d (blurImage im (kern d k)) slope aspect).val i j = some 1 := by
  obtain ⟨v, hv, h1, h2⟩ := C32_blur_in_range d k hk im 1 1 le_rfl le_rfl
    (fun a ha b hb => ⟨1, hall a ha b hb, le_rfl, le_rfl⟩) i j
  have : v = 1 := le_antisymm h2 h1
  subst this
  refine ⟨hv, ?_⟩
  simp only [combine, hv, combine_value]
  simp only [slopeAdjusted, sub_self, zero_mul, add_zero, ite_self]
  norm_num

example : ∀ a < 4, ∀ b < 4, ∃ v, (⟨4, 4, fun i j => some (1 / (1 + i + j : ℚ))⟩ :
    Grid (Option ℚ)).val a b = some v ∧ 1 / 8 ≤ v ∧ v ≤ 1 := by
  intro a ha b hb
  have ha' : (a : ℚ) ≤ 3 := by exact_mod_cast (by omega : a ≤ 3)
  have hb' : (b : ℚ) ≤ 3 := by exact_mod_cast (by omega : b ≤ 3)
  have : (0 : ℚ) < 1 + a + b := by positivity
  refine ⟨_, rfl, ?_, ?_⟩
  · rw [div_le_div_iff₀ (by norm_num) this]; linarith
  · rw [div_le_one this]
    have := a.cast_nonneg (α := ℚ)
    have := b.cast_nonneg (α := ℚ)
    linarith

/-! ### C33 -/

/-- Specification: the part of a raster inside limits `B`, as its own raster. -/
def Grid.cut {α : Type} (g : Grid α) (B : Limits) : Grid α where
  rows := (B.y2 - B.y1).toNat
  cols := (B.x2 - B.x1).toNat
  val := fun i j => g.val (B.y1.toNat + i) (B.x1.toNat + j)

/-- **C33** If the buffer is at least the kernel size, blurring the buffered tile gives on every cell
of the tile what blurring the whole raster gives. -/
theorem C33_shielding_seamless (up : K) (r : RasterInfo K) (hpw : 0 < r.gt1) (hph : r.gt5 < 0)
    (hup : 0 ≤ up) (whole : Grid (Option K)) (hrows : whole.rows = r.yDim)
    (hcols : whole.cols = r.xDim) (d : Dir) (k : ℕ) (hk : 1 ≤ k)
    (hbx : (k : ℤ) ≤ (TileGrid.init up r).xBuffer) (hby : (k : ℤ) ≤ (TileGrid.init up r).yBuffer)
    (t : ℕ) (L B : Limits) (hL : (TileGrid.init up r).getGridlimit t = .ok L)
    (hB : (TileGrid.init up r).getGridlimitBuffer t = .ok B) (px py : ℕ) (hp : L.Has px py) :
    (blurImage (whole.cut B) (kern d k)).val (py - B.y1.toNat) (px - B.x1.toNat) =
      (blurImage whole (kern d k)).val py px := by
  have ht : t < (TileGrid.init up r).numTiles :=
    (C01_gridlimit_defined_iff up r t).mp ⟨L, hL⟩
  obtain ⟨L', B', h1, h2, ⟨a0, a1, a2, a3, a4⟩, ⟨b0, b1, b2, b3, b4⟩, c1, c2, c3, c4⟩ :=
    C03_buffer_surrounds_core up r hpw hph hup t ht
  rw [hL] at h1; rw [hB] at h2
  cases h1; cases h2
  obtain ⟨p1, p2, p3, p4⟩ := hp
  generalize (TileGrid.init up r).xBuffer = bx at *
  generalize (TileGrid.init up r).yBuffer = by' at *
  rw [C31_blur_is_sector_mean d k hk, C31_blur_is_sector_mean d k hk]
  have hcell : ∀ o ∈ shieldCells d k,
      (whole.cut B).cellOrOne (((py - B.y1.toNat : ℕ) : ℤ) + o.1) (((px - B.x1.toNat : ℕ) : ℤ) + o.2)
        = whole.cellOrOne (py + o.1) (px + o.2) := by
    intro o ho
    have hb := shieldCells_bounds d k o ho
    unfold Grid.cellOrOne
    have hwr : ((whole.cut B).rows : ℤ) = B.y2 - B.y1 := by simp [Grid.cut]; omega
    have hwc : ((whole.cut B).cols : ℤ) = B.x2 - B.x1 := by simp [Grid.cut]; omega
    by_cases hin : InRaster whole.rows whole.cols (py + o.1) (px + o.2)
    · obtain ⟨q1, q2, q3, q4⟩ := hin
      rw [if_pos (show InRaster _ _ (_ + _) (_ + _) from ⟨by omega, by omega, by omega, by omega⟩),
        if_pos ⟨q1, q2, q3, q4⟩]
      simp only [Grid.cut]
      congr 1 <;> omega
    · rw [if_neg hin, if_neg]
      rintro ⟨q1, q2, q3, q4⟩
      exact hin ⟨by omega, by omega, by omega, by omega⟩
  unfold shieldMean
  have hex : (∃ o ∈ shieldCells d k, (whole.cut B).cellOrOne (((py - B.y1.toNat : ℕ) : ℤ) + o.1)
        (((px - B.x1.toNat : ℕ) : ℤ) + o.2) = none) ↔
      ∃ o ∈ shieldCells d k, whole.cellOrOne (py + o.1) (px + o.2) = none := by
    constructor
    · rintro ⟨o, ho, h⟩; exact ⟨o, ho, (hcell o ho) ▸ h⟩
    · rintro ⟨o, ho, h⟩; exact ⟨o, ho, (hcell o ho).trans h⟩
  by_cases h : ∃ o ∈ shieldCells d k, whole.cellOrOne (py + o.1) (px + o.2) = none
  · rw [if_pos (hex.mpr h), if_pos h]
  · rw [if_neg (fun h' => h (hex.mp h')), if_neg h]
    congr 2
    exact Finset.sum_congr rfl fun o ho => by rw [hcell o ho]

example : ((2 : ℕ) : ℤ) ≤ (TileGrid.init (1 / 5) exRaster).xBuffer ∧
    ((2 : ℕ) : ℤ) ≤ (TileGrid.init (1 / 5) exRaster).yBuffer := by decide +kernel

/-! ### C37, C70: the direction loop -/

/-- For a kernel of at least one cell every direction is computed from the initial shielding. -/
theorem convoCombineLoop_pos (ks : ℤ) (hk : 0 < ks) (slope : Grid (Option K)) (aspect : Grid ℕ)
    (clip : Grid (Option K) → Grid (Option K)) (ds : List Dir) (data : Grid (Option K)) :
    convoCombineLoop ks slope aspect clip ds data =
      ds.map fun d => (d, clip (combine d (blurImage data (kern d ks.toNat)) slope aspect)) := by
  induction ds with
  | nil => rfl
  | cons d ds ih => simp only [convoCombineLoop, hk, if_true, List.map_cons, ih]

/-- **C37** (part) On grids of at most 100 m a cell of the shielding output is NaN exactly if one of
the cells that shield it is no-data.  Missing: that a no-data cell itself is NaN in the output, which
is false, `C37_nodata_lost`. -/
theorem C37_nan_iff_shielding_cell_nan_partial (gw : K) (h0 : 0 < gw) (h100 : gw ≤ 100)
    (data slope : Grid (Option K)) (aspect : Grid ℕ) (d : Dir) (out : Grid (Option K))
    (hout : (d, out) ∈ convoCombine gw data slope aspect id) (i j : ℕ) :
    out.val i j = none ↔ ∃ o ∈ shieldCells d ⌊100 / gw⌋.toNat,
      data.cellOrOne (i + o.1) (j + o.2) = none := by
  have h1 : (1 : K) ≤ 100 / gw := by rw [le_div_iff₀ h0]; linarith
  have hfl : (1 : ℤ) ≤ ⌊100 / gw⌋ := Int.le_floor.mpr (by exact_mod_cast h1)
  unfold convoCombine at hout
  rw [pyInt, if_pos (by linarith), convoCombineLoop_pos _ (by omega)] at hout
  simp only [List.mem_map, Prod.mk.injEq, id] at hout
  obtain ⟨d', -, rfl, rfl⟩ := hout
  rw [(C36_nan_preserved d' _ slope aspect).2.2 i j, C31_blur_is_sector_mean d' _ (by omega)]
  unfold shieldMean
  split_ifs with h <;> simp [h]

/-- **C37** (part) On coarser grids (no convolution) no-data is NaN in every direction. -/
theorem C37_coarse_grid_nan_partial (gw : K) (h100 : 100 < gw)
    (data slope : Grid (Option K)) (aspect : Grid ℕ) (d : Dir) (out : Grid (Option K))
    (hout : (d, out) ∈ convoCombine gw data slope aspect id) (i j : ℕ) :
    out.val i j = none ↔ data.val i j = none := by
  have hfl : ⌊100 / gw⌋ = 0 := by
    rw [Int.floor_eq_zero_iff]
    exact ⟨by positivity, by rw [div_lt_one (by linarith)]; exact h100⟩
  unfold convoCombine at hout
  rw [pyInt, if_pos (by positivity), hfl] at hout
  generalize Dir.terrainOrder = ds at hout
  induction ds generalizing data with
  | nil => simp [convoCombineLoop] at hout
  | cons x ds ih =>
    simp only [convoCombineLoop, lt_irrefl, if_false, List.mem_cons, id] at hout
    rcases hout with hout | hout
    · cases hout
      exact (C36_nan_preserved d _ slope aspect).2.2 i j
    · refine (ih _ hout).trans ?_
      exact (C36_nan_preserved x _ slope aspect).2.2 i j

/-- **C37 is false of the code**: with 100 m cells a single no-data cell gets a value in the output
for wind from the west. -/
theorem C37_nodata_lost :
    ¬ ∀ (gw : ℚ) (data slope : Grid (Option ℚ)) (aspect : Grid ℕ) (d : Dir) (out : Grid (Option ℚ)),
      0 < gw → (d, out) ∈ convoCombine gw data slope aspect id →
      ∀ i < data.rows, ∀ j < data.cols, data.val i j = none → out.val i j = none := by
  intro h
  have hw : ((convoCombine (100 : ℚ) ⟨1, 2, fun _ j => if j = 0 then none else some 1⟩
      ⟨1, 2, fun _ _ => some 0⟩ ⟨1, 2, fun _ _ => 9⟩ id).any
      fun p => decide (p.1 = Dir.w) && decide (p.2.val 0 0 = some 1)) = true := by decide +kernel
  obtain ⟨⟨d, out⟩, hmem, hp⟩ := List.any_eq_true.mp hw
  simp only [Bool.and_eq_true, decide_eq_true_eq] at hp
  have := h 100 _ _ _ d out (by norm_num) hmem 0 (by norm_num) 0 (by norm_num) rfl
  rw [this] at hp
  simp at hp

/-- **C70** (part) On grids of at most 100 m each of the eight outputs is the slope-adjusted mean of
the *initial* shielding over that direction's shielding cells: directions do not influence each
other.  Missing: coarser grids, where it is false, `C70_directions_compound`. -/
theorem C70_directions_independent_partial (gw : K) (h0 : 0 < gw) (h100 : gw ≤ 100)
    (data slope : Grid (Option K)) (aspect : Grid ℕ) (clip : Grid (Option K) → Grid (Option K)) :
    ∃ result : Dir → Grid (Option K),
      convoCombine gw data slope aspect clip =
        [.w, .e, .n, .s, .nw, .ne, .se, .sw].map (fun d => (d, clip (result d))) ∧
      ∀ d, (result d).rows = data.rows ∧ (result d).cols = data.cols ∧
        ∀ i j, (result d).val i j =
          combineCell d (shieldMean data d ⌊100 / gw⌋.toNat i j) (slope.val i j)
            (aspect.val i j) := by
  have h1 : (1 : K) ≤ 100 / gw := by rw [le_div_iff₀ h0]; linarith
  have hfl : (1 : ℤ) ≤ ⌊100 / gw⌋ := Int.le_floor.mpr (by exact_mod_cast h1)
  refine ⟨fun d => combine d (blurImage data (kern d ⌊100 / gw⌋.toNat)) slope aspect, ?_, ?_⟩
  · unfold convoCombine
    rw [pyInt, if_pos (by linarith), convoCombineLoop_pos _ (by omega)]
    rfl
  · intro d
    refine ⟨rfl, rfl, fun i j => ?_⟩
    simp only [combine]
    rw [C31_blur_is_sector_mean d _ (by omega)]

example : (0 : ℚ) < 25 ∧ (25 : ℚ) ≤ 100 ∧ ⌊(100 : ℚ) / 25⌋.toNat = 4 := by
  refine ⟨by norm_num, by norm_num, by decide +kernel⟩

/-- **C70 is false of the code** for grids coarser than 100 m: the array is modified in place, so on
flat ground a shielding value below 0.9 is multiplied by 0.9 once more for every further direction –
the direction in position `n` gets `0.9 ^ (n + 1)` times the initial value. -/
theorem C70_directions_compound (gw : K) (h100 : 100 < gw) (m : K) (hm0 : 0 ≤ m) (hm : m < 0.9)
    (aspect : Grid ℕ) (rows cols : ℕ) (n : ℕ) (d : Dir) (out : Grid (Option K))
    (hout : (convoCombine gw ⟨rows, cols, fun _ _ => some m⟩ ⟨rows, cols, fun _ _ => some 0⟩ aspect
      id)[n]? = some (d, out)) (i j : ℕ) :
    out.val i j = some (m * 0.9 ^ (n + 1)) := by
  have hfl : ⌊100 / gw⌋ = 0 := by
    rw [Int.floor_eq_zero_iff]
    exact ⟨by positivity, by rw [div_lt_one (by linarith)]; exact h100⟩
  unfold convoCombine at hout
  rw [pyInt, if_pos (by positivity), hfl] at hout
  generalize Dir.terrainOrder = ds at hout
  have step : ∀ (x : Dir) (m : K), m < 0.9 →
      combine x ⟨rows, cols, fun _ _ => some m⟩ ⟨rows, cols, fun _ _ => some 0⟩ aspect
        = ⟨rows, cols, fun _ _ => some (m * 0.9)⟩ := by
    intro x m hm
    unfold combine
    congr 1
    funext i j
    rw [combine_value]
    have hz : slopeWeight (some (0 : K)) = 0 := by rw [slopeWeight_eq]; norm_num
    simp only [slopeAdjusted, hz, mul_zero, add_zero, ite_self, if_pos hm]
  induction ds generalizing m n with
  | nil => simp [convoCombineLoop] at hout
  | cons x ds ih =>
    simp only [convoCombineLoop, lt_irrefl, if_false, id] at hout
    rw [step x m hm] at hout
    cases n with
    | zero =>
      simp only [List.getElem?_cons_zero, Option.some.injEq, Prod.mk.injEq] at hout
      rw [← hout.2]
      simp
    | succ n =>
      rw [List.getElem?_cons_succ] at hout
      have h9 : m * 0.9 < (0.9 : K) := by norm_num at *; linarith
      have := ih (m * 0.9) (by norm_num at *; linarith) h9 n hout
      rw [this]
      congr 1
      ring

/-- Concretely: on a 200 m grid with shielding 0.5 the output for west is 0.45, for east 0.405. -/
example : ((convoCombine (200 : ℚ) ⟨1, 1, fun _ _ => some (1 / 2)⟩ ⟨1, 1, fun _ _ => some 0⟩
    ⟨1, 1, fun _ _ => 9⟩ id).map fun p => p.2.val 0 0).take 2 =
    [some (45 / 100), some (405 / 1000)] := by decide +kernel

/-- The same as a negation: on grids coarser than 100 m (where nothing is to be averaged) it is not
the case that every output is the slope-adjusted initial shielding. -/
theorem C70_not_independent :
    ¬ ∀ (gw : ℚ) (data slope : Grid (Option ℚ)) (aspect : Grid ℕ) (d : Dir) (out : Grid (Option ℚ)),
      100 < gw → (d, out) ∈ convoCombine gw data slope aspect id →
      ∀ i < data.rows, ∀ j < data.cols,
        out.val i j = combineCell d (data.val i j) (slope.val i j) (aspect.val i j) := by
  intro h
  have hw : ((convoCombine (200 : ℚ) ⟨1, 1, fun _ _ => some (1 / 2)⟩ ⟨1, 1, fun _ _ => some 0⟩
      ⟨1, 1, fun _ _ => 9⟩ id).any
      fun p => decide (p.1 = Dir.e) && decide (p.2.val 0 0 = some (405 / 1000))) = true := by
    decide +kernel
  obtain ⟨⟨d, out⟩, hmem, hp⟩ := List.any_eq_true.mp hw
  simp only [Bool.and_eq_true, decide_eq_true_eq] at hp
  obtain ⟨rfl, hp⟩ := hp
  have := h 200 _ _ _ _ out (by norm_num) hmem 0 (by norm_num) 0 (by norm_num)
  rw [hp] at this
  revert this
  decide +kernel

end WindMult
