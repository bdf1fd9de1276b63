import Verif.Props.Terrain
import Verif.Model.TerrainFormula
import Mathlib.Analysis.Complex.ExponentialBounds

/-!
# C26–C28: reclassification, roughness formula, no-data
-/

set_option linter.unusedSectionVars false
set_option autoImplicit false

namespace WindMult
variable {K : Type} [Field K] [LinearOrder K] [IsStrictOrderedRing K] [FloorRing K]

/-! ### C26 -/

theorem terrainClass2mz_append {C : Type} [DecidableEq C] (mz : K → K) (data : Grid C)
    (table : List (TerrainRow C K)) (row : TerrainRow C K) (i j : ℕ) :
    (terrainClass2mz mz data (table ++ [row])).val i j =
      if data.val i j = row.category then mz row.roughness
      else (terrainClass2mz mz data table).val i j := by
  simp only [terrainClass2mz, List.foldl_append, List.foldl_cons, List.foldl_nil]

theorem terrainClass2mz_shape {C : Type} [DecidableEq C] (mz : K → K) (data : Grid C)
    (table : List (TerrainRow C K)) :
    (terrainClass2mz mz data table).rows = data.rows ∧
    (terrainClass2mz mz data table).cols = data.cols := by
  induction table using List.reverseRecOn with
  | nil => exact ⟨rfl, rfl⟩
  | append_singleton t r ih =>
    simp only [terrainClass2mz, List.foldl_append, List.foldl_cons, List.foldl_nil] at ih ⊢
    exact ih

/-- **C26** A cell whose category occurs in the table gets the multiplier of the last row with
that category. -/
theorem C26_last_matching_row {C : Type} [DecidableEq C] (mz : K → K) (data : Grid C)
    (before after : List (TerrainRow C K)) (row : TerrainRow C K) (i j : ℕ)
    (hrow : row.category = data.val i j) (hafter : ∀ r ∈ after, r.category ≠ data.val i j) :
    (terrainClass2mz mz data (before ++ row :: after)).val i j = mz row.roughness := by
  induction after using List.reverseRecOn with
  | nil =>
    rw [terrainClass2mz_append, if_pos hrow.symm]
  | append_singleton l r ih =>
    rw [← List.cons_append, ← List.append_assoc, terrainClass2mz_append, if_neg]
    · exact ih fun r' hr' => hafter r' (by simp [hr'])
    · exact fun h => hafter r (by simp) h.symm

/-- **C26** A cell whose category is in no row gets 0. -/
theorem C26_unknown_category {C : Type} [DecidableEq C] (mz : K → K) (data : Grid C)
    (table : List (TerrainRow C K)) (i j : ℕ) (h : ∀ r ∈ table, r.category ≠ data.val i j) :
    (terrainClass2mz mz data table).val i j = 0 := by
  induction table using List.reverseRecOn with
  | nil => rfl
  | append_singleton l r ih =>
    rw [terrainClass2mz_append, if_neg (fun e => h r (by simp) e.symm)]
    exact ih fun r' hr' => h r' (by simp [hr'])

example : (terrainClass2mz (fun z : ℚ => 1 - z) (⟨1, 2, fun _ j => j⟩ : Grid ℕ)
      [⟨1, 1 / 10⟩, ⟨1, 2 / 10⟩, ⟨7, 0⟩]).val 0 1 = 8 / 10 ∧
    (terrainClass2mz (fun z : ℚ => 1 - z) (⟨1, 2, fun _ j => j⟩ : Grid ℕ)
      [⟨1, 1 / 10⟩, ⟨1, 2 / 10⟩, ⟨7, 0⟩]).val 0 0 = 0 := by decide +kernel

theorem mem_cells {α : Type} (g : Grid α) (v : α) :
    v ∈ g.cells ↔ ∃ i < g.rows, ∃ j < g.cols, g.val i j = v := by
  simp [Grid.cells]

/-- **C26** A raster (with at least one cell) in which no cell has a known category produces no
terrain output and no error. -/
theorem C26_no_known_category_no_output {C : Type} [DecidableEq C] (mz : K → K) (gw : K)
    (data : Grid C) (table : List (TerrainRow C K)) (clip : Grid (Option K) → Grid (Option K))
    (hr : 0 < data.rows) (hc : 0 < data.cols)
    (h : ∀ i < data.rows, ∀ j < data.cols, ∀ r ∈ table, r.category ≠ data.val i j) :
    terrain mz gw data table clip = ([], .ok ()) := by
  obtain ⟨s1, s2⟩ := terrainClass2mz_shape mz data table
  have hall : ∀ v ∈ (terrainClass2mz mz data table).cells, v = 0 := by
    intro v hv
    obtain ⟨i, hi, j, hj, rfl⟩ := (mem_cells _ _).mp hv
    exact C26_unknown_category mz data table i j (h i (s1 ▸ hi) j (s2 ▸ hj))
  have h0 : (0 : K) ∈ (terrainClass2mz mz data table).cells :=
    (mem_cells _ _).mpr ⟨0, s1.symm ▸ hr, 0, s2.symm ▸ hc,
      C26_unknown_category mz data table 0 0 (h 0 hr 0 hc)⟩
  have hmax : (terrainClass2mz mz data table).cells.max? = some 0 := by
    rw [List.max?_eq_some_iff]
    exact ⟨h0, fun b hb => (hall b hb).le⟩
  unfold terrain
  simp only [hmax, if_true]

/-! ### C27 -/

/-- **C27** The initial multiplier strictly decreases with the roughness length, wherever the
formula is defined (roughness positive, inner logarithm's argument positive). -/
theorem C27_rougher_is_lower (a b : ℝ) (ha : 0 < a)
    (hdef : 0 < (4554 / 10000) * Real.log a + 3734 / 1000) (hab : a < b) :
    mzFormula b < mzFormula a := by
  have h1 : Real.log a < Real.log b := Real.log_lt_log ha hab
  have h2 : Real.log ((4554 / 10000) * Real.log a + 3734 / 1000)
      < Real.log ((4554 / 10000) * Real.log b + 3734 / 1000) :=
    Real.log_lt_log hdef (by linarith)
  unfold mzFormula
  linarith

/-- The formula is defined for every roughness of at least 0.001 m. -/
theorem mz_defined {a : ℝ} (ha : 1 / 1000 ≤ a) :
    0 < (4554 / 10000) * Real.log a + 3734 / 1000 := by
  have h1 : Real.log (1 / 1000) ≤ Real.log a := Real.log_le_log (by norm_num) ha
  have h2 : Real.log (1 / 1000) = -Real.log 1000 := by rw [one_div, Real.log_inv]
  have h3 : Real.log 1000 ≤ Real.log (2 ^ 10) := Real.log_le_log (by norm_num) (by norm_num)
  rw [Real.log_pow] at h3
  have := Real.log_two_lt_d9
  push_cast at h3
  linarith

example : (0 : ℝ) < 1 / 500 ∧ 0 < (4554 / 10000) * Real.log (1 / 500) + 3734 / 1000 ∧
    (1 / 500 : ℝ) < 2 := ⟨by norm_num, mz_defined (by norm_num), by norm_num⟩

theorem log_3734_lower : 1.31483 < Real.log 3.734 := by
  have h : Real.log 3.734 = 2 * Real.log 2 + Real.log (3.734 / 4) := by
    rw [Real.log_div (by norm_num) (by norm_num), show (4 : ℝ) = 2 ^ 2 by norm_num, Real.log_pow]
    push_cast; ring
  have h1 : 1 - (3.734 / 4 : ℝ)⁻¹ ≤ Real.log (3.734 / 4) :=
    Real.one_sub_inv_le_log_of_pos (by norm_num)
  have := Real.log_two_gt_d9
  rw [h]
  norm_num at h1 ⊢
  linarith

theorem log_3734_upper : Real.log 3.734 < 1.3180 := by
  rw [Real.log_lt_iff_lt_exp (by norm_num)]
  have h1 : (1.3180 : ℝ) = 1 + 4 * 0.0795 := by norm_num
  have h2 : (1 + 0.0795 + 0.0795 ^ 2 / 2 : ℝ) ≤ Real.exp 0.0795 :=
    Real.quadratic_le_exp_of_nonneg (by norm_num)
  have h3 : (1 + 0.0795 + 0.0795 ^ 2 / 2 : ℝ) ^ 4 ≤ Real.exp 0.0795 ^ 4 :=
    pow_le_pow_left₀ (by norm_num) h2 4
  have h4 : Real.exp (4 * 0.0795) = Real.exp 0.0795 ^ 4 := by
    rw [← Real.exp_nat_mul]; norm_num
  rw [h1, Real.exp_add, h4]
  have h5 := Real.exp_one_gt_d9
  calc (3.734 : ℝ) < 2.7182818283 * (1 + 0.0795 + 0.0795 ^ 2 / 2) ^ 4 := by norm_num
    _ ≤ Real.exp 1 * Real.exp 0.0795 ^ 4 :=
      mul_le_mul h5.le h3 (by positivity) (Real.exp_pos 1).le

/-- **C27** At 1 m roughness the initial multiplier is 0.704 to three digits. -/
theorem C27_value_at_one_metre : |mzFormula 1 - 0.704| < 0.0005 := by
  have h : mzFormula 1 = -(2827 / 10000) * Real.log 3.734 + 10762 / 10000 := by
    unfold mzFormula
    rw [Real.log_one]
    norm_num
  have h1 := log_3734_lower
  have h2 := log_3734_upper
  rw [h, abs_lt]
  constructor <;> norm_num at h1 h2 ⊢ <;> linarith

/-- `log x` between `1 - 1/x` and `x - 1`, for a quotient close to one. -/
theorem log_near_one {x : ℝ} (hx : 0 < x) : 1 - x⁻¹ ≤ Real.log x ∧ Real.log x ≤ x - 1 :=
  ⟨Real.one_sub_inv_le_log_of_pos hx, Real.log_le_sub_one_of_pos hx⟩

theorem log_five_bounds : 1.6092 < Real.log 5 ∧ Real.log 5 < 1.6096 := by
  have h : 3 * Real.log 5 = 7 * Real.log 2 + Real.log (125 / 128) := by
    rw [Real.log_div (by norm_num) (by norm_num), show (125 : ℝ) = 5 ^ 3 by norm_num,
      show (128 : ℝ) = 2 ^ 7 by norm_num, Real.log_pow, Real.log_pow]
    push_cast; ring
  obtain ⟨h1, h2⟩ := log_near_one (x := 125 / 128) (by norm_num)
  have := Real.log_two_gt_d9
  have := Real.log_two_lt_d9
  norm_num at h1 h2 ⊢
  constructor <;> linarith

theorem log_three_bounds : 1.0985 < Real.log 3 ∧ Real.log 3 < 1.0988 := by
  have h : 12 * Real.log 3 = 19 * Real.log 2 + Real.log (531441 / 524288) := by
    rw [Real.log_div (by norm_num) (by norm_num), show (531441 : ℝ) = 3 ^ 12 by norm_num,
      show (524288 : ℝ) = 2 ^ 19 by norm_num, Real.log_pow, Real.log_pow]
    push_cast; ring
  obtain ⟨h1, h2⟩ := log_near_one (x := 531441 / 524288) (by norm_num)
  have := Real.log_two_gt_d9
  have := Real.log_two_lt_d9
  norm_num at h1 h2 ⊢
  constructor <;> linarith

/-- Bounds on the logarithm from bounds on its argument, relative to a number `c` whose logarithm
is known. -/
theorem log_bounds {x c lo hi : ℝ} (hc : 0 < c) (hlo : 0 < lo) (h1 : lo ≤ x) (h2 : x ≤ hi) :
    Real.log c + (1 - c / lo) ≤ Real.log x ∧ Real.log x ≤ Real.log c + (hi / c - 1) := by
  have hx : 0 < x := lt_of_lt_of_le hlo h1
  have hq : Real.log x = Real.log c + Real.log (x / c) := by
    rw [Real.log_div hx.ne' hc.ne']; ring
  obtain ⟨a, b⟩ := log_near_one (x := x / c) (by positivity)
  rw [inv_div] at a
  have h3 : c / x ≤ c / lo := div_le_div_of_nonneg_left hc.le hlo h1
  have h4 : x / c ≤ hi / c := div_le_div_of_nonneg_right h2 hc.le
  constructor <;> linarith

/-- **C27** The initial multiplier at the roughness of open water (0.002 m), of suburbs (0.2 m) and
of city centres (2 m): 1.1048, 0.7655 and 0.681.  Only the first is sharp enough to notice
0.4545 in place of 0.4554. -/
theorem C27_value_at_reference_roughness :
    |mzFormula 0.002 - 1.1048| < 0.0004 ∧ |mzFormula 0.2 - 0.7655| < 0.0005 ∧
      |mzFormula 2 - 0.681| < 0.0005 := by
  have l2 := Real.log_two_gt_d9
  have u2 := Real.log_two_lt_d9
  obtain ⟨l3, u3⟩ := log_three_bounds
  obtain ⟨l5, u5⟩ := log_five_bounds
  have e1 : Real.log 0.002 = -(2 * Real.log 2 + 3 * Real.log 5) := by
    rw [show (0.002 : ℝ) = (2 ^ 2 * 5 ^ 3)⁻¹ by norm_num, Real.log_inv,
      Real.log_mul (by norm_num) (by norm_num), Real.log_pow, Real.log_pow]
    push_cast; ring
  have e2 : Real.log 0.2 = -Real.log 5 := by
    rw [show (0.2 : ℝ) = 5⁻¹ by norm_num, Real.log_inv]
  norm_num at l2 u2 l3 u3 l5 u5
  refine ⟨?_, ?_, ?_⟩
  · have b := log_bounds (x := (4554 / 10000) * Real.log 0.002 + 3734 / 1000) (c := 9 / 10)
      (lo := 0.9035) (hi := 0.9043) (by norm_num) (by norm_num)
      (by rw [e1]; norm_num; linarith) (by rw [e1]; norm_num; linarith)
    have e3 : Real.log (9 / 10) = 2 * Real.log 3 - Real.log 2 - Real.log 5 := by
      rw [show (9 / 10 : ℝ) = 3 ^ 2 / (2 * 5) by norm_num,
        Real.log_div (by norm_num) (by norm_num), Real.log_mul (by norm_num) (by norm_num),
        Real.log_pow]
      push_cast; ring
    rw [e3] at b
    unfold mzFormula
    generalize Real.log ((4554 / 10000) * Real.log 0.002 + 3734 / 1000) = t at b ⊢
    rw [abs_lt]
    norm_num at b ⊢
    constructor <;> linarith [b.1, b.2]
  · have b := log_bounds (x := (4554 / 10000) * Real.log 0.2 + 3734 / 1000) (c := 3)
      (lo := 3.0008) (hi := 3.0013) (by norm_num) (by norm_num)
      (by rw [e2]; norm_num; linarith) (by rw [e2]; norm_num; linarith)
    unfold mzFormula
    generalize Real.log ((4554 / 10000) * Real.log 0.2 + 3734 / 1000) = t at b ⊢
    rw [abs_lt]
    norm_num at b ⊢
    constructor <;> linarith [b.1, b.2]
  · have b := log_bounds (x := (4554 / 10000) * Real.log 2 + 3734 / 1000) (c := 4)
      (lo := 4.0496) (hi := 4.0498) (by norm_num) (by norm_num)
      (by norm_num; linarith) (by norm_num; linarith)
    have e3 : Real.log 4 = 2 * Real.log 2 := by
      rw [show (4 : ℝ) = 2 ^ 2 by norm_num, Real.log_pow]; push_cast; ring
    rw [e3] at b
    unfold mzFormula
    generalize Real.log ((4554 / 10000) * Real.log 2 + 3734 / 1000) = t at b ⊢
    rw [abs_lt]
    norm_num at b ⊢
    constructor <;> linarith [b.1, b.2]

/-! ### C28 -/

theorem terrainLoop_spec (gw : K) (recl : Grid K) (mask : ℕ → ℕ → Bool)
    (clip : Grid (Option K) → Grid (Option K)) (ds : List Dir)
    (saved : List (Dir × Grid (Option K))) :
    ∃ new, (terrainLoop gw recl mask clip ds saved).1 = saved ++ new ∧
      (∀ p ∈ new, p.1 ∈ ds ∧ ∃ g, terrainDir p.1 gw recl mask = .ok g ∧ p.2 = clip g) ∧
      ((terrainLoop gw recl mask clip ds saved).2 = .ok () → new.map Prod.fst = ds) := by
  induction ds generalizing saved with
  | nil => exact ⟨[], by simp [terrainLoop]⟩
  | cons d ds ih =>
    simp only [terrainLoop]
    cases hd : terrainDir d gw recl mask with
    | error e => exact ⟨[], by simp⟩
    | ok g =>
      obtain ⟨new, h1, h2, h3⟩ := ih (saved ++ [(d, clip g)])
      refine ⟨(d, clip g) :: new, by simp [h1], ?_, ?_⟩
      · intro p hp
        rcases List.mem_cons.mp hp with rfl | hp
        · exact ⟨by simp, g, hd, rfl⟩
        · exact ⟨by simp [(h2 p hp).1], (h2 p hp).2⟩
      · intro h
        simp [h3 h]

/-- A cell has no terrain class: no table row with its category has a nonzero multiplier. -/
def NoTerrain {C : Type} (mz : K → K) (table : List (TerrainRow C K)) (c : C) : Prop :=
  ∀ r ∈ table, r.category = c → mz r.roughness = 0

theorem class2mz_eq_zero {C : Type} [DecidableEq C] (mz : K → K) (data : Grid C)
    (table : List (TerrainRow C K)) (i j : ℕ) (h : NoTerrain mz table (data.val i j)) :
    (terrainClass2mz mz data table).val i j = 0 := by
  induction table using List.reverseRecOn with
  | nil => rfl
  | append_singleton l r ih =>
    rw [terrainClass2mz_append]
    split_ifs with hc
    · exact h r (by simp) hc.symm
    · exact ih fun r' hr' => h r' (by simp [hr'])

/-- **C28**, full statement: no-data cells are NaN in every terrain output.  `r0`, `c0` are the
offset of the clipped tile in the buffered one. -/
def C28Statement (mz : K → K) (gw : K) (lagOK : Dir → ℕ → Prop) : Prop :=
  ∀ (data : Grid ℕ) (table : List (TerrainRow ℕ K)) (clip : Grid (Option K) → Grid (Option K))
    (r0 c0 : ℕ), (∀ g i j, (clip g).val i j = g.val (r0 + i) (c0 + j)) →
    ∀ d out, (d, out) ∈ (terrain mz gw data table clip).1 → lagOK d data.rows →
    ∀ i j, r0 + i < data.rows → c0 + j < data.cols →
      NoTerrain mz table (data.val (r0 + i) (c0 + j)) → out.val i j = none

/-- **C28** (part) It holds for every direction whose lag distance is at most the height of the
buffered tile.  Missing: shorter tiles, for which it is false, `C28_nodata_lost`. -/
theorem C28_nodata_is_nan_partial (mz : K → K) (gw : K) :
    C28Statement mz gw (fun d rows => (terrainWidths d gw).2 ≤ rows) := by
  intro data table clip r0 c0 hclip d out hmem hlag i j hi hj hno
  obtain ⟨s1, s2⟩ := terrainClass2mz_shape mz data table
  unfold terrain at hmem
  simp only at hmem
  split at hmem
  · simp at hmem
  · split_ifs at hmem with h0
    · simp at hmem
    · obtain ⟨new, h1, h2, -⟩ := terrainLoop_spec gw
        ⟨(terrainClass2mz mz data table).rows, (terrainClass2mz mz data table).cols, fun i j =>
          if decide ((terrainClass2mz mz data table).val i j = 0) then 1
          else (terrainClass2mz mz data table).val i j⟩
        (fun i j => decide ((terrainClass2mz mz data table).val i j = 0)) clip Dir.terrainOrder []
      rw [h1] at hmem
      obtain ⟨-, g, hg, rfl⟩ := h2 (d, out) (by simpa using hmem)
      simp only at hg ⊢
      rw [hclip]
      unfold terrainDir at hg
      simp only at hg
      rw [if_neg (by rw [s1]; omega)] at hg
      cases hc : convo d ⟨(terrainClass2mz mz data table).rows,
          (terrainClass2mz mz data table).cols, fun i j =>
          if decide ((terrainClass2mz mz data table).val i j = 0) then (1 : K)
          else (terrainClass2mz mz data table).val i j⟩
        (if ((terrainClass2mz mz data table).rows : ℤ) < (terrainWidths d gw).1 + (terrainWidths d gw).2
          then ((terrainClass2mz mz data table).rows : ℤ) - (terrainWidths d gw).2
          else (terrainWidths d gw).1) (terrainWidths d gw).2 with
      | error e => rw [hc] at hg; cases hg
      | ok o =>
        rw [hc] at hg
        cases hg
        simp only [class2mz_eq_zero mz data table _ _ hno, decide_true, if_true]

/-- **C28 is false of the code** without that restriction: a one-row tile of 20 m cells (lag 10)
with one no-data cell is written as 1. -/
theorem C28_nodata_lost :
    ¬ ∀ (mz : ℚ → ℚ) (gw : ℚ), 0 < gw → C28Statement mz gw (fun _ _ => True) := by
  intro h
  have hw : ((terrain (fun z => z) (20 : ℚ) (⟨1, 2, fun _ j => j⟩ : Grid ℕ) [⟨1, 7 / 10⟩] id).1.any
      fun p => decide (p.1 = Dir.w) && decide (p.2.val 0 0 = some 1)) = true := by decide +kernel
  obtain ⟨⟨d, out⟩, hmem, hp⟩ := List.any_eq_true.mp hw
  simp only [Bool.and_eq_true, decide_eq_true_eq] at hp
  have := h (fun z => z) 20 (by norm_num) ⟨1, 2, fun _ j => j⟩ [⟨1, 7 / 10⟩] id 0 0
    (by simp) d out hmem trivial 0 0 (by norm_num) (by norm_num)
    (by intro r hr hc; simp only [List.mem_singleton] at hr; subst hr; simp at hc)
  rw [this] at hp
  simp at hp

/-- The restriction of `C28_nodata_is_nan_partial` is met by an ordinary tile (20 m cells, 40 rows). -/
example : ∀ d, (terrainWidths d (20 : ℚ)).2 ≤ (40 : ℕ) := by
  intro d
  cases d <;> decide +kernel

/-! ### C69 -/

theorem terrainWidths_lag_nonneg (d : Dir) (gw : K) (h0 : 0 < gw) : 0 ≤ (terrainWidths d gw).2 := by
  unfold terrainWidths
  split_ifs
  · exact around_nonneg (by positivity)
  · have hp : 0 < gw * (1414 / 1000) := by positivity
    have : (0 : K) ≤ 200 / (gw * (1414 / 1000)) := by positivity
    simp only
    rw [pyInt, if_pos this]
    exact Int.floor_nonneg.mpr this

/-- **C69** On a grid of at most 200 m, a tile of at least one classified cell whose height is not
exactly the lag of some direction gets all eight terrain outputs, in the documented order, without
error; and where the tile is higher than the lag, a cell of the output for direction `d` is NaN if
its initial multiplier is 0 and else the upwind mean of the initial multipliers (water, 1, where
there is no class) over the averaging width or as many rows as the tile has beyond the lag. -/
theorem C69_terrain_outputs {C : Type} [DecidableEq C] (mz : K → K) (gw : K) (h0 : 0 < gw)
    (h200 : gw ≤ 200) (data : Grid C) (table : List (TerrainRow C K))
    (clip : Grid (Option K) → Grid (Option K)) (init water : Grid K)
    (hinit : init = terrainClass2mz mz data table)
    (hwater : water = ⟨init.rows, init.cols, fun i j => if init.val i j = 0 then 1 else init.val i j⟩)
    (hmax : ∃ i < data.rows, ∃ j < data.cols, 0 < init.val i j)
    (hlag : ∀ d, (terrainWidths d gw).2 ≠ data.rows) :
    (terrain mz gw data table clip).2 = .ok () ∧
    (terrain mz gw data table clip).1.map Prod.fst = [.w, .e, .n, .s, .nw, .ne, .se, .sw] ∧
    ∀ d out, (d, out) ∈ (terrain mz gw data table clip).1 → (terrainWidths d gw).2 < data.rows →
      ∃ g : Grid (Option K), out = clip g ∧ g.rows = data.rows ∧ g.cols = data.cols ∧
        ∀ i < data.rows, ∀ j < data.cols, g.val i j =
          if init.val i j = 0 then none
          else some (upwindMean water d
            (min (terrainWidths d gw).1 (data.rows - (terrainWidths d gw).2)).toNat
            (terrainWidths d gw).2.toNat i j) := by
  obtain ⟨s1, s2⟩ := terrainClass2mz_shape mz data table
  rw [← hinit] at s1 s2
  have wr : water.rows = data.rows := by rw [hwater]; exact s1
  have wc : water.cols = data.cols := by rw [hwater]; exact s2
  -- the loop that is run
  obtain ⟨i0, hi0, j0, hj0, hpos⟩ := hmax
  have hter : terrain mz gw data table clip =
      terrainLoop gw water (fun i j => decide (init.val i j = 0)) clip Dir.terrainOrder [] := by
    have hmem : init.val i0 j0 ∈ init.cells :=
      (mem_cells _ _).mpr ⟨i0, s1 ▸ hi0, j0, s2 ▸ hj0, rfl⟩
    unfold terrain
    simp only [← hinit]
    cases hm : init.cells.max? with
    | none => rw [List.max?_eq_none_iff] at hm; rw [hm] at hmem; simp at hmem
    | some mx =>
      have hle := (List.max?_eq_some_iff.mp hm).2 _ hmem
      have hne : mx ≠ 0 := fun e => absurd (e ▸ hle) (not_le.mpr hpos)
      simp only [hne, if_false, hwater, decide_eq_true_eq]
  -- each direction succeeds
  have hdir : ∀ d, ∃ g, terrainDir d gw water (fun i j => decide (init.val i j = 0)) = .ok g ∧
      ((terrainWidths d gw).2 < data.rows → g.rows = data.rows ∧ g.cols = data.cols ∧
        ∀ i < data.rows, ∀ j < data.cols, g.val i j =
          if init.val i j = 0 then none
          else some (upwindMean water d
            (min (terrainWidths d gw).1 (data.rows - (terrainWidths d gw).2)).toNat
            (terrainWidths d gw).2.toNat i j)) := by
    intro d
    have hw1 := C24_fine_grid_width_pos d gw h0 h200
    have hl0 := terrainWidths_lag_nonneg d gw h0
    have hne := hlag d
    generalize haw : (terrainWidths d gw).1 = aw at *
    generalize hlg : (terrainWidths d gw).2 = lag at *
    unfold terrainDir
    simp only [haw, hlg, wr]
    by_cases hlt : (data.rows : ℤ) < lag
    · rw [if_pos hlt]
      exact ⟨_, rfl, fun h => by omega⟩
    · rw [if_neg hlt]
      have e1 : (if (data.rows : ℤ) < aw + lag then (data.rows : ℤ) - lag else aw)
          = ((min aw (data.rows - lag)).toNat : ℤ) := by
        split_ifs <;> omega
      have e2 : lag = (lag.toNat : ℤ) := by omega
      rw [e1]
      obtain ⟨o, ho, r1, c1, v1⟩ := C21_convo_is_upwind_mean d water
        (min aw (data.rows - lag)).toNat lag.toNat (by omega)
      rw [← e2] at ho
      rw [ho]
      refine ⟨_, rfl, fun _ => ⟨r1.trans wr, c1.trans wc, ?_⟩⟩
      intro i hi j hj
      simp only [decide_eq_true_eq]
      rw [v1 i (wr ▸ hi) j (wc ▸ hj)]
  have hok : ∀ ds saved, (terrainLoop gw water (fun i j => decide (init.val i j = 0)) clip ds
      saved).2 = .ok () := by
    intro ds
    induction ds with
    | nil => intro saved; rfl
    | cons d ds ih =>
      intro saved
      obtain ⟨g, hg, -⟩ := hdir d
      simp only [terrainLoop, hg]
      exact ih _
  obtain ⟨new, h1, h2, h3⟩ := terrainLoop_spec gw water (fun i j => decide (init.val i j = 0))
    clip Dir.terrainOrder []
  rw [hter]
  refine ⟨hok _ _, ?_, ?_⟩
  · rw [h1, List.nil_append]
    exact h3 (hok _ _)
  · intro d out hmem hlt
    rw [h1, List.nil_append] at hmem
    obtain ⟨-, g, hg, rfl⟩ := h2 (d, out) hmem
    obtain ⟨g', hg', hspec⟩ := hdir d
    rw [hg'] at hg
    cases hg
    exact ⟨g, rfl, hspec hlt⟩

/-- The hypotheses are met by a 30 × 30 tile of 100 m cells (lags 2 and 1). -/
example : (∀ d, (terrainWidths d (100 : ℚ)).2 ≠ (30 : ℕ)) ∧
    (∃ i < 30, ∃ j < 30, 0 < (terrainClass2mz (fun z : ℚ => z)
      (⟨30, 30, fun i j => i + j⟩ : Grid ℕ) [⟨3, 7 / 10⟩]).val i j) := by
  refine ⟨?_, 1, by norm_num, 2, by norm_num, by decide +kernel⟩
  intro d
  cases d <;> decide +kernel

end WindMult
