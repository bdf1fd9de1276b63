import Verif.Proofs.FloatDriver

/-!
# C113–C115: rounding in the initial terrain multipliers, the cell size and the whole terrain step
-/

set_option autoImplicit false

namespace WindMult
open Spec

variable {u h : ℝ}

/-! ### C113 -/

/-- C113: for roughness lengths from 1 mm to 10 m, read up to two units in the last place, the computed initial
multiplier is within 19 unit roundoffs of the formula, and what is stored within a relative error of 32 of them and
one rounding to the format of the array. -/
theorem C113_formula (S : FpRound u) (W : FpRound h) (L : FpLog h) (hu : 0 ≤ u) (hh0 : 0 ≤ h)
    (hh : h ≤ 1 / 2 ^ 20) (z read : ℝ) (h1 : 1 / 1000 ≤ z) (h2 : z ≤ 10) (hr : |read - z| ≤ 4 * h * z) :
    |mzFormulaFl W L read - roughnessMz z| ≤ 19 * h ∧
      |S.rnd (mzFormulaFl W L read) - roughnessMz z| ≤ ((1 + 32 * h) * (1 + u) - 1) * roughnessMz z := by
  rw [← mzFormula_eq]
  exact ⟨mzFormulaFl_near W L hh0 hh h1 h2 hr, (storedMz_near hu hh0 hh S W L h1 h2 hr).2.2⟩

/-- C113: in `float64`, stored as `float32`: the stored multiplier is the formula's value rounded, up to a relative
error of `2⁻²⁴ + 2⁻⁴⁷`. -/
theorem C113_formats (S : FpRound (1 / 2 ^ 24)) (W : FpRound (1 / 2 ^ 53)) (L : FpLog (1 / 2 ^ 53)) (z read : ℝ)
    (h1 : 1 / 1000 ≤ z) (h2 : z ≤ 10) (hr : |read - z| ≤ 1 / 2 ^ 51 * z) :
    |S.rnd (mzFormulaFl W L read) - roughnessMz z| ≤ (1 / 2 ^ 24 + 1 / 2 ^ 47) * roughnessMz z := by
  have hpos : 0 ≤ roughnessMz z := by
    have := (mzFormula_bounds h1 h2).1
    rw [mzFormula_eq] at this
    norm_num at this
    linarith
  refine (C113_formula S W L (by positivity) (by positivity) (by norm_num) z read h1 h2 ?_).2.trans ?_
  · refine hr.trans (le_of_eq ?_)
    norm_num
  · gcongr
    norm_num

/-- The exact logarithm, for examples. -/
noncomputable def exactLog (h : ℝ) (hh : 0 ≤ h) : FpLog h :=
  ⟨Real.log, fun x _ => by rw [sub_self, abs_zero]; positivity⟩

/-- Suburbs: 0.2 m, read as the nearest number of 53 digits. -/
example : |roundDigits 24 (mzFormulaFl (digits 53) (exactLog _ (by positivity)) (roundDigits 53 0.2)) -
    roughnessMz 0.2| ≤ (1 / 2 ^ 24 + 1 / 2 ^ 47) * roughnessMz 0.2 :=
  C113_formats (digits 24) (digits 53) (exactLog _ (by positivity)) 0.2 _ (by norm_num) (by norm_num)
    ((roundDigits_near 53 0.2).trans (by norm_num [abs_of_pos]))

/-! ### C114 -/

/-- Specification: the mean of the cell widths and heights of a tile. -/
noncomputable def Spec.meanSize (x y : Grid ℝ) : ℝ :=
  (∑ i ∈ Finset.range x.rows, ∑ j ∈ Finset.range x.cols, (x.val i j + y.val i j)) / (2 * (x.rows * x.cols))

theorem Grid.cells_sum (g : Grid ℝ) :
    g.cells.sum = ∑ i ∈ Finset.range g.rows, ∑ j ∈ Finset.range g.cols, g.val i j := by
  have aux : ∀ (n : ℕ) (f : ℕ → ℝ), ((List.range n).map f).sum = ∑ i ∈ Finset.range n, f i := by
    intro n f
    induction n with
    | zero => simp
    | succ n ih =>
      rw [List.range_succ, List.map_append, List.sum_append, ih, Finset.sum_range_succ]
      simp
  unfold Grid.cells
  generalize g.rows = n
  induction n with
  | zero => simp
  | succ n ih =>
    rw [List.range_succ, List.flatMap_append, List.sum_append, ih, Finset.sum_range_succ]
    simp [aux]

theorem gridWidth_eq (x y : Grid ℝ) (hr : y.rows = x.rows) (hc : y.cols = x.cols) :
    gridWidth x y = meanSize x y := by
  unfold gridWidth Grid.mean meanSize
  rw [Grid.cells_sum, Grid.cells_sum, hr, hc, ← add_div, ← Finset.sum_add_distrib]
  simp_rw [← Finset.sum_add_distrib]
  push_cast
  rw [← div_div, div_eq_mul_inv _ (2 : ℝ)]
  ring

/-- Specification: pixel sizes as stored in the arrays; before that they were computed with a relative error of at most
half a unit roundoff of the arrays (in the code, in double precision). -/
structure Spec.SizesStored (S : FpRound u) (x y xm ym : Grid ℝ) : Prop where
  shape : y.rows = x.rows ∧ y.cols = x.cols ∧ xm.rows = x.rows ∧ xm.cols = x.cols ∧ ym.rows = x.rows ∧
    ym.cols = x.cols
  nonneg : ∀ i < x.rows, ∀ j < x.cols, 0 ≤ x.val i j ∧ 0 ≤ y.val i j
  stored : ∀ i < x.rows, ∀ j < x.cols,
    (∃ v, |v - x.val i j| ≤ u / 2 * x.val i j ∧ xm.val i j = S.rnd v) ∧
    ∃ v, |v - y.val i j| ≤ u / 2 * y.val i j ∧ ym.val i j = S.rnd v

theorem computed_rel (hu0 : 0 ≤ u) (hu1 : u < 1) (S : FpRound u) {x v : ℝ} (h0 : 0 ≤ x) (h : |v - x| ≤ u / 2 * x) :
    RelErr u 2 x (S.rnd v) := by
  refine RelErr.rnd hu0 hu1 S (k := 1) ?_
  rcases h0.eq_or_lt with rfl | h0
  · rw [mul_zero, sub_zero] at h
    rw [abs_nonpos_iff.mp h]
    exact RelErr.mono hu0 hu1 (RelErr.refl hu0 hu1 0) (by norm_num)
  · obtain ⟨a, b⟩ := abs_le.mp h
    have hux := mul_nonneg hu0 h0.le
    refine ⟨v / x, ?_, ?_, by field_simp⟩
    · rw [pow_one, le_div_iff₀ h0]
      linarith
    · rw [pow_one, div_le_iff₀ h0, ← div_eq_inv_mul, le_div_iff₀ (by linarith)]
      nlinarith [mul_nonneg hux hu0]

theorem sizes_rel (hu0 : 0 ≤ u) (hu1 : u < 1) (A D S : FpRound u) (t : SumTree) (x y xm ym : Grid ℝ)
    (hs : SizesStored S x y xm ym) (ht : t.Covers x.rows x.cols) :
    RelErr u (t.depth + 5) (meanSize x y) (gridWidthFl A D S t xm ym) := by
  obtain ⟨a1, a2, a3, a4, a5, a6⟩ := hs.shape
  have := gridWidthFl_rel hu0 hu1 A D S x y xm ym 2 t a3 a4 a5 a6 a1 a2 ht hs.nonneg (fun i hi j hj => by
    obtain ⟨⟨v, v1, v2⟩, w, w1, w2⟩ := hs.stored i hi j hj
    obtain ⟨n1, n2⟩ := hs.nonneg i hi j hj
    rw [v2, w2]
    exact ⟨computed_rel hu0 hu1 S n1 v1, computed_rel hu0 hu1 S n2 w1⟩)
  rw [gridWidth_eq x y a1 a2] at this
  exact RelErr.mono hu0 hu1 this (by omega)

/-- C114: the cell size computed from the stored pixel sizes is their exact mean up to a relative error of
`2 (depth + 5)` unit roundoffs, whatever the order of the additions. -/
theorem C114_cell_size (hu0 : 0 ≤ u) (hu1 : u < 1) (A D S : FpRound u) (t : SumTree) (x y xm ym : Grid ℝ)
    (hs : SizesStored S x y xm ym) (ht : t.Covers x.rows x.cols) (hd : 2 * ((t.depth + 5) * u) ≤ 1) :
    |gridWidthFl A D S t xm ym - meanSize x y| ≤ 2 * ((t.depth + 5) * u) * |meanSize x y| := by
  have := RelErr.abs_sub_le hu0 hu1 (sizes_rel hu0 hu1 A D S t x y xm ym hs ht) (c := 2)
    (by push_cast; linarith) (by norm_num)
  push_cast at this
  exact this

/-- Specification: `m` metres are, up to a relative error `ε`, not a whole number of cells and a half along the
axes, and not a whole number of cells along the diagonals. -/
def Spec.ClearDistance (gw ε m : ℝ) : Prop :=
  (∀ n : ℤ, ε * (m / gw) < |m / gw - (n + 1 / 2)|) ∧
    ∀ n : ℤ, ε * (m / (gw * 1.414)) < |m / (gw * 1.414) - n|

theorem widthsFl_eq (hu0 : 0 ≤ u) (hu1 : u < 1) (Q : FpRound u) (d : Dir) {gw gwf ε : ℝ} (hgw : 0 < gw) {k : ℕ}
    (hg : RelErr u k gw gwf) (hk : 2 * ((k + 3) * u) ≤ ε) (hε : ε ≤ 1) (h5 : ClearDistance gw ε 500)
    (h2 : ClearDistance gw ε 200) : terrainWidthsFl Q d gwf = terrainWidths d gw := by
  have e1 : (1.414 : ℝ) = 1414 / 1000 := by norm_num
  unfold ClearDistance at h5 h2
  rw [e1] at h5 h2
  have bound : ∀ {j : ℕ} {q q' : ℝ}, j ≤ k + 3 → 0 ≤ q → RelErr u j q q' → |q' - q| ≤ ε * q := by
    intro j q q' hj hq hr
    have h1 := RelErr.abs_sub_le hu0 hu1 (RelErr.mono hu0 hu1 hr hj) (c := 2) (by push_cast; linarith) (by norm_num)
    rw [abs_of_nonneg hq] at h1
    refine h1.trans (mul_le_mul_of_nonneg_right ?_ hq)
    push_cast
    exact hk
  have card : ∀ m : ℝ, 0 ≤ m → (∀ n : ℤ, ε * (m / gw) < |m / gw - (n + 1 / 2)|) →
      around (Q.rnd (m / gwf)) = around (m / gw) := fun m hm hc =>
    around_eq_of_clear (bound (by omega) (by positivity) (quotient_rel hu0 hu1 Q hg)) hc
  have diag : ∀ m : ℝ, 0 ≤ m →
      (∀ n : ℤ, ε * (m / (gw * (1414 / 1000))) < |m / (gw * (1414 / 1000)) - n|) →
      pyInt (Q.rnd (m / Q.rnd (gwf * Q.rnd (1414 / 1000)))) = pyInt (m / (gw * (1414 / 1000))) := fun m hm hc =>
    pyInt_eq_of_clear (by positivity) (bound le_rfl (by positivity) (diagonal_rel hu0 hu1 Q hg)) hc
  unfold terrainWidthsFl terrainWidths
  split_ifs
  · rw [card 500 (by norm_num) h5.1, card 200 (by norm_num) h2.1]
  · rw [diag 500 (by norm_num) h5.2, diag 200 (by norm_num) h2.2]

/-- C114: unless 500 m or 200 m are too close to a border between two numbers of cells, rounding does not change the
averaging width and the lag in any direction. -/
theorem C114_widths (hu0 : 0 ≤ u) (hu1 : u < 1) (A D S Q : FpRound u) (t : SumTree) (x y xm ym : Grid ℝ)
    (hs : SizesStored S x y xm ym) (ht : t.Covers x.rows x.cols) (hgw : 0 < meanSize x y) (ε : ℝ)
    (hd : 2 * ((t.depth + 8) * u) ≤ ε) (hε : ε ≤ 1) (h5 : ClearDistance (meanSize x y) ε 500)
    (h2 : ClearDistance (meanSize x y) ε 200) (d : Dir) :
    terrainWidthsFl Q d (gridWidthFl A D S t xm ym) = terrainWidths d (meanSize x y) :=
  widthsFl_eq hu0 hu1 Q d hgw (sizes_rel hu0 hu1 A D S t x y xm ym hs ht) (by push_cast; linarith) hε h5 h2

/-- C114: unless 100 m are too close to a whole number of cells, the size of the shielding kernel is that number
rounded down. -/
theorem C114_kernel (hu0 : 0 ≤ u) (hu1 : u < 1) (A D S Q : FpRound u) (t : SumTree) (x y xm ym : Grid ℝ)
    (hs : SizesStored S x y xm ym) (ht : t.Covers x.rows x.cols) (hgw : 0 < meanSize x y) (ε : ℝ)
    (hd : 2 * ((t.depth + 6) * u) ≤ ε) (hε : ε ≤ 1)
    (h1 : ∀ n : ℤ, ε * (100 / meanSize x y) < |100 / meanSize x y - n|) :
    kernelSizeFl Q (gridWidthFl A D S t xm ym) = ⌊100 / meanSize x y⌋ := by
  have hq : 0 ≤ 100 / meanSize x y := by positivity
  have hr := quotient_rel (m := 100) hu0 hu1 Q (sizes_rel hu0 hu1 A D S t x y xm ym hs ht)
  have hb := RelErr.abs_sub_le hu0 hu1 hr (c := 2) (by push_cast; linarith) (by norm_num)
  rw [abs_of_nonneg hq] at hb
  have he : |Q.rnd (100 / gridWidthFl A D S t xm ym) - 100 / meanSize x y| ≤ ε * (100 / meanSize x y) := by
    refine hb.trans (mul_le_mul_of_nonneg_right ?_ hq)
    push_cast
    linarith
  unfold kernelSizeFl
  rw [pyInt_eq_of_clear hq he h1, pyInt, if_pos hq]

/-- C114: with pixel sizes in `float32`, added up in any order in which no cell goes through more than 60 additions
(numpy adds pairwise), the cell size is right to one part in 65536, and the widths, the lags and the size of the
shielding kernel are those of exact arithmetic unless a distance is within that of a border. -/
theorem C114_formats (A D S Q : FpRound (1 / 2 ^ 24)) (t : SumTree) (x y xm ym : Grid ℝ)
    (hs : SizesStored S x y xm ym) (ht : t.Covers x.rows x.cols) (hd : t.depth ≤ 60) (hgw : 0 < meanSize x y) :
    |gridWidthFl A D S t xm ym - meanSize x y| ≤ 1 / 2 ^ 16 * meanSize x y ∧
    (ClearDistance (meanSize x y) (1 / 2 ^ 16) 500 → ClearDistance (meanSize x y) (1 / 2 ^ 16) 200 →
      ∀ d, terrainWidthsFl Q d (gridWidthFl A D S t xm ym) = terrainWidths d (meanSize x y)) ∧
    ((∀ n : ℤ, 1 / 2 ^ 16 * (100 / meanSize x y) < |100 / meanSize x y - n|) →
      kernelSizeFl Q (gridWidthFl A D S t xm ym) = ⌊100 / meanSize x y⌋) := by
  have hd' : (t.depth : ℝ) ≤ 60 := by exact_mod_cast hd
  refine ⟨?_, ?_, ?_⟩
  · have := C114_cell_size (by positivity) (by norm_num) A D S t x y xm ym hs ht (by norm_num; linarith)
    rw [abs_of_pos hgw] at this
    refine this.trans (mul_le_mul_of_nonneg_right ?_ hgw.le)
    norm_num
    linarith
  · intro h5 h2 d
    exact C114_widths (by positivity) (by norm_num) A D S Q t x y xm ym hs ht hgw (1 / 2 ^ 16)
      (by norm_num; linarith) (by norm_num) h5 h2 d
  · intro h1
    exact C114_kernel (by positivity) (by norm_num) A D S Q t x y xm ym hs ht hgw (1 / 2 ^ 16)
      (by norm_num; linarith) (by norm_num) h1

/-- Pixel sizes for examples: one row of two cells 28 m and 29 m wide and 31 m high, mean 29.75 m. -/
noncomputable def sizesX : Grid ℝ := ⟨1, 2, fun _ j => if j = 0 then 28 else 29⟩

noncomputable def sizesY : Grid ℝ := ⟨1, 2, fun _ _ => 31⟩

theorem sizes_mean : meanSize sizesX sizesY = 29.75 := by
  norm_num [meanSize, sizesX, sizesY, Finset.sum_range_succ]

theorem sizes_stored (hu0 : 0 ≤ u) (S : FpRound u) :
    SizesStored S sizesX sizesY (sizesX.map S.rnd) (sizesY.map S.rnd) where
  shape := ⟨rfl, rfl, rfl, rfl, rfl, rfl⟩
  nonneg := fun i _ j _ => by
    unfold sizesX sizesY
    simp only
    constructor
    · split_ifs <;> norm_num
    · norm_num
  stored := fun i _ j _ => by
    refine ⟨⟨_, ?_, rfl⟩, _, ?_, rfl⟩
    · rw [sub_self, abs_zero]
      unfold sizesX
      simp only
      split_ifs <;> linarith
    · rw [sub_self, abs_zero]
      simp only [sizesY]
      linarith

theorem sizes_covers : (SumTree.add (.cell 0 1) (.cell 0 0)).Covers sizesX.rows sizesX.cols := by
  unfold SumTree.Covers
  decide

theorem clear_of_floor {q δ : ℝ} {n : ℤ} (h1 : n + δ < q) (h2 : q < n + 1 - δ) (hδ : 0 ≤ δ) (k : ℤ) :
    δ < |q - k| := by
  rcases le_or_gt k n with h | h
  · have : (k : ℝ) ≤ n := by exact_mod_cast h
    rw [abs_of_nonneg (by linarith)]
    linarith
  · have : (n : ℝ) + 1 ≤ k := by exact_mod_cast h
    rw [abs_of_nonpos (by linarith)]
    linarith

theorem sizes_clear : ClearDistance 29.75 (1 / 2 ^ 16) 500 ∧ ClearDistance 29.75 (1 / 2 ^ 16) 200 := by
  have half : ∀ (q δ : ℝ) (n : ℤ), n + δ < q - 1 / 2 → q - 1 / 2 < n + 1 - δ → 0 ≤ δ →
      ∀ k : ℤ, δ < |q - (k + 1 / 2)| := by
    intro q δ n h1 h2 h3 k
    have := clear_of_floor h1 h2 h3 k
    rwa [show q - (k + 1 / 2) = q - 1 / 2 - (k : ℝ) by ring]
  refine ⟨⟨half _ _ 16 ?_ ?_ ?_, clear_of_floor (n := 11) ?_ ?_ ?_⟩,
    ⟨half _ _ 6 ?_ ?_ ?_, clear_of_floor (n := 4) ?_ ?_ ?_⟩⟩ <;> norm_num

/-- The cells of that row give an averaging width of 17 and a lag of 7 cells from the west, in rounded arithmetic. -/
example : (∀ d, terrainWidthsFl (digits 24) d (gridWidthFl (digits 24) (digits 24) (digits 24)
      (.add (.cell 0 1) (.cell 0 0)) (sizesX.map (roundDigits 24)) (sizesY.map (roundDigits 24))) =
        terrainWidths d (29.75 : ℝ)) ∧
    kernelSizeFl (digits 24) (gridWidthFl (digits 24) (digits 24) (digits 24)
      (.add (.cell 0 1) (.cell 0 0)) (sizesX.map (roundDigits 24)) (sizesY.map (roundDigits 24))) = 3 := by
  have key := C114_formats (digits 24) (digits 24) (digits 24) (digits 24) _ sizesX sizesY _ _
    (sizes_stored (by positivity) (digits 24)) sizes_covers (by decide) (by rw [sizes_mean]; norm_num)
  rw [sizes_mean] at key
  refine ⟨key.2.1 sizes_clear.1 sizes_clear.2, (key.2.2 ?_).trans ?_⟩
  · exact clear_of_floor (n := 3) (by norm_num) (by norm_num) (by norm_num)
  · rw [Int.floor_eq_iff]
    norm_num

/-! ### C115 -/

theorem terrainLoopFl_spec (F : TerrainFp u h) (gw : ℝ) (recl : Grid ℝ) (mask : ℕ → ℕ → Bool)
    (clip : Grid (Option ℝ) → Grid (Option ℝ)) (ds : List Dir)
    (hok : ∀ d, ∃ g, terrainDirFl F d gw recl mask = .ok g) (saved : List (Dir × Grid (Option ℝ))) :
    ∃ new, terrainLoopFl F gw recl mask clip ds saved = (saved ++ new, .ok ()) ∧ new.map Prod.fst = ds ∧
      ∀ p ∈ new, ∃ g, terrainDirFl F p.1 gw recl mask = .ok g ∧ p.2 = clip g := by
  induction ds generalizing saved with
  | nil => exact ⟨[], by simp [terrainLoopFl]⟩
  | cons d ds ih =>
    obtain ⟨g, hg⟩ := hok d
    simp only [terrainLoopFl, hg]
    obtain ⟨new, h1, h2, h3⟩ := ih (saved ++ [(d, clip g)])
    refine ⟨(d, clip g) :: new, by simp [h1], by simp [h2], ?_⟩
    intro p hp
    rcases List.mem_cons.mp hp with rfl | hp
    · exact ⟨g, hg, rfl⟩
    · exact h3 p hp

theorem terrainClass2mzFl_shape (F : TerrainFp u h) (data : Grid ℤ) (read : List (TerrainRow ℤ ℝ)) :
    (terrainClass2mzFl F data read).rows = data.rows ∧ (terrainClass2mzFl F data read).cols = data.cols :=
  terrainClass2mz_shape _ data read

/-- The loop that is run. -/
theorem terrainFl_loop (F : TerrainFp u h) (gw : ℝ) (data : Grid ℤ) (read : List (TerrainRow ℤ ℝ))
    (clip : Grid (Option ℝ) → Grid (Option ℝ)) (recl : Grid ℝ) (hrecl : recl = terrainClass2mzFl F data read)
    (hpos : ∃ i < data.rows, ∃ j < data.cols, 0 < recl.val i j) :
    terrainFl F gw data read clip = terrainLoopFl F gw
      ⟨recl.rows, recl.cols, fun i j => if recl.val i j = 0 then 1 else recl.val i j⟩
      (fun i j => decide (recl.val i j = 0)) clip Dir.terrainOrder [] := by
  obtain ⟨s1, s2⟩ := terrainClass2mzFl_shape F data read
  obtain ⟨i0, hi0, j0, hj0, hp⟩ := hpos
  rw [← hrecl] at s1 s2
  have hmem : recl.val i0 j0 ∈ recl.cells := (mem_cells _ _).mpr ⟨i0, s1 ▸ hi0, j0, s2 ▸ hj0, rfl⟩
  unfold terrainFl
  simp only [← hrecl]
  cases hm : recl.cells.max? with
  | none => rw [List.max?_eq_none_iff] at hm; rw [hm] at hmem; simp at hmem
  | some mx =>
    have hle := (List.max?_eq_some_iff.mp hm).2 _ hmem
    have hne : mx ≠ 0 := fun e => absurd (e ▸ hle) (not_le.mpr hp)
    simp only [hne, if_false, decide_eq_true_eq]

/-- One direction: `water` and `recl` are the exact and the stored multipliers, 1 where there is no class. -/
theorem terrainDirFl_near (F : TerrainFp u h) (hu : 0 ≤ u) (d : Dir) (gw gwf : ℝ) (h0 : 0 < gw) (h200 : gw ≤ 200)
    (hwid : terrainWidthsFl F.quot d gwf = terrainWidths d gw) (water recl : Grid ℝ) (mask : ℕ → ℕ → Bool) (c : ℝ)
    (hc : 1 ≤ c) (hr : recl.rows = water.rows) (hcl : recl.cols = water.cols)
    (hn : ∀ i < water.rows, ∀ j < water.cols, Near c (water.val i j) (recl.val i j))
    (hlag : (terrainWidths d gw).2 ≠ water.rows) :
    ∃ g, terrainDirFl F d gwf recl mask = .ok g ∧
      ((water.rows : ℤ) < (terrainWidths d gw).2 → g = recl.map some) ∧
      ((terrainWidths d gw).2 < water.rows → g.rows = water.rows ∧ g.cols = water.cols ∧
        ∀ i < water.rows, ∀ j < water.cols, ∀ W L : ℕ,
          (W : ℤ) = min (terrainWidths d gw).1 (water.rows - (terrainWidths d gw).2) →
          (L : ℤ) = (terrainWidths d gw).2 →
          (mask i j = true → g.val i j = none) ∧
          (mask i j = false → ∃ v, g.val i j = some v ∧ |v - upwindMean water d W L i j| ≤
            (c * (1 + u) ^ W * (1 + u) * (1 + u) - 1) * upwindMean water d W L i j)) := by
  have hw1 := C24_fine_grid_width_pos d gw h0 h200
  have hl0 := terrainWidths_lag_nonneg d gw h0
  unfold terrainDirFl
  rw [hwid]
  generalize (terrainWidths d gw).1 = aw at *
  generalize (terrainWidths d gw).2 = lag at *
  simp only [hr]
  by_cases hlt : (water.rows : ℤ) < lag
  · rw [if_pos hlt]
    exact ⟨_, rfl, fun _ => rfl, fun h => by omega⟩
  · rw [if_neg hlt]
    have e1 : (if (water.rows : ℤ) < aw + lag then (water.rows : ℤ) - lag else aw)
        = ((min aw (water.rows - lag)).toNat : ℤ) := by
      split_ifs <;> omega
    have e2 : lag = (lag.toNat : ℤ) := by omega
    rw [e1]
    obtain ⟨o, ho, r1, c1, v1⟩ := C102_terrain F.sum F.quot F.store hu hu hu d water recl (c - 1) (by linarith)
      (min aw (water.rows - lag)).toNat lag.toNat (by omega) hr hcl hn
    rw [← e2] at ho
    rw [ho]
    refine ⟨_, rfl, fun h => absurd h hlt, fun _ => ⟨r1, c1, ?_⟩⟩
    intro i hi j hj W L hW hL
    have eW : W = (min aw (water.rows - lag)).toNat := by omega
    have eL : L = lag.toNat := by omega
    refine ⟨fun hm => by simp only [hm, if_true], fun hm => ⟨o.val i j, by simp [hm], ?_⟩⟩
    rw [eW, eL]
    have := v1 i hi j hj
    rwa [add_sub_cancel] at this

theorem width_le (d : Dir) (gw : ℝ) (h1 : 1 ≤ gw) : (terrainWidths d gw).1 ≤ 501 := by
  have h0 : (0 : ℝ) < gw := by linarith
  unfold terrainWidths
  split_ifs
  · have hq : 500 / gw ≤ 500 := div_le_self (by norm_num) h1
    have hb := (abs_le.mp (abs_sub_around_le (500 / gw))).1
    simp only
    by_contra hcon
    push Not at hcon
    have : (502 : ℝ) ≤ around (500 / gw) := by exact_mod_cast hcon
    linarith
  · have hq : 500 / (gw * (1414 / 1000)) ≤ 500 := div_le_self (by norm_num) (by linarith)
    simp only
    rw [pyInt, if_pos (by positivity)]
    have := Int.floor_le (500 / (gw * (1414 / 1000)))
    by_contra hcon
    push Not at hcon
    have : (502 : ℝ) ≤ ⌊500 / (gw * (1414 / 1000))⌋ := by exact_mod_cast hcon
    linarith

/-- The terrain step in rounded arithmetic on tiles longer and shorter than the lag distance. -/
theorem terrainFl_near (F : TerrainFp (1 / 2 ^ 24) (1 / 2 ^ 53)) (t : SumTree) (x y xm ym : Grid ℝ)
    (hs : SizesStored F.store x y xm ym) (ht : t.Covers x.rows x.cols) (hd : t.depth ≤ 60)
    (gw : ℝ) (hgw : gw = meanSize x y) (h1 : 1 ≤ gw) (h200 : gw ≤ 200)
    (h5 : ClearDistance gw (1 / 2 ^ 16) 500) (h2 : ClearDistance gw (1 / 2 ^ 16) 200)
    (data : Grid ℤ) (table read : List (TerrainRow ℤ ℝ)) (htab : TableRead (1 / 2 ^ 53) table read)
    (clip : Grid (Option ℝ) → Grid (Option ℝ))
    (hmax : ∃ i < data.rows, ∃ j < data.cols, classMz table (data.val i j) ≠ 0)
    (hlag : ∀ d, (terrainWidths d gw).2 ≠ data.rows) (res : List (Dir × Grid (Option ℝ)) × Except PyErr Unit)
    (hres : res = terrainFl F (gridWidthFl F.sum F.quot F.store t xm ym) data read clip) :
    (res.2 = .ok () ∧ res.1.map Prod.fst = [.w, .e, .n, .s, .nw, .ne, .se, .sw] ∧
    ∀ d out, (d, out) ∈ res.1 → (terrainWidths d gw).2 < data.rows →
      ∃ g : Grid (Option ℝ), out = clip g ∧ g.rows = data.rows ∧ g.cols = data.cols ∧
        ∀ i < data.rows, ∀ j < data.cols, ∀ W L : ℕ,
          (W : ℤ) = min (terrainWidths d gw).1 (data.rows - (terrainWidths d gw).2) →
          (L : ℤ) = (terrainWidths d gw).2 →
          (classMz table (data.val i j) = 0 → g.val i j = none) ∧
          (classMz table (data.val i j) ≠ 0 → ∃ v, g.val i j = some v ∧
            |v - upwindMean (waterMz table data) d W L i j| ≤
              (W + 4) / 2 ^ 23 * upwindMean (waterMz table data) d W L i j)) ∧
    ∀ d out, (d, out) ∈ res.1 → (data.rows : ℤ) < (terrainWidths d gw).2 →
      ∃ g : Grid (Option ℝ), out = clip g ∧ g.rows = data.rows ∧ g.cols = data.cols ∧
        ∀ i < data.rows, ∀ j < data.cols, ∃ v, g.val i j = some v ∧
          |v - (waterMz table data).val i j| ≤ 1 / 2 ^ 23 * (waterMz table data).val i j := by
  have h0 : 0 < gw := by linarith
  have hu : (0 : ℝ) ≤ 1 / 2 ^ 24 := by positivity
  have hh0 : (0 : ℝ) ≤ 1 / 2 ^ 53 := by positivity
  have hwid : ∀ d, terrainWidthsFl F.quot d (gridWidthFl F.sum F.quot F.store t xm ym) = terrainWidths d gw := by
    rw [hgw] at h0 h5 h2 ⊢
    exact (C114_formats F.sum F.quot F.store F.quot t x y xm ym hs ht hd h0).2.1 h5 h2
  generalize gridWidthFl F.sum F.quot F.store t xm ym = gwf at *
  -- exact and stored initial multipliers
  have key := fun i j => class2mzFl_near hu hh0 (by norm_num) F htab data i j
  simp only [terrainClass2mz_val] at key
  have hc1 : (1 : ℝ) ≤ (1 + 32 * (1 / 2 ^ 53)) * (1 + 1 / 2 ^ 24) := by norm_num
  have hc2 : (1 + 32 * (1 / 2 ^ 53)) * (1 + 1 / 2 ^ 24) < (2 : ℝ) := by norm_num
  have hc3 : (1 + 32 * (1 / 2 ^ 53)) * (1 + 1 / 2 ^ 24) ≤ (1 + 1 / 2 ^ 24 : ℝ) ^ 2 := by norm_num
  have hc4 : (1 + 32 * (1 / 2 ^ 53)) * (1 + 1 / 2 ^ 24) ≤ (1 + 1 / 2 ^ 23 : ℝ) := by norm_num
  generalize ((1 + 32 * (1 / 2 ^ 53)) * (1 + 1 / 2 ^ 24) : ℝ) = c at key hc1 hc2 hc3 hc4
  obtain ⟨s1, s2⟩ := terrainClass2mzFl_shape F data read
  have hpos : ∀ i j, classMz table (data.val i j) ≠ 0 → 0 < (terrainClass2mzFl F data read).val i j := by
    intro i j hne
    obtain ⟨e, -⟩ | ⟨k1, k2⟩ := key i j
    · exact absurd e hne
    · have k3 := (abs_le.mp k2.2).1
      have : 0 < classMz table (data.val i j) := by norm_num at k1; linarith
      nlinarith
  have hzero : ∀ i j, (terrainClass2mzFl F data read).val i j = 0 ↔ classMz table (data.val i j) = 0 := by
    intro i j
    refine ⟨fun e => ?_, fun e => ?_⟩
    · by_contra hne
      exact (hpos i j hne).ne' e
    · obtain ⟨-, e'⟩ | ⟨k1, -⟩ := key i j
      · exact e'
      · rw [e] at k1
        norm_num at k1
  obtain ⟨i0, hi0, j0, hj0, hne⟩ := hmax
  rw [terrainFl_loop F gwf data read clip _ rfl ⟨i0, hi0, j0, hj0, hpos i0 j0 hne⟩] at hres
  -- the directions
  have hdir := fun d => terrainDirFl_near F hu d gw gwf h0 h200 (hwid d) (waterMz table data)
    ⟨(terrainClass2mzFl F data read).rows, (terrainClass2mzFl F data read).cols, fun i j =>
      if (terrainClass2mzFl F data read).val i j = 0 then 1 else (terrainClass2mzFl F data read).val i j⟩
    (fun i j => decide ((terrainClass2mzFl F data read).val i j = 0)) c hc1 s1 s2 (fun i _ j _ => by
      show Near c (if classMz table (data.val i j) = 0 then 1 else classMz table (data.val i j))
        (if (terrainClass2mzFl F data read).val i j = 0 then 1 else (terrainClass2mzFl F data read).val i j)
      simp only [hzero]
      split_ifs with hz
      · exact (Near.refl zero_le_one).mono hc1
      · exact ((key i j).resolve_left fun hcon => hz hcon.1).2) (hlag d)
  obtain ⟨new, n1, n2, n3⟩ := terrainLoopFl_spec F gwf _ _ clip Dir.terrainOrder
    (fun d => ⟨_, (hdir d).choose_spec.1⟩) []
  rw [n1] at hres
  rw [hres, List.nil_append]
  refine ⟨⟨rfl, n2, fun d out hmem hlt => ?_⟩, fun d out hmem hlt => ?_⟩
  swap
  · obtain ⟨g, g1, g2⟩ := n3 _ hmem
    obtain ⟨g', g3, g4, -⟩ := hdir d
    rw [g1] at g3
    cases g3
    rw [g4 hlt] at g2
    refine ⟨_, g2, s1, s2, fun i _ j _ => ⟨_, rfl, ?_⟩⟩
    show |(if (terrainClass2mzFl F data read).val i j = 0 then 1 else (terrainClass2mzFl F data read).val i j) -
      if classMz table (data.val i j) = 0 then 1 else classMz table (data.val i j)| ≤
      _ * if classMz table (data.val i j) = 0 then 1 else classMz table (data.val i j)
    simp only [hzero]
    split_ifs with hz
    · norm_num
    · obtain ⟨k1, k2⟩ := (key i j).resolve_left fun hcon => hz hcon.1
      refine k2.2.trans (mul_le_mul_of_nonneg_right ?_ k2.1)
      linarith
  obtain ⟨g, g1, g2⟩ := n3 _ hmem
  obtain ⟨g', g3, -, g4⟩ := hdir d
  rw [g1] at g3
  cases g3
  obtain ⟨r1, r2, r3⟩ := g4 hlt
  refine ⟨g, g2, r1, r2, fun i hi j hj W L hW hL => ?_⟩
  obtain ⟨q1, q2⟩ := r3 i hi j hj W L hW hL
  simp only [decide_eq_true_eq, decide_eq_false_iff_not, hzero] at q1 q2
  refine ⟨q1, fun hn => ?_⟩
  obtain ⟨v, v1, v2⟩ := q2 hn
  refine ⟨v, v1, v2.trans ?_⟩
  have hmean : 0 ≤ upwindMean (waterMz table data) d W L i j := by
    unfold upwindMean
    have hnn : ∀ a b, 0 ≤ (waterMz table data).val a b := by
      intro a b
      show 0 ≤ if classMz table (data.val a b) = 0 then 1 else classMz table (data.val a b)
      split_ifs with hz
      · exact zero_le_one
      · exact ((key a b).resolve_left fun hcon => hz hcon.1).2.1
    split_ifs
    · exact div_nonneg (Finset.sum_nonneg fun _ _ => hnn _ _) (Nat.cast_nonneg _)
    · exact hnn _ _
  refine mul_le_mul_of_nonneg_right ?_ hmean
  have hW5 : (W : ℝ) ≤ 501 := by
    have := width_le d gw h1
    exact_mod_cast (by omega : W ≤ 501)
  have hk := one_add_pow_le (h := 1 / 2 ^ 24) (by positivity) (W + 4) (by
    push_cast
    rw [mul_one_div, div_le_iff₀ (by positivity)]
    norm_num
    linarith)
  have hp : c * (1 + 1 / 2 ^ 24) ^ W * (1 + 1 / 2 ^ 24) * (1 + 1 / 2 ^ 24) ≤ (1 + (1 / 2 ^ 24 : ℝ)) ^ (W + 4) := by
    calc c * (1 + 1 / 2 ^ 24) ^ W * (1 + 1 / 2 ^ 24) * (1 + 1 / 2 ^ 24)
        ≤ (1 + 1 / 2 ^ 24) ^ 2 * (1 + 1 / 2 ^ 24) ^ W * (1 + 1 / 2 ^ 24) * (1 + (1 / 2 ^ 24 : ℝ)) := by gcongr
      _ = _ := by ring
  have e : (2 : ℝ) * ((W + 4 : ℕ) : ℝ) * (1 / 2 ^ 24) = (W + 4) / 2 ^ 23 := by
    push_cast
    ring
  linarith

/-- C115: the terrain step in rounded arithmetic, from the land cover, the table as read and the stored pixel sizes
to the arrays that are clipped and saved.  On tiles as in C69 it ends without error with all eight outputs, in the
same order; a cell is NaN exactly if its category has no multiplier, and every other cell is the upwind mean of the
exact multipliers, over the width and lag of exact arithmetic, up to a relative error of `(width + 4) · 2⁻²³`. -/
theorem C115_terrain (F : TerrainFp (1 / 2 ^ 24) (1 / 2 ^ 53)) (t : SumTree) (x y xm ym : Grid ℝ)
    (hs : SizesStored F.store x y xm ym) (ht : t.Covers x.rows x.cols) (hd : t.depth ≤ 60)
    (gw : ℝ) (hgw : gw = meanSize x y) (h1 : 1 ≤ gw) (h200 : gw ≤ 200)
    (h5 : ClearDistance gw (1 / 2 ^ 16) 500) (h2 : ClearDistance gw (1 / 2 ^ 16) 200)
    (data : Grid ℤ) (table read : List (TerrainRow ℤ ℝ)) (htab : TableRead (1 / 2 ^ 53) table read)
    (clip : Grid (Option ℝ) → Grid (Option ℝ))
    (hmax : ∃ i < data.rows, ∃ j < data.cols, classMz table (data.val i j) ≠ 0)
    (hlag : ∀ d, (terrainWidths d gw).2 ≠ data.rows) (res : List (Dir × Grid (Option ℝ)) × Except PyErr Unit)
    (hres : res = terrainFl F (gridWidthFl F.sum F.quot F.store t xm ym) data read clip) :
    res.2 = .ok () ∧ res.1.map Prod.fst = [.w, .e, .n, .s, .nw, .ne, .se, .sw] ∧
    ∀ d out, (d, out) ∈ res.1 → (terrainWidths d gw).2 < data.rows →
      ∃ g : Grid (Option ℝ), out = clip g ∧ g.rows = data.rows ∧ g.cols = data.cols ∧
        ∀ i < data.rows, ∀ j < data.cols, ∀ W L : ℕ,
          (W : ℤ) = min (terrainWidths d gw).1 (data.rows - (terrainWidths d gw).2) →
          (L : ℤ) = (terrainWidths d gw).2 →
          (classMz table (data.val i j) = 0 → g.val i j = none) ∧
          (classMz table (data.val i j) ≠ 0 → ∃ v, g.val i j = some v ∧
            |v - upwindMean (waterMz table data) d W L i j| ≤
              (W + 4) / 2 ^ 23 * upwindMean (waterMz table data) d W L i j) :=
  (terrainFl_near F t x y xm ym hs ht hd gw hgw h1 h200 h5 h2 data table read htab clip hmax hlag res hres).1

/-- C115 (short tiles) On a tile with fewer rows than the lag distance the initial multipliers are saved as they are,
1 for categories without multiplier, up to one part in 2²³. -/
theorem C115_short (F : TerrainFp (1 / 2 ^ 24) (1 / 2 ^ 53)) (t : SumTree) (x y xm ym : Grid ℝ)
    (hs : SizesStored F.store x y xm ym) (ht : t.Covers x.rows x.cols) (hd : t.depth ≤ 60)
    (gw : ℝ) (hgw : gw = meanSize x y) (h1 : 1 ≤ gw) (h200 : gw ≤ 200)
    (h5 : ClearDistance gw (1 / 2 ^ 16) 500) (h2 : ClearDistance gw (1 / 2 ^ 16) 200)
    (data : Grid ℤ) (table read : List (TerrainRow ℤ ℝ)) (htab : TableRead (1 / 2 ^ 53) table read)
    (clip : Grid (Option ℝ) → Grid (Option ℝ))
    (hmax : ∃ i < data.rows, ∃ j < data.cols, classMz table (data.val i j) ≠ 0)
    (hlag : ∀ d, (terrainWidths d gw).2 ≠ data.rows) (res : List (Dir × Grid (Option ℝ)) × Except PyErr Unit)
    (hres : res = terrainFl F (gridWidthFl F.sum F.quot F.store t xm ym) data read clip) :
    ∀ d out, (d, out) ∈ res.1 → (data.rows : ℤ) < (terrainWidths d gw).2 →
      ∃ g : Grid (Option ℝ), out = clip g ∧ g.rows = data.rows ∧ g.cols = data.cols ∧
        ∀ i < data.rows, ∀ j < data.cols, ∃ v, g.val i j = some v ∧
          |v - (waterMz table data).val i j| ≤ 1 / 2 ^ 23 * (waterMz table data).val i j :=
  (terrainFl_near F t x y xm ym hs ht hd gw hgw h1 h200 h5 h2 data table read htab clip hmax hlag res hres).2

/-- Formats for examples. -/
noncomputable def exampleFp : TerrainFp (1 / 2 ^ 24) (1 / 2 ^ 53) :=
  ⟨digits 24, digits 24, digits 24, digits 53, exactLog _ (by positivity)⟩

/-- A tile of 40 rows of two cells, suburbs next to cells without class, pixel sizes as above in every row. -/
noncomputable def suburbStrip : Grid ℤ := ⟨40, 2, fun _ j => j⟩

example : ∃ res, res = terrainFl exampleFp (gridWidthFl (digits 24) (digits 24) (digits 24)
      (.add (.cell 0 1) (.cell 0 0)) (sizesX.map (roundDigits 24)) (sizesY.map (roundDigits 24)))
      suburbStrip [⟨1, roundDigits 53 0.2⟩] id ∧
    res.1.map Prod.fst = [.w, .e, .n, .s, .nw, .ne, .se, .sw] ∧
    ∀ out, (Dir.n, out) ∈ res.1 → ∃ v, out.val 30 1 = some v ∧
      |v - upwindMean (waterMz [⟨1, 0.2⟩] suburbStrip) .n 17 7 30 1| ≤
        ((17 : ℕ) + 4) / 2 ^ 23 * upwindMean (waterMz [⟨1, 0.2⟩] suburbStrip) .n 17 7 30 1 := by
  have w1 : (terrainWidths Dir.n (29.75 : ℝ)).1 = 17 :=
    around_eq_of_abs_lt (by rw [abs_lt]; norm_num)
  have w2 : (terrainWidths Dir.n (29.75 : ℝ)).2 = 7 :=
    around_eq_of_abs_lt (by rw [abs_lt]; norm_num)
  have wd : (terrainWidths Dir.ne (29.75 : ℝ)).2 = 4 := by
    show pyInt (200 / ((29.75 : ℝ) * (1414 / 1000))) = 4
    rw [pyInt, if_pos (by norm_num), Int.floor_eq_iff]
    norm_num
  have hcls : classMz [⟨1, 0.2⟩] 1 ≠ 0 := by
    have e : classMz [⟨1, 0.2⟩] 1 = roughnessMz 0.2 := rfl
    have := (mzFormula_bounds (z := 0.2) (by norm_num) (by norm_num)).1
    rw [e, ← mzFormula_eq]
    norm_num at this ⊢
    linarith
  have htab : TableRead (1 / 2 ^ 53) [⟨1, 0.2⟩] [⟨1, roundDigits 53 0.2⟩] := by
    refine .cons ⟨rfl, by norm_num, by norm_num, ?_⟩ .nil
    exact (roundDigits_near 53 0.2).trans (by norm_num [abs_of_pos])
  obtain ⟨-, r1, r2⟩ := C115_terrain exampleFp (.add (.cell 0 1) (.cell 0 0)) sizesX sizesY _ _
    (sizes_stored (by positivity) (digits 24)) sizes_covers (by decide) 29.75 sizes_mean.symm (by norm_num)
    (by norm_num) sizes_clear.1 sizes_clear.2 suburbStrip [⟨1, 0.2⟩] [⟨1, roundDigits 53 0.2⟩] htab id
    ⟨0, by decide, 1, by decide, hcls⟩ (by
      intro d
      show _ ≠ (40 : ℤ)
      cases d
      case n | s | e | w => exact fun h => absurd (h ▸ w2 : (40 : ℤ) = 7) (by norm_num)
      all_goals exact fun h => absurd (h ▸ wd : (40 : ℤ) = 4) (by norm_num)) _ rfl
  refine ⟨_, rfl, r1, fun out hmem => ?_⟩
  obtain ⟨g, g1, -, -, g2⟩ := r2 .n out hmem (by rw [w2]; decide)
  obtain ⟨v, v1, v2⟩ := (g2 30 (by decide) 1 (by decide) 17 7 (by rw [w1, w2]; decide) (by rw [w2]; rfl)).2 hcls
  exact ⟨v, by rw [g1]; exact v1, v2⟩

/-- The first five rows of the tile: less than the lag distance of 7 cells to the north.  The cell without class is
saved as 1. -/
example : ∃ res, res = terrainFl exampleFp (gridWidthFl (digits 24) (digits 24) (digits 24)
      (.add (.cell 0 1) (.cell 0 0)) (sizesX.map (roundDigits 24)) (sizesY.map (roundDigits 24)))
      ⟨5, 2, fun _ j => (j : ℤ)⟩ [⟨1, roundDigits 53 0.2⟩] id ∧
    ∀ out, (Dir.n, out) ∈ res.1 → ∃ v, out.val 3 0 = some v ∧ |v - 1| ≤ 1 / 2 ^ 23 := by
  have w2 : (terrainWidths Dir.n (29.75 : ℝ)).2 = 7 :=
    around_eq_of_abs_lt (by rw [abs_lt]; norm_num)
  have wd : (terrainWidths Dir.ne (29.75 : ℝ)).2 = 4 := by
    show pyInt (200 / ((29.75 : ℝ) * (1414 / 1000))) = 4
    rw [pyInt, if_pos (by norm_num), Int.floor_eq_iff]
    norm_num
  have hcls : classMz [⟨1, 0.2⟩] 1 ≠ 0 := by
    have e : classMz [⟨1, 0.2⟩] 1 = roughnessMz 0.2 := rfl
    have := (mzFormula_bounds (z := 0.2) (by norm_num) (by norm_num)).1
    rw [e, ← mzFormula_eq]
    norm_num at this ⊢
    linarith
  have htab : TableRead (1 / 2 ^ 53) [⟨1, 0.2⟩] [⟨1, roundDigits 53 0.2⟩] := by
    refine .cons ⟨rfl, by norm_num, by norm_num, ?_⟩ .nil
    exact (roundDigits_near 53 0.2).trans (by norm_num [abs_of_pos])
  have r2 := C115_short exampleFp (.add (.cell 0 1) (.cell 0 0)) sizesX sizesY _ _
    (sizes_stored (by positivity) (digits 24)) sizes_covers (by decide) 29.75 sizes_mean.symm (by norm_num)
    (by norm_num) sizes_clear.1 sizes_clear.2 ⟨5, 2, fun _ j => (j : ℤ)⟩ [⟨1, 0.2⟩] [⟨1, roundDigits 53 0.2⟩] htab id
    ⟨0, by norm_num, 1, by norm_num, hcls⟩ (by
      intro d
      show _ ≠ (5 : ℤ)
      cases d
      case n | s | e | w => exact fun h => absurd (h ▸ w2 : (5 : ℤ) = 7) (by norm_num)
      all_goals exact fun h => absurd (h ▸ wd : (5 : ℤ) = 4) (by norm_num)) _ rfl
  refine ⟨_, rfl, fun out hmem => ?_⟩
  obtain ⟨g, g1, -, -, g2⟩ := r2 .n out hmem (by rw [w2]; norm_num)
  obtain ⟨v, v1, v2⟩ := g2 3 (by norm_num) 0 (by norm_num)
  have hz : classMz [⟨(1 : ℤ), (0.2 : ℝ)⟩] 0 = 0 := rfl
  have hw : (waterMz [⟨1, 0.2⟩] ⟨5, 2, fun _ j => (j : ℤ)⟩).val 3 0 = 1 := by
    show (if classMz [⟨(1 : ℤ), (0.2 : ℝ)⟩] 0 = 0 then (1 : ℝ) else _) = 1
    rw [if_pos hz]
  rw [hw, mul_one] at v2
  exact ⟨v, by rw [g1]; exact v1, v2⟩

end WindMult
