import Verif.Proofs.FloatFormula
import Verif.Proofs.RelErr
import Verif.Proofs.Pipeline
import Verif.Props.FloatTerrain

/-!
# Cell size, widths and initial multipliers in rounded arithmetic
-/

set_option autoImplicit false

namespace WindMult
variable {u h : ℝ}

section
variable (hu0 : 0 ≤ u) (hu1 : u < 1)
include hu0 hu1

/-- A sum of nonnegative cells in any order. -/
theorem SumTree.sumFl_rel (A : FpRound u) (x g : Grid ℝ) (k : ℕ) (t : SumTree)
    (hx : ∀ p ∈ t.cells, 0 ≤ x.val p.1 p.2) (hg : ∀ p ∈ t.cells, RelErr u k (x.val p.1 p.2) (g.val p.1 p.2)) :
    0 ≤ (t.cells.map fun p => x.val p.1 p.2).sum ∧
      RelErr u (k + t.depth) (t.cells.map fun p => x.val p.1 p.2).sum (t.sumFl A g) := by
  induction t with
  | cell i j =>
    simp only [SumTree.cells, List.mem_singleton, forall_eq, List.map_cons, List.map_nil, List.sum_singleton,
      SumTree.depth, SumTree.sumFl, add_zero] at *
    exact ⟨hx, hg⟩
  | add l r ihl ihr =>
    simp only [SumTree.cells, List.mem_append] at hx hg
    obtain ⟨l1, l2⟩ := ihl (fun p hp => hx p (.inl hp)) (fun p hp => hg p (.inl hp))
    obtain ⟨r1, r2⟩ := ihr (fun p hp => hx p (.inr hp)) (fun p hp => hg p (.inr hp))
    simp only [SumTree.cells, List.map_append, List.sum_append, SumTree.depth, SumTree.sumFl]
    refine ⟨add_nonneg l1 r1, ?_⟩
    have := RelErr.add hu0 hu1 l1 r1
      (RelErr.mono hu0 hu1 l2 (by omega : k + l.depth ≤ k + max l.depth r.depth))
      (RelErr.mono hu0 hu1 r2 (by omega : k + r.depth ≤ k + max l.depth r.depth))
    exact RelErr.rnd hu0 hu1 A this

theorem meanFl_rel (A D S : FpRound u) (x g : Grid ℝ) (k : ℕ) (t : SumTree) (hr : g.rows = x.rows)
    (hc : g.cols = x.cols) (ht : t.Covers x.rows x.cols)
    (hx : ∀ i < x.rows, ∀ j < x.cols, 0 ≤ x.val i j)
    (hg : ∀ i < x.rows, ∀ j < x.cols, RelErr u k (x.val i j) (g.val i j)) :
    0 ≤ x.mean ∧ RelErr u (k + t.depth + 2) x.mean (meanFl A D S t g) := by
  have hmem : ∀ p ∈ t.cells, p.1 < x.rows ∧ p.2 < x.cols := by
    intro p hp
    have := ht.mem_iff.mp hp
    simp only [List.mem_flatMap, List.mem_range, List.mem_map] at this
    obtain ⟨i, hi, j, hj, rfl⟩ := this
    exact ⟨hi, hj⟩
  obtain ⟨h0, h1⟩ := SumTree.sumFl_rel hu0 hu1 A x g k t (fun p hp => hx _ (hmem p hp).1 _ (hmem p hp).2)
    (fun p hp => hg _ (hmem p hp).1 _ (hmem p hp).2)
  have hs : (t.cells.map fun p => x.val p.1 p.2).sum = x.cells.sum := by
    rw [(ht.map fun p => x.val p.1 p.2).sum_eq]
    congr 1
    simp [Grid.cells, List.map_flatMap, Function.comp_def]
  rw [hs] at h0 h1
  unfold Grid.mean meanFl
  rw [hr, hc]
  refine ⟨div_nonneg h0 (Nat.cast_nonneg _), ?_⟩
  have := RelErr.div hu0 hu1 h1 (RelErr.refl hu0 hu1 ((x.rows * x.cols : ℕ) : ℝ))
  exact RelErr.rnd hu0 hu1 S (RelErr.rnd hu0 hu1 D this)

theorem gridWidthFl_rel (A D S : FpRound u) (x y xm ym : Grid ℝ) (k : ℕ) (t : SumTree)
    (hr : xm.rows = x.rows) (hc : xm.cols = x.cols) (hr' : ym.rows = x.rows) (hc' : ym.cols = x.cols)
    (hyr : y.rows = x.rows) (hyc : y.cols = x.cols) (ht : t.Covers x.rows x.cols)
    (hx : ∀ i < x.rows, ∀ j < x.cols, 0 ≤ x.val i j ∧ 0 ≤ y.val i j)
    (hg : ∀ i < x.rows, ∀ j < x.cols,
      RelErr u k (x.val i j) (xm.val i j) ∧ RelErr u k (y.val i j) (ym.val i j)) :
    RelErr u (k + t.depth + 3) (gridWidth x y) (gridWidthFl A D S t xm ym) := by
  obtain ⟨a0, a1⟩ := meanFl_rel hu0 hu1 A D S x xm k t hr hc ht (fun i hi j hj => (hx i hi j hj).1)
    (fun i hi j hj => (hg i hi j hj).1)
  obtain ⟨b0, b1⟩ := meanFl_rel hu0 hu1 A D S y ym k t (by rw [hr', hyr]) (by rw [hc', hyc])
    (by rw [hyr, hyc]; exact ht) (fun i hi j hj => (hx i (hyr ▸ hi) j (hyc ▸ hj)).2)
    (fun i hi j hj => (hg i (hyr ▸ hi) j (hyc ▸ hj)).2)
  have h1 := RelErr.rnd hu0 hu1 S (RelErr.add hu0 hu1 a0 b0 a1 b1)
  have h2 := RelErr.mul hu0 hu1 (RelErr.refl hu0 hu1 (1 / 2)) h1
  rw [Nat.zero_add] at h2
  exact h2

/-- A quotient of a literal distance and the cell size. -/
theorem quotient_rel (Q : FpRound u) {gw gwf m : ℝ} {k : ℕ} (hg : RelErr u k gw gwf) :
    RelErr u (k + 1) (m / gw) (Q.rnd (m / gwf)) := by
  have := RelErr.rnd hu0 hu1 Q (RelErr.div hu0 hu1 (RelErr.refl hu0 hu1 m) hg)
  rwa [Nat.zero_add] at this

/-- The same for the diagonals. -/
theorem diagonal_rel (Q : FpRound u) {gw gwf m : ℝ} {k : ℕ} (hg : RelErr u k gw gwf) :
    RelErr u (k + 3) (m / (gw * (1414 / 1000))) (Q.rnd (m / Q.rnd (gwf * Q.rnd (1414 / 1000)))) := by
  have h1 := RelErr.rnd hu0 hu1 Q (RelErr.mul hu0 hu1 hg (RelErr.one hu0 hu1 Q (1414 / 1000)))
  exact quotient_rel hu0 hu1 Q h1

end

theorem around_eq_of_clear {q q' δ : ℝ} (h : |q' - q| ≤ δ) (hc : ∀ n : ℤ, δ < |q - (n + 1 / 2)|) :
    around q' = around q := by
  have h1 := abs_sub_around_le q
  generalize around q = n at h1 ⊢
  have c1 := hc n
  have c2 := hc (n - 1)
  push_cast at c2
  apply around_eq_of_abs_lt
  obtain ⟨a1, a2⟩ := abs_le.mp h1
  obtain ⟨b1, b2⟩ := abs_le.mp h
  rw [abs_of_nonpos (by linarith)] at c1
  rw [abs_of_nonneg (by linarith)] at c2
  rw [abs_lt]
  constructor <;> linarith

theorem pyInt_eq_of_clear {q q' δ : ℝ} (hq : 0 ≤ q) (h : |q' - q| ≤ δ) (hc : ∀ n : ℤ, δ < |q - n|) :
    pyInt q' = pyInt q := by
  have h1 := Int.floor_le q
  have h2 := Int.lt_floor_add_one q
  have c1 := hc ⌊q⌋
  have c2 := hc (⌊q⌋ + 1)
  push_cast at c2
  obtain ⟨b1, b2⟩ := abs_le.mp h
  rw [abs_of_nonneg (by linarith)] at c1
  rw [abs_of_nonpos (by linarith)] at c2
  have hf : (0 : ℝ) ≤ (⌊q⌋ : ℝ) := by exact_mod_cast Int.floor_nonneg.mpr hq
  unfold pyInt
  rw [if_pos hq, if_pos (by linarith), Int.floor_eq_iff]
  constructor <;> linarith

/-! ### Initial multipliers -/

/-- A table as read: the categories, and roughness lengths between 1 mm and 10 m up to two units in the last place. -/
def TableRead (h : ℝ) (table read : List (TerrainRow ℤ ℝ)) : Prop :=
  List.Forall₂ (fun a b => b.category = a.category ∧ 1 / 1000 ≤ a.roughness ∧ a.roughness ≤ 10 ∧
    |b.roughness - a.roughness| ≤ 4 * h * a.roughness) table read

variable (hu0 : 0 ≤ u) (hh0 : 0 ≤ h) (hh : h ≤ 1 / 2 ^ 20)
include hu0 hh0 hh

theorem storedMz_near (S : FpRound u) (W : FpRound h) (L : FpLog h) {z y : ℝ} (h1 : 1 / 1000 ≤ z) (h2 : z ≤ 10)
    (hy : |y - z| ≤ 4 * h * z) :
    0.62 ≤ mzFormula z ∧ Near ((1 + 32 * h) * (1 + u)) (mzFormula z) (S.rnd (mzFormulaFl W L y)) := by
  have hb := (mzFormula_bounds h1 h2).1
  refine ⟨hb, Near.rnd S hu0 ⟨by norm_num at hb; linarith, ?_⟩⟩
  refine (mzFormulaFl_near W L hh0 hh h1 h2 hy).trans ?_
  norm_num at hb ⊢
  nlinarith

theorem class2mzFl_near (F : TerrainFp u h) {table read : List (TerrainRow ℤ ℝ)} (ht : TableRead h table read)
    (data : Grid ℤ) (i j : ℕ) :
    ((terrainClass2mz mzFormula data table).val i j = 0 ∧ (terrainClass2mzFl F data read).val i j = 0) ∨
      0.62 ≤ (terrainClass2mz mzFormula data table).val i j ∧
      Near ((1 + 32 * h) * (1 + u)) ((terrainClass2mz mzFormula data table).val i j)
        ((terrainClass2mzFl F data read).val i j) := by
  have ht' : List.Forall₂ (fun a b : TerrainRow ℤ ℝ => b.category = a.category ∧ 1 / 1000 ≤ a.roughness ∧
      a.roughness ≤ 10 ∧ |b.roughness - a.roughness| ≤ 4 * h * a.roughness) table.reverse read.reverse :=
    List.forall₂_reverse_iff.mpr ht
  rw [← List.reverse_reverse table, ← List.reverse_reverse read]
  unfold terrainClass2mzFl
  generalize table.reverse = t at ht'
  generalize read.reverse = r at ht'
  induction ht' with
  | nil => exact .inl ⟨rfl, rfl⟩
  | cons hab _ ih =>
    obtain ⟨c, z1, z2, z3⟩ := hab
    rw [List.reverse_cons, List.reverse_cons, terrainClass2mz_append, terrainClass2mz_append, c]
    split_ifs with hcat
    · exact .inr (storedMz_near hu0 hh0 hh F.store F.wide F.log z1 z2 z3)
    · exact ih

end WindMult
