import Verif.Props.EndToEnd
import Verif.Proofs.Seamless

/-!
# Ranges of the factors of the final multiplier
-/

set_option autoImplicit false
set_option linter.unusedSectionVars false

namespace WindMult

/-! ### Terrain -/

theorem classMz_range {table : List (TerrainRow ℤ ℝ)} {lo hi : ℝ}
    (h : ∀ row ∈ table, lo ≤ roughnessMz row.roughness ∧ roughnessMz row.roughness ≤ hi) (k : ℤ) :
    classMz table k = 0 ∨ lo ≤ classMz table k ∧ classMz table k ≤ hi := by
  unfold classMz
  split
  · exact .inl rfl
  · rename_i row hrow
    exact .inr (h row (List.mem_reverse.mp (List.mem_of_find?_eq_some hrow)))

theorem waterMz_range {table : List (TerrainRow ℤ ℝ)} {lo hi : ℝ} (hlo : lo ≤ 1) (hhi : 1 ≤ hi)
    (h : ∀ row ∈ table, lo ≤ roughnessMz row.roughness ∧ roughnessMz row.roughness ≤ hi)
    (cat : Grid ℤ) (i j : ℕ) :
    lo ≤ (waterMz table cat).val i j ∧ (waterMz table cat).val i j ≤ hi := by
  show lo ≤ (if classMz table (cat.val i j) = 0 then 1 else classMz table (cat.val i j)) ∧
    (if classMz table (cat.val i j) = 0 then 1 else classMz table (cat.val i j)) ≤ hi
  split_ifs with h0
  · exact ⟨hlo, hhi⟩
  · exact (classMz_range h _).resolve_left h0

/-! ### Shielding -/

theorem classMs_range {table : List (ℤ × ℝ)} {lo : ℝ} (hlo : lo ≤ 1)
    (h : ∀ row ∈ table, 100 * lo ≤ row.2 ∧ row.2 ≤ 100) (k : ℤ) (v : ℝ)
    (hv : classMs table k = some v) : lo ≤ v ∧ v ≤ 1 := by
  unfold classMs at hv
  split_ifs at hv
  split at hv
  · cases hv
    exact ⟨hlo, le_rfl⟩
  · rename_i row hrow
    cases hv
    obtain ⟨a, b⟩ := h row (List.mem_reverse.mp (List.mem_of_find?_eq_some hrow))
    constructor <;> linarith

theorem shieldMean_range {g : Grid (Option ℝ)} {d : Dir} {k i j : ℕ} {lo hi m : ℝ} (hk : 1 ≤ k)
    (hcell : ∀ o ∈ shieldCells d k, ∀ v, g.cellOrOne (i + o.1) (j + o.2) = some v → lo ≤ v ∧ v ≤ hi)
    (hm : shieldMean g d k i j = some m) : lo ≤ m ∧ m ≤ hi := by
  unfold shieldMean at hm
  split_ifs at hm with hex
  push Not at hex
  have hp := card_pos' (K := ℝ) d k hk
  cases hm
  have hb : ∀ o ∈ shieldCells d k, lo ≤ (g.cellOrOne (i + o.1) (j + o.2)).getD 0 ∧
      (g.cellOrOne (i + o.1) (j + o.2)).getD 0 ≤ hi := by
    intro o ho
    obtain ⟨v, hv⟩ := Option.ne_none_iff_exists'.mp (hex o ho)
    rw [hv]
    exact hcell o ho v hv
  rw [le_div_iff₀ hp, div_le_iff₀ hp]
  constructor
  · have := Finset.card_nsmul_le_sum _ _ lo (fun t ht => (hb t ht).1)
    rw [nsmul_eq_mul] at this
    linarith
  · have := Finset.sum_le_card_nsmul _ _ hi (fun t ht => (hb t ht).2)
    rw [nsmul_eq_mul] at this
    linarith

theorem finalMs_mono {v v' : ℝ} (h0 : 0 ≤ v) (h : v ≤ v') : finalMs v ≤ finalMs v' :=
  cons_mono h0 h

theorem finalMs_nonneg {v : ℝ} (h0 : 0 ≤ v) : 0 ≤ finalMs v := by
  unfold finalMs
  split_ifs <;> positivity

theorem finalMs_one : finalMs 1 = 1 := by
  unfold finalMs
  norm_num

/-! ### Topography -/

theorem IsLineMultiplier.range {y : Line ℝ} {ds x : ℝ} {p : ℕ} (h : IsLineMultiplier y ds p x) :
    1 ≤ x ∧ x ≤ 171 / 100 := by
  refine ⟨h.2 (.inl rfl), ?_⟩
  rcases h.1 with h | ⟨v, r, hh, hc, h⟩
  · rw [h]
    norm_num
  · have hb := fun q : ℤ => (hillMultiplier_bounds (y.val r - y.val v) (halfWidth v r ds)
      (y.escarpment v r) (((r : ℝ) - (q : ℝ)) * ds) (by linarith [hc.2.1])
      (escarpment_range y v r).1).2
    rw [h]
    split_ifs
    · exact hb (-1)
    · exact hb p

theorem adjustedMt_range {tas : Prop} [Decidable tas] {z x top : ℝ} (h1 : 1 ≤ x)
    (h2 : x ≤ 171 / 100) (ht : 0 ≤ top) (hz : z ≤ top) :
    1 ≤ adjustedMt tas z x ∧ adjustedMt tas z x ≤ 1.539 * (1 + 0.00015 * top) ∧
      (¬ tas → adjustedMt tas z x ≤ 1.539) := by
  have key : ∀ y : ℝ, y = (if x ≤ 1 then x else if x < 1.4 then x * (1.25 - 0.25 * x) else 0.9 * x) →
      1 ≤ y ∧ y ≤ 1.539 := by
    rintro y rfl
    split_ifs with a b
    · exact ⟨h1, by norm_num; linarith⟩
    · norm_num at b ⊢
      constructor
      · nlinarith
      · nlinarith
    · norm_num at b ⊢
      constructor <;> linarith
  unfold adjustedMt
  simp only
  obtain ⟨k1, k2⟩ := key _ rfl
  set y := (if x ≤ 1 then x else if x < 1.4 then x * (1.25 - 0.25 * x) else 0.9 * x)
  norm_num at k2 ⊢
  split_ifs with h
  · refine ⟨by nlinarith, ?_, fun hn => absurd h.1 hn⟩
    have : (0 : ℝ) ≤ z := by linarith [h.2]
    nlinarith
  · exact ⟨k1, by nlinarith, fun _ => k2⟩

theorem IsRawMt.range {dem : Grid ℝ} {d : Dir} {ds : ℝ} {tas : Prop} [Decidable tas] {r c : ℤ}
    {x top : ℝ} (h : IsRawMt dem d ds tas r c x) (ht : 0 ≤ top)
    (hz : ∀ i < dem.rows, ∀ j < dem.cols, dem.val i j ≤ top) :
    0 ≤ x ∧ (InRaster dem.rows dem.cols r c → 1 ≤ x) ∧ x ≤ 1.539 * (1 + 0.00015 * top) ∧
      (¬ tas → x ≤ 1.539) := by
  by_cases hin : InRaster dem.rows dem.cols r c
  · obtain ⟨u, n, y, -, hy, rfl⟩ := h.1 hin
    obtain ⟨q1, q2, q3, q4⟩ := hin
    obtain ⟨a, b, e⟩ := adjustedMt_range (tas := tas) hy.range.1 hy.range.2 ht
      (hz r.toNat (by omega) c.toNat (by omega))
    exact ⟨by linarith, fun _ => a, b, e⟩
  · rw [h.2 hin]
    refine ⟨le_rfl, fun hc => absurd hc hin, ?_, fun _ => by norm_num⟩
    norm_num
    nlinarith

theorem sum_nine (x : ℤ → ℤ → ℝ) : (∑ a ∈ ({-1, 0, 1} : Finset ℤ), ∑ b ∈ ({-1, 0, 1} : Finset ℤ), x a b)
    = x (-1) (-1) + x (-1) 0 + x (-1) 1 + (x 0 (-1) + x 0 0 + x 0 1) +
      (x 1 (-1) + x 1 0 + x 1 1) := by
  simp only [Finset.sum_insert (show (-1 : ℤ) ∉ ({0, 1} : Finset ℤ) by decide),
    Finset.sum_insert (show (0 : ℤ) ∉ ({1} : Finset ℤ) by decide), Finset.sum_singleton]
  ring

/-- Of the nine cells around a cell of a grid with at least two rows and columns at least four exist;
all nine if it is not on the edge. -/
theorem nine_range {rows cols : ℕ} (hr : 2 ≤ rows) (hc : 2 ≤ cols) {i j : ℤ}
    (hin : InRaster rows cols i j) {x : ℤ → ℤ → ℝ} {hi : ℝ}
    (h0 : ∀ a b, 0 ≤ x a b) (h1 : ∀ a b, InRaster rows cols (i + a) (j + b) → 1 ≤ x a b)
    (h2 : ∀ a b, x a b ≤ hi) :
    4 / 9 ≤ (∑ a ∈ ({-1, 0, 1} : Finset ℤ), ∑ b ∈ ({-1, 0, 1} : Finset ℤ), x a b) / 9 ∧
    (∑ a ∈ ({-1, 0, 1} : Finset ℤ), ∑ b ∈ ({-1, 0, 1} : Finset ℤ), x a b) / 9 ≤ hi ∧
    (0 < i → i + 1 < rows → 0 < j → j + 1 < cols →
      1 ≤ (∑ a ∈ ({-1, 0, 1} : Finset ℤ), ∑ b ∈ ({-1, 0, 1} : Finset ℤ), x a b) / 9) := by
  obtain ⟨q1, q2, q3, q4⟩ := hin
  rw [sum_nine]
  have e := fun a b => h0 a b
  have f := fun a b => h2 a b
  refine ⟨?_, ?_, fun p1 p2 p3 p4 => ?_⟩
  · have mem : ∀ a b : ℤ, 0 ≤ i + a → i + a < rows → 0 ≤ j + b → j + b < cols → 1 ≤ x a b :=
      fun a b w1 w2 w3 w4 => h1 a b ⟨w1, w2, w3, w4⟩
    have m0 := mem 0 0 (by omega) (by omega) (by omega) (by omega)
    have := e (-1) (-1); have := e (-1) 0; have := e (-1) 1; have := e 0 (-1); have := e 0 1
    have := e 1 (-1); have := e 1 0; have := e 1 1
    rcases (by omega : i + 1 < rows ∨ 0 < i) with hi1 | hi1 <;>
      rcases (by omega : j + 1 < cols ∨ 0 < j) with hj1 | hj1
    · linarith [mem 1 0 (by omega) (by omega) (by omega) (by omega),
        mem 0 1 (by omega) (by omega) (by omega) (by omega),
        mem 1 1 (by omega) (by omega) (by omega) (by omega)]
    · linarith [mem 1 0 (by omega) (by omega) (by omega) (by omega),
        mem 0 (-1) (by omega) (by omega) (by omega) (by omega),
        mem 1 (-1) (by omega) (by omega) (by omega) (by omega)]
    · linarith [mem (-1) 0 (by omega) (by omega) (by omega) (by omega),
        mem 0 1 (by omega) (by omega) (by omega) (by omega),
        mem (-1) 1 (by omega) (by omega) (by omega) (by omega)]
    · linarith [mem (-1) 0 (by omega) (by omega) (by omega) (by omega),
        mem 0 (-1) (by omega) (by omega) (by omega) (by omega),
        mem (-1) (-1) (by omega) (by omega) (by omega) (by omega)]
  · linarith [f (-1) (-1), f (-1) 0, f (-1) 1, f 0 (-1), f 0 0, f 0 1, f 1 (-1), f 1 0, f 1 1]
  · have mem : ∀ a b : ℤ, -1 ≤ a → a ≤ 1 → -1 ≤ b → b ≤ 1 → 1 ≤ x a b :=
      fun a b w1 w2 w3 w4 => h1 a b ⟨by omega, by omega, by omega, by omega⟩
    linarith [mem (-1) (-1) (by omega) (by omega) (by omega) (by omega),
      mem (-1) 0 (by omega) (by omega) (by omega) (by omega),
      mem (-1) 1 (by omega) (by omega) (by omega) (by omega),
      mem 0 (-1) (by omega) (by omega) (by omega) (by omega),
      mem 0 0 (by omega) (by omega) (by omega) (by omega),
      mem 0 1 (by omega) (by omega) (by omega) (by omega),
      mem 1 (-1) (by omega) (by omega) (by omega) (by omega),
      mem 1 0 (by omega) (by omega) (by omega) (by omega),
      mem 1 1 (by omega) (by omega) (by omega) (by omega)]

end WindMult
