import Verif.Model.FloatDriver
import Verif.Props.TerrainDriver
import Mathlib.Tactic.NormNum

/-!
# The initial terrain multiplier in rounded arithmetic
-/

set_option autoImplicit false

namespace WindMult

/-- The logarithm of two positive numbers at least `m`. -/
theorem log_sub_le {x y m : ℝ} (hm : 0 < m) (hx : m ≤ x) (hy : m ≤ y) :
    |Real.log y - Real.log x| ≤ |y - x| / m := by
  have hx0 : 0 < x := hm.trans_le hx
  have hy0 : 0 < y := hm.trans_le hy
  have key : ∀ a b : ℝ, m ≤ a → m ≤ b → a ≤ b → |Real.log b - Real.log a| ≤ (b - a) / m := by
    intro a b ha hb hab
    have ha0 : 0 < a := hm.trans_le ha
    have hb0 : 0 < b := hm.trans_le hb
    rw [abs_of_nonneg (sub_nonneg.mpr (Real.log_le_log ha0 hab)), ← Real.log_div hb0.ne' ha0.ne']
    refine (Real.log_le_sub_one_of_pos (by positivity)).trans ?_
    rw [show b / a - 1 = (b - a) / a by field_simp]
    exact div_le_div_of_nonneg_left (by linarith) hm ha
  rcases le_total x y with h | h
  · rw [abs_of_nonneg (sub_nonneg.mpr h)]
    exact key x y hx hy h
  · rw [abs_sub_comm, abs_sub_comm y x, abs_of_nonneg (sub_nonneg.mpr h)]
    exact key y x hy hx h

/-- A product of two approximate factors, rounded. -/
theorem mul_near {u : ℝ} (R : FpRound u) {x y x' y' a b X Y e : ℝ} (hx : |x' - x| ≤ a) (hy : |y' - y| ≤ b)
    (hX : |x| ≤ X) (hY : |y'| ≤ Y) (hu : 0 ≤ u) (he : a * Y + X * b + u * ((X + a) * Y) ≤ e) :
    |R.rnd (x' * y') - x * y| ≤ e := by
  have h1 : |x' * y' - x * y| ≤ a * Y + X * b := by
    rw [show x' * y' - x * y = (x' - x) * y' + x * (y' - y) by ring]
    refine (abs_add_le _ _).trans ?_
    rw [abs_mul, abs_mul]
    have := (abs_nonneg _).trans hx
    have := (abs_nonneg _).trans hX
    gcongr
  have h2 : |x'| ≤ X + a := by
    have := abs_add_le x (x' - x)
    rw [show x + (x' - x) = x' by ring] at this
    linarith
  have h3 : |x' * y'| ≤ (X + a) * Y := by
    rw [abs_mul]
    have := (abs_nonneg _).trans h2
    gcongr
  have h4 := R.near (x' * y')
  have h5 := mul_le_mul_of_nonneg_left h3 hu
  rw [show R.rnd (x' * y') - x * y = (R.rnd (x' * y') - x' * y') + (x' * y' - x * y) by ring]
  refine (abs_add_le _ _).trans ?_
  linarith

/-- A sum of two approximate numbers, rounded. -/
theorem add_near {u : ℝ} (R : FpRound u) {x y x' y' a b S e : ℝ} (hx : |x' - x| ≤ a) (hy : |y' - y| ≤ b)
    (hS : |x + y| ≤ S) (hu : 0 ≤ u) (he : a + b + u * (S + a + b) ≤ e) :
    |R.rnd (x' + y') - (x + y)| ≤ e := by
  have h1 : |x' + y' - (x + y)| ≤ a + b := by
    rw [show x' + y' - (x + y) = (x' - x) + (y' - y) by ring]
    refine (abs_add_le _ _).trans ?_
    linarith
  have h2 : |x' + y'| ≤ S + a + b := by
    have := abs_add_le (x + y) (x' + y' - (x + y))
    rw [show x + y + (x' + y' - (x + y)) = x' + y' by ring] at this
    linarith
  have h4 := R.near (x' + y')
  have h5 := mul_le_mul_of_nonneg_left h2 hu
  rw [show R.rnd (x' + y') - (x + y) = (R.rnd (x' + y') - (x' + y')) + (x' + y' - (x + y)) by ring]
  refine (abs_add_le _ _).trans ?_
  linarith

/-- Bounds on the numbers met in the formula. -/
theorem mz_bounds {z : ℝ} (h1 : 1 / 1000 ≤ z) (h2 : z ≤ 10) :
    |Real.log z| ≤ 7 ∧ 0.58 ≤ 0.4554 * Real.log z + 3.734 ∧ 0.4554 * Real.log z + 3.734 ≤ 4.8 ∧
      |Real.log (0.4554 * Real.log z + 3.734)| ≤ 1.6 := by
  have l2 := Real.log_two_gt_d9
  have u2 := Real.log_two_lt_d9
  obtain ⟨l3, u3⟩ := log_three_bounds
  obtain ⟨l5, u5⟩ := log_five_bounds
  norm_num at l2 u2 l3 u3 l5 u5
  have e1 : Real.log (1 / 1000) = -(3 * Real.log 2 + 3 * Real.log 5) := by
    rw [show (1 / 1000 : ℝ) = (2 ^ 3 * 5 ^ 3)⁻¹ by norm_num, Real.log_inv,
      Real.log_mul (by norm_num) (by norm_num), Real.log_pow, Real.log_pow]
    push_cast; ring
  have e2 : Real.log 10 = Real.log 2 + Real.log 5 := by
    rw [show (10 : ℝ) = 2 * 5 by norm_num, Real.log_mul (by norm_num) (by norm_num)]
  have hz : 0 < z := lt_of_lt_of_le (by norm_num) h1
  have a1 := Real.log_le_log (by norm_num) h1
  have a2 := Real.log_le_log hz h2
  rw [e1] at a1
  rw [e2] at a2
  have b1 : 0.58 ≤ 0.4554 * Real.log z + 3.734 := by norm_num; linarith
  have b2 : 0.4554 * Real.log z + 3.734 ≤ 4.8 := by norm_num; linarith
  refine ⟨abs_le.mpr ⟨by linarith, by linarith⟩, b1, b2, ?_⟩
  have e3 : Real.log 4.8 = 3 * Real.log 2 + Real.log 3 - Real.log 5 := by
    rw [show (4.8 : ℝ) = 2 ^ 3 * 3 / 5 by norm_num, Real.log_div (by norm_num) (by norm_num),
      Real.log_mul (by norm_num) (by norm_num), Real.log_pow]
    push_cast; ring
  have c1 := (log_near_one (x := 0.58) (by norm_num)).1
  have c2 := Real.log_le_log (by norm_num) b1
  have c3 := Real.log_le_log (by linarith) b2
  rw [e3] at c3
  norm_num at c1 c2 c3 ⊢
  exact abs_le.mpr ⟨by linarith, by linarith⟩

theorem mzFormula_bounds {z : ℝ} (h1 : 1 / 1000 ≤ z) (h2 : z ≤ 10) :
    0.62 ≤ mzFormula z ∧ mzFormula z ≤ 1.6 := by
  obtain ⟨-, -, -, b⟩ := mz_bounds h1 h2
  unfold mzFormula
  norm_num at b ⊢
  obtain ⟨b1, b2⟩ := abs_le.mp b
  constructor <;> linarith

variable {h : ℝ}

theorem log_step (L : FpLog h) (hh0 : 0 ≤ h) {x y m B e : ℝ} (hm : 0 < m) (hx : m ≤ x)
    (hy : m ≤ y) (hB : |Real.log x| ≤ B) (he : |y - x| / m + 2 * h * (B + |y - x| / m) ≤ e) :
    |L.log y - Real.log x| ≤ e := by
  have h1 := log_sub_le hm hx hy
  have h2 := L.near y (hm.trans_le hy)
  have h3 : |Real.log y| ≤ B + |y - x| / m := by
    have := abs_add_le (Real.log x) (Real.log y - Real.log x)
    rw [show Real.log x + (Real.log y - Real.log x) = Real.log y by ring] at this
    linarith
  have h4 := mul_le_mul_of_nonneg_left h3 (by linarith : (0 : ℝ) ≤ 2 * h)
  rw [show L.log y - Real.log x = (L.log y - Real.log y) + (Real.log y - Real.log x) by ring]
  refine (abs_add_le _ _).trans ?_
  linarith

/-- The formula in rounded arithmetic, with a roughness length read up to two units in the last place. -/
theorem mzFormulaFl_near (W : FpRound h) (L : FpLog h) (hh0 : 0 ≤ h) (hh : h ≤ 1 / 2 ^ 20) {z y : ℝ}
    (h1 : 1 / 1000 ≤ z) (h2 : z ≤ 10) (hy : |y - z| ≤ 4 * h * z) :
    |mzFormulaFl W L y - mzFormula z| ≤ 19 * h := by
  obtain ⟨b1, b2, b3, b4⟩ := mz_bounds h1 h2
  have hz : 0 < z := lt_of_lt_of_le (by norm_num) h1
  have hh' : h * h ≤ h / 2 ^ 20 := by
    have := mul_le_mul_of_nonneg_left hh hh0
    linarith
  -- the inner logarithm
  have s1 : |L.log y - Real.log z| ≤ 19 * h := by
    have q : |y - z| / (z * (1 - 4 * h)) ≤ 4.001 * h := by
      rw [div_le_iff₀ (by norm_num at hh; nlinarith)]
      refine hy.trans ?_
      norm_num at hh ⊢
      nlinarith [mul_nonneg hh0 hz.le]
    refine log_step L hh0 (m := z * (1 - 4 * h)) (B := 7) (by norm_num at hh; nlinarith) (by nlinarith) ?_ b1 ?_
    · have := (abs_le.mp hy).1
      linarith
    · norm_num at q ⊢
      nlinarith
  have s1' : |L.log y| ≤ 7.1 := by
    have := abs_add_le (Real.log z) (L.log y - Real.log z)
    rw [show Real.log z + (L.log y - Real.log z) = L.log y by ring] at this
    norm_num at hh ⊢
    linarith
  have lit : ∀ c : ℝ, 0 < c → |W.rnd c - c| ≤ c * h := fun c hc => by
    have := W.near c
    rwa [abs_of_pos hc, mul_comm] at this
  have s2 : |W.rnd (W.rnd 0.4554 * L.log y) - 0.4554 * Real.log z| ≤ 16 * h :=
    mul_near W (lit 0.4554 (by norm_num)) s1 (X := 0.4554) (by norm_num) s1' hh0 (by norm_num at hh' ⊢; nlinarith)
  have s3 : |W.rnd (W.rnd (W.rnd 0.4554 * L.log y) + W.rnd 3.734) - (0.4554 * Real.log z + 3.734)| ≤ 25 * h :=
    add_near W s2 (lit 3.734 (by norm_num)) (S := 4.8) (by rw [abs_of_pos (by linarith)]; exact b3) hh0
      (by norm_num at hh' ⊢; nlinarith)
  have e : mzFormula z = -0.2827 * Real.log (0.4554 * Real.log z + 3.734) + 1.0762 := by
    unfold mzFormula
    norm_num
  rw [e]
  unfold mzFormulaFl
  generalize W.rnd (W.rnd (W.rnd 0.4554 * L.log y) + W.rnd 3.734) = b' at s3 ⊢
  generalize 0.4554 * Real.log z + 3.734 = b at s3 b2 b3 b4 ⊢
  -- the outer logarithm
  have s4 : |L.log b' - Real.log b| ≤ 48 * h := by
    have q : |b' - b| / 0.57 ≤ 43.9 * h := by
      rw [div_le_iff₀ (by norm_num)]
      refine s3.trans ?_
      norm_num
      linarith
    refine log_step L hh0 (m := 0.57) (B := 1.6) (by norm_num) (by norm_num at b2 ⊢; linarith) ?_ b4 ?_
    · have := (abs_le.mp s3).1
      norm_num at hh b2 ⊢
      linarith
    · norm_num at q hh' ⊢
      nlinarith
  have s4' : |L.log b'| ≤ 1.7 := by
    have := abs_add_le (Real.log b) (L.log b' - Real.log b)
    rw [show Real.log b + (L.log b' - Real.log b) = L.log b' by ring] at this
    norm_num at hh b4 ⊢
    linarith
  have l1 : |-W.rnd 0.2827 - -0.2827| ≤ 0.2827 * h := by
    rw [show -W.rnd 0.2827 - -0.2827 = -(W.rnd 0.2827 - 0.2827) by ring, abs_neg]
    exact lit 0.2827 (by norm_num)
  have s5 : |W.rnd (-W.rnd 0.2827 * L.log b') - -0.2827 * Real.log b| ≤ 15 * h :=
    mul_near W l1 s4 (X := 0.2827) (by norm_num [abs_of_pos]) s4' hh0 (by norm_num at hh' ⊢; nlinarith)
  refine add_near W s5 (lit 1.0762 (by norm_num)) (S := 1.6) ?_ hh0 (by norm_num at hh' ⊢; nlinarith)
  obtain ⟨b5, b6⟩ := abs_le.mp b4
  norm_num at b5 b6 ⊢
  exact abs_le.mpr ⟨by linarith, by linarith⟩

end WindMult
