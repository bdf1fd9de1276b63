import Verif.Model.FloatTerrain
import Mathlib.Tactic.Linarith
import Mathlib.Tactic.Positivity
import Mathlib.Tactic.GCongr
import Mathlib.Tactic.NormNum
import Mathlib.Tactic.Ring
import Mathlib.Tactic.FieldSimp

/-!
# Absolute errors with magnitudes, for straight-line programs in double precision
-/

set_option autoImplicit false

namespace WindMult

/-- `y` is computed for `x` with an error of at most `e`, and `x` is at most `m` in absolute value, both in units of
`L`. -/
def Err (L e m x y : ℝ) : Prop := |y - x| ≤ e * L ∧ |x| ≤ m * L

variable {L e m x y e₁ m₁ x₁ y₁ e₂ m₂ x₂ y₂ e' m' : ℝ}

/-- The unit roundoff of double precision is below `1.2e-16`. -/
theorem rnd_rel (W : FpRound (1 / 2 ^ 53)) (v : ℝ) : |W.rnd v - v| ≤ 12 / 10 ^ 17 * |v| :=
  (W.near v).trans (mul_le_mul_of_nonneg_right (by norm_num) (abs_nonneg v))

theorem Err.nonneg (hL : 0 < L) (h : Err L e m x y) : 0 ≤ e ∧ 0 ≤ m := by
  constructor
  · exact nonneg_of_mul_nonneg_left ((abs_nonneg _).trans h.1) hL
  · exact nonneg_of_mul_nonneg_left ((abs_nonneg _).trans h.2) hL

theorem Err.mono (hL : 0 < L) (h : Err L e m x y) (he : e ≤ e') (hm : m ≤ m') : Err L e' m' x y :=
  ⟨h.1.trans (by gcongr), h.2.trans (by gcongr)⟩

theorem Err.const (c : ℝ) (h : |c| ≤ m) : Err 1 0 m c c := by
  simpa [Err] using h

theorem Err.abs_right (h : Err L e m x y) : |y| ≤ (m + e) * L := by
  have : |y| ≤ |x| + |y - x| := by
    have := abs_add_le x (y - x)
    rwa [add_sub_cancel] at this
  linarith [h.1, h.2]

theorem Err.rnd (W : FpRound (1 / 2 ^ 53)) (h : Err L e m x y) (he : e + 12 / 10 ^ 17 * (m + e) ≤ e')
    (hL : 0 < L := by positivity) : Err L e' m x (W.rnd y) := by
  refine ⟨?_, h.2⟩
  have h1 := rnd_rel W y
  have h2 := h.abs_right
  have h3 : |W.rnd y - x| ≤ |W.rnd y - y| + |y - x| := by
    have := abs_add_le (W.rnd y - y) (y - x)
    rwa [sub_add_sub_cancel] at this
  have h4 : (e + 12 / 10 ^ 17 * (m + e)) * L ≤ e' * L := by gcongr
  nlinarith [h.1]

theorem Err.add (h₁ : Err L e₁ m₁ x₁ y₁) (h₂ : Err L e₂ m₂ x₂ y₂) :
    Err L (e₁ + e₂) (m₁ + m₂) (x₁ + x₂) (y₁ + y₂) := by
  constructor
  · rw [add_sub_add_comm, add_mul]
    exact (abs_add_le _ _).trans (add_le_add h₁.1 h₂.1)
  · rw [add_mul]
    exact (abs_add_le _ _).trans (add_le_add h₁.2 h₂.2)

theorem Err.neg (h : Err L e m x y) : Err L e m (-x) (-y) := by
  refine ⟨?_, by rw [abs_neg]; exact h.2⟩
  rw [← abs_neg, show -(-y - -x) = y - x by ring]
  exact h.1

theorem Err.sub (h₁ : Err L e₁ m₁ x₁ y₁) (h₂ : Err L e₂ m₂ x₂ y₂) :
    Err L (e₁ + e₂) (m₁ + m₂) (x₁ - x₂) (y₁ - y₂) := by
  rw [sub_eq_add_neg, sub_eq_add_neg y₁]
  exact h₁.add h₂.neg

theorem Err.mul (hL : 0 < L) (h₁ : Err 1 e₁ m₁ x₁ y₁) (h₂ : Err L e₂ m₂ x₂ y₂) :
    Err L (e₁ * m₂ + m₁ * e₂ + e₁ * e₂) (m₁ * m₂) (x₁ * x₂) (y₁ * y₂) := by
  obtain ⟨a1, a2⟩ := h₁.nonneg one_pos
  obtain ⟨b1, b2⟩ := h₂.nonneg hL
  obtain ⟨c1, c2⟩ := h₁
  obtain ⟨d1, d2⟩ := h₂
  rw [mul_one] at c1 c2
  constructor
  · rw [show y₁ * y₂ - x₁ * x₂ = (y₁ - x₁) * x₂ + x₁ * (y₂ - x₂) + (y₁ - x₁) * (y₂ - x₂) by ring]
    calc _ ≤ |y₁ - x₁| * |x₂| + |x₁| * |y₂ - x₂| + |y₁ - x₁| * |y₂ - x₂| := by
          rw [← abs_mul, ← abs_mul, ← abs_mul]
          exact (abs_add_le _ _).trans (by gcongr; exact abs_add_le _ _)
      _ ≤ e₁ * (m₂ * L) + m₁ * (e₂ * L) + e₁ * (e₂ * L) := by gcongr
      _ = _ := by ring
  · rw [abs_mul]
    calc |x₁| * |x₂| ≤ m₁ * (m₂ * L) := by gcongr
      _ = _ := by ring

theorem Err.comm (h : Err L e m (x₁ * x₂) (y₁ * y₂)) : Err L e m (x₂ * x₁) (y₂ * y₁) := by
  rwa [mul_comm x₂, mul_comm y₂]

/-- Quotients, with a bound for the quotient. -/
theorem Err.div {d q K : ℝ} (hL : 0 < L) (hK : 0 < K) (h₁ : Err (L * K) e₁ m₁ x₁ y₁) (h₂ : Err K e₂ m₂ x₂ y₂)
    (hd : 0 < d) (hx : d * K ≤ x₂) (hde : e₂ < d) (hq : |x₁ / x₂| ≤ q * L) (he : (e₁ + q * e₂) / (d - e₂) ≤ e') :
    Err L e' q (x₁ / x₂) (y₁ / y₂) := by
  refine ⟨?_, hq⟩
  have hx2 : 0 < x₂ := lt_of_lt_of_le (by positivity) hx
  have hy2 : (d - e₂) * K ≤ y₂ := by
    have := (abs_le.mp h₂.1).1
    linarith
  have hd' : 0 < d - e₂ := by linarith
  have hypos : 0 < y₂ := lt_of_lt_of_le (by positivity) hy2
  have hqn : 0 ≤ q := nonneg_of_mul_nonneg_left ((abs_nonneg _).trans hq) hL
  have he2 := (h₂.nonneg hK).1
  have he1 := (h₁.nonneg (by positivity)).1
  have e : y₁ / y₂ - x₁ / x₂ = ((y₁ - x₁) - x₁ / x₂ * (y₂ - x₂)) / y₂ := by
    field_simp
    ring
  rw [e, abs_div, abs_of_pos hypos, div_le_iff₀ hypos]
  calc |y₁ - x₁ - x₁ / x₂ * (y₂ - x₂)| ≤ |y₁ - x₁| + |x₁ / x₂| * |y₂ - x₂| := by
        rw [← abs_mul]; exact abs_sub _ _
    _ ≤ e₁ * (L * K) + q * L * (e₂ * K) := by
        gcongr
        · exact h₁.1
        · exact h₂.1
    _ = (e₁ + q * e₂) / (d - e₂) * L * ((d - e₂) * K) := by field_simp
    _ ≤ e' * L * y₂ := by
        have : 0 ≤ (e₁ + q * e₂) / (d - e₂) := by positivity
        gcongr
        exact mul_nonneg (this.trans he) hL.le

theorem Err.divc {c : ℝ} (hc : 0 < c) (h : Err L e m x y) : Err L (e / c) (m / c) (x / c) (y / c) := by
  constructor
  · rw [← sub_div, abs_div, abs_of_pos hc, div_mul_eq_mul_div]
    gcongr
    exact h.1
  · rw [abs_div, abs_of_pos hc, div_mul_eq_mul_div]
    gcongr
    exact h.2

/-- A better bound for the exact value. -/
theorem Err.mag (h : Err L e m x y) (hx : |x| ≤ m' * L) : Err L e m' x y := ⟨h.1, hx⟩

/-- Rounded operations, the bounds given. -/
theorem Err.mulR (W : FpRound (1 / 2 ^ 53)) (h₁ : Err 1 e₁ m₁ x₁ y₁) (h₂ : Err L e₂ m₂ x₂ y₂)
    (he : e₁ * m₂ + m₁ * e₂ + e₁ * e₂ + 12 / 10 ^ 17 * (m₁ * m₂ + (e₁ * m₂ + m₁ * e₂ + e₁ * e₂)) ≤ e')
    (hm : m₁ * m₂ ≤ m') (hL : 0 < L := by positivity) : Err L e' m' (x₁ * x₂) (W.rnd (y₁ * y₂)) :=
  ((h₁.mul hL h₂).rnd W he hL).mono hL le_rfl hm

theorem Err.addR (W : FpRound (1 / 2 ^ 53)) (h₁ : Err L e₁ m₁ x₁ y₁) (h₂ : Err L e₂ m₂ x₂ y₂)
    (he : e₁ + e₂ + 12 / 10 ^ 17 * (m₁ + m₂ + (e₁ + e₂)) ≤ e') (hm : m₁ + m₂ ≤ m')
    (hL : 0 < L := by positivity) : Err L e' m' (x₁ + x₂) (W.rnd (y₁ + y₂)) :=
  ((h₁.add h₂).rnd W he hL).mono hL le_rfl hm

theorem Err.subR (W : FpRound (1 / 2 ^ 53)) (h₁ : Err L e₁ m₁ x₁ y₁) (h₂ : Err L e₂ m₂ x₂ y₂)
    (he : e₁ + e₂ + 12 / 10 ^ 17 * (m₁ + m₂ + (e₁ + e₂)) ≤ e') (hm : m₁ + m₂ ≤ m')
    (hL : 0 < L := by positivity) : Err L e' m' (x₁ - x₂) (W.rnd (y₁ - y₂)) :=
  ((h₁.sub h₂).rnd W he hL).mono hL le_rfl hm

theorem Err.divcR (W : FpRound (1 / 2 ^ 53)) {c : ℝ} (hc : 0 < c) (h : Err L e m x y)
    (he : e / c + 12 / 10 ^ 17 * (m / c + e / c) ≤ e') (hm : m / c ≤ m') (hL : 0 < L := by positivity) :
    Err L e' m' (x / c) (W.rnd (y / c)) :=
  ((h.divc hc).rnd W he hL).mono hL le_rfl hm

end WindMult
