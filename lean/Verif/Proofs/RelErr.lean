import Verif.Proofs.Near

/-!
# Counting rounding errors

`y` is `x` after at most `k` roundings, each of relative size `u`, of factors and divisors.
-/

set_option linter.unusedSectionVars false
set_option autoImplicit false

namespace WindMult

/-- `y = x·t` with `(1-u)^k ≤ t ≤ (1-u)^(-k)`. -/
def RelErr (u : ℝ) (k : ℕ) (x y : ℝ) : Prop := ∃ t, (1 - u) ^ k ≤ t ∧ t ≤ ((1 - u) ^ k)⁻¹ ∧ y = x * t

section
variable {u : ℝ} (hu0 : 0 ≤ u) (hu1 : u < 1)
include hu0 hu1

theorem RelErr.refl (x : ℝ) : RelErr u 0 x x := ⟨1, by simp, by simp, by simp⟩

theorem RelErr.mono {k k' : ℕ} {x y : ℝ} (h : RelErr u k x y) (hk : k ≤ k') : RelErr u k' x y := by
  obtain ⟨t, h1, h2, h3⟩ := h
  have h4 : (1 - u) ^ k' ≤ (1 - u) ^ k := pow_le_pow_of_le_one (by linarith) (by linarith) hk
  have h5 : (0 : ℝ) < (1 - u) ^ k' := pow_pos (by linarith) _
  exact ⟨t, h4.trans h1, h2.trans (inv_anti₀ h5 h4), h3⟩

theorem RelErr.mul {k k' : ℕ} {x y x' y' : ℝ} (h : RelErr u k x y) (h' : RelErr u k' x' y') :
    RelErr u (k + k') (x * x') (y * y') := by
  obtain ⟨t, h1, h2, h3⟩ := h
  obtain ⟨t', h1', h2', h3'⟩ := h'
  have p1 : (0 : ℝ) < (1 - u) ^ k := pow_pos (by linarith) _
  have p2 : (0 : ℝ) < (1 - u) ^ k' := pow_pos (by linarith) _
  refine ⟨t * t', ?_, ?_, by rw [h3, h3']; ring⟩
  · rw [pow_add]
    exact mul_le_mul h1 h1' p2.le (p1.le.trans h1)
  · rw [pow_add, mul_inv]
    exact mul_le_mul h2 h2' (p2.le.trans h1') (by positivity)

theorem RelErr.inv {k : ℕ} {x y : ℝ} (h : RelErr u k x y) : RelErr u k x⁻¹ y⁻¹ := by
  obtain ⟨t, h1, h2, h3⟩ := h
  have p1 : (0 : ℝ) < (1 - u) ^ k := pow_pos (by linarith) _
  have ht : 0 < t := p1.trans_le h1
  refine ⟨t⁻¹, ?_, inv_anti₀ p1 h1, by rw [h3, mul_inv]⟩
  rw [le_inv_comm₀ p1 ht]
  exact h2

theorem RelErr.div {k k' : ℕ} {x y x' y' : ℝ} (h : RelErr u k x y) (h' : RelErr u k' x' y') :
    RelErr u (k + k') (x / x') (y / y') := by
  rw [div_eq_mul_inv, div_eq_mul_inv]
  exact RelErr.mul hu0 hu1 h (RelErr.inv hu0 hu1 h')

/-- One rounding. -/
theorem RelErr.one (R : FpRound u) (x : ℝ) : RelErr u 1 x (R.rnd x) := by
  have h := R.near x
  rcases eq_or_ne x 0 with rfl | hx
  · have : R.rnd 0 = 0 := by simpa using h
    exact ⟨1, by simp; linarith, by simp; exact one_le_inv_iff₀.mpr ⟨by linarith, by linarith⟩, by simp [this]⟩
  have hb : |R.rnd x / x - 1| ≤ u := by
    rw [div_sub_one hx, abs_div, div_le_iff₀ (abs_pos.mpr hx)]
    exact h
  obtain ⟨b1, b2⟩ := abs_le.mp hb
  refine ⟨R.rnd x / x, by rw [pow_one]; linarith, ?_, by field_simp⟩
  rw [pow_one, le_inv_comm₀ (by linarith) (by linarith)]
  have : (1 + u)⁻¹ ≥ 1 - u := by
    rw [ge_iff_le, le_inv_comm₀ (by linarith) (by linarith), inv_eq_one_div, le_div_iff₀ (by linarith)]
    nlinarith
  calc 1 - u ≤ (1 + u)⁻¹ := this
    _ ≤ (R.rnd x / x)⁻¹ := inv_anti₀ (by linarith) (by linarith)

theorem RelErr.rnd (R : FpRound u) {k : ℕ} {x y : ℝ} (h : RelErr u k x y) : RelErr u (k + 1) x (R.rnd y) := by
  obtain ⟨t, h1, h2, h3⟩ := h
  obtain ⟨s, s1, s2, s3⟩ := RelErr.one hu0 hu1 R y
  have p1 : (0 : ℝ) < (1 - u) ^ k := pow_pos (by linarith) _
  refine ⟨t * s, ?_, ?_, by rw [s3, h3]; ring⟩
  · rw [pow_succ]
    rw [pow_one] at s1
    exact mul_le_mul h1 s1 (by linarith) (p1.le.trans h1)
  · rw [pow_succ, mul_inv]
    rw [pow_one] at s1 s2
    exact mul_le_mul h2 s2 (by linarith) (by positivity)

theorem RelErr.nonneg_iff {k : ℕ} {x y : ℝ} (hx : 0 ≤ x) :
    RelErr u k x y ↔ (1 - u) ^ k * x ≤ y ∧ y ≤ ((1 - u) ^ k)⁻¹ * x := by
  have p1 : (0 : ℝ) < (1 - u) ^ k := pow_pos (by linarith) _
  have p2 : (1 - u) ^ k ≤ 1 := pow_le_one₀ (by linarith) (by linarith)
  constructor
  · rintro ⟨t, h1, h2, rfl⟩
    constructor
    · rw [mul_comm]; gcongr
    · rw [mul_comm]; gcongr
  · rintro ⟨h1, h2⟩
    rcases hx.eq_or_lt with rfl | hx
    · have : y = 0 := by simp at h1 h2; linarith
      exact ⟨1, p2, one_le_inv_iff₀.mpr ⟨p1, p2⟩, by simp [this]⟩
    · exact ⟨y / x, by rw [le_div_iff₀ hx]; exact h1, by rw [div_le_iff₀ hx]; exact h2, by field_simp⟩

theorem RelErr.max {k : ℕ} {x y x' y' : ℝ} (hx : 0 ≤ x) (hx' : 0 ≤ x') (h : RelErr u k x y)
    (h' : RelErr u k x' y') : RelErr u k (max x x') (max y y') := by
  have p1 : (0 : ℝ) < (1 - u) ^ k := pow_pos (by linarith) _
  rw [RelErr.nonneg_iff hu0 hu1 hx] at h
  rw [RelErr.nonneg_iff hu0 hu1 hx'] at h'
  rw [RelErr.nonneg_iff hu0 hu1 (le_max_of_le_left hx), mul_max_of_nonneg _ _ p1.le,
    mul_max_of_nonneg _ _ (by positivity)]
  exact ⟨max_le_max h.1 h'.1, max_le_max h.2 h'.2⟩

theorem RelErr.add {k : ℕ} {x y x' y' : ℝ} (hx : 0 ≤ x) (hx' : 0 ≤ x') (h : RelErr u k x y)
    (h' : RelErr u k x' y') : RelErr u k (x + x') (y + y') := by
  rw [RelErr.nonneg_iff hu0 hu1 hx] at h
  rw [RelErr.nonneg_iff hu0 hu1 hx'] at h'
  rw [RelErr.nonneg_iff hu0 hu1 (add_nonneg hx hx'), mul_add, mul_add]
  exact ⟨add_le_add h.1 h'.1, add_le_add h.2 h'.2⟩

theorem RelErr.abs {k : ℕ} {x y : ℝ} (h : RelErr u k x y) : RelErr u k |x| |y| := by
  obtain ⟨t, h1, h2, h3⟩ := h
  have p1 : (0 : ℝ) < (1 - u) ^ k := pow_pos (by linarith) _
  exact ⟨t, h1, h2, by rw [h3, abs_mul, abs_of_pos (p1.trans_le h1)]⟩

theorem RelErr.pos_iff {k : ℕ} {x y : ℝ} (h : RelErr u k x y) : 0 < y ↔ 0 < x := by
  obtain ⟨t, h1, h2, h3⟩ := h
  have ht : 0 < t := (pow_pos (by linarith : (0 : ℝ) < 1 - u) _).trans_le h1
  rw [h3, mul_pos_iff_of_pos_right ht]

theorem RelErr.neg {k : ℕ} {x y : ℝ} (h : RelErr u k x y) : RelErr u k (-x) (-y) := by
  obtain ⟨t, h1, h2, h3⟩ := h
  exact ⟨t, h1, h2, by rw [h3]; ring⟩

theorem RelErr.neg_iff {k : ℕ} {x y : ℝ} (h : RelErr u k x y) : y < 0 ↔ x < 0 := by
  have := RelErr.pos_iff hu0 hu1 (RelErr.neg hu0 hu1 h)
  simpa using this

/-- Linear bounds on the factor. -/
theorem RelErr.factor {k : ℕ} {t : ℝ} (h1 : (1 - u) ^ k ≤ t) (h2 : t ≤ ((1 - u) ^ k)⁻¹) {c : ℝ}
    (hc : c * (k * u) ≤ c - 1) (hc1 : 0 < c) : 1 - k * u ≤ t ∧ t ≤ 1 + c * (k * u) := by
  have hb : 1 - k * u ≤ (1 - u) ^ k := by
    have := one_add_mul_le_pow (a := -u) (by linarith) k
    calc 1 - k * u = 1 + k * -u := by ring
      _ ≤ (1 + -u) ^ k := this
      _ = (1 - u) ^ k := by ring
  have hpos : 0 < 1 - k * u := by
    have : 0 < c * (1 - k * u) := by nlinarith
    exact (mul_pos_iff_of_pos_left hc1).mp this
  refine ⟨hb.trans h1, h2.trans ((inv_anti₀ hpos hb).trans ?_)⟩
  rw [inv_eq_one_div, div_le_iff₀ hpos]
  have hk : 0 ≤ (k : ℝ) * u := by positivity
  nlinarith [mul_nonneg hk (by linarith : 0 ≤ c - 1 - c * (k * u))]

/-- The error of a number after `k` roundings. -/
theorem RelErr.abs_sub_le {k : ℕ} {x y : ℝ} (h : RelErr u k x y) {c : ℝ} (hc : c * (k * u) ≤ c - 1)
    (hc1 : 1 ≤ c) : |y - x| ≤ c * (k * u) * |x| := by
  obtain ⟨t, h1, h2, rfl⟩ := h
  obtain ⟨f1, f2⟩ := RelErr.factor hu0 hu1 h1 h2 hc (by linarith)
  have hk : 0 ≤ (k : ℝ) * u := by positivity
  rw [show x * t - x = (t - 1) * x by ring, abs_mul]
  gcongr
  rw [_root_.abs_le]
  constructor <;> nlinarith

/-- A small relative error. -/
theorem RelErr.of_abs_sub_le {k : ℕ} {x y c : ℝ} (hx : 0 < x) (h : |y - x| ≤ c * u * x) (hc : 0 ≤ c)
    (hk : c * k * u ≤ k - c) : RelErr u k x y := by
  have hb : 1 + k * u ≤ ((1 - u) ^ k)⁻¹ := by
    have h1 := one_add_mul_le_pow (a := u) (by linarith) k
    have h2 : (1 + u) ^ k ≤ ((1 - u)⁻¹) ^ k := by
      gcongr
      rw [inv_eq_one_div, le_div_iff₀ (by linarith)]
      nlinarith
    rw [inv_pow] at h2
    exact h1.trans h2
  have p1 : (0 : ℝ) < (1 - u) ^ k := pow_pos (by linarith) _
  have hku : 0 ≤ (k : ℝ) * u := by positivity
  have hck : c ≤ k := by nlinarith
  obtain ⟨b1, b2⟩ := _root_.abs_le.mp h
  rw [RelErr.nonneg_iff hu0 hu1 hx.le]
  constructor
  · have h3 : (1 - u) ^ k ≤ 1 - c * u := by
      have h4 : (1 + k * u) * (1 - u) ^ k ≤ 1 := by
        rw [← le_div_iff₀ p1, one_div]
        exact hb
      have h5 : 1 ≤ (1 + k * u) * (1 - c * u) := by nlinarith
      by_contra hcon
      push Not at hcon
      nlinarith
    nlinarith
  · have : 1 + c * u ≤ ((1 - u) ^ k)⁻¹ := by nlinarith
    nlinarith

end

end WindMult
