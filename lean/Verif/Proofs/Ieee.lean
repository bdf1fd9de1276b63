import Verif.Model.FloatGeo
import Verif.Proofs.Basic
import Mathlib.Tactic.Linarith
import Mathlib.Tactic.FieldSimp
import Mathlib.Tactic.Positivity
import Mathlib.Tactic.Push
import Mathlib.Algebra.Order.Field.Power

/-!
# Rounding to 53 binary digits, ties to even, is a `Rounding`
-/

set_option autoImplicit false

namespace WindMult

theorem around_mono {x y : ℝ} (h : x ≤ y) : around x ≤ around y := by
  rcases eq_or_lt_of_le h with rfl | hlt
  · exact le_rfl
  by_contra hc
  push Not at hc
  have hc' : (around y : ℝ) + 1 ≤ around x := by exact_mod_cast hc
  have h1 := abs_le.mp (abs_sub_around_le x)
  have h2 := abs_le.mp (abs_sub_around_le y)
  linarith

theorem around_neg (x : ℝ) : around (-x) = -around x := by
  by_cases hx : x - (⌊x⌋ : ℝ) = 1 / 2
  · have e1 : x = ⌊x⌋ + 1 / 2 := by linarith
    have e2 : ⌊-x⌋ = -⌊x⌋ - 1 := by
      rw [Int.floor_eq_iff]
      push_cast
      constructor <;> linarith
    have e3 : -x - ((⌊-x⌋ : ℤ) : ℝ) = 1 / 2 := by
      rw [e2]
      push_cast
      linarith
    unfold around
    rw [if_neg e3.not_lt, if_neg e3.symm.not_lt, if_neg hx.not_lt, if_neg hx.symm.not_lt, e2]
    split_ifs <;> omega
  · have hlt : |x - around x| < 1 / 2 := by
      have h0 := Int.floor_le x
      have h1 := Int.lt_floor_add_one x
      unfold around
      rw [abs_lt]
      rcases lt_or_gt_of_ne hx with h | h
      · rw [if_pos h]
        constructor <;> linarith
      · rw [if_neg (by linarith), if_pos h]
        push_cast
        constructor <;> linarith
    apply around_eq_of_abs_lt
    rw [← abs_neg]
    rw [show -(-x - ((-around x : ℤ) : ℝ)) = x - around x by push_cast; ring]
    exact hlt

/-- The exponent of the last of 53 binary digits of `x`, negated. -/
noncomputable def ulpExp (x : ℝ) : ℤ := 52 - Int.log 2 |x|

/-- `x` rounded to 53 binary digits, ties to even. -/
noncomputable def rnd53 (x : ℝ) : ℝ := (around (x * 2 ^ ulpExp x) : ℝ) / 2 ^ ulpExp x

theorem rnd53_zero : rnd53 0 = 0 := by
  have : around (0 : ℝ) = 0 := by simpa using around_intCast (K := ℝ) 0
  simp [rnd53, this]

theorem rnd53_neg (x : ℝ) : rnd53 (-x) = -rnd53 x := by
  unfold rnd53 ulpExp
  rw [abs_neg, neg_mul, around_neg]
  push_cast
  ring

theorem scaled_bounds {x : ℝ} (hx : 0 < x) : 2 ^ 52 ≤ x * 2 ^ ulpExp x ∧ x * 2 ^ ulpExp x < 2 ^ 53 := by
  have h1 := Int.zpow_log_le_self (b := 2) (r := |x|) (by norm_num) (abs_pos.mpr hx.ne')
  have h2 := Int.lt_zpow_succ_log_self (b := 2) (by norm_num) |x|
  unfold ulpExp
  rw [abs_of_pos hx] at *
  push_cast at h1 h2
  generalize Int.log 2 x = l at *
  have hp : (0 : ℝ) < 2 ^ (52 - l) := by positivity
  constructor
  · calc (2 : ℝ) ^ 52 = 2 ^ l * 2 ^ (52 - l) := by
          rw [← zpow_add₀ (by norm_num)]
          norm_num
      _ ≤ _ := by gcongr
  · calc x * 2 ^ (52 - l) < 2 ^ (l + 1) * 2 ^ (52 - l) := by gcongr
      _ = 2 ^ 53 := by
          rw [← zpow_add₀ (by norm_num), show l + 1 + (52 - l) = ((53 : ℕ) : ℤ) by push_cast; ring,
            zpow_natCast]

theorem rnd53_of_int {x : ℝ} {n : ℤ} (h : x * 2 ^ ulpExp x = n) : rnd53 x = x := by
  unfold rnd53
  rw [h, around_intCast, ← h]
  field_simp

theorem rnd53_near (x : ℝ) : |rnd53 x - x| ≤ |x| / 2 ^ 53 := by
  wlog hx : 0 < x generalizing x
  · rcases eq_or_lt_of_le (not_lt.mp hx) with rfl | h
    · simp [rnd53_zero]
    · have := this (-x) (by linarith)
      rw [rnd53_neg] at this
      rwa [show -rnd53 x - -x = -(rnd53 x - x) by ring, abs_neg, abs_neg] at this
  have hp : (0 : ℝ) < 2 ^ ulpExp x := by positivity
  have h1 := (scaled_bounds hx).1
  have h2 := abs_sub_around_le (x * 2 ^ ulpExp x)
  have e : rnd53 x - x = -((x * 2 ^ ulpExp x - around (x * 2 ^ ulpExp x)) / 2 ^ ulpExp x) := by
    unfold rnd53
    field_simp
    ring
  rw [e, abs_neg, abs_div, abs_of_pos hp, abs_of_pos hx, div_le_div_iff₀ hp (by norm_num)]
  nlinarith

theorem rnd53_int (n : ℤ) (h : |n| ≤ 2 ^ 53) : rnd53 n = n := by
  wlog hn : 0 < n generalizing n
  · rcases eq_or_lt_of_le (not_lt.mp hn) with rfl | h'
    · simp [rnd53_zero]
    · have := this (-n) (by rwa [abs_neg]) (by omega)
      push_cast at this
      rw [rnd53_neg] at this
      linarith
  rw [abs_of_pos hn] at h
  have hnR : (0 : ℝ) < n := by exact_mod_cast hn
  rcases eq_or_lt_of_le h with rfl | hlt
  · have hb := scaled_bounds hnR
    have hl : Int.log 2 |((2 ^ 53 : ℤ) : ℝ)| = 53 := by
      rw [abs_of_pos hnR]
      have := Int.log_zpow (R := ℝ) (b := 2) (by norm_num) 53
      push_cast at this ⊢
      rw [← this]
      norm_num
    apply rnd53_of_int (n := 2 ^ 52)
    unfold ulpExp
    rw [hl]
    push_cast
    norm_num
  · have hnlt : (n : ℝ) < 2 ^ 53 := by exact_mod_cast hlt
    have hl : Int.log 2 |(n : ℝ)| < 53 := by
      rw [abs_of_pos hnR, ← Int.lt_zpow_iff_log_lt (by norm_num) hnR]
      push_cast
      exact_mod_cast hnlt
    obtain ⟨m, hm⟩ : ∃ m : ℕ, ulpExp (n : ℝ) = m := ⟨(52 - Int.log 2 |(n : ℝ)|).toNat, by
      unfold ulpExp
      omega⟩
    apply rnd53_of_int (n := n * 2 ^ m)
    rw [hm]
    push_cast
    rw [zpow_natCast]

theorem rnd53_nonneg {x : ℝ} (hx : 0 ≤ x) : 0 ≤ rnd53 x := by
  unfold rnd53
  have : (0 : ℝ) ≤ around (x * 2 ^ ulpExp x) := by
    exact_mod_cast around_nonneg (by positivity)
  positivity

theorem rnd53_mono_pos {x y : ℝ} (hx : 0 < x) (h : x ≤ y) : rnd53 x ≤ rnd53 y := by
  have hy : 0 < y := hx.trans_le h
  have hl : Int.log 2 |x| ≤ Int.log 2 |y| := by
    rw [abs_of_pos hx, abs_of_pos hy]
    exact Int.log_mono_right hx h
  have px : (0 : ℝ) < 2 ^ ulpExp x := by positivity
  have py : (0 : ℝ) < 2 ^ ulpExp y := by positivity
  rcases eq_or_lt_of_le hl with e | e
  · unfold rnd53
    have e' : ulpExp x = ulpExp y := by unfold ulpExp; rw [e]
    rw [e']
    have : around (x * 2 ^ ulpExp y) ≤ around (y * 2 ^ ulpExp y) := around_mono (by gcongr)
    gcongr
  · have h1 : rnd53 x * 2 ^ ulpExp x ≤ 2 ^ 53 := by
      unfold rnd53
      rw [div_mul_cancel₀ _ px.ne']
      have := around_mono (scaled_bounds hx).2.le
      rw [show ((2 : ℝ) ^ 53) = (((2 : ℤ) ^ 53 : ℤ) : ℝ) by norm_num, around_intCast] at this
      exact_mod_cast this
    have h2 : 2 ^ 52 ≤ rnd53 y * 2 ^ ulpExp y := by
      unfold rnd53
      rw [div_mul_cancel₀ _ py.ne']
      have := around_mono (scaled_bounds hy).1
      rw [show ((2 : ℝ) ^ 52) = (((2 : ℤ) ^ 52 : ℤ) : ℝ) by norm_num, around_intCast] at this
      exact_mod_cast this
    have hxy : (2 : ℝ) * 2 ^ ulpExp y ≤ 2 ^ ulpExp x := by
      rw [← zpow_one_add₀ (by norm_num)]
      apply zpow_le_zpow_right₀ (by norm_num)
      unfold ulpExp
      omega
    have h3 : rnd53 x ≤ 2 ^ 53 / 2 ^ ulpExp x := by rwa [le_div_iff₀ px]
    have h4 : 2 ^ 52 / 2 ^ ulpExp y ≤ rnd53 y := by rwa [div_le_iff₀ py]
    have h5 : (2 : ℝ) ^ 53 / 2 ^ ulpExp x ≤ 2 ^ 52 / 2 ^ ulpExp y := by
      rw [div_le_div_iff₀ px py]
      nlinarith
    linarith

theorem rnd53_mono : Monotone rnd53 := by
  intro x y h
  rcases lt_trichotomy x 0 with hx | rfl | hx
  · rcases lt_or_ge y 0 with hy | hy
    · have := rnd53_mono_pos (x := -y) (y := -x) (by linarith) (by linarith)
      rw [rnd53_neg, rnd53_neg] at this
      linarith
    · have h1 := rnd53_nonneg (x := -x) (by linarith)
      rw [rnd53_neg] at h1
      linarith [rnd53_nonneg hy]
  · rw [rnd53_zero]
    exact rnd53_nonneg h
  · exact rnd53_mono_pos hx h

/-- Double precision without limits on the exponent. -/
noncomputable def ieee : Rounding := ⟨rnd53, rnd53_near, rnd53_int, rnd53_mono⟩

end WindMult
