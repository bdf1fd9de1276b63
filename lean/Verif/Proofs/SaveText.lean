import Verif.Spec.SaveText
import Verif.Proofs.Numerals
import Verif.Proofs.Basic
import Mathlib.Tactic.Linarith
import Mathlib.Tactic.FieldSimp
import Mathlib.Tactic.Positivity
import Mathlib.Tactic.Push
import Mathlib.Tactic.Ring
import Mathlib.Algebra.Order.Field.Power

/-!
# Decimal texts with 19 digits determine doubles
-/

set_option autoImplicit false

namespace WindMult

theorem nearestDouble_zero : nearestDouble 0 = .num 0 := by decide +kernel

/-- A number closer to a double than half of the distance to the next is rounded to it. -/
theorem nearest_of_close {x y : ℚ} (hx : IsDouble x) (hc : |y - x| ≤ |x| / (2 * 10 ^ 18)) :
    nearestDouble y = .num x := by
  obtain ⟨n, e, hn, he1, he2, hxe⟩ := hx
  rcases eq_or_ne x 0 with h0 | h0
  · rw [h0, abs_zero, zero_div, sub_zero] at hc
    rw [h0, abs_nonpos_iff.mp hc, nearestDouble_zero]
  have hx0 : 0 < |x| := abs_pos.mpr h0
  have t1 : |y| ≤ |x| + |x| / (2 * 10 ^ 18) := by
    have := abs_sub_abs_le_abs_sub y x
    linarith
  have t2 : |x| ≤ |y| + |x| / (2 * 10 ^ 18) := by
    have := abs_sub_abs_le_abs_sub x y
    rw [abs_sub_comm] at this
    linarith
  have hy0 : 0 < |y| := by
    have : |x| / (2 * 10 ^ 18) < |x| := div_lt_self hx0 (by norm_num)
    linarith
  have hxn : |x| = |n| * 2 ^ e := by
    rw [hxe, abs_mul, abs_of_pos (a := (2 : ℚ) ^ e) (by positivity)]
    push_cast
    rfl
  have hn1 : ((|n| : ℤ) : ℚ) ≤ 2 ^ 53 - 1 := by
    have : |n| ≤ 2 ^ 53 - 1 := by omega
    exact_mod_cast this
  have l1 := Int.zpow_log_le_self (b := 2) (r := |y|) (by norm_num) hy0
  have l2 := Int.lt_zpow_succ_log_self (b := 2) (by norm_num) |y|
  push_cast at l1 l2
  unfold nearestDouble
  generalize hl : Int.log 2 |y| = l at *
  obtain ⟨k, hk⟩ : ∃ k, k = min (52 - l) 1074 := ⟨_, rfl⟩
  rw [← hk]
  have hk1 : k ≤ 52 - l := by omega
  have hp : (0 : ℚ) < 2 ^ k := by positivity
  have hyk : |y| * 2 ^ k < 2 ^ 53 := by
    calc |y| * 2 ^ k < 2 ^ (l + 1) * 2 ^ k := by gcongr
      _ = 2 ^ (l + 1 + k) := by rw [zpow_add₀ (by norm_num : (2 : ℚ) ≠ 0) (l + 1) k]
      _ ≤ 2 ^ (53 : ℤ) := zpow_le_zpow_right₀ (by norm_num) (by omega)
      _ = 2 ^ 53 := by norm_num
  obtain ⟨m, hm⟩ : ∃ m : ℤ, x * 2 ^ k = m := by
    by_cases hek : 0 ≤ e + k
    · refine ⟨n * 2 ^ (e + k).toNat, ?_⟩
      rw [hxe, mul_assoc, ← zpow_add₀ (by norm_num : (2 : ℚ) ≠ 0)]
      push_cast
      rw [← zpow_natCast, Int.toNat_of_nonneg hek]
    · exfalso
      have hkl : k = 52 - l := by omega
      have h1 : (2 : ℚ) ^ (53 + e) ≤ |y| :=
        le_trans (zpow_le_zpow_right₀ (by norm_num) (by omega)) l1
      rw [zpow_add₀ (by norm_num : (2 : ℚ) ≠ 0)] at h1
      have h2 : |x| ≤ (2 ^ 53 - 1) * 2 ^ e := by
        rw [hxn]
        have : (0 : ℚ) ≤ 2 ^ e := by positivity
        exact mul_le_mul_of_nonneg_right (by simpa using hn1) this
      have hpe : (0 : ℚ) < 2 ^ e := by positivity
      have h3 : (2 ^ 53 : ℚ) * 2 ^ e ≤ (2 ^ 53 - 1) * 2 ^ e + (2 ^ 53 - 1) * 2 ^ e / (2 * 10 ^ 18) := by
        have e1 : ((2 : ℚ) ^ (53 : ℤ)) = 2 ^ 53 := by norm_num
        rw [e1] at h1
        have : |x| / (2 * 10 ^ 18) ≤ (2 ^ 53 - 1) * 2 ^ e / (2 * 10 ^ 18) := by gcongr
        linarith
      generalize (2 : ℚ) ^ e = z at *
      norm_num at h3
      linarith
  have ha : around (y * 2 ^ k) = m := by
    apply around_eq_of_abs_lt
    rw [← hm, ← sub_mul, abs_mul, abs_of_pos hp]
    have h1 : |x| ≤ 2 * |y| := by
      have : |x| / (2 * 10 ^ 18) ≤ |x| / 2 := by
        apply div_le_div_of_nonneg_left hx0.le (by norm_num) (by norm_num)
      linarith
    calc |y - x| * 2 ^ k ≤ |x| / (2 * 10 ^ 18) * 2 ^ k := by gcongr
      _ ≤ (2 * |y|) / (2 * 10 ^ 18) * 2 ^ k := by gcongr
      _ = |y| * 2 ^ k / 10 ^ 18 := by ring
      _ ≤ 2 ^ 53 / 10 ^ 18 := by gcongr
      _ < 1 / 2 := by norm_num
  have hv : ((around (y * 2 ^ k) : ℤ) : ℚ) / 2 ^ k = x := by
    rw [ha, ← hm, mul_div_assoc, div_self hp.ne', mul_one]
  simp only [hv]
  rw [if_neg]
  push Not
  rw [hxn]
  calc ((|n| : ℤ) : ℚ) * 2 ^ e ≤ (2 ^ 53 - 1) * 2 ^ e := by
        have : (0 : ℚ) ≤ 2 ^ e := by positivity
        exact mul_le_mul_of_nonneg_right hn1 this
    _ ≤ (2 ^ 53 - 1) * 2 ^ (971 : ℤ) := by
        gcongr
        norm_num
    _ < 2 ^ 1024 := by
        rw [← zpow_natCast (2 : ℚ) 1024, show ((1024 : ℕ) : ℤ) = 53 + 971 by norm_num,
          zpow_add₀ (by norm_num : (2 : ℚ) ≠ 0)]
        have : (0 : ℚ) < 2 ^ (971 : ℤ) := zpow_pos (by norm_num) _
        generalize (2 : ℚ) ^ (971 : ℤ) = z at *
        norm_num
        linarith

/-- The 19 digits and the exponent. -/
theorem sciParts_spec (q : ℚ) : (sciParts q).1 < 10 ^ 19 ∧
    abs (((sciParts q).1 : ℚ) * 10 ^ ((sciParts q).2 - 18) - |q|) ≤ |q| / (2 * 10 ^ 18) := by
  rcases eq_or_ne q 0 with rfl | h0
  · have : sciParts 0 = (0, 0) := by decide +kernel
    rw [this]
    norm_num
  have hq : 0 < |q| := abs_pos.mpr h0
  have l1 := Int.zpow_log_le_self (b := 10) (r := |q|) (by norm_num) hq
  have l2 := Int.lt_zpow_succ_log_self (b := 10) (by norm_num) |q|
  push_cast at l1 l2
  simp only [sciParts]
  generalize hl : Int.log 10 |q| = l at *
  have hp : (0 : ℚ) < 10 ^ (18 - l) := by positivity
  have hp2 : (0 : ℚ) < 10 ^ (l - 18) := by positivity
  have hpp : (10 : ℚ) ^ (18 - l) * 10 ^ (l - 18) = 1 := by
    rw [← zpow_add₀ (by norm_num : (10 : ℚ) ≠ 0)]
    norm_num
  have hlow : 10 ^ 18 ≤ |q| * 10 ^ (18 - l) := by
    calc (10 : ℚ) ^ 18 = 10 ^ l * 10 ^ (18 - l) := by
          rw [← zpow_add₀ (by norm_num : (10 : ℚ) ≠ 0)]
          norm_num
      _ ≤ _ := by gcongr
  have hhigh : |q| * 10 ^ (18 - l) < 10 ^ 19 := by
    calc |q| * 10 ^ (18 - l) < 10 ^ (l + 1) * 10 ^ (18 - l) := by gcongr
      _ = 10 ^ 19 := by
          rw [← zpow_add₀ (by norm_num : (10 : ℚ) ≠ 0), show l + 1 + (18 - l) = 19 by ring]
          norm_num
  have har := abs_le.mp (abs_sub_around_le (|q| * 10 ^ (18 - l)))
  obtain ⟨N, hN⟩ : ∃ N, N = around (|q| * 10 ^ (18 - l)) := ⟨_, rfl⟩
  rw [← hN] at har ⊢
  have hN0 : 0 ≤ N := by
    have : (-1 : ℚ) < N := by linarith
    have : (-1 : ℤ) < N := by exact_mod_cast this
    omega
  have hN1 : N ≤ 10 ^ 19 := by
    have : (N : ℚ) < 10 ^ 19 + 1 := by linarith
    have : N < 10 ^ 19 + 1 := by exact_mod_cast this
    omega
  have hNc : ((N.toNat : ℕ) : ℚ) = N := by
    have : ((N.toNat : ℕ) : ℤ) = N := Int.toNat_of_nonneg hN0
    exact_mod_cast this
  have hclose : abs ((N : ℚ) * 10 ^ (l - 18) - |q|) ≤ |q| / (2 * 10 ^ 18) := by
    have e : (N : ℚ) * 10 ^ (l - 18) - |q| = (N - |q| * 10 ^ (18 - l)) * 10 ^ (l - 18) := by
      rw [sub_mul, mul_assoc, hpp, mul_one]
    rw [e, abs_mul, abs_of_pos hp2]
    have h1 : |(N : ℚ) - |q| * 10 ^ (18 - l)| ≤ 1 / 2 := by
      rw [abs_le]
      constructor <;> linarith
    calc _ ≤ 1 / 2 * (10 : ℚ) ^ (l - 18) := by gcongr
      _ = 10 ^ l / (2 * 10 ^ 18) := by
          rw [zpow_sub₀ (by norm_num : (10 : ℚ) ≠ 0)]
          norm_num
          ring
      _ ≤ _ := by gcongr
  by_cases h19 : N.toNat = 10 ^ 19
  · simp only [h19, if_true]
    refine ⟨by norm_num, ?_⟩
    have hN2 : (N : ℚ) = 10 ^ 19 := by rw [← hNc, h19]; norm_num
    rw [hN2] at hclose
    have e : ((10 ^ 18 : ℕ) : ℚ) * 10 ^ (l + 1 - 18) = 10 ^ 19 * 10 ^ (l - 18) := by
      rw [show l + 1 - 18 = (l - 18) + 1 by ring, zpow_add_one₀ (by norm_num : (10 : ℚ) ≠ 0)]
      norm_num
      ring
    rw [e]
    exact hclose
  · simp only [h19, if_false]
    refine ⟨by omega, ?_⟩
    rw [hNc]
    exact hclose

/-! ### The text is a numeral -/

/-- The digits of `fixedDigits`. -/
def fixedFin : ℕ → ℕ → Digits
  | 0, _ => []
  | k + 1, n => fixedFin k (n / 10) ++ [⟨n % 10, Nat.mod_lt _ (by norm_num)⟩]

theorem fixedFin_text (k : ℕ) : ∀ n, (fixedFin k n).text = fixedDigits k n := by
  induction k with
  | zero => intro n; rfl
  | succ k ih =>
    intro n
    rw [fixedFin, fixedDigits, ← ih]
    simp [Digits.text]

theorem fixedFin_length (k : ℕ) : ∀ n, (fixedFin k n).length = k := by
  induction k with
  | zero => intro n; rfl
  | succ k ih => intro n; simp [fixedFin, ih]

theorem fixedFin_value (k : ℕ) : ∀ n, (fixedFin k n).value = n % 10 ^ k := by
  induction k with
  | zero => intro n; simp [fixedFin, Digits.value, Nat.mod_one]
  | succ k ih =>
    intro n
    have h := ih (n / 10)
    unfold Digits.value at h ⊢
    rw [fixedFin, List.reverse_append, List.map_append, Nat.ofDigits_append, h]
    simp only [List.reverse_cons, List.reverse_nil, List.nil_append, List.map_cons, List.map_nil,
      Nat.ofDigits_singleton, List.length_singleton, pow_one]
    rw [pow_succ', Nat.mod_mul]

/-- What `%.18e` writes is a number, within half a unit of the 19th digit. -/
theorem sciText_number (q : ℚ) : ∃ y, IsNumber (sciText q) y ∧ |y - q| ≤ |q| / (2 * 10 ^ 18) := by
  obtain ⟨h1, h2⟩ := sciParts_spec q
  obtain ⟨N, e, hNe⟩ : ∃ N e, sciParts q = (N, e) := ⟨_, _, rfl⟩
  rw [hNe] at h1 h2
  simp only at h1 h2
  obtain ⟨K, hK⟩ : ∃ K, K = max 2 (Nat.digits 10 e.natAbs).length := ⟨_, rfl⟩
  have he : e.natAbs < 10 ^ K := by
    have : e.natAbs < 10 ^ (Nat.digits 10 e.natAbs).length := Nat.lt_base_pow_length_digits (by norm_num)
    exact this.trans_le (Nat.pow_le_pow_right (by norm_num) (by omega))
  refine ⟨(if q < 0 then -1 else 1) * (N * 10 ^ (e - 18)), ⟨⟨decide (q < 0), fixedFin 1 (N / 10 ^ 18),
    some (fixedFin 18 (N % 10 ^ 18)), some (decide (e < 0), fixedFin K e.natAbs)⟩, ⟨false, true, false⟩, 0, 0, ?_, ?_,
    ?_⟩, ?_⟩
  · refine ⟨?_, ?_⟩
    · intro h
      have := congrArg List.length h
      simp [fixedFin_length] at this
    · rintro x h
      cases h
      intro h
      have := congrArg List.length h
      simp only [fixedFin_length, List.length_nil] at this
      omega
  · simp only [Numeral.value, Option.elim, fixedFin_value, fixedFin_length, Nat.mod_eq_of_lt he, decide_eq_true_eq]
    rw [mul_assoc]
    congr 1
    have hw : N / 10 ^ 18 % 10 ^ 1 = N / 10 ^ 18 := Nat.mod_eq_of_lt (by omega)
    rw [hw, Nat.mod_mod]
    have hN : ((N / 10 ^ 18 : ℕ) : ℚ) + ((N % 10 ^ 18 : ℕ) : ℚ) / 10 ^ 18 = N / 10 ^ 18 := by
      have := Nat.div_add_mod N (10 ^ 18)
      have h' : ((10 ^ 18 : ℕ) : ℚ) * ((N / 10 ^ 18 : ℕ) : ℚ) + ((N % 10 ^ 18 : ℕ) : ℚ) = N := by exact_mod_cast this
      rw [← h']
      push_cast
      field_simp
      norm_num
    rw [hN, zpow_sub₀ (by norm_num : (10 : ℚ) ≠ 0)]
    have he' : (if e < 0 then 1 / (10 : ℚ) ^ e.natAbs else 10 ^ e.natAbs) = 10 ^ e := by
      split_ifs with h
      · rw [← zpow_natCast, Int.ofNat_natAbs_of_nonpos h.le, zpow_neg]
        simp
      · rw [← zpow_natCast, Int.natAbs_of_nonneg (by omega)]
    rw [he']
    norm_num
    ring
  · simp only [sciText, hNe, Numeral.spelt, fixedFin_text, Option.elim, signText, List.replicate_zero, List.nil_append,
      List.append_nil, decide_eq_true_eq, ← hK]
    by_cases hq : q < 0 <;> by_cases h0 : e < 0 <;> simp [hq, h0]
  · by_cases hq : q < 0
    · rw [if_pos hq]
      rw [abs_of_neg hq] at h2 ⊢
      rw [show (-1 : ℚ) * (N * 10 ^ (e - 18)) - q = -(N * 10 ^ (e - 18) - -q) by ring, abs_neg]
      exact h2
    · rw [if_neg hq]
      push Not at hq
      rw [abs_of_nonneg hq] at h2 ⊢
      rw [one_mul]
      exact h2

end WindMult
