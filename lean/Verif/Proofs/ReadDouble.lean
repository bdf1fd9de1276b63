import Verif.Model.ReadDouble
import Verif.Spec.ReadDouble
import Verif.Proofs.Numerals

/-!
# Short numbers are rounded once
-/

set_option autoImplicit false

namespace WindMult

theorem rnd_nat (R : Rounding) {n : ℕ} (h : n ≤ 2 ^ 53) : R.rnd n = n := by
  have := R.int n (by rw [abs_of_nonneg (by positivity)]; exact_mod_cast h)
  simpa using this

/-- Up to 15 digits are accumulated without error. -/
theorem accumulate_exact (R : Rounding) (ds : List ℕ) (hd : ∀ d ∈ ds, d < 10) (hl : ds.length ≤ 15) :
    accumulate R ds = digitsVal ds ∧ digitsVal ds < 10 ^ ds.length := by
  induction ds using List.reverseRecOn with
  | nil => simp [accumulate, digitsVal]
  | append_singleton ds d ih =>
    rw [List.length_append, List.length_singleton] at hl
    obtain ⟨h1, h2⟩ := ih (fun x hx => hd x (by simp [hx])) (by omega)
    have hd' := hd d (by simp)
    have hv : digitsVal (ds ++ [d]) = digitsVal ds * 10 + d := by
      rw [digitsVal_append]; simp [digitsVal]
    have hlt : digitsVal (ds ++ [d]) < 10 ^ (ds.length + 1) := by rw [hv, pow_succ]; omega
    have hle : (10 : ℕ) ^ (ds.length + 1) ≤ 10 ^ 15 := Nat.pow_le_pow_right (by norm_num) hl
    have hbig : (10 : ℕ) ^ 15 ≤ 2 ^ 53 := by norm_num
    have ha : accumulate R (ds ++ [d]) = R.rnd (R.rnd (accumulate R ds * 10) + d) := by
      simp [accumulate, List.foldl_append]
    refine ⟨?_, by simpa using hlt⟩
    rw [ha, h1, show (digitsVal ds : ℝ) * 10 = ((digitsVal ds * 10 : ℕ) : ℝ) by push_cast; ring,
      rnd_nat R (by omega), show ((digitsVal ds * 10 : ℕ) : ℝ) + (d : ℝ) = ((digitsVal ds * 10 + d : ℕ) : ℝ) by
        push_cast; ring, ← hv, rnd_nat R (by omega)]

theorem scaleTen_exact (R : Rounding) (y : ℝ) (k : ℤ) (hk : |k| ≤ 15) : scaleTen R y k = R.rnd (y * 10 ^ k) := by
  have key : ∀ m : ℕ, m ≤ 15 → R.rnd (10 ^ m) = (10 : ℝ) ^ m := by
    intro m hm
    have h1 : (10 : ℕ) ^ m ≤ 10 ^ 15 := Nat.pow_le_pow_right (by norm_num) hm
    have h2 : (10 : ℕ) ^ 15 ≤ 2 ^ 53 := by norm_num
    have := rnd_nat R (h1.trans h2)
    push_cast at this
    exact this
  obtain ⟨h1, h2⟩ := abs_le.1 hk
  unfold scaleTen
  split
  · obtain ⟨m, rfl⟩ := Int.eq_ofNat_of_zero_le (a := k) (by omega)
    rw [key _ (by omega)]
    simp
  · obtain ⟨m, hm⟩ := Int.eq_ofNat_of_zero_le (a := -k) (by omega)
    obtain rfl : k = -(m : ℤ) := by omega
    rw [key _ (by omega)]
    simp [div_eq_mul_inv]

/-- A short number is read as the double next to it. -/
theorem readDouble_of (R : Rounding) {s : List Char} {q : ℚ} (hs : IsShortNumber s) (hq : IsNumber s q) :
    readDouble R s = some (R.rnd (q : ℝ)) := by
  have hread := readNumber_of hq
  obtain ⟨n, p, a, b, hn, ⟨h1, h2⟩, rfl⟩ := hs
  obtain ⟨s₁, s₂, s₃, p1, p2, p3, p4⟩ := numeral_parts n p hn a b
  have hw : ¬ (n.whole.map Fin.val = [] ∧ (n.frac.getD []).map Fin.val = []) := by
    simpa [← List.append_eq_nil_iff] using hn.1
  have hdig : ∀ d ∈ n.whole.map Fin.val ++ (n.frac.getD []).map Fin.val, d < 10 := by
    intro d hd
    rw [← List.map_append] at hd
    obtain ⟨x, -, rfl⟩ := List.mem_map.1 hd
    exact x.isLt
  have hsize : (n.whole.map Fin.val ++ (n.frac.getD []).map Fin.val).length = n.size := by
    rw [List.length_append, List.length_map, List.length_map, Numeral.size]
    cases n.frac <;> rfl
  have hfl : (n.frac.getD []).length ≤ 15 ∧ n.whole.length ≤ 15 ∧
      n.whole.length + (n.frac.getD []).length ≤ 15 := by
    simp only [List.length_append, List.length_map] at hsize
    omega
  obtain ⟨hacc, -⟩ := accumulate_exact R _ hdig (by rw [hsize]; exact h1)
  have hunit : (n.exp.elim 0 fun x => if x.1 then -(x.2.value : ℤ) else x.2.value) -
      ((n.frac.getD []).length : ℤ) = n.unit := by
    rw [Numeral.unit]
    cases n.frac <;> rfl
  simp only [readNumber, p1, p2, p3, p4, hw, if_false, Option.some.injEq, List.length_map] at hread
  rw [hunit] at hread
  simp only [readDouble, p1, p2, p3, p4, hw, if_false, Option.some.injEq]
  rw [List.take_of_length_le (l := n.whole.map Fin.val) (by rw [List.length_map]; omega),
    List.take_of_length_le (l := (n.frac.getD []).map Fin.val) (by rw [List.length_map, List.length_map]; omega),
    hacc, Nat.sub_self, List.length_map, Nat.cast_zero, add_zero, hunit, scaleTen_exact R _ _ h2, ← hread]
  congr 1
  cases n.neg <;> simp

end WindMult
