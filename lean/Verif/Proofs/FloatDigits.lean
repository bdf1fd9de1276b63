import Verif.Proofs.Near
import Verif.Model.FloatTopo

/-!
# Rounding to `p` binary digits: exact cases, and the index of `escarpment_factor`
-/

set_option autoImplicit false

namespace WindMult

/-- Ties go to the even neighbour. -/
theorem around_eq_of_even {x : ℝ} {n : ℤ} (hn : n % 2 = 0) (h : |x - n| ≤ 1 / 2) : around x = n := by
  rcases h.lt_or_eq with h | h
  · exact around_eq_of_abs_lt h
  rcases abs_eq (by norm_num) |>.mp h with h | h
  · have hf : ⌊x⌋ = n := by rw [Int.floor_eq_iff]; constructor <;> linarith
    unfold around
    rw [hf, if_neg (by linarith), if_neg (by linarith), if_pos hn]
  · have hf : ⌊x⌋ = n - 1 := by rw [Int.floor_eq_iff]; push_cast; constructor <;> linarith
    unfold around
    rw [hf, if_neg (by push_cast; linarith), if_neg (by push_cast; linarith), if_neg (by omega)]
    omega

theorem log_eq {x : ℝ} {e : ℤ} (h1 : (2 : ℝ) ^ e ≤ x) (h2 : x < 2 ^ (e + 1)) : Int.log 2 x = e := by
  have hx : 0 < x := lt_of_lt_of_le (by positivity) h1
  apply le_antisymm
  · have := (Int.lt_zpow_iff_log_lt (b := 2) (by norm_num) (x := e + 1) hx).mp (by exact_mod_cast h2)
    omega
  · exact (Int.zpow_le_iff_le_log (b := 2) (by norm_num) (x := e) hx).mp (by exact_mod_cast h1)

/-- The last of `p` digits of a number between two powers of two. -/
theorem roundDigits_of_log (p : ℕ) {x : ℝ} {e : ℤ} (h1 : (2 : ℝ) ^ e ≤ x) (h2 : x < 2 ^ (e + 1)) :
    roundDigits p x = (around (x * 2 ^ ((p : ℤ) - 1 - e)) : ℝ) / 2 ^ ((p : ℤ) - 1 - e) := by
  have hx : 0 < x := lt_of_lt_of_le (by positivity) h1
  unfold roundDigits lastDigit
  rw [abs_of_pos hx, log_eq h1 h2]

theorem roundDigits_zero (p : ℕ) : roundDigits p 0 = 0 := by
  have : around (0 : ℝ) = 0 := by simpa using around_intCast (K := ℝ) 0
  simp [roundDigits, this]

/-- Scaling by a power of two. -/
theorem roundDigits_scale (p : ℕ) (x : ℝ) (k : ℤ) : roundDigits p (x * 2 ^ k) = roundDigits p x * 2 ^ k := by
  rcases eq_or_ne x 0 with rfl | hx
  · rw [zero_mul, roundDigits_zero, zero_mul]
  have hx' : 0 < |x| := abs_pos.mpr hx
  have hl : Int.log 2 |x * 2 ^ k| = Int.log 2 |x| + k := by
    have h1 := Int.zpow_log_le_self (b := 2) (by norm_num) hx'
    have h2 := Int.lt_zpow_succ_log_self (b := 2) (by norm_num) |x|
    push_cast at h1 h2
    have hk : (0 : ℝ) < 2 ^ k := by positivity
    rw [abs_mul, abs_of_pos hk]
    apply log_eq
    · rw [zpow_add₀ (by norm_num)]
      gcongr
    · rw [show Int.log 2 |x| + k + 1 = Int.log 2 |x| + 1 + k by ring, zpow_add₀ (by norm_num)]
      gcongr
  unfold roundDigits lastDigit
  rw [hl, show (p : ℤ) - 1 - (Int.log 2 |x| + k) = ((p : ℤ) - 1 - Int.log 2 |x|) - k by ring]
  have e : x * 2 ^ k * (2 : ℝ) ^ ((p : ℤ) - 1 - Int.log 2 |x| - k) = x * 2 ^ ((p : ℤ) - 1 - Int.log 2 |x|) := by
    rw [mul_assoc, ← zpow_add₀ (by norm_num)]
    congr 2
    ring
  rw [e, zpow_sub₀ (by norm_num) _ k, div_div_eq_mul_div]
  ring

/-- An integer of at most `p` digits is exact, at any scale. -/
theorem roundDigits_exact (p : ℕ) (n : ℤ) (j : ℤ) (hn : |n| ≤ 2 ^ p) (hp : 1 ≤ p) :
    roundDigits p ((n : ℝ) * 2 ^ j) = n * 2 ^ j := by
  rw [roundDigits_scale]
  congr 1
  rcases eq_or_ne n 0 with rfl | hn0
  · simp [roundDigits_zero]
  have hx' : 0 < |(n : ℝ)| := abs_pos.mpr (by exact_mod_cast hn0)
  have h1 := Int.zpow_log_le_self (b := 2) (by norm_num) hx'
  have h2 := Int.lt_zpow_succ_log_self (b := 2) (by norm_num) |(n : ℝ)|
  push_cast at h1 h2
  have hnr : |(n : ℝ)| ≤ 2 ^ (p : ℤ) := by
    rw [zpow_natCast]
    exact_mod_cast hn
  have hl : Int.log 2 |(n : ℝ)| ≤ p := by
    have := h1.trans hnr
    exact (zpow_le_zpow_iff_right₀ (by norm_num : (1 : ℝ) < 2)).mp this
  -- the scaled number is an integer
  have hint : ∃ N : ℤ, (n : ℝ) * 2 ^ ((p : ℤ) - 1 - Int.log 2 |(n : ℝ)|) = N := by
    rcases hl.lt_or_eq with hl | hl
    · refine ⟨n * 2 ^ ((p : ℤ) - 1 - Int.log 2 |(n : ℝ)|).toNat, ?_⟩
      push_cast
      rw [← zpow_natCast, Int.toNat_of_nonneg (by omega)]
    · rw [hl] at h1
      have he : |(n : ℝ)| = 2 ^ (p : ℤ) := le_antisymm hnr h1
      rw [hl, show (p : ℤ) - 1 - p = -1 by ring]
      have hp2 : (2 : ℝ) ^ (p : ℤ) * 2 ^ (-1 : ℤ) = ((2 ^ (p - 1) : ℤ) : ℝ) := by
        rw [← zpow_add₀ (by norm_num)]
        push_cast
        rw [← zpow_natCast, Nat.cast_sub hp]
        congr 1
      rcases abs_eq (by positivity) |>.mp he with h | h
      · exact ⟨2 ^ (p - 1), by rw [h, hp2]⟩
      · exact ⟨-2 ^ (p - 1), by rw [h, neg_mul, hp2]; push_cast; ring⟩
  obtain ⟨N, hN⟩ := hint
  unfold roundDigits lastDigit
  rw [hN, around_intCast, ← hN]
  field_simp

theorem roundDigits_int (p : ℕ) (n : ℤ) (hn : |n| ≤ 2 ^ p) (hp : 1 ≤ p) : roundDigits p (n : ℝ) = n := by
  simpa using roundDigits_exact p n 0 hn hp

/-- Rounding twice is rounding once. -/
theorem roundDigits_idem (p : ℕ) (hp : 1 ≤ p) (x : ℝ) : roundDigits p (roundDigits p x) = roundDigits p x := by
  have hb : |around (x * 2 ^ lastDigit p x)| ≤ 2 ^ p := by
    rcases eq_or_ne x 0 with rfl | hx
    · have : around (0 : ℝ) = 0 := by simpa using around_intCast (K := ℝ) 0
      simp [this]
    have h2 := Int.lt_zpow_succ_log_self (b := 2) (by norm_num) |x|
    push_cast at h2
    have h3 := abs_sub_around_le (x * 2 ^ lastDigit p x)
    have h4 : |x * 2 ^ lastDigit p x| < 2 ^ p := by
      rw [abs_mul, abs_of_pos (by positivity : (0 : ℝ) < 2 ^ lastDigit p x)]
      calc |x| * 2 ^ lastDigit p x < 2 ^ (Int.log 2 |x| + 1) * 2 ^ lastDigit p x := by gcongr
        _ = 2 ^ p := by
          unfold lastDigit
          rw [← zpow_add₀ (by norm_num), ← zpow_natCast]
          congr 1
          ring
    have h5 : (|around (x * 2 ^ lastDigit p x)| : ℝ) < 2 ^ p + 1 := by
      have := abs_sub_abs_le_abs_sub (around (x * 2 ^ lastDigit p x) : ℝ) (x * 2 ^ lastDigit p x)
      rw [abs_sub_comm] at h3
      linarith
    have h6 : |around (x * 2 ^ lastDigit p x)| < 2 ^ p + 1 := by exact_mod_cast h5
    omega
  have := roundDigits_exact p (around (x * 2 ^ lastDigit p x)) (-lastDigit p x) hb hp
  have e : roundDigits p x = (around (x * 2 ^ lastDigit p x) : ℝ) * 2 ^ (-lastDigit p x) := by
    rw [zpow_neg, ← div_eq_mul_inv]
    rfl
  rw [e]
  exact this

theorem two_mul_half (p : ℕ) (hp : 1 ≤ p) (x : ℝ) :
    roundDigits p (2 * roundDigits p (roundDigits p x / 2)) = roundDigits p x := by
  have h1 : roundDigits p (roundDigits p x / 2) = roundDigits p x / 2 := by
    have := roundDigits_scale p (roundDigits p x) (-1)
    rw [roundDigits_idem p hp] at this
    rw [zpow_neg_one, ← div_eq_mul_inv] at this
    exact this
  rw [h1, mul_div_cancel₀ _ (by norm_num : (2 : ℝ) ≠ 0), roundDigits_idem p hp]

/-- A number close to an integer that is small for the format and larger than twice its error allows. -/
theorem roundDigits_near_int (p : ℕ) {S : ℤ} {E : ℕ} (hE1 : 2 ^ E ≤ S) (hE2 : S < 2 ^ (E + 1)) (hE : E + 2 ≤ p)
    {z : ℝ} (hz : |z - S| ≤ 2 ^ ((E : ℤ) - p)) (hz' : S = 2 ^ E → |z - S| ≤ 2 ^ ((E : ℤ) - 1 - p)) :
    roundDigits p z = S := by
  have hE1r : (2 : ℝ) ^ E ≤ S := by exact_mod_cast hE1
  have hE2r : (S : ℝ) + 1 ≤ 2 ^ (E + 1) := by exact_mod_cast hE2
  have hsmall : (2 : ℝ) ^ ((E : ℤ) - p) ≤ 1 / 4 := by
    calc (2 : ℝ) ^ ((E : ℤ) - p) ≤ 2 ^ (-2 : ℤ) := zpow_le_zpow_right₀ (by norm_num) (by omega)
      _ = 1 / 4 := by norm_num
  obtain ⟨z1, z2⟩ := abs_le.mp hz
  by_cases hlow : (2 : ℝ) ^ E ≤ z
  · have hlog := roundDigits_of_log p (x := z) (e := E) (by rw [zpow_natCast]; exact hlow) (by
      have : (2 : ℝ) ^ ((E : ℤ) + 1) = 2 ^ (E + 1) := by rw [← zpow_natCast]; norm_cast
      rw [this]
      linarith)
    set s : ℝ := 2 ^ ((p : ℤ) - 1 - E) with hs
    have hspos : 0 < s := by positivity
    have hsN : (S : ℝ) * s = ((S * 2 ^ (p - 1 - E) : ℤ) : ℝ) := by
      push_cast
      rw [hs, ← zpow_natCast, show (((p - 1 - E : ℕ) : ℤ)) = (p : ℤ) - 1 - E by omega]
    have hev : (S * 2 ^ (p - 1 - E) : ℤ) % 2 = 0 := by
      obtain ⟨t, ht⟩ : ∃ t, p - 1 - E = t + 1 := ⟨p - 2 - E, by omega⟩
      rw [ht, pow_succ, ← mul_assoc]
      omega
    have hr := around_eq_of_even (x := z * s) hev (by
      rw [← hsN, ← sub_mul, abs_mul, abs_of_pos hspos]
      calc |z - S| * s ≤ 2 ^ ((E : ℤ) - p) * s := by gcongr
        _ = 1 / 2 := by
          rw [hs, ← zpow_add₀ (by norm_num), show ((E : ℤ) - p + (p - 1 - E)) = -1 by ring]
          norm_num)
    rw [hlog, hr, ← hsN, mul_div_assoc, div_self hspos.ne', mul_one]
  · push Not at hlow
    have hS : S = 2 ^ E := by
      have h1 : (S : ℝ) < 2 ^ E + 1 := by linarith
      have h2 : S < 2 ^ E + 1 := by exact_mod_cast h1
      omega
    have hz3 := hz' hS
    have hSr : (S : ℝ) = 2 ^ E := by rw [hS]; push_cast; ring
    have hsmall' : (2 : ℝ) ^ ((E : ℤ) - 1 - p) ≤ 2 ^ ((E : ℤ) - 1) :=
      zpow_le_zpow_right₀ (by norm_num) (by omega)
    have hdouble : (2 : ℝ) ^ E = 2 * 2 ^ ((E : ℤ) - 1) := by
      rw [← zpow_natCast, ← zpow_one_add₀ (by norm_num)]
      congr 1
      ring
    obtain ⟨w1, w2⟩ := abs_le.mp hz3
    have hlog := roundDigits_of_log p (x := z) (e := (E : ℤ) - 1) (by linarith) (by
      rw [show (E : ℤ) - 1 + 1 = E by ring, zpow_natCast]
      exact hlow)
    set s : ℝ := 2 ^ ((p : ℤ) - 1 - (E - 1)) with hs
    have hspos : 0 < s := by positivity
    have hsN : (S : ℝ) * s = ((S * 2 ^ (p - E) : ℤ) : ℝ) := by
      push_cast
      rw [hs, ← zpow_natCast, show (((p - E : ℕ) : ℤ)) = (p : ℤ) - 1 - (E - 1) by omega]
    have hev : (S * 2 ^ (p - E) : ℤ) % 2 = 0 := by
      obtain ⟨t, ht⟩ : ∃ t, p - E = t + 1 := ⟨p - 1 - E, by omega⟩
      rw [ht, pow_succ, ← mul_assoc]
      omega
    have hr := around_eq_of_even (x := z * s) hev (by
      rw [← hsN, ← sub_mul, abs_mul, abs_of_pos hspos]
      calc |z - S| * s ≤ 2 ^ ((E : ℤ) - 1 - p) * s := by gcongr
        _ = 1 / 2 := by
          rw [hs, ← zpow_add₀ (by norm_num), show ((E : ℤ) - 1 - p + (p - 1 - (E - 1))) = -1 by ring]
          norm_num)
    rw [hlog, hr, ← hsN, mul_div_assoc, div_self hspos.ne', mul_one]

/-- The quotient of the rounded product `n·ds` by `ds`: `n` or one of its neighbours. -/
theorem product_quotient (p : ℕ) {n e : ℕ} (h1 : 2 ^ e < n) (h2 : n < 2 ^ (e + 1)) (he : e + 2 ≤ p) {ds : ℝ}
    (hds : 0 < ds) : |roundDigits p (roundDigits p (n * ds) / ds) - n| ≤ 2 ^ ((e : ℤ) + 1 - p) := by
  have h1r : (2 : ℝ) ^ e + 1 ≤ n := by exact_mod_cast h1
  have h2r : (n : ℝ) + 1 ≤ 2 ^ (e + 1) := by exact_mod_cast h2
  have hn : (0 : ℝ) < n := lt_of_lt_of_le (by positivity) h1r
  have hy : |roundDigits p (n * ds) / ds - n| ≤ 1 / 2 ^ p * n := by
    have h := roundDigits_near p (n * ds)
    rw [abs_of_pos (by positivity : 0 < (n : ℝ) * ds)] at h
    have e1 : roundDigits p (n * ds) / ds - n = (roundDigits p (n * ds) - n * ds) / ds := by
      field_simp
    rw [e1, abs_div, abs_of_pos hds, div_le_iff₀ hds]
    linarith
  set y := roundDigits p (n * ds) / ds with hydef
  have hp0 : (0 : ℝ) < 2 ^ p := by positivity
  have hb : 1 / 2 ^ p * (n : ℝ) < 1 := by
    rw [one_div, inv_mul_lt_iff₀ hp0, mul_one]
    have : (2 : ℝ) ^ (e + 1) ≤ 2 ^ p := pow_le_pow_right₀ (by norm_num) (by omega)
    linarith
  obtain ⟨y1, y2⟩ := abs_le.mp hy
  have hlog := roundDigits_of_log p (x := y) (e := e) (by rw [zpow_natCast]; linarith) (by
    have : (2 : ℝ) ^ ((e : ℤ) + 1) = 2 ^ (e + 1) := by rw [← zpow_natCast]; norm_cast
    rw [this]
    linarith)
  set s : ℝ := 2 ^ ((p : ℤ) - 1 - e) with hs
  have hspos : 0 < s := by positivity
  have hsN : (n : ℝ) * s = (((n : ℤ) * 2 ^ (p - 1 - e) : ℤ) : ℝ) := by
    push_cast
    rw [hs, ← zpow_natCast, show (((p - 1 - e : ℕ) : ℤ)) = (p : ℤ) - 1 - e by omega]
  have hYN : |y * s - n * s| < 1 := by
    rw [← sub_mul, abs_mul, abs_of_pos hspos]
    have hps : s = 2 ^ p / 2 ^ (e + 1) := by
      rw [hs, show (p : ℤ) - 1 - e = (p : ℕ) - (e + 1 : ℕ) by push_cast; ring, zpow_sub₀ (by norm_num),
        zpow_natCast, zpow_natCast]
    calc |y - n| * s ≤ 1 / 2 ^ p * n * s := by gcongr
      _ = n / 2 ^ (e + 1) := by rw [hps]; field_simp
      _ < 1 := by rw [div_lt_one (by positivity)]; linarith
  have hr := abs_sub_around_le (y * s)
  have hN : |(around (y * s) : ℝ) - n * s| ≤ 1 := by
    rw [hsN] at hYN ⊢
    have h3 : |(around (y * s) : ℝ) - (((n : ℤ) * 2 ^ (p - 1 - e) : ℤ) : ℝ)| < 2 := by
      have := abs_sub_le (around (y * s) : ℝ) (y * s) (((n : ℤ) * 2 ^ (p - 1 - e) : ℤ) : ℝ)
      rw [abs_sub_comm] at hr
      linarith
    have h4 : |around (y * s) - ((n : ℤ) * 2 ^ (p - 1 - e) : ℤ)| < 2 := by exact_mod_cast h3
    have h5 : |around (y * s) - ((n : ℤ) * 2 ^ (p - 1 - e) : ℤ)| ≤ 1 := by omega
    exact_mod_cast h5
  rw [hlog]
  have e2 : (around (y * s) : ℝ) / s - n = (around (y * s) - n * s) / s := by field_simp
  rw [e2, abs_div, abs_of_pos hspos, div_le_iff₀ hspos]
  have e3 : (2 : ℝ) ^ ((e : ℤ) + 1 - p) * s = 1 := by
    rw [hs, ← zpow_add₀ (by norm_num), show ((e : ℤ) + 1 - p + (p - 1 - e)) = 0 by ring, zpow_zero]
  linarith

/-- The index of `escarpment_factor` before the clamp is exact. -/
theorem ridge_add_exact (p : ℕ) {r n : ℕ} (hn : 0 < n) (hnr : n ≤ r) (hr : r + n < 2 ^ (p - 1)) (hp : 2 ≤ p)
    {ds : ℝ} (hds : 0 < ds) (hfl : roundDigits p ds = ds) :
    roundDigits p (r + roundDigits p (roundDigits p (n * ds) / ds)) = ((r + n : ℕ) : ℝ) := by
  have hlt : r + n < 2 ^ p := lt_of_lt_of_le hr (Nat.pow_le_pow_right (by norm_num) (by omega))
  have hS : roundDigits p ((r : ℝ) + n) = r + n := by
    have := roundDigits_int p ((r + n : ℕ) : ℤ) (by rw [Nat.abs_cast]; exact_mod_cast hlt.le) (by omega)
    push_cast at this
    exact this
  obtain ⟨e, he1, he2⟩ : ∃ e, 2 ^ e ≤ n ∧ n < 2 ^ (e + 1) :=
    ⟨Nat.log 2 n, Nat.pow_log_le_self 2 hn.ne', Nat.lt_pow_succ_log_self (by norm_num) n⟩
  rcases he1.lt_or_eq with he1 | he1
  · -- `n` is not a power of two
    obtain ⟨E, hE1, hE2⟩ : ∃ E, 2 ^ E ≤ r + n ∧ r + n < 2 ^ (E + 1) :=
      ⟨Nat.log 2 (r + n), Nat.pow_log_le_self 2 (by omega), Nat.lt_pow_succ_log_self (by norm_num) _⟩
    have hEp : E + 2 ≤ p := by
      have h := (Nat.pow_lt_pow_iff_right (by norm_num : 1 < 2)).mp (hE1.trans_lt hr)
      omega
    have hdouble : 2 ^ (e + 1) < r + n := by rw [pow_succ]; omega
    have heE : e + 1 ≤ E := by
      have h := (Nat.pow_lt_pow_iff_right (by norm_num : 1 < 2)).mp (hdouble.trans hE2)
      omega
    have hq := product_quotient p he1 he2 (by omega) hds
    have hz : ((r : ℝ) + roundDigits p (roundDigits p (n * ds) / ds)) - ((r + n : ℕ) : ℤ) =
        roundDigits p (roundDigits p (n * ds) / ds) - n := by push_cast; ring
    have h := roundDigits_near_int p (S := ((r + n : ℕ) : ℤ)) (E := E) (by exact_mod_cast hE1)
      (by exact_mod_cast hE2) hEp (z := r + roundDigits p (roundDigits p (n * ds) / ds)) (by
        rw [hz]
        exact hq.trans (zpow_le_zpow_right₀ (by norm_num) (by omega))) (by
        intro hS2
        have hS2' : r + n = 2 ^ E := by exact_mod_cast hS2
        have h := (Nat.pow_lt_pow_iff_right (by norm_num : 1 < 2)).mp (hS2' ▸ hdouble)
        rw [hz]
        exact hq.trans (zpow_le_zpow_right₀ (by norm_num) (by omega)))
    rw [h]
    norm_cast
  · -- a power of two
    have h1 : roundDigits p (n * ds) = n * ds := by
      have := roundDigits_scale p ds e
      rw [hfl] at this
      rw [← he1]
      push_cast
      rw [mul_comm, ← zpow_natCast]
      exact this
    have h2 : roundDigits p (n : ℝ) = n := by
      have := roundDigits_int p (n : ℤ) (by rw [Nat.abs_cast]; exact_mod_cast (by omega : n ≤ 2 ^ p)) (by omega)
      simpa using this
    rw [h1, mul_div_assoc, div_self hds.ne', mul_one, h2, hS]
    push_cast
    ring

/-- The index of `escarpment_factor` is exact. -/
theorem betaIndFl_exact (p nrow : ℕ) {ridge valley : ℕ} (hv : valley < ridge)
    (hr : ridge + (ridge - valley) < 2 ^ (p - 1)) (hp : 2 ≤ p) {ds : ℝ} (hds : 0 < ds)
    (hfl : roundDigits p ds = ds) :
    betaIndFl (roundDigits p) nrow ridge valley ds = min ((nrow : ℤ) - 1) (ridge + (ridge - valley)) := by
  have habs : |(ridge : ℝ) - valley| = ((ridge - valley : ℕ) : ℝ) := by
    rw [Nat.cast_sub hv.le, abs_of_nonneg (by have : (valley : ℝ) ≤ ridge := by exact_mod_cast hv.le
                                              linarith)]
  unfold betaIndFl halfDistanceFl
  rw [two_mul_half p (by omega), habs, ridge_add_exact p (by omega) (by omega) hr hp hds hfl, Int.floor_natCast]
  omega

end WindMult
