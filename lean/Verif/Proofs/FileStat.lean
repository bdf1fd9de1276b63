import Verif.Model.FileStat
import Verif.Spec.FileStat
import Mathlib.Tactic.IntervalCases
import Mathlib.Data.List.TakeWhile

/-!
# Proofs about names, times and messages
-/

set_option autoImplicit false

namespace WindMult

/-! ### Order of texts -/

theorem textBefore_cons {b c : Char} {s t : List Char} :
    TextBefore (b :: s) (c :: t) ↔ b.toNat < c.toNat ∨ b = c ∧ TextBefore s t := by
  constructor
  · rintro ⟨pre, r, x, r', ht, hs⟩
    cases pre with
    | nil =>
      rcases hs with hs | ⟨y, hy, hs⟩
      · cases hs
      · cases hs
        cases ht
        exact Or.inl hy
    | cons z pre =>
      have ht' := List.cons.inj ht
      rcases hs with hs | ⟨y, hy, hs⟩
      · have hs' := List.cons.inj hs
        exact Or.inr ⟨hs'.1.trans ht'.1.symm, pre, r, x, r', ht'.2, Or.inl hs'.2⟩
      · have hs' := List.cons.inj hs
        exact Or.inr ⟨hs'.1.trans ht'.1.symm, pre, r, x, r', ht'.2, Or.inr ⟨y, hy, hs'.2⟩⟩
  · rintro (h | ⟨rfl, pre, r, x, r', ht, hs⟩)
    · exact ⟨[], s, c, t, rfl, Or.inr ⟨b, h, rfl⟩⟩
    · refine ⟨b :: pre, r, x, r', by rw [ht]; rfl, ?_⟩
      rcases hs with hs | ⟨y, hy, hs⟩
      · exact Or.inl (by rw [hs])
      · exact Or.inr ⟨y, hy, by rw [hs]; rfl⟩

theorem not_textBefore_nil (s : List Char) : ¬ TextBefore s [] := by
  rintro ⟨pre, r, x, r', ht, -⟩
  cases pre <;> cases ht

theorem textBefore_append : ∀ {a a' : List Char} (_ : a.length = a'.length) {b b' : List Char},
    TextBefore (a ++ b) (a' ++ b') ↔ TextBefore a a' ∨ a = a' ∧ TextBefore b b' := by
  intro a
  induction a with
  | nil =>
    intro a' h b b'
    have : a' = [] := List.length_eq_zero_iff.mp h.symm
    subst this
    simp [not_textBefore_nil]
  | cons x a ih =>
    intro a' h b b'
    cases a' with
    | nil => simp at h
    | cons y a' =>
      have hl : a.length = a'.length := by simpa using h
      rw [List.cons_append, List.cons_append, textBefore_cons, textBefore_cons, ih hl, List.cons.injEq]
      tauto

theorem timeDigit_toNat (n : ℕ) : (timeDigit n).toNat = 48 + n % 10 := by
  unfold timeDigit
  have h : n % 10 < 10 := Nat.mod_lt _ (by norm_num)
  generalize n % 10 = k at h
  interval_cases k <;> rfl

theorem timeDigit_inj {m n : ℕ} : timeDigit m = timeDigit n ↔ m % 10 = n % 10 := by
  constructor
  · intro h
    have := congrArg Char.toNat h
    rw [timeDigit_toNat, timeDigit_toNat] at this
    omega
  · intro h
    unfold timeDigit
    rw [h]

theorem twoDigits_before {m n : ℕ} (hm : m < 100) (hn : n < 100) : TextBefore (twoDigits m) (twoDigits n) ↔ m < n := by
  have h1 : m / 10 % 10 = m / 10 := Nat.mod_eq_of_lt (by omega)
  have h2 : n / 10 % 10 = n / 10 := Nat.mod_eq_of_lt (by omega)
  unfold twoDigits
  simp only [textBefore_cons, not_textBefore_nil, timeDigit_toNat, timeDigit_inj, h1, h2, and_false, or_false]
  omega

theorem twoDigits_inj {m n : ℕ} (hm : m < 100) (hn : n < 100) : twoDigits m = twoDigits n ↔ m = n := by
  have h1 : m / 10 % 10 = m / 10 := Nat.mod_eq_of_lt (by omega)
  have h2 : n / 10 % 10 = n / 10 := Nat.mod_eq_of_lt (by omega)
  unfold twoDigits
  simp only [List.cons.injEq, timeDigit_inj, h1, h2, and_true]
  omega

theorem digitChar_timeDigit (n : ℕ) : Nat.digitChar (n % 10) = timeDigit n := by
  unfold timeDigit
  have h : n % 10 < 10 := Nat.mod_lt _ (by norm_num)
  generalize n % 10 = k at h
  interval_cases k <;> rfl

theorem fourDigits {y : ℕ} (h : 1000 ≤ y) (h' : y < 10000) :
    Nat.toDigits 10 y = twoDigits (y / 100) ++ twoDigits (y % 100) := by
  have e1 : Nat.toDigits 10 y = Nat.toDigits 10 (y / 10) ++ [Nat.digitChar (y % 10)] :=
    Nat.toDigits_of_base_le (by norm_num) (by omega)
  have e2 : Nat.toDigits 10 (y / 10) = Nat.toDigits 10 (y / 10 / 10) ++ [Nat.digitChar (y / 10 % 10)] :=
    Nat.toDigits_of_base_le (by norm_num) (by omega)
  have e3 : Nat.toDigits 10 (y / 10 / 10) = Nat.toDigits 10 (y / 10 / 10 / 10) ++ [Nat.digitChar (y / 10 / 10 % 10)] :=
    Nat.toDigits_of_base_le (by norm_num) (by omega)
  have e4 : Nat.toDigits 10 (y / 10 / 10 / 10) = [Nat.digitChar (y / 10 / 10 / 10)] :=
    Nat.toDigits_of_lt_base (by omega)
  have e5 : Nat.digitChar (y / 10 / 10 / 10) = timeDigit (y / 100 / 10) := by
    rw [← digitChar_timeDigit]
    congr 1
    omega
  rw [e1, e2, e3, e4, e5, digitChar_timeDigit, digitChar_timeDigit, digitChar_timeDigit]
  simp only [twoDigits, List.cons_append, List.nil_append, List.cons.injEq, timeDigit_inj, and_true, true_and]
  omega

theorem fourDigits_before {y z : ℕ} (hy : 1000 ≤ y) (hy' : y < 10000) (hz : 1000 ≤ z) (hz' : z < 10000) :
    TextBefore (Nat.toDigits 10 y) (Nat.toDigits 10 z) ↔ y < z := by
  rw [fourDigits hy hy', fourDigits hz hz', textBefore_append (by simp [twoDigits]), twoDigits_before (by omega) (by omega),
    twoDigits_before (by omega) (by omega), twoDigits_inj (by omega) (by omega)]
  omega

/-! ### The texts of times -/

theorem defaultDate_eq (t : LocalTime) : strftime defaultDateFormat t =
    Nat.toDigits 10 t.year ++ (['-'] ++ (twoDigits t.month ++ (['-'] ++ (twoDigits t.day ++ ([' '] ++
      (twoDigits t.hour ++ ([':'] ++ (twoDigits t.minute ++ ([':'] ++ twoDigits t.second))))))))) := by
  have h : defaultDateFormat = ['%', 'Y', '-', '%', 'm', '-', '%', 'd', ' ', '%', 'H', ':', '%', 'M', ':', '%', 'S'] := by
    decide
  rw [h]
  simp [strftime]

theorem defaultDate_before {s t : LocalTime} (hs : s.Valid) (ht : t.Valid) (hys : 1000 ≤ s.year) (hys' : s.year < 10000)
    (hyt : 1000 ≤ t.year) (hyt' : t.year < 10000) :
    TextBefore (strftime defaultDateFormat s) (strftime defaultDateFormat t) ↔ EarlierFields s.fields t.fields := by
  obtain ⟨a1, a2, a3, a4, a5, a6, a7⟩ := hs
  obtain ⟨b1, b2, b3, b4, b5, b6, b7⟩ := ht
  have sep : ∀ (c : Char) (x y : List Char), TextBefore ([c] ++ x) ([c] ++ y) ↔ TextBefore x y := by
    intro c x y
    simp [textBefore_cons]
  have two : ∀ (m n : ℕ) (x y : List Char), m < 100 → n < 100 →
      (TextBefore (twoDigits m ++ x) (twoDigits n ++ y) ↔ m < n ∨ m = n ∧ TextBefore x y) := by
    intro m n x y hm hn
    rw [textBefore_append (by simp [twoDigits]), twoDigits_before hm hn, twoDigits_inj hm hn]
  have hl : (Nat.toDigits 10 s.year).length = (Nat.toDigits 10 t.year).length := by
    rw [fourDigits hys hys', fourDigits hyt hyt']
    rfl
  have he : Nat.toDigits 10 s.year = Nat.toDigits 10 t.year ↔ s.year = t.year := by
    constructor
    · intro h
      rw [← Nat.ofDigitChars_ten_toDigits (n := s.year), h, Nat.ofDigitChars_ten_toDigits]
    · intro h
      rw [h]
  rw [defaultDate_eq, defaultDate_eq, textBefore_append hl, fourDigits_before hys hys' hyt hyt', he, sep,
    two _ _ _ _ (by omega) (by omega), sep, two _ _ _ _ (by omega) (by omega), sep,
    two _ _ _ _ (by omega) (by omega), sep, two _ _ _ _ (by omega) (by omega), sep,
    twoDigits_before (by omega) (by omega)]
  simp [LocalTime.fields, EarlierFields]

theorem defaultDate_inj {s t : LocalTime} (hs : s.Valid) (ht : t.Valid) :
    strftime defaultDateFormat s = strftime defaultDateFormat t ↔ s = t := by
  refine ⟨fun h => ?_, fun h => by rw [h]⟩
  obtain ⟨a1, a2, a3, a4, a5, a6, a7⟩ := hs
  obtain ⟨b1, b2, b3, b4, b5, b6, b7⟩ := ht
  rw [defaultDate_eq, defaultDate_eq] at h
  obtain ⟨hy, h⟩ := List.append_inj' h rfl
  have hy' : s.year = t.year := by
    rw [← Nat.ofDigitChars_ten_toDigits (n := s.year), hy, Nat.ofDigitChars_ten_toDigits]
  obtain ⟨-, h⟩ := List.append_inj h rfl
  obtain ⟨hm, h⟩ := List.append_inj h rfl
  obtain ⟨-, h⟩ := List.append_inj h rfl
  obtain ⟨hd, h⟩ := List.append_inj h rfl
  obtain ⟨-, h⟩ := List.append_inj h rfl
  obtain ⟨hh, h⟩ := List.append_inj h rfl
  obtain ⟨-, h⟩ := List.append_inj h rfl
  obtain ⟨hmin, h⟩ := List.append_inj h rfl
  obtain ⟨-, h⟩ := List.append_inj h rfl
  rw [twoDigits_inj (by omega) (by omega)] at hm hd hh hmin h
  cases s
  cases t
  simp_all

theorem ctimeText_eq (w : ℕ → ℕ → ℕ → Fin 7) (t : LocalTime) : ctimeText w t =
    dayNames.getD (w t.year t.month t.day) [] ++ ([' '] ++ (monthNames.getD (t.month - 1) [] ++
      ([' ', if t.day < 10 then ' ' else timeDigit (t.day / 10), timeDigit t.day, ' '] ++
        (twoDigits t.hour ++ ([':'] ++ (twoDigits t.minute ++ ([':'] ++ (twoDigits t.second ++ ([' '] ++
          Nat.toDigits 10 t.year))))))))) := by
  simp [ctimeText]

theorem dayName_length (i : Fin 7) : (dayNames.getD i []).length = 3 := by
  revert i
  decide

theorem monthName_length {m : ℕ} (h : 1 ≤ m) (h' : m ≤ 12) : (monthNames.getD (m - 1) []).length = 3 := by
  interval_cases m <;> rfl

theorem monthName_inj {m n : ℕ} (h : 1 ≤ m) (h' : m ≤ 12) (hn : 1 ≤ n) (hn' : n ≤ 12)
    (e : monthNames.getD (m - 1) [] = monthNames.getD (n - 1) []) : m = n := by
  have : ∀ i : Fin 12, ∀ j : Fin 12, monthNames.getD i [] = monthNames.getD j [] → i = j := by decide
  have h1 := congrArg Fin.val (this ⟨m - 1, by omega⟩ ⟨n - 1, by omega⟩ e)
  simp only at h1
  omega

theorem dayText_inj {m n : ℕ} (h : 1 ≤ m) (h' : m ≤ 31) (hn : 1 ≤ n) (hn' : n ≤ 31)
    (e : (if m < 10 then ' ' else timeDigit (m / 10)) = if n < 10 then ' ' else timeDigit (n / 10))
    (e' : timeDigit m = timeDigit n) : m = n := by
  rw [timeDigit_inj] at e'
  have hb : ∀ k, ' ' ≠ timeDigit k := by
    intro k hk
    have := congrArg Char.toNat hk
    rw [timeDigit_toNat] at this
    have h32 : ' '.toNat = 32 := rfl
    omega
  split_ifs at e with h1 h2 h2
  · omega
  · exact absurd e (hb _)
  · exact absurd e.symm (hb _)
  · rw [timeDigit_inj] at e
    omega

theorem ctimeText_inj {w : ℕ → ℕ → ℕ → Fin 7} {s t : LocalTime} (hs : s.Valid) (ht : t.Valid) :
    ctimeText w s = ctimeText w t ↔ s = t := by
  refine ⟨fun h => ?_, fun h => by rw [h]⟩
  obtain ⟨a1, a2, a3, a4, a5, a6, a7⟩ := hs
  obtain ⟨b1, b2, b3, b4, b5, b6, b7⟩ := ht
  rw [ctimeText_eq, ctimeText_eq] at h
  obtain ⟨-, h⟩ := List.append_inj h (by rw [dayName_length, dayName_length])
  obtain ⟨-, h⟩ := List.append_inj h rfl
  obtain ⟨hm, h⟩ := List.append_inj h (by rw [monthName_length a1 a2, monthName_length b1 b2])
  obtain ⟨hd, h⟩ := List.append_inj h rfl
  obtain ⟨hh, h⟩ := List.append_inj h rfl
  obtain ⟨-, h⟩ := List.append_inj h rfl
  obtain ⟨hmin, h⟩ := List.append_inj h rfl
  obtain ⟨-, h⟩ := List.append_inj h rfl
  obtain ⟨hsec, h⟩ := List.append_inj h rfl
  obtain ⟨-, hy⟩ := List.append_inj h rfl
  have hy' : s.year = t.year := by
    rw [← Nat.ofDigitChars_ten_toDigits (n := s.year), hy, Nat.ofDigitChars_ten_toDigits]
  have hm' := monthName_inj a1 a2 b1 b2 hm
  simp only [List.cons.injEq, and_true, true_and] at hd
  have hd' := dayText_inj a3 a4 b3 b4 hd.1 hd.2
  rw [twoDigits_inj (by omega) (by omega)] at hh hmin hsec
  cases s
  cases t
  simp_all

/-! ### Folder and name -/

theorem folderAndName (p : List Char) : FolderAndName p (dirname p) (basename p) := by
  have hp : p = dirHead p ++ basename p := by
    unfold dirHead basename
    rw [← List.reverse_append, List.takeWhile_append_dropWhile, List.reverse_reverse]
  refine ⟨?_, ?_⟩
  · unfold basename
    intro h
    have := List.mem_takeWhile_imp (List.mem_reverse.mp h)
    simp at this
  unfold dirname
  split_ifs with h
  · exact ⟨0, by simpa using hp, Or.inr ⟨rfl, by simpa using h⟩⟩
  · have hsplit : dirHead p = ((dirHead p).reverse.dropWhile (· = '/')).reverse ++
        ((dirHead p).reverse.takeWhile (· = '/')).reverse := by
      rw [← List.reverse_append, List.takeWhile_append_dropWhile, List.reverse_reverse]
    have hrep : ((dirHead p).reverse.takeWhile (· = '/')).reverse =
        List.replicate ((dirHead p).reverse.takeWhile (· = '/')).length '/' := by
      rw [List.eq_replicate_iff]
      refine ⟨by simp, fun c hc => ?_⟩
      simpa using List.mem_takeWhile_imp (List.mem_reverse.mp hc)
    have hne : dirHead p ≠ [] := by
      intro h0
      rw [h0] at h
      simp at h
    refine ⟨_, by rw [← hrep, ← hsplit]; exact hp, Or.inl ⟨?_, ?_, ?_⟩⟩
    · intro h0
      apply h
      rw [hsplit, h0, hrep]
      simp
    · intro hl
      rw [List.getLast?_reverse] at hl
      have := List.head?_dropWhile_not (· = '/') (dirHead p).reverse
      rw [hl] at this
      simp at this
    · have hd : ∃ r, p.reverse.dropWhile (· ≠ '/') = '/' :: r := by
        have hne' : p.reverse.dropWhile (· ≠ '/') ≠ [] := by
          intro h0
          apply hne
          unfold dirHead
          rw [h0]
          rfl
        obtain ⟨x, r, hx⟩ := List.exists_cons_of_ne_nil hne'
        have := List.head?_dropWhile_not (· ≠ '/') p.reverse
        rw [hx] at this
        simp at this
        exact ⟨r, by rw [hx, this]⟩
      obtain ⟨r, hr⟩ := hd
      unfold dirHead
      rw [hr, List.reverse_reverse, List.takeWhile_cons]
      simp

end WindMult
