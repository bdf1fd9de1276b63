import Verif.Model.ClassTable
import Verif.Spec.ClassTable
import Mathlib.Tactic.Ring
import Mathlib.Tactic.Linarith
import Mathlib.Tactic.FieldSimp
import Mathlib.Data.Nat.Digits.Lemmas

/-!
# Numbers are read as written
-/

set_option autoImplicit false

namespace WindMult

theorem digitVal_digitChar (d : Fin 10) : digitVal (Nat.digitChar d.val) = some d.val := by
  revert d; decide

/-- The characters that occur in numbers. -/
def isNumeralChar (c : Char) : Bool := (digitVal c).isSome || c == '-' || c == '+' || c == '.' || c == 'e' || c == 'E'

theorem digitChar_numeral (d : Fin 10) : isNumeralChar (Nat.digitChar d.val) = true := by
  revert d; decide

theorem digits_numeral (ds : Digits) : ∀ c ∈ ds.text, isNumeralChar c = true := by
  intro c hc
  obtain ⟨d, -, rfl⟩ := List.mem_map.1 hc
  exact digitChar_numeral d

theorem sign_numeral (neg plus : Bool) : ∀ c ∈ signText neg plus, isNumeralChar c = true := by
  cases neg <;> cases plus <;> decide

theorem text_numeral (n : Numeral) (p : Spelling) : ∀ c ∈ n.spelt p, isNumeralChar c = true := by
  intro c hc
  simp only [Numeral.spelt, List.mem_append] at hc
  rcases hc with ((hc | hc) | hc) | hc
  · exact sign_numeral _ _ c hc
  · exact digits_numeral _ c hc
  · cases hf : n.frac with
    | none => simp [hf] at hc
    | some f =>
      simp only [hf, Option.elim, List.mem_cons] at hc
      rcases hc with rfl | hc
      · decide
      · exact digits_numeral _ c hc
  · cases hx : n.exp with
    | none => simp [hx] at hc
    | some x =>
      simp only [hx, Option.elim, List.mem_cons, List.mem_append] at hc
      rcases hc with rfl | hc | hc
      · cases p.capital <;> decide
      · exact sign_numeral _ _ c hc
      · exact digits_numeral _ c hc

theorem text_ne_nil (n : Numeral) (p : Spelling) (hn : n.Ok) : n.spelt p ≠ [] := by
  obtain ⟨h, -⟩ := hn
  obtain ⟨neg, w, f, x⟩ := n
  cases w with
  | nil =>
    cases f with
    | none => exact absurd rfl h
    | some f => simp [Numeral.spelt]
  | cons d w => simp [Numeral.spelt, Digits.text]

/-- Blanks around a text without blanks are dropped. -/
theorem stripBlanks_replicate (s : List Char) (hs : ∀ c ∈ s, isNumeralChar c = true) (hne : s ≠ []) (a b : ℕ) :
    stripBlanks (List.replicate a ' ' ++ s ++ List.replicate b ' ') = s := by
  have drop : ∀ (k : ℕ) (t : List Char), (∀ c, t.head? = some c → isNumeralChar c = true) →
      (List.replicate k ' ' ++ t).dropWhile (fun c : Char => c == ' ' || c == '\t') = t := by
    intro k t ht
    induction k with
    | zero =>
      cases t with
      | nil => rfl
      | cons c t =>
        have hc : (c == ' ' || c == '\t') = false := by
          have := ht c rfl
          by_contra h
          simp only [Bool.not_eq_false, Bool.or_eq_true, beq_iff_eq] at h
          rcases h with rfl | rfl <;> exact absurd this (by decide)
        simp [hc]
    | succ k ih => simpa [List.replicate_succ] using ih
  rw [stripBlanks, List.append_assoc, drop, List.reverse_append, List.reverse_replicate, drop, List.reverse_reverse]
  · intro c hc
    exact hs c (List.mem_reverse.1 (List.mem_of_mem_head? hc))
  · intro c hc
    cases s with
    | nil => exact absurd rfl hne
    | cons d s => simp only [List.cons_append, List.head?_cons, Option.some.injEq] at hc; exact hs c (by simp [hc])

/-- Not a digit at the beginning. -/
def NoDigit (s : List Char) : Prop := ∀ c, s.head? = some c → digitVal c = none

theorem takeDigits_text (ds : Digits) (s : List Char) (hs : NoDigit s) :
    takeDigits (ds.text ++ s) = (ds.map Fin.val, s) := by
  induction ds with
  | nil =>
    cases s with
    | nil => rfl
    | cons c s => simp [Digits.text, takeDigits, hs c rfl]
  | cons d ds ih =>
    have : Digits.text (d :: ds) ++ s = Nat.digitChar d.val :: (Digits.text ds ++ s) := rfl
    rw [this, takeDigits, digitVal_digitChar, ih]
    rfl

theorem digitsVal_eq (ds : List ℕ) : digitsVal ds = Nat.ofDigits 10 ds.reverse := by
  rw [digitsVal, Nat.ofDigits_eq_foldr, List.foldr_reverse]
  congr 1
  funext n d
  simp only [Nat.cast_id]
  ring

theorem digitsVal_map (ds : Digits) : digitsVal (ds.map Fin.val) = ds.value := by
  rw [digitsVal_eq, Digits.value, List.map_reverse]

theorem digitsVal_append (a b : List ℕ) : digitsVal (a ++ b) = digitsVal a * 10 ^ b.length + digitsVal b := by
  rw [digitsVal_eq, digitsVal_eq, digitsVal_eq, List.reverse_append, Nat.ofDigits_append, List.length_reverse]
  ring

/-- No sign at the beginning. -/
def NoSign (s : List Char) : Prop := ∀ c, s.head? = some c → c ≠ '-' ∧ c ≠ '+'

theorem noSign_digits (ds : Digits) (hds : ds ≠ []) (s : List Char) : NoSign (ds.text ++ s) := by
  cases ds with
  | nil => exact absurd rfl hds
  | cons d ds =>
    have : Digits.text (d :: ds) ++ s = Nat.digitChar d.val :: (Digits.text ds ++ s) := rfl
    rw [this]
    intro c hc
    cases hc
    clear this hds; revert d; decide

theorem takeSign_text (neg plus : Bool) (s : List Char) (hs : NoSign s) :
    takeSign (signText neg plus ++ s) = (neg, s) := by
  cases neg
  · cases plus
    · show takeSign s = (false, s)
      unfold takeSign
      split
      · exact absurd rfl (hs _ rfl).1
      · exact absurd rfl (hs _ rfl).2
      · rfl
    · rfl
  · rfl

/-- The exponent as written. -/
def expText (p : Spelling) (x : Option (Bool × Digits)) : List Char :=
  x.elim [] fun x => (if p.capital then 'E' else 'e') :: (signText x.1 p.expPlus ++ x.2.text)

theorem readExponent_text (p : Spelling) (x : Option (Bool × Digits)) (hx : ∀ y, x = some y → y.2 ≠ []) :
    readExponent (expText p x) = some (x.elim 0 fun y => (if y.1 then -1 else 1) * (y.2.value : ℤ)) := by
  cases x with
  | none => rfl
  | some y =>
    have hy := hx y rfl
    obtain ⟨neg, ds⟩ := y
    have h0 := noSign_digits ds hy []
    have h2 := takeDigits_text ds [] (by intro c hc; simp at hc)
    rw [List.append_nil] at h0 h2
    have h1 := takeSign_text neg p.expPlus ds.text h0
    have hc : (if p.capital then 'E' else 'e') = 'e' ∨ (if p.capital then 'E' else 'e') = 'E' := by
      cases p.capital <;> simp
    simp only [expText, Option.elim, readExponent, hc, if_true, h1, h2]
    cases ds with
    | nil => exact absurd rfl hy
    | cons d ds =>
      simp only [List.map_cons]
      rw [← List.map_cons, digitsVal_map]

theorem noDigit_exp (p : Spelling) (x : Option (Bool × Digits)) : NoDigit (expText p x) := by
  intro c hc
  cases x with
  | none => simp [expText] at hc
  | some y =>
    simp only [expText, Option.elim, List.head?_cons, Option.some.injEq] at hc
    subst hc
    cases p.capital <;> decide

theorem takeFraction_exp (p : Spelling) (x : Option (Bool × Digits)) :
    takeFraction (expText p x) = ([], expText p x) := by
  obtain ⟨_, _, cap⟩ := p
  cases cap <;> cases x <;> rfl

/-- The parts of a number. -/
theorem numeral_parts (n : Numeral) (p : Spelling) (hn : n.Ok) (a b : ℕ) :
    ∃ s₁ s₂ s₃, takeSign (stripBlanks (List.replicate a ' ' ++ n.spelt p ++ List.replicate b ' ')) = (n.neg, s₁) ∧
      takeDigits s₁ = (n.whole.map Fin.val, s₂) ∧ takeFraction s₂ = ((n.frac.getD []).map Fin.val, s₃) ∧
      readExponent s₃ = some (n.exp.elim 0 fun x => if x.1 then -(x.2.value : ℤ) else x.2.value) := by
  rw [stripBlanks_replicate _ (text_numeral n p) (text_ne_nil n p hn)]
  obtain ⟨hw, hx⟩ := hn
  obtain ⟨neg, w, f, x⟩ := n
  simp only at hw hx
  have e : Numeral.spelt ⟨neg, w, f, x⟩ p
      = signText neg p.plus ++ (w.text ++ ((f.elim [] fun f => '.' :: f.text) ++ expText p x)) := by
    simp [Numeral.spelt, expText, List.append_assoc]
  have he : readExponent (expText p x) = some (x.elim 0 fun x => if x.1 then -(x.2.value : ℤ) else x.2.value) := by
    rw [readExponent_text p x hx]
    cases x with
    | none => rfl
    | some y => obtain ⟨sg, ds⟩ := y; cases sg <;> simp
  have hsign : NoSign (w.text ++ ((f.elim [] fun f => '.' :: f.text) ++ expText p x)) := by
    by_cases h : w = []
    · subst h
      cases f with
      | none => exact absurd rfl hw
      | some f => intro c hc; cases hc; decide
    · exact noSign_digits w h _
  rw [e, takeSign_text _ _ _ hsign]
  cases f with
  | none =>
    refine ⟨_, expText p x, expText p x, rfl, ?_, ?_, he⟩
    · simpa using takeDigits_text w _ (noDigit_exp p x)
    · simpa using takeFraction_exp p x
  | some f =>
    have hdot : NoDigit ('.' :: (f.text ++ expText p x)) := by
      intro c hc
      simp only [List.head?_cons, Option.some.injEq] at hc
      subst hc; decide
    refine ⟨_, '.' :: (f.text ++ expText p x), expText p x, rfl, ?_, ?_, he⟩
    · simpa using takeDigits_text w _ hdot
    · simpa [takeFraction] using takeDigits_text f _ (noDigit_exp p x)

/-- A number, with blanks around it, is read as what it says. -/
theorem readNumber_of {s : List Char} {q : ℚ} (h : IsNumber s q) : readNumber s = some q := by
  obtain ⟨n, p, a, b, hn, rfl, rfl⟩ := h
  obtain ⟨s₁, s₂, s₃, p1, p2, p3, p4⟩ := numeral_parts n p hn a b
  have hne : ¬ (n.whole.map Fin.val = [] ∧ (n.frac.getD []).map Fin.val = []) := by
    simpa [← List.append_eq_nil_iff] using hn.1
  simp only [readNumber, p1, p2, p3, p4, hne, if_false, Option.some.injEq, digitsVal_append, digitsVal_map,
    List.length_map, Numeral.value]
  obtain ⟨neg, w, f, x⟩ := n
  have h10 : (10 : ℚ) ≠ 0 := by norm_num
  rw [zpow_sub₀ h10]
  have hv : Digits.value [] = 0 := rfl
  cases f with
  | none =>
    cases x with
    | none => simp [hv]
    | some y =>
      obtain ⟨sg, ds⟩ := y
      cases sg <;> simp [hv]
  | some f =>
    cases x with
    | none => simp; field_simp
    | some y =>
      obtain ⟨sg, ds⟩ := y
      cases sg
      · simp; field_simp
      · simp; field_simp

theorem number_not_na {s : List Char} {q : ℚ} (h : IsNumber s q) : s ∉ naFields := by
  obtain ⟨n, p, a, b, hn, -, rfl⟩ := h
  intro hmem
  have key : ∀ t ∈ naFields, t = [] ∨ ∃ c ∈ t, isNumeralChar c = false ∧ c ≠ ' ' := by decide
  rcases key _ hmem with h | ⟨c, hc, h1, h2⟩
  · have := text_ne_nil n p hn
    simp only [List.append_eq_nil_iff] at h
    exact this h.1.2
  · simp only [List.mem_append, List.mem_replicate] at hc
    rcases hc with (⟨-, hc⟩ | hc) | ⟨-, hc⟩
    · exact h2 hc
    · rw [text_numeral n p c hc] at h1; exact absurd h1 (by decide)
    · exact h2 hc

end WindMult
