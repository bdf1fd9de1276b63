import Verif.Model.StartUp
import Verif.Proofs.FileNames
import Mathlib.Data.Nat.Digits.Lemmas
import Mathlib.Tactic.Ring
import Mathlib.Tactic.IntervalCases

/-!
# C105–C107: the log files of a run
-/

set_option autoImplicit false
set_option linter.unusedSectionVars false

namespace WindMult

namespace Spec

/-- The number a string of digits denotes. -/
def decimalValue (t : List Char) : ℕ := t.foldl (fun a ch => 10 * a + (ch.toNat - 48)) 0

/-- The log of rank 0 has the given name, the log of another rank the name with an underscore and the
rank in decimal. -/
def IsLogName (base : List Char) (rank : ℕ) (p : List Char) : Prop :=
  (rank = 0 ∧ p = base) ∨
    (rank ≠ 0 ∧ ∃ t, p = base ++ '_' :: t ∧ (∀ ch ∈ t, '0' ≤ ch ∧ ch ≤ '9') ∧ decimalValue t = rank)

end Spec

open Spec

/-! ### Names -/

theorem digitChar_toNat {d : ℕ} (h : d < 10) : (Char.ofNat (48 + d)).toNat = 48 + d := by
  interval_cases d <;> rfl

theorem digitChar_range {d : ℕ} (h : d < 10) : '0' ≤ Char.ofNat (48 + d) ∧ Char.ofNat (48 + d) ≤ '9' := by
  interval_cases d <;> decide

theorem rankText_value (n : ℕ) : decimalValue (rankText n) = n := by
  unfold decimalValue rankText
  rw [List.foldl_reverse]
  have : ∀ l : List ℕ, (∀ d ∈ l, d < 10) →
      (l.map fun d => Char.ofNat (48 + d)).foldr (fun ch a => 10 * a + (ch.toNat - 48)) 0 =
        Nat.ofDigits 10 l := by
    intro l hl
    induction l with
    | nil => rfl
    | cons d l ih =>
      rw [List.map_cons, List.foldr_cons, ih fun x hx => hl x (List.mem_cons_of_mem _ hx),
        digitChar_toNat (hl d List.mem_cons_self), Nat.ofDigits_cons]
      omega
  rw [this _ fun d hd => Nat.digits_lt_base (by norm_num) hd, Nat.ofDigits_digits]

theorem rankText_range (n : ℕ) : ∀ ch ∈ rankText n, '0' ≤ ch ∧ ch ≤ '9' := by
  intro ch h
  unfold rankText at h
  rw [List.mem_reverse, List.mem_map] at h
  obtain ⟨d, hd, rfl⟩ := h
  exact digitChar_range (Nat.digits_lt_base (by norm_num) hd)

theorem slash_not_mem {t : List Char} (h : ∀ ch ∈ t, '0' ≤ ch ∧ ch ≤ '9') : '/' ∉ '_' :: t := by
  rw [List.mem_cons]
  rintro (h1 | h1)
  · revert h1
    decide
  · have := h _ h1
    revert this
    decide

/-- Two numerals after underscores at the end of the same string. -/
theorem suffix_unique {a b t u : List Char} (ht : ∀ ch ∈ t, '0' ≤ ch ∧ ch ≤ '9')
    (hu : ∀ ch ∈ u, '0' ≤ ch ∧ ch ≤ '9') (h : a ++ '_' :: t = b ++ '_' :: u) : t = u := by
  have key : ∀ {a t : List Char}, (∀ ch ∈ t, '0' ≤ ch ∧ ch ≤ '9') →
      ((a ++ '_' :: t).reverse.takeWhile (· ≠ '_')).reverse = t := by
    intro a t ht
    rw [List.reverse_append, List.reverse_cons, List.append_assoc, List.singleton_append,
      takeWhile_append_stop, List.reverse_reverse]
    · intro y hy
      simp only [ne_eq, decide_eq_true_eq]
      rintro rfl
      have := ht _ (List.mem_reverse.mp hy)
      revert this
      decide
    · decide
  rw [← key (a := a) ht, h, key hu]

theorem dirHead_append {p b : List Char} (hb : '/' ∉ b) : dirHead (p ++ b) = dirHead p := by
  unfold dirHead
  rw [List.reverse_append, List.dropWhile_append_of_pos]
  intro y hy
  simp only [ne_eq, decide_eq_true_eq]
  rintro rfl
  exact hb (List.mem_reverse.mp hy)

theorem pjoin_append {a p b : List Char} (hb : '/' ∉ b) : pjoin a (p ++ b) = pjoin a p ++ b := by
  have h : (p ++ b).head? = some '/' ↔ p.head? = some '/' := by
    cases p with
    | nil =>
      constructor
      · intro h
        exact absurd (List.mem_of_mem_head? h) hb
      · intro h
        cases h
    | cons x l => rfl
  unfold pjoin
  simp only [h]
  split_ifs <;> simp

theorem LogCfg.dirOf_append (c : LogCfg) {p b : List Char} (hb : '/' ∉ b) : c.dirOf (p ++ b) = c.dirOf p := by
  unfold dirOf real dirname
  rw [pjoin_append hb, dirHead_append hb]

/-- The folder of a file in the working directory, which does not end in a slash unless it is the root. -/
theorem LogCfg.dirOf_cwd (c : LogCfg) (hc : c.cwd = ['/'] ∨ (c.cwd ≠ [] ∧ c.cwd.getLast? ≠ some '/'))
    {p : List Char} (hp : '/' ∉ p) : dirname (pjoin c.cwd p) = c.cwd := by
  unfold dirname
  rw [pjoin_eq hp, dirHead_withSlash hp]
  rcases hc with hc | ⟨h1, h2⟩
  · rw [hc]
    decide
  · obtain ⟨c', x, e⟩ := List.eq_nil_or_concat c.cwd |>.resolve_left h1
    rw [e] at h2 ⊢
    have hx : x ≠ '/' := by rintro rfl; simp at h2
    have ew : withSlash (c'.concat x) = c' ++ [x, '/'] := by
      unfold withSlash
      rw [if_neg (by simp [hx])]
      simp
    rw [ew, if_neg (by simp [hx])]
    simp [hx]

section
variable {c : LogCfg} {dirs : List Char → Bool}

/-- The working directory exists and is written as `os.getcwd` does. -/
structure LogGood (c : LogCfg) (dirs : List Char → Bool) : Prop where
  form : ∃ l, c.cwd = '/' :: l
  noSlash : c.cwd = ['/'] ∨ c.cwd.getLast? ≠ some '/'
  exists_ : dirs c.cwd = true

theorem LogGood.cases (h : LogGood c dirs) : c.cwd = ['/'] ∨ (c.cwd ≠ [] ∧ c.cwd.getLast? ≠ some '/') := by
  obtain ⟨l, e⟩ := h.form
  exact h.noSlash.imp id fun h => ⟨by rw [e]; simp, h⟩

theorem LogGood.dirOf_fallback (h : LogGood c dirs) : c.dirOf c.fallback = c.cwd := by
  unfold LogCfg.dirOf LogCfg.real
  have : pjoin c.cwd c.fallback = c.fallback := by
    obtain ⟨l, e⟩ := h.form
    have h1 : c.fallback.head? = some '/' := by
      unfold LogCfg.fallback
      rw [pjoin_eq (by decide), e]
      unfold withSlash
      split_ifs <;> simp
    generalize c.fallback = f at h1 ⊢
    unfold pjoin
    rw [if_pos h1]
  rw [this]
  exact c.dirOf_cwd h.cases (by decide)

theorem LogCfg.named_isLogName (c : LogCfg) {r : ℕ} (hr : r < c.size) (p : List Char) :
    IsLogName p r (c.named r p) := by
  unfold LogCfg.named
  by_cases h0 : r = 0
  · rw [if_neg (by omega)]
    exact .inl ⟨h0, rfl⟩
  · rw [if_pos (by omega)]
    exact .inr ⟨h0, _, rfl, rankText_range r, rankText_value r⟩

theorem LogCfg.dirOf_named (c : LogCfg) (r : ℕ) (p : List Char) : c.dirOf (c.named r p) = c.dirOf p := by
  unfold LogCfg.named
  split_ifs
  · exact c.dirOf_append (slash_not_mem (rankText_range r))
  · rfl

/-! ### The invariant -/

/-- What holds of a process: the folder its log is to be in exists. -/
def LogPc.Inv (c : LogCfg) (dirs0 dirs : List Char → Bool) (r : ℕ) : LogPc → Prop
  | .test => True
  | .make => dirs0 (c.dirOf c.logfile) = false
  | .startTest p => (p = c.named r c.logfile ∧ dirs (c.dirOf c.logfile) = true) ∨
      (p = c.named r c.fallback ∧ dirs0 (c.dirOf c.logfile) = false)
  | .openLog p => (p = c.named r c.logfile ∧ dirs (c.dirOf c.logfile) = true) ∨
      (p = c.named r c.fallback ∧ dirs0 (c.dirOf c.logfile) = false)
  | .logging p => (p = c.named r c.logfile ∧ dirs (c.dirOf c.logfile) = true) ∨
      (p = c.named r c.fallback ∧ dirs0 (c.dirOf c.logfile) = false)
  | .startMake _ => False
  | .failed => False

/-- Steps left. -/
def LogPc.left : LogPc → ℕ
  | .test => 4
  | .make => 3
  | .startTest _ => 2
  | .startMake _ => 2
  | .openLog _ => 1
  | .logging _ => 0
  | .failed => 0

theorem LogPc.Inv.mono {dirs0 dirs dirs' : List Char → Bool} (h : ∀ d, dirs d = true → dirs' d = true) {r : ℕ}
    {pc : LogPc} (hi : pc.Inv c dirs0 dirs r) : pc.Inv c dirs0 dirs' r := by
  cases pc with
  | test => trivial
  | make => exact hi
  | startTest p => exact hi.imp (fun q => ⟨q.1, h _ q.2⟩) id
  | openLog p => exact hi.imp (fun q => ⟨q.1, h _ q.2⟩) id
  | logging p => exact hi.imp (fun q => ⟨q.1, h _ q.2⟩) id
  | startMake p => exact hi
  | failed => exact hi

/-- The folder of a name as in the invariant exists. -/
theorem dirOf_exists {dirs0 dirs : List Char → Bool} (hg : LogGood c dirs0)
    (hsub : ∀ d, dirs0 d = true → dirs d = true) {r : ℕ} {p : List Char}
    (h : (p = c.named r c.logfile ∧ dirs (c.dirOf c.logfile) = true) ∨
      (p = c.named r c.fallback ∧ dirs0 (c.dirOf c.logfile) = false)) : dirs (c.dirOf p) = true := by
  rcases h with ⟨rfl, h⟩ | ⟨rfl, -⟩
  · rw [c.dirOf_named]
    exact h
  · rw [c.dirOf_named, hg.dirOf_fallback]
    exact hsub _ hg.exists_

theorem next_inv {dirs0 dirs dirs' : List Char → Bool} {r : ℕ} {pc pc' : LogPc} (hg : LogGood c dirs0)
    (hsub : ∀ d, dirs0 d = true → dirs d = true) (hi : pc.Inv c dirs0 dirs r)
    (h : c.next r dirs pc = some (dirs', pc')) :
    (∀ d, dirs d = true → dirs' d = true) ∧ pc'.Inv c dirs0 dirs' r ∧ pc'.left < pc.left := by
  cases pc with
  | test =>
    unfold LogCfg.next at h
    obtain ⟨rfl, rfl⟩ := Prod.mk.inj (Option.some.inj h)
    refine ⟨fun _ h => h, ?_, ?_⟩
    · split_ifs with hd
      · exact .inl ⟨rfl, hd⟩
      · show dirs0 _ = false
        by_contra hne
        exact hd (hsub _ (by simpa using hne))
    · split_ifs <;> simp [LogPc.left]
  | make =>
    unfold LogCfg.next at h
    by_cases hm : c.canMake dirs (c.dirOf c.logfile)
    · rw [if_pos hm] at h
      obtain ⟨rfl, rfl⟩ := Prod.mk.inj (Option.some.inj h)
      exact ⟨fun d hd => by simp [addDir, hd], .inl ⟨rfl, by simp [addDir]⟩, by simp [LogPc.left]⟩
    · rw [if_neg hm] at h
      obtain ⟨rfl, rfl⟩ := Prod.mk.inj (Option.some.inj h)
      exact ⟨fun _ h => h, .inr ⟨rfl, hi⟩, by simp [LogPc.left]⟩
  | startTest p =>
    unfold LogCfg.next at h
    obtain ⟨rfl, rfl⟩ := Prod.mk.inj (Option.some.inj h)
    rw [if_pos (dirOf_exists hg hsub hi)]
    exact ⟨fun _ h => h, hi, by simp [LogPc.left]⟩
  | openLog p =>
    unfold LogCfg.next at h
    obtain ⟨rfl, rfl⟩ := Prod.mk.inj (Option.some.inj h)
    rw [if_pos (dirOf_exists hg hsub hi)]
    exact ⟨fun _ h => h, hi, by simp [LogPc.left]⟩
  | logging p => cases h
  | startMake p => exact hi.elim
  | failed => exact hi.elim

theorem steps_inv {dirs0 : List Char → Bool} (hg : LogGood c dirs0) {n : ℕ} {s : LogSt}
    (h : LogSteps c n (.start dirs0) s) :
    (∀ d, dirs0 d = true → s.dirs d = true) ∧ (∀ r, (s.pc r).Inv c dirs0 s.dirs r) ∧
      n + ∑ r ∈ Finset.range c.size, (s.pc r).left ≤ 4 * c.size := by
  generalize hs : LogSt.start dirs0 = s0 at h
  induction h with
  | refl s =>
    subst hs
    refine ⟨fun _ h => h, fun _ => trivial, ?_⟩
    simp [LogSt.start, LogPc.left, mul_comm]
  | step h1 h2 ih =>
    obtain ⟨a1, a2, a3⟩ := ih hs
    cases h2 with
    | @run rank dirs pc hr h =>
      rename_i n _ t
      obtain ⟨b1, b2, b3⟩ := next_inv hg a1 (a2 rank) h
      refine ⟨fun d hd => b1 d (a1 d hd), fun r => ?_, ?_⟩
      · by_cases e : r = rank
        · subst e
          simpa using b2
        · simpa [e] using (a2 r).mono b1
      · have hmem := Finset.mem_range.mpr hr
        rw [← Finset.add_sum_erase _ _ hmem] at a3 ⊢
        have : ∑ r ∈ (Finset.range c.size).erase rank, ((if r = rank then pc else t.pc r) : LogPc).left =
            ∑ r ∈ (Finset.range c.size).erase rank, (t.pc r).left :=
          Finset.sum_congr rfl fun r h => by rw [if_neg (Finset.ne_of_mem_erase h)]
        simp only [↓reduceIte] at this ⊢
        rw [this]
        omega

/-- **C105** Every process of a run gets a log of its own: whatever the processes do in which order, after
at most four steps per process all have opened a log, none fails to open it, and the logs of two processes
are different files.  The log of a process is named after its rank and is in the folder of the
configuration or, if that folder was missing, possibly in the working directory. -/
theorem C105_own_log {dirs0 : List Char → Bool} (hg : LogGood c dirs0) {n : ℕ} {s : LogSt}
    (h : LogSteps c n (.start dirs0) s) :
    n ≤ 4 * c.size ∧
    (∀ r < c.size, (∃ p, s.pc r = .logging p) ∨ ∃ s', LogStep c s s' ∧ s'.pc r ≠ s.pc r) ∧
    (∀ r < c.size, s.pc r ≠ .failed) ∧
    (∀ r < c.size, ∀ p, s.pc r = .logging p → IsLogName c.logfile r p ∨
      (IsLogName (pjoin c.cwd "multipliers.log".toList) r p ∧ dirs0 (c.dirOf c.logfile) = false)) ∧
    ∀ r < c.size, ∀ r' < c.size, r ≠ r' → ∀ p q, s.pc r = .logging p → s.pc r' = .logging q → p ≠ q := by
  obtain ⟨a1, a2, a3⟩ := steps_inv hg h
  refine ⟨by omega, fun r hr => ?_, fun r _ e => ?_, fun r hr p e => ?_, ?_⟩
  · have hi := a2 r
    cases hpc : s.pc r with
    | logging p => exact .inl ⟨p, rfl⟩
    | failed => rw [hpc] at hi; exact hi.elim
    | startMake p => rw [hpc] at hi; exact hi.elim
    | _ =>
      right
      obtain ⟨⟨d', pc'⟩, hn⟩ : ∃ x, c.next r s.dirs (s.pc r) = some x := by
        rw [hpc]
        exact ⟨_, rfl⟩
      refine ⟨_, .run hr hn, ?_⟩
      have := (next_inv hg a1 hi hn).2.2
      show (if r = r then pc' else s.pc r) ≠ _
      rw [if_pos rfl]
      intro e
      rw [e, hpc] at this
      exact lt_irrefl _ this
  · have hi := a2 r
    rw [e] at hi
    exact hi
  · have hi := a2 r
    rw [e] at hi
    rcases hi with ⟨rfl, -⟩ | ⟨rfl, h0⟩
    · exact .inl (c.named_isLogName hr _)
    · exact .inr ⟨c.named_isLogName hr c.fallback, h0⟩
  · intro r hr r' hr' hne p q e1 e2 heq
    subst heq
    have hi := a2 r
    have hi' := a2 r'
    rw [e1] at hi
    rw [e2] at hi'
    -- the folder of a fallback is the working directory, which exists
    have hdiff : ∀ x y, c.named x c.logfile = c.named y c.fallback → dirs0 (c.dirOf c.logfile) = false →
        False := by
      intro x y e h0
      have := congrArg c.dirOf e
      rw [c.dirOf_named, c.dirOf_named, hg.dirOf_fallback] at this
      rw [this, hg.exists_] at h0
      cases h0
    have hsame : ∀ f, c.named r f = c.named r' f → False := by
      intro f e
      rcases c.named_isLogName hr f with ⟨z, k⟩ | ⟨z, t, k, kt, kv⟩ <;>
      rcases c.named_isLogName hr' f with ⟨z', k'⟩ | ⟨z', t', k', kt', kv'⟩
      · omega
      · rw [k, k'] at e
        have := congrArg List.length e
        simp at this
      · rw [k, k'] at e
        have := congrArg List.length e
        simp at this
      · rw [k, k'] at e
        rw [suffix_unique kt kt' e] at kv
        omega
    rcases hi with ⟨k, -⟩ | ⟨k, h0⟩ <;> rcases hi' with ⟨k', -⟩ | ⟨k', h0'⟩
    · exact hsame _ (k.symm.trans k')
    · exact hdiff _ _ (k.symm.trans k') h0'
    · exact hdiff _ _ (k'.symm.trans k) h0
    · exact hsame _ (k.symm.trans k')

/-- The name a process has decided on. -/
def LogPc.name? : LogPc → Option (List Char)
  | .startTest p => some p
  | .openLog p => some p
  | .logging p => some p
  | _ => none

theorem named_ne {dirs0 : List Char → Bool} (hg : LogGood c dirs0)
    (h0 : dirs0 (c.dirOf c.logfile) = false) (x y : ℕ) : c.named x c.logfile ≠ c.named y c.fallback := by
  intro e
  have := congrArg c.dirOf e
  rw [c.dirOf_named, c.dirOf_named, hg.dirOf_fallback] at this
  rw [this, hg.exists_] at h0
  cases h0

/-- What a step does to the folder of the configuration and to the name a process has decided on. -/
theorem next_name {dirs0 dirs dirs' : List Char → Bool} {r : ℕ} {pc pc' : LogPc} (hg : LogGood c dirs0)
    (hsub : ∀ d, dirs0 d = true → dirs d = true) (hi : pc.Inv c dirs0 dirs r)
    (h : c.next r dirs pc = some (dirs', pc')) :
    (pc'.name? = pc.name? ∧ dirs' = dirs) ∨
    (pc.name? = none ∧ pc'.name? = some (c.named r c.logfile) ∧ dirs' = dirs ∧
      dirs (c.dirOf c.logfile) = true) ∨
    (pc.name? = none ∧ pc'.name? = some (c.named r c.logfile) ∧
      c.allowed (c.dirOf c.logfile) = true ∧ dirs' (c.dirOf c.logfile) = true) ∨
    (pc.name? = none ∧ pc'.name? = some (c.named r c.fallback) ∧ dirs' = dirs ∧
      (dirs (c.dirOf c.logfile) = true ∨ c.allowed (c.dirOf c.logfile) = false)) := by
  cases pc with
  | test =>
    unfold LogCfg.next at h
    obtain ⟨rfl, rfl⟩ := Prod.mk.inj (Option.some.inj h)
    split_ifs with hd
    · exact .inr (.inl ⟨rfl, rfl, rfl, hd⟩)
    · exact .inl ⟨rfl, rfl⟩
  | make =>
    unfold LogCfg.next at h
    by_cases hm : c.canMake dirs (c.dirOf c.logfile)
    · rw [if_pos hm] at h
      obtain ⟨rfl, rfl⟩ := Prod.mk.inj (Option.some.inj h)
      unfold LogCfg.canMake at hm
      rw [Bool.and_eq_true] at hm
      exact .inr (.inr (.inl ⟨rfl, rfl, hm.2, by simp [addDir]⟩))
    · rw [if_neg hm] at h
      obtain ⟨rfl, rfl⟩ := Prod.mk.inj (Option.some.inj h)
      refine .inr (.inr (.inr ⟨rfl, rfl, rfl, ?_⟩))
      unfold LogCfg.canMake at hm
      cases h1 : dirs (c.dirOf c.logfile) with
      | true => exact .inl rfl
      | false =>
        right
        cases h2 : c.allowed (c.dirOf c.logfile) with
        | false => rfl
        | true => simp [h1, h2] at hm
  | startTest p =>
    unfold LogCfg.next at h
    obtain ⟨rfl, rfl⟩ := Prod.mk.inj (Option.some.inj h)
    rw [if_pos (dirOf_exists hg hsub hi)]
    exact .inl ⟨rfl, rfl⟩
  | openLog p =>
    unfold LogCfg.next at h
    obtain ⟨rfl, rfl⟩ := Prod.mk.inj (Option.some.inj h)
    rw [if_pos (dirOf_exists hg hsub hi)]
    exact .inl ⟨rfl, rfl⟩
  | logging p => cases h
  | startMake p => exact hi.elim
  | failed => exact hi.elim

theorem steps_name {dirs0 : List Char → Bool} (hg : LogGood c dirs0)
    (h0 : dirs0 (c.dirOf c.logfile) = false) {n : ℕ} {s : LogSt} (h : LogSteps c n (.start dirs0) s) :
    (c.allowed (c.dirOf c.logfile) = false → s.dirs (c.dirOf c.logfile) = false) ∧
    (s.dirs (c.dirOf c.logfile) = true → ∃ r < c.size, (s.pc r).name? = some (c.named r c.logfile)) ∧
    (c.allowed (c.dirOf c.logfile) = true → ∀ r, (s.pc r).name? = some (c.named r c.fallback) →
      s.dirs (c.dirOf c.logfile) = true) := by
  generalize hs : LogSt.start dirs0 = s0 at h
  induction h with
  | refl s =>
    subst hs
    refine ⟨fun _ => h0, fun h => ?_, fun _ r h => ?_⟩
    · exact absurd (h0.symm.trans h) (by decide)
    · cases h
  | step h1 h2 ih =>
    subst hs
    obtain ⟨b1, b2, -⟩ := steps_inv hg h1
    obtain ⟨a1, a2, a3⟩ := ih rfl
    cases h2 with
    | @run rank dirs pc hr h =>
      rename_i n t
      have hn := next_name hg b1 (b2 rank) h
      have hmono := (next_inv hg b1 (b2 rank) h).1
      have hother : ∀ r, r ≠ rank → (if r = rank then pc else t.pc r) = t.pc r := fun r hr => if_neg hr
      show (_ → dirs _ = false) ∧ (dirs _ = true → ∃ r < c.size,
          ((if r = rank then pc else t.pc r) : LogPc).name? = _) ∧
        (_ → ∀ r, ((if r = rank then pc else t.pc r) : LogPc).name? = _ → dirs _ = true)
      refine ⟨fun hal => ?_, fun hd => ?_, fun hal r hrn => ?_⟩
      · rcases hn with ⟨-, rfl⟩ | ⟨-, -, rfl, -⟩ | ⟨-, -, q, -⟩ | ⟨-, -, rfl, -⟩
        · exact a1 hal
        · exact a1 hal
        · rw [hal] at q
          cases q
        · exact a1 hal
      · rcases hn with ⟨q, rfl⟩ | ⟨-, q, -, -⟩ | ⟨-, q, -, -⟩ | ⟨q0, q, rfl, -⟩
        · obtain ⟨r, k1, k2⟩ := a2 hd
          refine ⟨r, k1, ?_⟩
          by_cases e : r = rank
          · subst e
            rw [if_pos rfl, q]
            exact k2
          · rw [if_neg e]
            exact k2
        · exact ⟨rank, hr, by rw [if_pos rfl]; exact q⟩
        · exact ⟨rank, hr, by rw [if_pos rfl]; exact q⟩
        · obtain ⟨r, k1, k2⟩ := a2 hd
          refine ⟨r, k1, ?_⟩
          by_cases e : r = rank
          · subst e
            rw [q0] at k2
            cases k2
          · rw [if_neg e]
            exact k2
      · by_cases e : r = rank
        · subst e
          rw [if_pos rfl] at hrn
          rcases hn with ⟨q, -⟩ | ⟨-, q, -, -⟩ | ⟨-, -, -, q⟩ | ⟨-, -, rfl, q | q⟩
          · rw [q] at hrn
            exact hmono _ (a3 hal r hrn)
          · rw [q] at hrn
            exact absurd (Option.some.inj hrn) (named_ne hg h0 r r)
          · exact q
          · exact q
          · rw [hal] at q
            cases q
        · rw [if_neg e] at hrn
          exact hmono _ (a3 hal r hrn)

/-- **C106, partial** The full claim, "if the folder of the log file exists or can be made, every process
logs to the file of the configuration", is false for several processes and a missing folder
(`C106_race`).  It holds if the folder exists beforehand or if there is one process; if the folder
can neither be found nor made, all processes log to the working directory; and with several processes
at least one gets the file it should. -/
theorem C106_configured_partial {dirs0 : List Char → Bool} (hg : LogGood c dirs0) {n : ℕ} {s : LogSt}
    (h : LogSteps c n (.start dirs0) s) :
    (dirs0 (c.dirOf c.logfile) = true ∨ (c.size = 1 ∧ c.allowed (c.dirOf c.logfile) = true) →
      ∀ r < c.size, ∀ p, s.pc r = .logging p → IsLogName c.logfile r p) ∧
    (dirs0 (c.dirOf c.logfile) = false → c.allowed (c.dirOf c.logfile) = false →
      ∀ r < c.size, ∀ p, s.pc r = .logging p → IsLogName (pjoin c.cwd "multipliers.log".toList) r p) ∧
    (dirs0 (c.dirOf c.logfile) = true ∨ c.allowed (c.dirOf c.logfile) = true → 0 < c.size →
      (∀ r < c.size, ∃ p, s.pc r = .logging p) →
      ∃ r < c.size, ∃ p, s.pc r = .logging p ∧ IsLogName c.logfile r p) := by
  obtain ⟨-, a2, -⟩ := steps_inv hg h
  have hcases : ∀ r p, s.pc r = .logging p →
      (p = c.named r c.logfile ∧ s.dirs (c.dirOf c.logfile) = true) ∨
      (p = c.named r c.fallback ∧ dirs0 (c.dirOf c.logfile) = false) := by
    intro r p e
    have := a2 r
    rw [e] at this
    exact this
  refine ⟨fun hc r hr p e => ?_, fun h0 hal r hr p e => ?_, fun hc hpos hall => ?_⟩
  · rcases hcases r p e with ⟨rfl, -⟩ | ⟨rfl, h0⟩
    · exact c.named_isLogName hr _
    · exfalso
      rcases hc with hc | ⟨hsz, hal⟩
      · rw [h0] at hc
        cases hc
      · obtain ⟨-, b2, b3⟩ := steps_name hg h0 h
        obtain ⟨r', hr', k⟩ := b2 (b3 hal r (by rw [e]; rfl))
        obtain rfl : r = r' := by omega
        rw [e] at k
        exact named_ne hg h0 r r (Option.some.inj k).symm
  · rcases hcases r p e with ⟨rfl, hd⟩ | ⟨rfl, -⟩
    · rw [(steps_name hg h0 h).1 hal] at hd
      cases hd
    · exact c.named_isLogName hr c.fallback
  · cases h0 : dirs0 (c.dirOf c.logfile) with
    | true =>
      obtain ⟨p, e⟩ := hall 0 hpos
      refine ⟨0, hpos, p, e, ?_⟩
      rcases hcases 0 p e with ⟨rfl, -⟩ | ⟨-, k⟩
      · exact c.named_isLogName hpos _
      · rw [h0] at k
        cases k
    | false =>
      have hal : c.allowed (c.dirOf c.logfile) = true := by
        rw [h0] at hc
        exact hc.resolve_left (by decide)
      obtain ⟨-, b2, b3⟩ := steps_name hg h0 h
      have hd : s.dirs (c.dirOf c.logfile) = true := by
        obtain ⟨p, e⟩ := hall 0 hpos
        rcases hcases 0 p e with ⟨-, k⟩ | ⟨rfl, -⟩
        · exact k
        · exact b3 hal 0 (by rw [e]; rfl)
      obtain ⟨r, hr, k⟩ := b2 hd
      obtain ⟨p, e⟩ := hall r hr
      refine ⟨r, hr, p, e, ?_⟩
      rw [e] at k
      rw [Option.some.inj k]
      exact c.named_isLogName hr _

end

/-! ### A race -/

/-- Two processes in `/w`, log file `/l/m`, the folder `/l` can be made. -/
def twoLogs : LogCfg := ⟨['/', 'l', '/', 'm'], ['/', 'w'], 2, fun _ => true⟩

theorem twoLogs_good : LogGood twoLogs (fun p => p = ['/', 'w']) :=
  ⟨⟨_, rfl⟩, .inr (by decide), by decide⟩

/-- **C106, the full claim is false** Two processes and a folder `/l` that is missing but can be made: both
see that it is missing, rank 1 makes it, `makedirs` of rank 0 raises, and rank 0, whose log is the one
without suffix, logs to `/w/multipliers.log` while rank 1 logs to `/l/m_1`. -/
theorem C106_race : ∃ n s, LogSteps twoLogs n (.start fun p => p = ['/', 'w']) s ∧
    s.pc 0 = .logging
      ['/', 'w', '/', 'm', 'u', 'l', 't', 'i', 'p', 'l', 'i', 'e', 'r', 's', '.', 'l', 'o', 'g'] ∧
    s.pc 1 = .logging ['/', 'l', '/', 'm', '_', '1'] ∧ s.dirs ['/', 'l'] = true ∧
    ¬ IsLogName twoLogs.logfile 0
      ['/', 'w', '/', 'm', 'u', 'l', 't', 'i', 'p', 'l', 'i', 'e', 'r', 's', '.', 'l', 'o', 'g'] := by
  have step : ∀ {n s0} {s : LogSt} (r : ℕ) (d : List Char → Bool) (pc : LogPc), LogSteps twoLogs n s0 s →
      r < 2 → twoLogs.next r s.dirs (s.pc r) = some (d, pc) →
      LogSteps twoLogs (n + 1) s0 ⟨d, fun q => if q = r then pc else s.pc q⟩ :=
    fun r d pc h hr hn => .step h (.run hr hn)
  have h0 := LogSteps.refl (c := twoLogs) (.start fun p => p = ['/', 'w'])
  have h1 := step 0 (fun p => p = ['/', 'w']) .make h0 (by decide) rfl
  have h2 := step 1 (fun p => p = ['/', 'w']) .make h1 (by decide) rfl
  have h3 := step 1 (addDir (fun p => p = ['/', 'w']) ['/', 'l']) (.startTest ['/', 'l', '/', 'm', '_', '1'])
    h2 (by decide) rfl
  have h4 := step 0 (addDir (fun p => p = ['/', 'w']) ['/', 'l']) (.startTest twoLogs.fallback)
    h3 (by decide) rfl
  have h5 := step 0 (addDir (fun p => p = ['/', 'w']) ['/', 'l']) (.openLog twoLogs.fallback)
    h4 (by decide) rfl
  have h6 := step 0 (addDir (fun p => p = ['/', 'w']) ['/', 'l']) (.logging twoLogs.fallback)
    h5 (by decide) rfl
  have h7 := step 1 (addDir (fun p => p = ['/', 'w']) ['/', 'l']) (.openLog ['/', 'l', '/', 'm', '_', '1'])
    h6 (by decide) rfl
  have h8 := step 1 (addDir (fun p => p = ['/', 'w']) ['/', 'l']) (.logging ['/', 'l', '/', 'm', '_', '1'])
    h7 (by decide) rfl
  refine ⟨_, _, h8, rfl, rfl, rfl, ?_⟩
  rintro (⟨-, h⟩ | ⟨h, -⟩)
  · revert h
    decide
  · exact h rfl

/-- In this run both processes have logs, of different names (C105). -/
example : ∃ n s p q, LogSteps twoLogs n (.start fun p => p = ['/', 'w']) s ∧ s.pc 0 = .logging p ∧
    s.pc 1 = .logging q ∧ p ≠ q := by
  obtain ⟨n, s, h, h0, h1, -⟩ := C106_race
  exact ⟨n, s, _, _, h, h0, h1, (C105_own_log twoLogs_good h).2.2.2.2 0 (by decide) 1 (by decide) (by decide)
    _ _ h0 h1⟩

/-- One process in the same situation logs to `/l/m` (C106). -/
example : LogGood ⟨['/', 'l', '/', 'm'], ['/', 'w'], 1, fun _ => true⟩ (fun p => p = ['/', 'w']) ∧
    ∃ s, LogSteps ⟨['/', 'l', '/', 'm'], ['/', 'w'], 1, fun _ => true⟩ 4 (.start fun p => p = ['/', 'w']) s ∧
      s.pc 0 = .logging ['/', 'l', '/', 'm'] :=
  ⟨⟨⟨_, rfl⟩, .inr (by decide), by decide⟩, _,
    .step (.step (.step (.step (.refl _) (.run (rank := 0) (by decide) rfl)) (.run (rank := 0) (by decide) rfl))
      (.run (rank := 0) (by decide) rfl)) (.run (rank := 0) (by decide) rfl), rfl⟩

/-! ### Handlers -/

/-- Calls of `fl_start_log` one after the other. -/
def startLogs (tty : Bool) (l : RootLogger) (calls : List (List Char × ℕ × Bool × Bool)) : RootLogger :=
  calls.foldl (fun l c => startLog c.1 c.2.1 c.2.2.1 c.2.2.2 tty l) l

/-- **C107, partial** The full claim, "every call of `fl_start_log` starts logging to the given file" (the
documentation of `newlog` says "create a new log file each time this function is called"), is false for
the second call (`C107_second_call`).  For a logger without handlers, the first call directs the messages
of the given level or above to the given file, replacing it if `newlog`, and to the console exactly if
`verbose` and on a terminal; whatever is called later, messages go to that one file and to the
console at most once. -/
theorem C107_handlers_partial (tty : Bool) (level0 : ℕ) (path : List Char) (level : ℕ) (verbose newlog : Bool)
    (calls : List (List Char × ℕ × Bool × Bool)) (m : ℕ) :
    (startLogs tty ⟨level0, []⟩ [(path, level, verbose, newlog)]).emits m =
      (if level ≤ m then
        .file path (!newlog) :: (if verbose = true ∧ tty = true then [.console level] else []) else []) ∧
    ∃ console : List ℕ, console.length ≤ 1 ∧
      (startLogs tty ⟨level0, []⟩ ((path, level, verbose, newlog) :: calls)).handlers =
        .file path (!newlog) :: console.map .console ∧
      (startLogs tty ⟨level0, []⟩ ((path, level, verbose, newlog) :: calls)).level = level := by
  constructor
  · show (startLog path level verbose newlog tty ⟨level0, []⟩).emits m = _
    unfold startLog basicConfig RootLogger.emits
    cases verbose <;> cases tty <;> by_cases h : level ≤ m <;> simp [h, not_le.mp, not_lt.mpr]
  · have key : ∀ (calls : List (List Char × ℕ × Bool × Bool)) (l : RootLogger) (console : List ℕ),
        console.length ≤ 1 → l.handlers = .file path (!newlog) :: console.map .console → l.level = level →
        ∃ console : List ℕ, console.length ≤ 1 ∧
          (startLogs tty l calls).handlers = .file path (!newlog) :: console.map .console ∧
          (startLogs tty l calls).level = level := by
      intro calls
      induction calls with
      | nil => exact fun l console h1 h2 h3 => ⟨console, h1, h2, h3⟩
      | cons a calls ih =>
        intro l console h1 h2 h3
        have hb : basicConfig a.2.1 a.1 (!a.2.2.2) l = l := by
          unfold basicConfig
          rw [if_neg (by rw [h2]; simp)]
        show ∃ console : List ℕ, console.length ≤ 1 ∧
          (startLogs tty (startLog a.1 a.2.1 a.2.2.1 a.2.2.2 tty l) calls).handlers = _ ∧
          (startLogs tty (startLog a.1 a.2.1 a.2.2.1 a.2.2.2 tty l) calls).level = level
        unfold startLog
        simp only [hb]
        split_ifs with c1 c2
        · rw [h2] at c1
          have : console = [] := by
            cases console with
            | nil => rfl
            | cons x l => simp at c1
          subst this
          refine ih _ [a.2.1] (by simp) ?_ h3
          rw [h2]
          rfl
        · exact ih _ console h1 h2 h3
        · exact ih _ console h1 h2 h3
    show ∃ console : List ℕ, console.length ≤ 1 ∧
      (startLogs tty (startLog path level verbose newlog tty ⟨level0, []⟩) calls).handlers = _ ∧
      (startLogs tty (startLog path level verbose newlog tty ⟨level0, []⟩) calls).level = level
    by_cases hv : verbose = true ∧ tty = true
    · refine key calls _ [level] (by simp) ?_ ?_ <;> simp [startLog, basicConfig, hv.1, hv.2]
    · have hv' : (verbose && tty) = false := by
        cases verbose <;> cases tty <;> simp at hv ⊢
      refine key calls _ [] (by simp) ?_ ?_ <;> simp [startLog, basicConfig, hv']

/-- **C107, the full claim is false** A second call with another file: messages still go to the first one
only, and the second is not created. -/
theorem C107_second_call : (startLogs true ⟨30, []⟩ [(['a'], 10, false, true), (['b'], 20, false, true)]).emits
    20 = [.file ['a'] false] ∧
    (startLogs true ⟨30, []⟩ [(['a'], 10, false, true), (['b'], 20, false, true)]).emits 10 =
      [.file ['a'] false] := by
  decide

end WindMult
