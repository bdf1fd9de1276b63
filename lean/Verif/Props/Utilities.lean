import Verif.Spec.Config
import Mathlib.Data.Rat.Floor
import Mathlib.Tactic.Linarith
import Mathlib.Tactic.NormNum
import Mathlib.Tactic.FieldSimp
import Mathlib.Tactic.Ring
import Mathlib.Algebra.Order.Floor.Semiring

/-!
# C59–C62: configuration, singletons, checksums, timing
-/

set_option linter.unusedSectionVars false

set_option autoImplicit false

namespace WindMult

/-! ### C59 -/

/-- `Spec.Defines` when the reader is already inside section `cur`. -/
def DefinesFrom (cur : Option String) (lines : List CfgLine) (s k v : String) : Prop :=
  Spec.Defines lines s k v ∨ (cur = some s ∧ ∃ mid post,
    lines = mid ++ CfgLine.entry k v :: post ∧ ∀ s', CfgLine.header s' ∉ mid)

theorem definesFrom_nil (cur : Option String) (s k v : String) : ¬ DefinesFrom cur [] s k v := by
  rintro (⟨pre, mid, post, h, -⟩ | ⟨-, mid, post, h, -⟩) <;> simp at h

theorem definesFrom_header (cur : Option String) (s0 : String) (rest : List CfgLine)
    (s k v : String) : DefinesFrom cur (.header s0 :: rest) s k v ↔
      DefinesFrom (some s0) rest s k v := by
  constructor
  · rintro (⟨pre, mid, post, h, hm⟩ | ⟨-, mid, post, h, hm⟩)
    · cases pre with
      | nil =>
        simp only [List.nil_append, List.cons.injEq, CfgLine.header.injEq] at h
        exact Or.inr ⟨by rw [h.1], mid, post, h.2, hm⟩
      | cons x pre =>
        simp only [List.cons_append, List.cons.injEq] at h
        exact Or.inl ⟨pre, mid, post, h.2, hm⟩
    · cases mid with
      | nil => simp at h
      | cons x mid =>
        simp only [List.cons_append, List.cons.injEq] at h
        exact absurd (h.1 ▸ List.mem_cons_self) (hm s0)
  · rintro (⟨pre, mid, post, h, hm⟩ | ⟨hs, mid, post, h, hm⟩)
    · exact Or.inl ⟨.header s0 :: pre, mid, post, by rw [h]; rfl, hm⟩
    · rw [Option.some.injEq] at hs
      exact Or.inl ⟨[], mid, post, by rw [h, hs]; rfl, hm⟩

theorem definesFrom_entry (s0 k0 v0 : String) (rest : List CfgLine) (s k v : String) :
    DefinesFrom (some s0) (.entry k0 v0 :: rest) s k v ↔
      (s = s0 ∧ k = k0 ∧ v = v0) ∨ DefinesFrom (some s0) rest s k v := by
  constructor
  · rintro (⟨pre, mid, post, h, hm⟩ | ⟨hs, mid, post, h, hm⟩)
    · cases pre with
      | nil => simp at h
      | cons x pre =>
        simp only [List.cons_append, List.cons.injEq] at h
        exact Or.inr (Or.inl ⟨pre, mid, post, h.2, hm⟩)
    · rw [Option.some.injEq] at hs
      cases mid with
      | nil =>
        simp only [List.nil_append, List.cons.injEq, CfgLine.entry.injEq] at h
        exact Or.inl ⟨hs.symm, h.1.1.symm, h.1.2.symm⟩
      | cons x mid =>
        simp only [List.cons_append, List.cons.injEq] at h
        exact Or.inr (Or.inr ⟨by rw [hs], mid, post, h.2,
          fun s' hs' => hm s' (List.mem_cons_of_mem _ hs')⟩)
  · rintro (⟨rfl, rfl, rfl⟩ | ⟨pre, mid, post, h, hm⟩ | ⟨hs, mid, post, h, hm⟩)
    · exact Or.inr ⟨rfl, [], rest, rfl, by simp⟩
    · exact Or.inl ⟨.entry k0 v0 :: pre, mid, post, by rw [h]; rfl, hm⟩
    · exact Or.inr ⟨hs, .entry k0 v0 :: mid, post, by rw [h]; rfl, by
        intro s' hs'
        rcases List.mem_cons.mp hs' with h' | h'
        · cases h'
        · exact hm s' h'⟩

/-- A file that can be read defines no option that has been seen in it before. -/
theorem cfgRead_seen : ∀ (lines : List CfgLine) (cur : Option String) (secs : List String)
    (opts : List (String × String)) (c c' : Cfg), cfgRead lines cur secs opts c = .ok c' →
    ∀ s k v, (s, k) ∈ opts → ¬ DefinesFrom cur lines s k v := by
  intro lines
  induction lines with
  | nil => intro cur secs opts c c' _ s k v _; exact definesFrom_nil _ _ _ _
  | cons l rest ih =>
    intro cur secs opts c c' h s k v hm
    cases l with
    | header s0 =>
      rw [cfgRead] at h
      split_ifs at h
      rw [definesFrom_header]
      exact ih _ _ _ _ _ h s k v hm
    | entry k0 v0 =>
      cases cur with
      | none => simp [cfgRead] at h
      | some s0 =>
        rw [cfgRead] at h
        split_ifs at h with hnot
        rw [definesFrom_entry]
        rintro (⟨rfl, rfl, rfl⟩ | hd)
        · exact hnot hm
        · exact ih _ _ _ _ _ h s k v (List.mem_cons_of_mem _ hm) hd

theorem cfgRead_spec : ∀ (lines : List CfgLine) (cur : Option String) (secs : List String)
    (opts : List (String × String)) (c c' : Cfg), cfgRead lines cur secs opts c = .ok c' →
    ∀ s k, (∀ v, DefinesFrom cur lines s k v → c' s k = some v) ∧
      ((∀ v, ¬ DefinesFrom cur lines s k v) → c' s k = c s k) := by
  intro lines
  induction lines with
  | nil =>
    intro cur secs opts c c' h s k
    rw [cfgRead, Except.ok.injEq] at h
    exact ⟨fun v hv => absurd hv (definesFrom_nil _ _ _ _), fun _ => by rw [h]⟩
  | cons l rest ih =>
    intro cur secs opts c c' h s k
    cases l with
    | header s0 =>
      rw [cfgRead] at h
      split_ifs at h
      simp only [definesFrom_header]
      exact ih _ _ _ _ _ h s k
    | entry k0 v0 =>
      cases cur with
      | none => simp [cfgRead] at h
      | some s0 =>
        rw [cfgRead] at h
        split_ifs at h
        obtain ⟨h1, h2⟩ := ih _ _ _ _ _ h s k
        simp only [definesFrom_entry]
        constructor
        · rintro v (⟨rfl, rfl, rfl⟩ | hd)
          · rw [h2 (fun v' => cfgRead_seen _ _ _ _ _ _ h _ _ v' List.mem_cons_self)]
            simp
          · exact h1 v hd
        · intro hn
          rw [h2 (fun v hv => hn v (Or.inr hv)), if_neg]
          rintro ⟨rfl, rfl⟩
          exact hn v0 (Or.inl ⟨rfl, rfl, rfl⟩)

theorem definesFrom_none (lines : List CfgLine) (s k v : String) :
    DefinesFrom none lines s k v ↔ Spec.Defines lines s k v := by
  simp [DefinesFrom]

/-- Whether a file can be read does not depend on what is stored. -/
theorem cfgRead_indep : ∀ (lines : List CfgLine) (cur : Option String) (secs : List String)
    (opts : List (String × String)) (c d c' : Cfg), cfgRead lines cur secs opts c = .ok c' →
    ∃ d', cfgRead lines cur secs opts d = .ok d' := by
  intro lines
  induction lines with
  | nil => intro cur secs opts c d c' _; exact ⟨d, rfl⟩
  | cons l rest ih =>
    intro cur secs opts c d c' h
    cases l with
    | header s0 =>
      rw [cfgRead] at h ⊢
      split_ifs at h ⊢
      exact ih _ _ _ _ _ _ h
    | entry k0 v0 =>
      cases cur with
      | none => simp [cfgRead] at h
      | some s0 =>
        rw [cfgRead] at h ⊢
        split_ifs at h ⊢
        exact ih _ _ _ _ _ _ h

theorem cfgSetFile_some {lines : List CfgLine} {st st' : CfgState}
    (h : cfgSetFile (some lines) st = .ok st') :
    cfgRead lines none [] [] st.values = .ok st'.values := by
  unfold cfgSetFile cfgReadFile at h
  simp only [Bool.false_eq_true, ↓reduceIte] at h
  split at h
  · cases h
  · rename_i c hc
    rw [Except.ok.injEq] at h
    rw [hc, ← h]

/-- C59: after loading a file every option it defines has the file's value, and every other option
keeps its value. -/
theorem C59_override {lines : List CfgLine} {st st' : CfgState}
    (h : cfgSetFile (some lines) st = .ok st') (s k : String) :
    (∀ v, Spec.Defines lines s k v → st'.values s k = some v) ∧
      ((∀ v, ¬ Spec.Defines lines s k v) → st'.values s k = st.values s k) := by
  have := cfgRead_spec _ _ _ _ _ _ (cfgSetFile_some h) s k
  simpa only [definesFrom_none] using this

/-- C59: the same for the default file, read by the constructor. -/
theorem C59_default {lines : List CfgLine} {st : CfgState} (h : cfgInit (some lines) = .ok st)
    (s k : String) : (∀ v, Spec.Defines lines s k v → st.values s k = some v) ∧
      ((∀ v, ¬ Spec.Defines lines s k v) → st.values s k = none) :=
  C59_override (st := ⟨fun _ _ => none, false⟩) h s k

/-- C59: loading a file a second time succeeds and changes nothing; a missing file changes nothing. -/
theorem C59_idempotent {lines : List CfgLine} {st st' : CfgState}
    (h : cfgSetFile (some lines) st = .ok st') : cfgSetFile (some lines) st' = .ok st' := by
  obtain ⟨c, hc⟩ := cfgRead_indep _ _ _ _ _ st'.values _ (cfgSetFile_some h)
  have hro : st'.readonce = true := by
    unfold cfgSetFile cfgReadFile at h
    simp only [Bool.false_eq_true, ↓reduceIte] at h
    split at h
    · cases h
    · rw [Except.ok.injEq] at h; rw [← h]
  have h2 : cfgSetFile (some lines) st' = .ok ⟨c, true⟩ := by
    unfold cfgSetFile cfgReadFile
    simp only [Bool.false_eq_true, ↓reduceIte]
    rw [hc]
  have e : c = st'.values := by
    funext s k
    obtain ⟨a1, a2⟩ := C59_override h s k
    obtain ⟨b1, b2⟩ := C59_override h2 s k
    by_cases hd : ∃ v, Spec.Defines lines s k v
    · obtain ⟨v, hv⟩ := hd
      rw [a1 v hv]
      exact b1 v hv
    · exact b2 (fun v hv => hd ⟨v, hv⟩)
  rw [h2, e]
  cases st'
  simp only at hro ⊢
  rw [hro]

theorem C59_missing (st : CfgState) : cfgSetFile none st = .ok ⟨st.values, true⟩ := rfl

example : (match cfgInit (some [.header "Output", .entry "dir" "a", .entry "log" "b"]) with
    | .ok st =>
      (match cfgSetFile (some [.header "Output", .entry "dir" "c"]) st with
        | .ok st' => decide (st'.values "Output" "dir" = some "c" ∧
            st'.values "Output" "log" = some "b")
        | _ => false)
    | _ => false) = true := by decide +kernel

/-! ### C60 -/

def SPc.inside : SPc → Bool
  | .locked | .constructing | .built _ | .releasing | .failing => true
  | _ => false

def SPc.busy : SPc → Bool
  | .constructing | .built _ => true
  | _ => false

/-- After passing a check that found an instance. -/
def SPc.after : SPc → Bool
  | .releasing | .returning => true
  | _ => false

structure SInv (s : SState) : Prop where
  lock : ∀ t, (s.pc t).inside = true ↔ s.lock = some t
  busy : ∀ t, (s.pc t).busy = true → s.inst = none ∧ s.runs = s.fails + 1
  idle : s.inst = none → (∀ t, (s.pc t).busy = false) → s.runs = s.fails
  one : s.inst ≠ none → s.runs = s.fails + 1
  after : ∀ t, (s.pc t).after = true → s.inst ≠ none
  done : ∀ t o, s.pc t = .done o → o = s.inst ∧ s.inst ≠ none

theorem setPc_self (pc : ℕ → SPc) (t : ℕ) (p : SPc) : setPc pc t p t = p := by simp [setPc]

theorem setPc_other (pc : ℕ → SPc) {t t' : ℕ} (p : SPc) (h : t' ≠ t) : setPc pc t p t' = pc t' := by
  simp [setPc, h]

theorem SInv.step {truthy : ℕ → Bool} (htr : ∀ o, truthy o = true) {s s' : SState} {t : ℕ}
    (hi : SInv s) (hs : SStep truthy s t s') : SInv s' := by
  have hun : ∀ x, unset truthy x = true ↔ x = none := by
    intro x; cases x <;> simp [unset, htr]
  have hun' : ∀ x, unset truthy x = false ↔ x ≠ none := by
    intro x; cases x <;> simp [unset, htr]
  have excl : ∀ t', (s.pc t').inside = true → (s.pc t).inside = true → t' = t := by
    intro t' h1 h2
    have := ((hi.lock t').mp h1).symm.trans ((hi.lock t).mp h2)
    exact Option.some.inj this
  have busyIn : ∀ p : SPc, p.busy = true → p.inside = true := by
    intro p; cases p <;> simp [SPc.busy, SPc.inside]
  cases hs with
  | check_unset hp hu =>
    refine ⟨?_, ?_, ?_, hi.one, ?_, ?_⟩
    · intro t'
      by_cases h : t' = t
      · subst h; simp only [setPc_self]; rw [← hi.lock t', hp]; simp [SPc.inside]
      · simp only [setPc_other _ _ h]; exact hi.lock t'
    · intro t' hb
      by_cases h : t' = t
      · subst h; simp [setPc_self, SPc.busy] at hb
      · simp only [setPc_other _ _ h] at hb; exact hi.busy t' hb
    · intro hn hb
      refine hi.idle hn fun t' => ?_
      by_cases h : t' = t
      · subst h; rw [hp]; rfl
      · have := hb t'; simpa only [setPc_other _ _ h] using this
    · intro t' ha
      by_cases h : t' = t
      · subst h; simp [setPc_self, SPc.after] at ha
      · simp only [setPc_other _ _ h] at ha; exact hi.after t' ha
    · intro t' o hd
      by_cases h : t' = t
      · subst h; simp [setPc_self] at hd
      · simp only [setPc_other _ _ h] at hd; exact hi.done t' o hd
  | check_set hp hu =>
    refine ⟨?_, ?_, ?_, hi.one, ?_, ?_⟩
    · intro t'
      by_cases h : t' = t
      · subst h; simp only [setPc_self]; rw [← hi.lock t', hp]; simp [SPc.inside]
      · simp only [setPc_other _ _ h]; exact hi.lock t'
    · intro t' hb
      by_cases h : t' = t
      · subst h; simp [setPc_self, SPc.busy] at hb
      · simp only [setPc_other _ _ h] at hb; exact hi.busy t' hb
    · intro hn _
      exact absurd hn ((hun' _).mp hu)
    · intro t' _
      exact (hun' _).mp hu
    · intro t' o hd
      by_cases h : t' = t
      · subst h; simp [setPc_self] at hd
      · simp only [setPc_other _ _ h] at hd; exact hi.done t' o hd
  | acquire hp hl =>
    refine ⟨?_, ?_, ?_, hi.one, ?_, ?_⟩
    · intro t'
      by_cases h : t' = t
      · subst h; simp [setPc_self, SPc.inside]
      · simp only [setPc_other _ _ h]
        rw [hi.lock t', hl]
        simp only [reduceCtorEq, Option.some.injEq, false_iff]
        exact fun h' => h h'.symm
    · intro t' hb
      by_cases h : t' = t
      · subst h; simp [setPc_self, SPc.busy] at hb
      · simp only [setPc_other _ _ h] at hb; exact hi.busy t' hb
    · intro hn hb
      refine hi.idle hn fun t' => ?_
      by_cases h : t' = t
      · subst h; rw [hp]; rfl
      · have := hb t'; simpa only [setPc_other _ _ h] using this
    · intro t' ha
      by_cases h : t' = t
      · subst h; simp [setPc_self, SPc.after] at ha
      · simp only [setPc_other _ _ h] at ha; exact hi.after t' ha
    · intro t' o hd
      by_cases h : t' = t
      · subst h; simp [setPc_self] at hd
      · simp only [setPc_other _ _ h] at hd; exact hi.done t' o hd
  | recheck_unset hp hu =>
    have hin : (s.pc t).inside = true := by rw [hp]; rfl
    have hnb : ∀ t', (s.pc t').busy = false := by
      intro t'
      by_contra hb
      have hb' : (s.pc t').busy = true := by simpa using hb
      have := excl t' (busyIn _ hb') hin
      subst this
      rw [hp] at hb'; simp [SPc.busy] at hb'
    have hn := (hun _).mp hu
    refine ⟨?_, ?_, ?_, fun h => absurd hn h, ?_, ?_⟩
    · intro t'
      by_cases h : t' = t
      · subst h; simp only [setPc_self]; rw [← hi.lock t', hp]; simp [SPc.inside]
      · simp only [setPc_other _ _ h]; exact hi.lock t'
    · intro t' hb
      exact ⟨hn, by simp only [hi.idle hn hnb]⟩
    · intro _ hb
      have := hb t; simp [setPc_self, SPc.busy] at this
    · intro t' ha
      by_cases h : t' = t
      · subst h; simp [setPc_self, SPc.after] at ha
      · simp only [setPc_other _ _ h] at ha; exact hi.after t' ha
    · intro t' o hd
      by_cases h : t' = t
      · subst h; simp [setPc_self] at hd
      · simp only [setPc_other _ _ h] at hd; exact hi.done t' o hd
  | recheck_set hp hu =>
    have hn := (hun' _).mp hu
    refine ⟨?_, ?_, fun h => absurd h hn, hi.one, fun _ _ => hn, ?_⟩
    · intro t'
      by_cases h : t' = t
      · subst h; simp only [setPc_self]; rw [← hi.lock t', hp]; simp [SPc.inside]
      · simp only [setPc_other _ _ h]; exact hi.lock t'
    · intro t' hb
      by_cases h : t' = t
      · subst h; simp [setPc_self, SPc.busy] at hb
      · simp only [setPc_other _ _ h] at hb; exact hi.busy t' hb
    · intro t' o hd
      by_cases h : t' = t
      · subst h; simp [setPc_self] at hd
      · simp only [setPc_other _ _ h] at hd; exact hi.done t' o hd
  | construct hp =>
    have hb0 := hi.busy t (by rw [hp]; rfl)
    refine ⟨?_, fun _ _ => hb0, ?_, hi.one, ?_, ?_⟩
    · intro t'
      by_cases h : t' = t
      · subst h; simp only [setPc_self]; rw [← hi.lock t', hp]; simp [SPc.inside]
      · simp only [setPc_other _ _ h]; exact hi.lock t'
    · intro _ hb
      have := hb t; simp [setPc_self, SPc.busy] at this
    · intro t' ha
      by_cases h : t' = t
      · subst h; simp [setPc_self, SPc.after] at ha
      · simp only [setPc_other _ _ h] at ha; exact hi.after t' ha
    · intro t' o hd
      by_cases h : t' = t
      · subst h; simp [setPc_self] at hd
      · simp only [setPc_other _ _ h] at hd; exact hi.done t' o hd
  | raise hp =>
    have hb0 := hi.busy t (by rw [hp]; rfl)
    have hin : (s.pc t).inside = true := by rw [hp]; rfl
    refine ⟨?_, ?_, fun _ _ => hb0.2, fun h => absurd hb0.1 h, ?_, ?_⟩
    · intro t'
      by_cases h : t' = t
      · subst h; simp only [setPc_self]; rw [← hi.lock t', hp]; simp [SPc.inside]
      · simp only [setPc_other _ _ h]; exact hi.lock t'
    · intro t' hb
      by_cases h : t' = t
      · subst h; simp [setPc_self, SPc.busy] at hb
      · simp only [setPc_other _ _ h] at hb
        exact absurd (excl t' (busyIn _ hb) hin) h
    · intro t' ha
      by_cases h : t' = t
      · subst h; simp [setPc_self, SPc.after] at ha
      · simp only [setPc_other _ _ h] at ha; exact hi.after t' ha
    · intro t' o hd
      by_cases h : t' = t
      · subst h; simp [setPc_self] at hd
      · simp only [setPc_other _ _ h] at hd; exact hi.done t' o hd
  | assign hp =>
    have hb0 := hi.busy t (by rw [hp]; rfl)
    have hin : (s.pc t).inside = true := by rw [hp]; rfl
    refine ⟨?_, ?_, fun h => by simp at h, fun _ => hb0.2, fun _ _ => by simp, ?_⟩
    · intro t'
      by_cases h : t' = t
      · subst h; simp only [setPc_self]; rw [← hi.lock t', hp]; simp [SPc.inside]
      · simp only [setPc_other _ _ h]; exact hi.lock t'
    · intro t' hb
      by_cases h : t' = t
      · subst h; simp [setPc_self, SPc.busy] at hb
      · simp only [setPc_other _ _ h] at hb
        exact absurd (excl t' (busyIn _ hb) hin) h
    · intro t' o hd
      by_cases h : t' = t
      · subst h; simp [setPc_self] at hd
      · simp only [setPc_other _ _ h] at hd
        exact absurd hb0.1 (hi.done t' o hd).2
  | release hp =>
    have hin : (s.pc t).inside = true := by rw [hp]; rfl
    have ha0 := hi.after t (by rw [hp]; rfl)
    refine ⟨?_, ?_, fun h => absurd h ha0, hi.one, fun _ _ => ha0, ?_⟩
    · intro t'
      by_cases h : t' = t
      · subst h; simp [setPc_self, SPc.inside]
      · simp only [setPc_other _ _ h]
        simp only [reduceCtorEq, iff_false, Bool.not_eq_true]
        by_contra hc
        exact h (excl t' (by simpa using hc) hin)
    · intro t' hb
      by_cases h : t' = t
      · subst h; simp [setPc_self, SPc.busy] at hb
      · simp only [setPc_other _ _ h] at hb; exact hi.busy t' hb
    · intro t' o hd
      by_cases h : t' = t
      · subst h; simp [setPc_self] at hd
      · simp only [setPc_other _ _ h] at hd; exact hi.done t' o hd
  | release_failed hp =>
    have hin : (s.pc t).inside = true := by rw [hp]; rfl
    refine ⟨?_, ?_, ?_, hi.one, ?_, ?_⟩
    · intro t'
      by_cases h : t' = t
      · subst h; simp [setPc_self, SPc.inside]
      · simp only [setPc_other _ _ h]
        simp only [reduceCtorEq, iff_false, Bool.not_eq_true]
        by_contra hc
        exact h (excl t' (by simpa using hc) hin)
    · intro t' hb
      by_cases h : t' = t
      · subst h; simp [setPc_self, SPc.busy] at hb
      · simp only [setPc_other _ _ h] at hb; exact hi.busy t' hb
    · intro hn hb
      refine hi.idle hn fun t' => ?_
      by_cases h : t' = t
      · subst h; rw [hp]; rfl
      · have := hb t'; simpa only [setPc_other _ _ h] using this
    · intro t' ha
      by_cases h : t' = t
      · subst h; simp [setPc_self, SPc.after] at ha
      · simp only [setPc_other _ _ h] at ha; exact hi.after t' ha
    · intro t' o hd
      by_cases h : t' = t
      · subst h; simp [setPc_self] at hd
      · simp only [setPc_other _ _ h] at hd; exact hi.done t' o hd
  | ret hp =>
    have ha0 := hi.after t (by rw [hp]; rfl)
    refine ⟨?_, ?_, fun h => absurd h ha0, hi.one, fun _ _ => ha0, ?_⟩
    · intro t'
      by_cases h : t' = t
      · subst h; simp only [setPc_self]; rw [← hi.lock t', hp]; simp [SPc.inside]
      · simp only [setPc_other _ _ h]; exact hi.lock t'
    · intro t' hb
      by_cases h : t' = t
      · subst h; simp [setPc_self, SPc.busy] at hb
      · simp only [setPc_other _ _ h] at hb; exact hi.busy t' hb
    · intro t' o hd
      by_cases h : t' = t
      · subst h
        simp only [setPc_self, SPc.done.injEq] at hd
        exact ⟨hd.symm, ha0⟩
      · simp only [setPc_other _ _ h] at hd; exact hi.done t' o hd
  | again hp =>
    have ha0 := (hi.done t _ hp).2
    refine ⟨?_, ?_, fun h => absurd h ha0, hi.one, fun _ _ => ha0, ?_⟩
    · intro t'
      by_cases h : t' = t
      · subst h; simp only [setPc_self]; rw [← hi.lock t', hp]; simp [SPc.inside]
      · simp only [setPc_other _ _ h]; exact hi.lock t'
    · intro t' hb
      by_cases h : t' = t
      · subst h; simp [setPc_self, SPc.busy] at hb
      · simp only [setPc_other _ _ h] at hb; exact hi.busy t' hb
    · intro t' o hd
      by_cases h : t' = t
      · subst h; simp [setPc_self] at hd
      · simp only [setPc_other _ _ h] at hd; exact hi.done t' o hd

theorem SReach.inv {truthy : ℕ → Bool} (htr : ∀ o, truthy o = true) {s : SState}
    (h : SReach truthy s) : SInv s := by
  induction h with
  | init =>
    refine ⟨?_, ?_, ?_, ?_, ?_, ?_⟩ <;>
      simp [SState.init, SPc.inside, SPc.busy, SPc.after]
  | step _ hs ih => exact ih.step htr hs

/-- C60: however many threads call a singleton class, in whatever interleaving, the constructor
completes at most once (it runs once more than it raises, at most), if its instances are true in a
boolean context. -/
theorem C60_once {truthy : ℕ → Bool} (htr : ∀ o, truthy o = true) {s : SState}
    (h : SReach truthy s) : s.runs ≤ s.fails + 1 := by
  have hi := h.inv htr
  by_cases hn : s.inst = none
  · by_cases hb : ∀ t, (s.pc t).busy = false
    · rw [hi.idle hn hb]; omega
    · push Not at hb
      obtain ⟨t, ht⟩ := hb
      rw [(hi.busy t (by simpa using ht)).2]
  · rw [hi.one hn]

/-- C60: all calls that have returned got the same object. -/
theorem C60_same {truthy : ℕ → Bool} (htr : ∀ o, truthy o = true) {s : SState}
    (h : SReach truthy s) {t t' : ℕ} {o o' : Option ℕ} (ht : s.pc t = .done o)
    (ht' : s.pc t' = .done o') : o = o' ∧ o ≠ none := by
  have hi := h.inv htr
  obtain ⟨h1, h2⟩ := hi.done t o ht
  obtain ⟨h3, -⟩ := hi.done t' o' ht'
  exact ⟨h1.trans h3.symm, by rw [h1]; exact h2⟩

/-- C60: once set, the instance is never replaced, so calls at different times agree too. -/
theorem C60_stable {truthy : ℕ → Bool} (htr : ∀ o, truthy o = true) {s s' : SState} {t o : ℕ}
    (h : SReach truthy s) (hs : SStep truthy s t s') (ho : s.inst = some o) : s'.inst = some o := by
  have hi := h.inv htr
  cases hs with
  | assign hp =>
    have := (hi.busy t (by rw [hp]; rfl)).1
    rw [this] at ho
    cases ho
  | _ => exact ho

/-- C60: at most one thread is in the constructor at any time. -/
theorem C60_exclusive {truthy : ℕ → Bool} (htr : ∀ o, truthy o = true) {s : SState}
    (h : SReach truthy s) {t t' : ℕ} (ht : s.pc t = .constructing)
    (ht' : s.pc t' = .constructing) : t = t' := by
  have hi := h.inv htr
  have h1 := (hi.lock t).mp (by rw [ht]; rfl)
  have h2 := (hi.lock t').mp (by rw [ht']; rfl)
  exact Option.some.inj (h1.symm.trans h2)

/-- One undisturbed call by thread `t`, for objects that are false in a boolean context, or before
there is an instance. -/
theorem sreach_call {truthy : ℕ → Bool} {s : SState} (h : SReach truthy s) (t : ℕ)
    (hp : s.pc t = .start) (hl : s.lock = none) (hu : unset truthy s.inst = true) :
    SReach truthy ⟨some (s.runs + 1), none, s.runs + 1, s.fails,
      setPc s.pc t (.done (some (s.runs + 1)))⟩ := by
  have h1 := SReach.step h (SStep.check_unset hp hu)
  have h2 := SReach.step h1 (SStep.acquire (t := t) (by simp [setPc_self]) hl)
  have h3 := SReach.step h2 (SStep.recheck_unset (t := t) (by simp [setPc_self]) hu)
  have h4 := SReach.step h3 (SStep.construct (t := t) (by simp [setPc_self]))
  have h5 := SReach.step h4 (SStep.assign (t := t) (o := s.runs + 1) (by simp [setPc_self]))
  have h6 := SReach.step h5 (SStep.release (t := t) (by simp [setPc_self]))
  have h7 := SReach.step h6 (SStep.ret (t := t) (by simp [setPc_self]))
  have e : ∀ (pc : ℕ → SPc) p q, setPc (setPc pc t p) t q = setPc pc t q := by
    intro pc p q; funext t'; simp only [setPc]; split <;> rfl
  simpa only [e] using h7

/-- C60 needs that assumption: if instances are false in a boolean context (a class with a zero
`__len__`, say), two calls one after the other return different objects. -/
theorem C60_falsy : ∃ s, SReach (fun _ => false) s ∧ s.pc 0 = .done (some 1) ∧
    s.pc 1 = .done (some 2) := by
  have h1 := sreach_call (truthy := fun _ => false) SReach.init 0 rfl rfl rfl
  have h2 := sreach_call h1 1 rfl rfl rfl
  exact ⟨_, h2, rfl, rfl⟩

example : ∃ s, SReach (fun _ => true) s ∧ s.pc 0 = .done (some 1) ∧ s.pc 1 = .done (some 1) ∧
    s.runs = 1 := by
  have h1 := sreach_call (truthy := fun _ => true) SReach.init 0 rfl rfl rfl
  have h2 := SReach.step h1 (SStep.check_set (t := 1) rfl rfl)
  have h3 := SReach.step h2 (SStep.ret (t := 1) rfl)
  exact ⟨_, h3, rfl, rfl, rfl⟩

/-! ### C61 -/

theorem readChunks_flatten {B : Type} (n : ℤ) (hn : n ≠ 0) (content : List B) :
    (readChunks n content).flatten = content := by
  induction hlen : content.length using Nat.strong_induction_on generalizing content with
  | _ len ih =>
    rw [readChunks]
    generalize hk : (if n < 0 then content.length else n.toNat) = k
    split
    · rename_i h
      rw [List.take_eq_nil_iff] at h
      rcases h with h | h
      · have : content = [] := by
          split_ifs at hk with h0
          · exact List.length_eq_zero_iff.mp (hk.trans h)
          · omega
        rw [this]; rfl
      · rw [h]; rfl
    · rename_i h
      have : 0 < (content.take k).length := List.length_pos_iff.mpr h
      rw [List.length_take] at this
      rw [List.flatten_cons, ih (content.drop k).length (by rw [List.length_drop]; omega) _ rfl,
        List.take_append_drop]

/-- C61: for every content and every non-zero chunk size the hash is that of the whole content. -/
theorem C61_whole {B S : Type} (step : S → B → S) (init : S) (n : ℤ) (hn : n ≠ 0)
    (content : List B) : chunkedHash step init n content = content.foldl step init := by
  unfold chunkedHash
  rw [← List.foldl_flatten, readChunks_flatten n hn]

/-- C61 needs a non-zero chunk size: with size zero nothing is hashed, whatever the content. -/
theorem C61_zero {B S : Type} (step : S → B → S) (init : S) (content : List B) :
    chunkedHash step init 0 content = init := by
  unfold chunkedHash
  rw [readChunks]
  simp

example : readChunks 2 [1, 2, 3, 4, 5] = [[1, 2], [3, 4], [5]] := by
  simp [readChunks]

/-! ### C62 -/

section
variable {K : Type} [Field K] [LinearOrder K] [IsStrictOrderedRing K] [FloorRing K]

theorem timer_pyInt_nonneg {x : K} (h : 0 ≤ x) : pyInt x = ⌊x⌋ := by simp [pyInt, h]

theorem pyDivmod_spec (x : K) {b : ℤ} (hb : 0 < b) :
    (b : K) * (pyDivmod x b).1 + (pyDivmod x b).2 = x ∧ 0 ≤ (pyDivmod x b).2 ∧
      (pyDivmod x b).2 < b := by
  have hb' : (0 : K) < b := by exact_mod_cast hb
  have h1 := Int.floor_le (x / b)
  have h2 := Int.lt_floor_add_one (x / b)
  rw [le_div_iff₀ hb'] at h1
  rw [div_lt_iff₀ hb'] at h2
  refine ⟨by simp only [pyDivmod]; ring, ?_, ?_⟩ <;> simp only [pyDivmod] <;> linarith

/-- C62: the hours, minutes and seconds logged add up to the elapsed time, rounded down to whole
seconds; minutes and seconds lie in `0 … 59`. -/
theorem C62_timer (t : K) :
    3600 * (timerSplit t).1 + 60 * (timerSplit t).2.1 + (timerSplit t).2.2 = ⌊t⌋ ∧
    (0 ≤ (timerSplit t).2.1 ∧ (timerSplit t).2.1 < 60) ∧
    (0 ≤ (timerSplit t).2.2 ∧ (timerSplit t).2.2 < 60) := by
  obtain ⟨a1, a2, a3⟩ := pyDivmod_spec t (b := 60) (by norm_num)
  obtain ⟨b1, b2, b3⟩ := pyDivmod_spec ((pyDivmod t 60).1 : K) (b := 60) (by norm_num)
  have e1 : (pyDivmod ((pyDivmod t 60).1 : K) 60).2 =
      (((pyDivmod t 60).1 - 60 * (pyDivmod ((pyDivmod t 60).1 : K) 60).1 : ℤ) : K) := by
    push_cast at b1 ⊢; linarith
  unfold timerSplit
  simp only
  rw [timer_pyInt_nonneg a2, timer_pyInt_nonneg b2]
  rw [e1, Int.floor_intCast]
  rw [e1] at b2 b3
  have b2' : 0 ≤ (pyDivmod t 60).1 - 60 * (pyDivmod ((pyDivmod t 60).1 : K) 60).1 := by
    exact_mod_cast b2
  have b3' : (pyDivmod t 60).1 - 60 * (pyDivmod ((pyDivmod t 60).1 : K) 60).1 < 60 := by
    exact_mod_cast b3
  have e2 : ⌊t⌋ = 60 * (pyDivmod t 60).1 + ⌊(pyDivmod t 60).2⌋ := by
    conv_lhs => rw [← a1]
    rw [show ((60 : ℤ) : K) * ((pyDivmod t 60).1 : K) + (pyDivmod t 60).2 =
      ((60 * (pyDivmod t 60).1 : ℤ) : K) + (pyDivmod t 60).2 by push_cast; ring,
      Int.floor_intCast_add]
  refine ⟨?_, ⟨b2', b3'⟩, Int.floor_nonneg.mpr a2, ?_⟩
  · rw [e2]; ring
  · rw [Int.floor_lt]; exact_mod_cast a3

example : timerSplit (7384 + 9 / 10 : ℚ) = (2, 3, 4) := by decide +kernel

end

end WindMult
