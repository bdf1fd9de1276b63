import Verif.Spec.CallLog
import Mathlib.Data.List.Nodup
import Mathlib.Data.List.Perm.Basic
import Mathlib.Tactic.Ring

set_option autoImplicit false

namespace WindMult
section Args
variable {V : Type}

theorem fillSlots_append {ps : List (String × Option V)} : ∀ {args : List V} {kw : List (String × V)} {vs : List V},
    args.length ≤ ps.length → fillSlots ps args kw = .ok vs →
    ∃ ws, vs = args ++ ws ∧ fillSlots (ps.drop args.length) [] kw = .ok ws := by
  induction ps with
  | nil =>
    intro args kw vs h hf
    have : args = [] := List.length_eq_zero_iff.mp (Nat.le_zero.mp h)
    subst this
    exact ⟨vs, rfl, hf⟩
  | cons p ps ih =>
    intro args kw vs h hf
    cases args with
    | nil => exact ⟨vs, rfl, hf⟩
    | cons a args =>
      simp only [fillSlots] at hf
      split at hf
      · rename_i us hu
        obtain ⟨ws, rfl, h2⟩ := ih (by simpa using h) hu
        cases hf
        exact ⟨ws, rfl, by simpa using h2⟩
      · cases hf

theorem fillSlots_length {ps : List (String × Option V)} {kw : List (String × V)} : ∀ {vs : List V},
    fillSlots ps [] kw = .ok vs → vs.length = ps.length := by
  induction ps with
  | nil => intro vs h; cases h; rfl
  | cons p ps ih =>
    intro vs h
    simp only [fillSlots] at h
    split at h
    · cases h
    · split at h
      · rename_i us hu
        cases h
        simp [ih hu]
      · cases h

theorem fillSlots_mem {ps : List (String × Option V)} {kw : List (String × V)} (n : String) (v : V) :
    ∀ {vs : List V}, fillSlots ps [] kw = .ok vs →
    ((n, v) ∈ (ps.map Prod.fst).zip vs ↔ ∃ d, (n, d) ∈ ps ∧ (kw.lookup n).or d = some v) := by
  induction ps with
  | nil => intro vs h; simp
  | cons p ps ih =>
    intro vs h
    obtain ⟨m, e⟩ := p
    simp only [fillSlots] at h
    split at h
    · cases h
    · rename_i w hw
      split at h
      · rename_i us hu
        cases h
        simp only [List.map_cons, List.zip_cons_cons, List.mem_cons, ih hu, Prod.mk.injEq]
        constructor
        · rintro (⟨rfl, rfl⟩ | ⟨d, h1, h2⟩)
          · exact ⟨e, .inl ⟨rfl, rfl⟩, hw⟩
          · exact ⟨d, .inr h1, h2⟩
        · rintro ⟨d, ⟨rfl, rfl⟩ | h1, h2⟩
          · rw [hw] at h2
            exact .inl ⟨rfl, (Option.some.inj h2).symm⟩
          · exact .inr ⟨d, h1, h2⟩
      · cases h

theorem fillSlots_error {ps : List (String × Option V)} : ∀ {args : List V} {kw : List (String × V)} {e : CallErr},
    fillSlots ps args kw = .error e → e = .typeError ∧
      ∃ p ∈ ps.drop args.length, p.2 = none ∧ kw.lookup p.1 = none := by
  induction ps with
  | nil => intro args kw e h; cases h
  | cons p ps ih =>
    intro args kw e h
    obtain ⟨m, d⟩ := p
    cases args with
    | nil =>
      simp only [fillSlots] at h
      split at h
      · rename_i hn
        cases h
        rw [Option.or_eq_none_iff] at hn
        exact ⟨rfl, (m, d), by simp, hn.2, hn.1⟩
      · split at h
        · cases h
        · rename_i hu
          cases h
          obtain ⟨h1, p, h2, h3⟩ := ih hu
          exact ⟨h1, p, List.mem_cons_of_mem _ (by simpa using h2), h3⟩
    | cons a args =>
      simp only [fillSlots] at h
      split at h
      · cases h
      · rename_i hu
        cases h
        obtain ⟨h1, p, h2, h3⟩ := ih hu
        exact ⟨h1, p, by simpa using h2, h3⟩

theorem kw_mem_of_lookup {kw : List (String × V)} {n : String} {v : V} (h : kw.lookup n = some v) : (n, v) ∈ kw := by
  induction kw with
  | nil => cases h
  | cons x kw ih =>
    obtain ⟨m, w⟩ := x
    rw [List.lookup_cons] at h
    split at h
    · rename_i e
      cases h
      rw [beq_iff_eq.mp e]
      exact List.mem_cons_self
    · exact List.mem_cons_of_mem _ (ih h)

theorem fillSlots_ok_given {ps : List (String × Option V)} {kw : List (String × V)} : ∀ {vs : List V},
    fillSlots ps [] kw = .ok vs → ∀ p ∈ ps, p.2 = none → p.1 ∈ kw.map Prod.fst := by
  induction ps with
  | nil => intro vs _ p hp; cases hp
  | cons q ps ih =>
    intro vs h p hp hn
    obtain ⟨m, d⟩ := q
    simp only [fillSlots] at h
    split at h
    · cases h
    · rename_i w hw
      split at h
      · rename_i us hu
        rcases List.mem_cons.mp hp with rfl | hp
        · simp only at hn
          subst hn
          rw [Option.or_none] at hw
          exact List.mem_map.mpr ⟨(m, w), kw_mem_of_lookup hw, rfl⟩
        · exact ih hu p hp hn
      · cases h

theorem kw_lookup_none_iff {kw : List (String × V)} (n : String) : kw.lookup n = none ↔ n ∉ kw.map Prod.fst := by
  rw [List.lookup_eq_none_iff]
  simp only [List.mem_map, not_exists, not_and, bne_iff_ne, ne_eq]
  constructor
  · intro h x hx e; exact h x hx e.symm
  · intro h x hx e; exact h x hx e.symm

theorem kw_lookup_some_iff {kw : List (String × V)} (hnd : (kw.map Prod.fst).Nodup) (n : String) (v : V) :
    kw.lookup n = some v ↔ (n, v) ∈ kw := by
  constructor
  · exact kw_mem_of_lookup
  · intro h
    induction kw with
    | nil => cases h
    | cons x kw ih =>
      obtain ⟨m, w⟩ := x
      rw [List.map_cons, List.nodup_cons] at hnd
      rcases List.mem_cons.mp h with e | h'
      · cases e; simp
      · rw [List.lookup_cons]
        have : (n == m) = false := by
          rw [beq_eq_false_iff_ne]
          rintro rfl
          exact hnd.1 (List.mem_map.mpr ⟨_, h', rfl⟩)
        rw [this]
        exact ih hnd.2 h'

theorem kw_zip_fst (ns : List String) (vs : List V) : (ns.zip vs).map Prod.fst = ns.take vs.length := by
  induction ns generalizing vs with
  | nil => simp
  | cons n ns ih => cases vs <;> simp [ih]

/-- What `getcallargs` lists is what the function receives; it fails when the call does. -/
theorem getcallargs_spec {ps : List (String × Option V)} (hps : (ps.map Prod.fst).Nodup) (args : List V)
    {kw : List (String × V)} (hkw : (kw.map Prod.fst).Nodup) :
    (∀ vs, bindArgs ps args kw = .ok vs →
      ∃ items, getcallargs ps args kw = .ok items ∧ items.Perm ((ps.map Prod.fst).zip vs)) ∧
    ∀ e, bindArgs ps args kw = .error e → getcallargs ps args kw = .error e := by
  have hz : ((ps.map Prod.fst).zip args).map Prod.fst = (ps.map Prod.fst).take args.length := kw_zip_fst _ _
  unfold bindArgs getcallargs
  simp only [hz, List.map_append]
  constructor
  · intro vs h
    split_ifs at h with h1
    simp only [not_or, not_exists, not_and, not_lt] at h1
    obtain ⟨h1, h2, h3⟩ := h1
    have hunk : ¬ ∃ k ∈ kw, k.1 ∉ ps.map Prod.fst ∨ k.1 ∈ (ps.map Prod.fst).take args.length := by
      rintro ⟨k, hk, h | h⟩
      · exact h2 k hk h
      · exact h3 k hk h
    rw [if_neg hunk, if_neg (by omega)]
    obtain ⟨ws, rfl, hf⟩ := fillSlots_append h1 h
    have hlw := fillSlots_length hf
    have hnames : ps.map Prod.fst = (ps.map Prod.fst).take args.length ++ (ps.drop args.length).map Prod.fst := by
      rw [← List.map_take, ← List.map_append, List.take_append_drop]
    have hlt : ((ps.map Prod.fst).take args.length).length = args.length := by
      rw [List.length_take, List.length_map]; omega
    have hzip : (ps.map Prod.fst).zip (args ++ ws) =
        (ps.map Prod.fst).zip args ++ ((ps.drop args.length).map Prod.fst).zip ws := by
      conv_lhs => rw [hnames]
      rw [List.zip_append hlt]
      congr 1
      conv_rhs => rw [hnames]
      rw [← List.append_nil args, List.zip_append (by simpa using hlt), List.append_nil]
      simp
    have hdis : ∀ p ∈ ps.take args.length, ∀ q ∈ ps.drop args.length, p.1 ≠ q.1 := by
      intro p hp q hq e
      rw [hnames, List.nodup_append] at hps
      exact hps.2.2 p.1 (by rw [← List.map_take]; exact List.mem_map.mpr ⟨p, hp, rfl⟩) q.1
        (List.mem_map.mpr ⟨q, hq, rfl⟩) e
    have hmiss : ¬ ∃ p ∈ ps, p.2.isNone ∧ p.1 ∉ (ps.map Prod.fst).take args.length ++ kw.map Prod.fst := by
      rintro ⟨p, hp, h4, h5⟩
      rw [List.mem_append, not_or] at h5
      rw [← List.take_append_drop args.length ps, List.mem_append] at hp
      rcases hp with hp | hp
      · exact h5.1 (by rw [← List.map_take]; exact List.mem_map.mpr ⟨p, hp, rfl⟩)
      · exact h5.2 (fillSlots_ok_given hf p hp (Option.isNone_iff_eq_none.mp h4))
    rw [if_neg hmiss]
    refine ⟨_, rfl, ?_⟩
    rw [hzip, List.append_assoc]
    refine List.Perm.append_left _ ?_
    have hqnd : ((ps.drop args.length).map Prod.fst).Nodup := by
      rw [hnames] at hps; exact (List.nodup_append.mp hps).2.1
    rw [List.perm_ext_iff_of_nodup]
    · rintro ⟨n, v⟩
      rw [fillSlots_mem n v hf, List.mem_append, List.mem_filterMap]
      constructor
      · rintro (h | ⟨p, hp, h⟩)
        · have hn : n ∈ ps.map Prod.fst := by
            by_contra hn
            exact h2 _ h hn
          have hn' : n ∈ (ps.drop args.length).map Prod.fst := by
            rw [hnames, List.mem_append] at hn
            exact hn.resolve_left (h3 _ h)
          obtain ⟨q, hq, rfl⟩ := List.mem_map.mp hn'
          exact ⟨q.2, hq, by rw [(kw_lookup_some_iff hkw _ _).mpr h]; rfl⟩
        · split_ifs at h with hg
          rw [List.mem_append, not_or] at hg
          obtain ⟨m, d⟩ := p
          simp only [Option.map_eq_some_iff, Prod.mk.injEq] at h
          obtain ⟨d, rfl, rfl, rfl⟩ := h
          refine ⟨some d, ?_, by rw [(kw_lookup_none_iff _).mpr hg.2]; rfl⟩
          rw [← List.take_append_drop args.length ps, List.mem_append] at hp
          refine hp.resolve_left fun hp => hg.1 ?_
          rw [← List.map_take]; exact List.mem_map.mpr ⟨_, hp, rfl⟩
      · rintro ⟨d, hd, h⟩
        rcases hl : kw.lookup n with _ | w
        · rw [hl, Option.none_or] at h
          subst h
          refine .inr ⟨(n, some v), List.mem_of_mem_drop hd, ?_⟩
          rw [if_neg]
          · rfl
          · rw [List.mem_append, not_or]
            refine ⟨fun hn => ?_, (kw_lookup_none_iff n).mp hl⟩
            rw [← List.map_take] at hn
            obtain ⟨p, hp, e⟩ := List.mem_map.mp hn
            exact hdis p hp _ hd e
        · rw [hl, Option.some_or] at h
          cases h
          exact .inl ((kw_lookup_some_iff hkw _ _).mp hl)
    · rw [List.nodup_append]
      refine ⟨hkw.of_map _, ?_, ?_⟩
      · refine List.Nodup.of_map Prod.fst ?_
        refine List.Nodup.sublist ?_ hps
        clear hmiss hdis hnames hlt hzip hunk hz h1 h2 h3 hf hps hqnd hlw h
        generalize (ps.map Prod.fst).take args.length ++ kw.map Prod.fst = g
        induction ps with
        | nil => simp
        | cons p ps ih =>
          rw [List.filterMap_cons]
          obtain ⟨m, d⟩ := p
          split
          · exact ih.cons _
          · rename_i x hx
            split_ifs at hx
            simp only [Option.map_eq_some_iff] at hx
            obtain ⟨d', -, rfl⟩ := hx
            exact ih.cons_cons _
      · rintro a ha b hb rfl
        obtain ⟨p, hp, h⟩ := List.mem_filterMap.mp hb
        split_ifs at h with hg
        rw [List.mem_append, not_or] at hg
        simp only [Option.map_eq_some_iff] at h
        obtain ⟨d', -, rfl⟩ := h
        exact hg.2 (List.mem_map.mpr ⟨_, ha, rfl⟩)
    · refine List.Nodup.of_map Prod.fst ?_
      rw [kw_zip_fst, List.take_of_length_le (by simp [hlw])]
      exact hqnd
  · intro e h
    split_ifs at h with h1
    · cases h
      by_cases hunk : ∃ k ∈ kw, k.1 ∉ ps.map Prod.fst ∨ k.1 ∈ (ps.map Prod.fst).take args.length
      · rw [if_pos hunk]
      · rw [if_neg hunk, if_pos]
        rcases h1 with h1 | ⟨k, hk, h1⟩ | ⟨k, hk, h1⟩
        · exact h1
        · exact absurd ⟨k, hk, .inl h1⟩ hunk
        · exact absurd ⟨k, hk, .inr h1⟩ hunk
    · simp only [not_or, not_exists, not_and, not_lt] at h1
      obtain ⟨h1, h2, h3⟩ := h1
      obtain ⟨rfl, p, hp, h4, h5⟩ := fillSlots_error h
      have hunk : ¬ ∃ k ∈ kw, k.1 ∉ ps.map Prod.fst ∨ k.1 ∈ (ps.map Prod.fst).take args.length := by
        rintro ⟨k, hk, h | h⟩
        · exact h2 k hk h
        · exact h3 k hk h
      rw [if_neg hunk, if_neg (by omega), if_pos]
      refine ⟨p, List.mem_of_mem_drop hp, by rw [h4]; rfl, ?_⟩
      rw [List.mem_append, not_or]
      refine ⟨fun hn => ?_, (kw_lookup_none_iff _).mp h5⟩
      rw [← List.map_take] at hn
      obtain ⟨q, hq, e⟩ := List.mem_map.mp hn
      rw [← List.take_append_drop args.length ps, List.map_append, List.nodup_append] at hps
      exact hps.2.2 q.1 (List.mem_map.mpr ⟨q, hq, rfl⟩) p.1 (List.mem_map.mpr ⟨p, hp, rfl⟩) e

end Args

/-! ### A decorated call -/

section Call
variable {S V A W : Type}

theorem bindArgs_error {ps : List (String × Option V)} {args : List V} {kw : List (String × V)} {e : CallErr}
    (h : bindArgs ps args kw = .error e) : e = .typeError := by
  unfold bindArgs at h
  split_ifs at h
  · cases h; rfl
  · exact (fillSlots_error h).1

/-- What holds of the outcome of the body from any state that looks the same holds of the decorated call. -/
theorem call_outcome {c : CallLog S V} {π : S → W} (hc : c.Quiet π) {f : PyFunc S V A}
    (hps : (f.params.map Prod.fst).Nodup) {args : List V} {kw : List (String × V)} (hkw : (kw.map Prod.fst).Nodup)
    {vs : List V} (hb : bindArgs f.params args kw = .ok vs) {P : Except CallErr A → W → Prop} {s : S}
    (h : ∀ s', π s' = π s → P (f.body vs s').1 (π (f.body vs s').2)) :
    P (printCall c f args kw s).1 (π (printCall c f args kw s).2) := by
  have hcall : ∀ s, f.call args kw s = f.body vs s := fun s => by unfold PyFunc.call; rw [hb]
  unfold printCall
  cases hl : c.logger with
  | none => simp only [hcall]; exact h s rfl
  | some log =>
    simp only
    split_ifs
    · rw [hcall]; exact h s rfl
    · obtain ⟨items, hi, -⟩ := (getcallargs_spec hps args hkw).1 vs hb
      simp only [createArgString, hi]
      generalize callMessage f _ = m
      obtain ⟨h1, h2⟩ := hc log hl m s
      unfold Prog.andThen
      rcases e1 : log m s with ⟨r1, s1⟩
      rw [e1] at h1 h2
      simp only at h1 h2
      subst h1
      simp only [hcall]
      have h3 := h s1 h2
      rcases e2 : f.body vs s1 with ⟨r2, s2⟩
      rw [e2] at h3
      cases r2 with
      | error e => exact h3
      | ok a =>
        obtain ⟨h4, h5⟩ := hc log hl "SUCCESS!" s2
        rcases e3 : log "SUCCESS!" s2 with ⟨r3, s3⟩
        rw [e3] at h4 h5
        simp only at h4 h5
        subst h4
        simp only [Prog.ret, e3, h5]
        exact h3

end Call

/-! ### The messages -/

section Logs
variable {V A B W : Type}

theorem Nested.append {l l' : List String} (h : Nested l) (h' : Nested l') : Nested (l ++ l') := by
  induction h with
  | nil => exact h'
  | call m inner rest hm hi hr _ ih =>
    have := Nested.call m inner (rest ++ l') hm hi ih
    simpa using this

theorem logs_ret (a : A) : Logs 0 (Prog.ret a : Prog (W × List String) A) := fun s =>
  ⟨[], by simp [Prog.ret], fun _ => ⟨.nil, rfl⟩, fun h => by simp [Prog.ret] at h⟩

theorem logs_fail (k : ℕ) (e : CallErr) : Logs k (Prog.fail e : Prog (W × List String) A) := fun s =>
  ⟨[], by simp [Prog.fail], fun h => by simp [Prog.fail] at h, fun _ => ⟨0, .nil⟩⟩

theorem logs_lift (x : Except PyErr A) : Logs 0 (Prog.lift x : Prog (W × List String) A) := fun s =>
  ⟨[], by unfold Prog.lift; cases x <;> simp, fun _ => ⟨.nil, rfl⟩, fun _ => ⟨0, .nil⟩⟩

theorem logs_andThen_of {k k' : ℕ} {R : A → Prop} {p : Prog (W × List String) A} {f : A → Prog (W × List String) B} (hp : Logs k p)
    (hR : ∀ s a, (p s).1 = .ok a → R a) (hf : ∀ a, R a → Logs k' (f a)) : Logs (k + k') (p.andThen f) := by
  intro s
  obtain ⟨l, h1, h2, h3⟩ := hp s
  unfold Prog.andThen
  rcases e1 : p s with ⟨r, s1⟩
  rw [e1] at h1 h2 h3
  cases r with
  | error e =>
    exact ⟨l, h1, fun h => by simp at h, fun _ => h3 ⟨e, rfl⟩⟩
  | ok a =>
    obtain ⟨h2, h4⟩ := h2 ⟨a, rfl⟩
    obtain ⟨l', h5, h6, h7⟩ := hf a (hR s a (by rw [e1])) s1
    refine ⟨l ++ l', ?_, fun h => ?_, fun h => ?_⟩
    · simp only; rw [h5]; simp only at h1; rw [h1, List.append_assoc]
    · obtain ⟨h8, h9⟩ := h6 h
      exact ⟨h2.append h8, by rw [List.count_append, h4, h9]⟩
    · obtain ⟨m, hm⟩ := h7 h
      exact ⟨m, by rw [List.append_assoc]; exact h2.append hm⟩

theorem logs_andThen {k k' : ℕ} {p : Prog (W × List String) A} {f : A → Prog (W × List String) B} (hp : Logs k p)
    (hf : ∀ a, Logs k' (f a)) : Logs (k + k') (p.andThen f) :=
  logs_andThen_of (R := fun _ => True) hp (fun _ _ _ => trivial) fun a _ => hf a

theorem logs_forEach {k : ℕ} {f : A → Prog (W × List String) Unit} (hf : ∀ a, Logs k (f a)) (l : List A) :
    Logs (l.length * k) (Prog.forEach l f) := by
  induction l with
  | nil => rw [List.length_nil, Nat.zero_mul]; exact logs_ret ()
  | cons a l ih =>
    have := logs_andThen (hf a) fun _ => ih
    rw [List.length_cons, Nat.add_mul, Nat.one_mul, Nat.add_comm]
    exact this

theorem callMessage_is (f : PyFunc (W × List String) V A) (a : String) : IsCallMessage (callMessage f a) := by
  unfold IsCallMessage callMessage
  simp only [String.toList_append, List.append_assoc]
  exact List.prefix_append _ _

theorem callMessage_ne (f : PyFunc (W × List String) V A) (a : String) : callMessage f a ≠ "SUCCESS!" := by
  intro h
  have := callMessage_is f a
  rw [h] at this
  exact absurd this (by unfold IsCallMessage; decide)

/-- A decorated call logs one call more than its body, and is not reported as a success if it raises an
exception. -/
theorem logs_call {k : ℕ} (str : W × List String → V → String) {f : PyFunc (W × List String) V A}
    (hf : ∀ vs, Logs k (f.body vs)) (args : List V) (kw : List (String × V)) (s : W × List String) :
    ∃ l, (printCall (keepLog str) f args kw s).2.2 = s.2 ++ l ∧
    ((∃ a, (printCall (keepLog str) f args kw s).1 = .ok a) → Nested l ∧ l.count "SUCCESS!" = k + 1) ∧
    ((∃ e, (printCall (keepLog str) f args kw s).1 = .error e) →
      l = [] ∨ ∃ m, Nested (l ++ List.replicate (m + 1) "SUCCESS!")) := by
  unfold printCall keepLog
  simp only [Bool.false_eq_true, ↓reduceIte]
  cases createArgString _ f args kw s with
  | error e => exact ⟨[], by simp, fun h => by simp at h, fun _ => .inl rfl⟩
  | ok a =>
    simp only
    unfold Prog.andThen
    simp only [PyFunc.call]
    cases bindArgs f.params args kw with
    | error e =>
      exact ⟨[callMessage f a], rfl, fun h => by simp at h, fun _ => .inr ⟨0, by
        exact Nested.call _ [] [] (callMessage_is f a) .nil .nil⟩⟩
    | ok vs =>
      simp only
      obtain ⟨l, h1, h2, h3⟩ := hf vs (s.1, s.2 ++ [callMessage f a])
      rcases e1 : f.body vs (s.1, s.2 ++ [callMessage f a]) with ⟨r, s1⟩
      rw [e1] at h1 h2 h3
      simp only at h1
      cases r with
      | error e =>
        refine ⟨callMessage f a :: l, by simp [h1], fun h => by simp at h, fun _ => .inr ?_⟩
        obtain ⟨m, hm⟩ := h3 ⟨e, rfl⟩
        refine ⟨m, ?_⟩
        have := Nested.call _ _ [] (callMessage_is f a) hm .nil
        rw [List.replicate_succ']
        simpa using this
      | ok b =>
        obtain ⟨h4, h5⟩ := h2 ⟨b, rfl⟩
        refine ⟨callMessage f a :: l ++ ["SUCCESS!"], by simp [Prog.ret, h1], fun _ =>
          ⟨Nested.call _ _ [] (callMessage_is f a) h4 .nil, ?_⟩, fun h => by simp [Prog.ret] at h⟩
        rw [List.count_append, List.count_cons, h5, if_neg (by simpa using callMessage_ne f a)]
        rfl

theorem logs_of_call {k : ℕ} (str : W × List String → V → String) {f : PyFunc (W × List String) V A}
    (hf : ∀ vs, Logs k (f.body vs)) (args : List V) (kw : List (String × V)) :
    Logs (k + 1) (printCall (keepLog str) f args kw) := by
  intro s
  obtain ⟨l, h1, h2, h3⟩ := logs_call str hf args kw s
  refine ⟨l, h1, h2, fun h => ?_⟩
  rcases h3 h with rfl | ⟨m, hm⟩
  · exact ⟨0, .nil⟩
  · exact ⟨m + 1, hm⟩

end Logs

end WindMult
