import Verif.Proofs.CallLog
import Verif.Props.Blrb
import Mathlib.Algebra.Order.Floor.Ring
import Mathlib.Data.Rat.Floor

/-!
# C152: logging the calls changes nothing
-/

set_option autoImplicit false
set_option linter.unusedSectionVars false

namespace WindMult
section General
variable {S V A W : Type}

/-- **C152** The decorator does not change what a function does: with any arguments, also such as do not fit its
parameters, the decorated function returns the same value or raises the same exception, and leaves the same state
behind, but for what the logger itself changes. -/
theorem C152_transparent (c : CallLog S V) (π : S → W) (hc : c.Quiet π) (f : PyFunc S V A)
    (hps : (f.params.map Prod.fst).Nodup) (hf : ∀ vs, Blind π (f.body vs)) (args : List V) (kw : List (String × V))
    (hkw : (kw.map Prod.fst).Nodup) (s : S) :
    (printCall c f args kw s).1 = (f.call args kw s).1 ∧ π (printCall c f args kw s).2 = π (f.call args kw s).2 := by
  cases hb : bindArgs f.params args kw with
  | ok vs =>
    have hcall : f.call args kw s = f.body vs s := by unfold PyFunc.call; rw [hb]
    rw [hcall]
    exact call_outcome hc hps hkw hb (P := fun r w => r = (f.body vs s).1 ∧ w = π (f.body vs s).2)
      fun s' h => hf vs s' s h
  | error e =>
    have hcall : f.call args kw s = (.error e, s) := by unfold PyFunc.call; rw [hb]
    have hg := (getcallargs_spec hps args hkw).2 e hb
    rw [hcall]
    unfold printCall
    cases c.logger with
    | none => simp only [hcall, and_self]
    | some log =>
      simp only
      split_ifs
      · rw [hcall]; exact ⟨rfl, rfl⟩
      · simp only [createArgString, hg, and_self]

/-- **C152** What is logged: the message of a call tells every parameter once, with the value the function receives, as
`str` shows it before the call; the body's own messages follow; then `SUCCESS!` if and only if the function returns.  A
call that does not fit the parameters is not logged. -/
theorem C152_log (str : W × List String → V → String) (f : PyFunc (W × List String) V A)
    (hps : (f.params.map Prod.fst).Nodup) (args : List V) (kw : List (String × V)) (hkw : (kw.map Prod.fst).Nodup)
    (s : W × List String) :
    (∀ vs, bindArgs f.params args kw = .ok vs → ∃ text,
      TellsCall f.module f.name (f.params.map Prod.fst) (vs.map (str s)) text ∧
      (∀ a s', f.body vs (s.1, s.2 ++ [text]) = (.ok a, s') →
        printCall (keepLog str) f args kw s = (.ok a, (s'.1, s'.2 ++ ["SUCCESS!"]))) ∧
      ∀ e s', f.body vs (s.1, s.2 ++ [text]) = (.error e, s') →
        printCall (keepLog str) f args kw s = (.error e, s')) ∧
    ∀ e, bindArgs f.params args kw = .error e → printCall (keepLog str) f args kw s = (.error .typeError, s) := by
  constructor
  · intro vs hb
    obtain ⟨items, hi, hp⟩ := (getcallargs_spec hps args hkw).1 vs hb
    have hcall : ∀ s, f.call args kw s = f.body vs s := fun s => by unfold PyFunc.call; rw [hb]
    refine ⟨_, ⟨items.map fun x => (x.1, str s x.2), ?_, rfl⟩, ?_⟩
    · have := hp.map fun x => (x.1, str s x.2)
      refine this.trans (List.Perm.of_eq ?_)
      rw [List.zip_map_right]
      rfl
    · have hmsg : ∀ m, "\ncalling " ++ f.module ++ "." ++ f.name ++ "(\n\t" ++
          String.intercalate ",\n\t" ((items.map fun x => (x.1, str s x.2)).map fun x => x.1 ++ "=" ++ x.2) ++
          "\n)\n" = m → createArgString (keepLog str) f args kw s = .ok (String.intercalate ",\n\t"
            ((items.map fun x => (x.1, str s x.2)).map fun x => x.1 ++ "=" ++ x.2)) := by
        intro m _
        simp only [createArgString, hi, List.map_map]
        rfl
      have hrun : ∀ r s', f.body vs (s.1, s.2 ++ ["\ncalling " ++ f.module ++ "." ++ f.name ++ "(\n\t" ++
          String.intercalate ",\n\t" ((items.map fun x => (x.1, str s x.2)).map fun x => x.1 ++ "=" ++ x.2) ++
          "\n)\n"]) = (r, s') → printCall (keepLog str) f args kw s =
            (match r with | .ok a => (.ok a, (s'.1, s'.2 ++ ["SUCCESS!"])) | .error e => (.error e, s')) := by
        intro r s' h
        have h1 := hmsg _ rfl
        unfold printCall
        show (if (keepLog str).sphinx = true then _ else _ : Prog _ A) s = _
        rw [if_neg (by simp [keepLog])]
        simp only [h1, Prog.andThen, hcall, callMessage]
        rw [h]
        cases r <;> rfl
      exact ⟨fun a s' h => hrun _ _ h, fun e s' h => hrun _ _ h⟩
  · intro e hb
    have hg := (getcallargs_spec hps args hkw).2 e hb
    cases bindArgs_error hb
    unfold printCall
    show (if (keepLog str).sphinx = true then _ else _ : Prog _ A) s = _
    rw [if_neg (by simp [keepLog])]
    simp only [createArgString, hg]

/-- **C152** Without a logger, or when the documentation is built, the function itself is called. -/
theorem C152_off (c : CallLog S V) (h : c.logger = none ∨ c.sphinx = true) (f : PyFunc S V A) (args : List V)
    (kw : List (String × V)) : printCall c f args kw = f.call args kw := by
  unfold printCall
  cases hl : c.logger with
  | none => rfl
  | some log =>
    rw [hl] at h
    simp only
    rw [if_pos (by simpa using h)]

end General

/-! ### The interpolation -/

section Blrb
variable {K : Type} [Field K] [LinearOrder K] [IsStrictOrderedRing K] [FloorRing K]
variable {c : CallLog (BlrbState K) (BlrbVal K)} {eval : ℤ → ℤ → Except PyErr K}

theorem loggedIndices_run (hc : c.Quiet Prod.fst) (oi oj ni nj : K) (s : BlrbState K) :
    (loggedIndices c [.pair oi oj, .pair ni nj] [] s).1 = .ok (oi, oi + ni - 1, oj, oj + nj - 1) ∧
    (loggedIndices c [.pair oi oj, .pair ni nj] [] s).2.1 = s.1 :=
  call_outcome hc (by simp) (by simp) (vs := [.pair oi oj, .pair ni nj])
    (by simp [bindArgs, fillSlots])
    (P := fun r w => r = .ok (oi, oi + ni - 1, oj, oj + nj - 1) ∧ w = s.1) fun s' h => ⟨rfl, h⟩

theorem loggedBilinear_run (hc : c.Quiet Prod.fst) (nr nc ul ur lr ll : K) (s : BlrbState K) :
    (loggedBilinear c [.pair nr nc, .num ul, .num ur, .num lr, .num ll] [] s).1 = .ok (bilinear nr nc ul ur lr ll) ∧
    (loggedBilinear c [.pair nr nc, .num ul, .num ur, .num lr, .num ll] [] s).2.1 = s.1 :=
  call_outcome hc (by simp) (by simp)
    (vs := [.pair nr nc, .num ul, .num ur, .num lr, .num ll, .float64])
    (by simp [bindArgs, fillSlots])
    (P := fun r w => r = .ok (bilinear nr nc ul ur lr ll) ∧ w = s.1) fun s' h => ⟨rfl, h⟩

theorem loggedSubdivide_run (hc : c.Quiet Prod.fst) (oi oj ni nj : K) (s : BlrbState K) : ∃ blocks,
    (loggedSubdivide c [.pair oi oj, .pair ni nj] [] s).1 = .ok blocks ∧
    (loggedSubdivide c [.pair oi oj, .pair ni nj] [] s).2.1 = s.1 ∧
    blocks.map (fun k => (k.1, (k.2.2.2.1 - k.1.1 + 1, k.2.2.2.2 - k.1.2 + 1))) = subdivide oi oj ni nj := by
  refine call_outcome hc (by simp) (by simp) (vs := [.pair oi oj, .pair ni nj])
    (by simp [bindArgs, fillSlots])
    (P := fun r w => ∃ blocks : List ((K × K) × (K × K) × (K × K) × (K × K)), r = .ok blocks ∧ w = s.1 ∧
      blocks.map (fun k => (k.1, (k.2.2.2.1 - k.1.1 + 1, k.2.2.2.2 - k.1.2 + 1))) = subdivide oi oj ni nj)
    fun s' h => ?_
  simp only [Prog.andThen]
  obtain ⟨h1, h2⟩ := loggedIndices_run hc oi oj ni nj s'
  rcases e : loggedIndices c [.pair oi oj, .pair ni nj] [] s' with ⟨r, s1⟩
  rw [e] at h1 h2
  simp only at h1 h2
  subst h1
  exact ⟨_, rfl, h2.trans h, rfl⟩

/-- What the model without logging says of a computation that changes the grid. -/
def Agrees (x : Except PyErr (Grid (Option K))) {A : Type} (r : Except CallErr A) (w : Grid (Option K)) : Prop :=
  match x with
  | .ok g => (∃ a, r = .ok a) ∧ w = g
  | .error e => r = .error (.other e)

theorem loggedBlock_run (hc : c.Quiet Prod.fst) (oi oj ni nj : K) (s : BlrbState K) :
    Agrees (interpolateBlock eval oi oj ni nj s.1)
      (loggedBlock c eval [.pair oi oj, .pair ni nj, .func, .array] [] s).1
      (loggedBlock c eval [.pair oi oj, .pair ni nj, .func, .array] [] s).2.1 := by
  refine call_outcome hc (by simp) (by simp) (vs := [.pair oi oj, .pair ni nj, .func, .array])
    (by simp [bindArgs, fillSlots])
    (P := fun r w => Agrees (interpolateBlock eval oi oj ni nj s.1) r w) fun s' h => ?_
  simp only [Prog.andThen]
  obtain ⟨h1, h2⟩ := loggedIndices_run hc oi oj ni nj s'
  rcases e : loggedIndices c [.pair oi oj, .pair ni nj] [] s' with ⟨r, s1⟩
  rw [e] at h1 h2
  simp only at h1 h2
  subst h1
  simp only [Prog.lift, interpolateBlock, bind, Except.bind]
  cases e1 : eval ⌊oi⌋ ⌊oj⌋ with
  | error e => simp only [Agrees]
  | ok fUL =>
  simp only
  cases e2 : eval ⌈oi + ni - 1⌉ ⌊oj⌋ with
  | error e => simp only [Agrees]
  | ok fLL =>
  simp only
  cases e3 : eval ⌊oi⌋ ⌈oj + nj - 1⌉ with
  | error e => simp only [Agrees]
  | ok fUR =>
  simp only
  cases e4 : eval ⌈oi + ni - 1⌉ ⌈oj + nj - 1⌉ with
  | error e => simp only [Agrees]
  | ok fLR =>
  simp only
  obtain ⟨h3, h4⟩ := loggedBilinear_run hc ni nj fUL fUR fLR fLL s1
  rcases e5 : loggedBilinear c [.pair ni nj, .num fUL, .num fUR, .num fLR, .num fLL] [] s1 with ⟨r, s2⟩
  rw [e5] at h3 h4
  simp only at h3 h4
  subst h3
  simp only
  rw [h4, h2, h]
  cases assignBlock s.1 ⌊oi⌋ ⌈oi + ni - 1⌉ ⌊oj⌋ ⌈oj + nj - 1⌉ (bilinear ni nj fUL fUR fLR fLL) with
  | error e => simp only [Agrees]
  | ok g => exact ⟨⟨_, rfl⟩, rfl⟩

theorem forEach_run {X : Type} {p : X → Prog (BlrbState K) Unit}
    {q : Grid (Option K) → X → Except PyErr (Grid (Option K))}
    (h : ∀ x s, Agrees (q s.1 x) (p x s).1 (p x s).2.1) : ∀ (l : List X) (s : BlrbState K),
    Agrees (l.foldlM q s.1) (Prog.forEach l p s).1 (Prog.forEach l p s).2.1 := by
  intro l
  induction l with
  | nil => intro s; exact ⟨⟨_, rfl⟩, rfl⟩
  | cons x l ih =>
    intro s
    have hx := h x s
    simp only [List.foldlM_cons, Prog.forEach, Prog.andThen, bind, Except.bind]
    rcases e : p x s with ⟨r, s1⟩
    rw [e] at hx
    cases hq : q s.1 x with
    | error e' =>
      rw [hq] at hx
      simp only [Agrees] at hx
      subst hx
      simp only [Agrees]
    | ok g =>
      rw [hq] at hx
      obtain ⟨⟨a, ha⟩, hg⟩ := hx
      simp only at ha hg
      subst ha hg
      exact ih s1

theorem foldlM_map_pair {X Y : Type} {q : Grid (Option K) → Y → Except PyErr (Grid (Option K))} (f : X → Y) :
    ∀ (l : List X) (g : Grid (Option K)), (l.map f).foldlM q g = l.foldlM (fun g x => q g (f x)) g := by
  intro l
  induction l with
  | nil => intro g; rfl
  | cons x l ih =>
    intro g
    simp only [List.map_cons, List.foldlM_cons]
    congr 1
    funext g'
    exact ih g'

theorem loggedGrid_body (hc : c.Quiet Prod.fst) (n : ℕ) : ∀ (oi oj ni nj : K) (args : List (BlrbVal K))
    (kw : List (String × BlrbVal K)), (kw.map Prod.fst).Nodup →
    bindArgs gridParams args kw = .ok [.int n, .pair oi oj, .pair ni nj, .func, .array] → ∀ s : BlrbState K,
    Agrees (interpolateGrid eval n oi oj ni nj s.1) (loggedGrid c eval n args kw s).1
      (loggedGrid c eval n args kw s).2.1 := by
  induction n with
  | zero =>
    intro oi oj ni nj args kw hkw hb s
    unfold loggedGrid
    refine call_outcome hc (by simp [gridParams]) hkw hb
      (P := fun r w => Agrees (interpolateGrid eval 0 oi oj ni nj s.1) r w) fun s' h => ?_
    have := loggedBlock_run (eval := eval) hc oi oj ni nj s'
    simp only [Prog.andThen, interpolateGrid]
    rw [← h]
    rcases e : loggedBlock c eval [.pair oi oj, .pair ni nj, .func, .array] [] s' with ⟨r, s1⟩
    rw [e] at this
    cases hq : interpolateBlock eval oi oj ni nj s'.1 with
    | error e' =>
      rw [show s'.1 = Prod.fst s' from rfl] at hq
      rw [hq] at this
      simp only [Agrees] at this
      subst this
      simp only [Agrees]
    | ok g =>
      rw [hq] at this
      obtain ⟨⟨a, ha⟩, hg⟩ := this
      simp only at ha hg
      subst ha hg
      exact ⟨⟨_, rfl⟩, rfl⟩
  | succ n ih =>
    intro oi oj ni nj args kw hkw hb s
    unfold loggedGrid
    refine call_outcome hc (by simp [gridParams]) hkw hb
      (P := fun r w => Agrees (interpolateGrid eval (n + 1) oi oj ni nj s.1) r w) fun s' h => ?_
    obtain ⟨blocks, h1, h2, h3⟩ := loggedSubdivide_run hc oi oj ni nj s'
    simp only [Prog.andThen, interpolateGrid]
    rw [← h3]
    rcases e : loggedSubdivide c [.pair oi oj, .pair ni nj] [] s' with ⟨r, s1⟩
    rw [e] at h1 h2
    simp only at h1 h2
    subst h1
    rw [show s.1 = s1.1 from (h2.trans h).symm, foldlM_map_pair]
    exact forEach_run (fun x s => ih _ _ _ _ _ _ (by simp) (by simp [bindArgs, fillSlots, gridParams]) s) blocks s1

/-- **C152** (interpolation) With any logger that leaves the grid alone, and with or without logging, the interpolation
has the result of the functions without their decorator: the same grid, or the same exception.  The arguments may be
given by position, by keyword, or left to their defaults. -/
theorem C152_interpolation (hc : c.Quiet Prod.fst) (n : ℕ) (oi oj ni nj : K) (args : List (BlrbVal K))
    (kw : List (String × BlrbVal K)) (hkw : (kw.map Prod.fst).Nodup)
    (hb : bindArgs gridParams args kw = .ok [.int n, .pair oi oj, .pair ni nj, .func, .array]) (s : BlrbState K) :
    (∀ g, interpolateGrid eval n oi oj ni nj s.1 = .ok g →
      (loggedGrid c eval n args kw s).1 = .ok () ∧ (loggedGrid c eval n args kw s).2.1 = g) ∧
    ∀ e, interpolateGrid eval n oi oj ni nj s.1 = .error e →
      (loggedGrid c eval n args kw s).1 = .error (.other e) := by
  have h := loggedGrid_body (eval := eval) hc n oi oj ni nj args kw hkw hb s
  refine ⟨fun g hg => ?_, fun e he => ?_⟩
  · rw [hg] at h
    obtain ⟨⟨a, ha⟩, h⟩ := h
    exact ⟨ha, h⟩
  · rw [he] at h
    exact h

/-- **C152** (pixel sizes) In particular the grids of pixel sizes. -/
theorem C152_pixel_sizes (hc : c.Quiet Prod.fst) (size : ℤ → ℤ → Except PyErr K) (rows cols : ℕ) (log : List String) :
    (∀ g, pixelSizeGrid size rows cols = .ok g →
      (loggedPixelSize c size rows cols (⟨rows, cols, fun _ _ => some 0⟩, log)).1 = .ok () ∧
      (loggedPixelSize c size rows cols (⟨rows, cols, fun _ _ => some 0⟩, log)).2.1 = g) ∧
    ∀ e, pixelSizeGrid size rows cols = .error e →
      (loggedPixelSize c size rows cols (⟨rows, cols, fun _ _ => some 0⟩, log)).1 = .error (.other e) := by
  have hb : bindArgs gridParams [] [("depth", .int 1), ("shape", .pair (rows : K) cols), ("eval_func", .func),
      ("grid", .array)] = .ok [.int 1, .pair 0 0, .pair (rows : K) cols, .func, .array] := by
    simp [bindArgs, fillSlots, gridParams, List.lookup]
  have h := C152_interpolation (eval := size) hc 1 0 0 rows cols [] [("depth", .int 1), ("shape", .pair (rows : K) cols),
    ("eval_func", .func), ("grid", .array)] (by simp) hb (⟨rows, cols, fun _ _ => some 0⟩, log)
  unfold loggedPixelSize pixelSizeGrid
  exact h

/-! ### The messages -/

theorem logs_indices (str : BlrbState K → BlrbVal K → String) (args : List (BlrbVal K))
    (kw : List (String × BlrbVal K)) : Logs 1 (loggedIndices (keepLog str) args kw) := by
  refine logs_of_call str (fun vs => ?_) args kw
  simp only
  split
  · exact logs_ret _
  · exact logs_fail _ _

theorem logs_bilinear (str : BlrbState K → BlrbVal K → String) (args : List (BlrbVal K))
    (kw : List (String × BlrbVal K)) : Logs 1 (loggedBilinear (keepLog str) args kw) := by
  refine logs_of_call str (fun vs => ?_) args kw
  simp only
  split
  · exact logs_ret _
  · exact logs_fail _ _

theorem logs_block (str : BlrbState K → BlrbVal K → String) (args : List (BlrbVal K))
    (kw : List (String × BlrbVal K)) : Logs 3 (loggedBlock (keepLog str) eval args kw) := by
  refine logs_of_call str (k := 2) (fun vs => ?_) args kw
  simp only
  split
  · refine logs_andThen (k := 1) (k' := 1) (logs_indices str _ _) fun q => ?_
    refine logs_andThen (k := 0) (k' := 1) (logs_lift _) fun _ => ?_
    refine logs_andThen (k := 0) (k' := 1) (logs_lift _) fun _ => ?_
    refine logs_andThen (k := 0) (k' := 1) (logs_lift _) fun _ => ?_
    refine logs_andThen (k := 0) (k' := 1) (logs_lift _) fun _ => ?_
    refine logs_andThen (k := 1) (k' := 0) (logs_bilinear str _ _) fun a => ?_
    split
    · exact logs_ret _
    · intro s
      simp only
      split
      · exact ⟨[], by simp, fun _ => ⟨.nil, rfl⟩, fun h => by simp at h⟩
      · exact ⟨[], by simp, fun h => by simp at h, fun _ => ⟨0, .nil⟩⟩
    · exact logs_fail _ _
  · exact logs_fail _ _

theorem logs_subdivide (str : BlrbState K → BlrbVal K → String) (args : List (BlrbVal K))
    (kw : List (String × BlrbVal K)) : Logs 2 (loggedSubdivide (keepLog str) args kw) := by
  refine logs_of_call str (k := 1) (fun vs => ?_) args kw
  simp only
  split
  · exact logs_andThen (k := 1) (k' := 0) (logs_indices str _ _) fun q => logs_ret _
  · exact logs_fail _ _

theorem keepLog_quiet {W V : Type} (str : W × List String → V → String) : (keepLog str).Quiet Prod.fst := by
  intro log h m s
  cases h
  exact ⟨rfl, rfl⟩

theorem logs_grid (str : BlrbState K → BlrbVal K → String) (n : ℕ) : ∀ (args : List (BlrbVal K))
    (kw : List (String × BlrbVal K)), Logs (5 * 4 ^ n - 1) (loggedGrid (keepLog str) eval n args kw) := by
  induction n with
  | zero =>
    intro args kw
    unfold loggedGrid
    refine logs_of_call str (k := 3) (fun vs => ?_) args kw
    simp only
    split
    · exact logs_andThen (k := 3) (k' := 0) (logs_block str _ _) fun _ => logs_ret _
    · exact logs_fail _ _
  | succ n ih =>
    intro args kw
    unfold loggedGrid
    have hk : 5 * 4 ^ (n + 1) - 1 = 2 + 4 * (5 * 4 ^ n - 1) + 1 := by
      have : 0 < 4 ^ n := Nat.pow_pos (by norm_num)
      rw [pow_succ]; omega
    rw [hk]
    refine logs_of_call str (fun vs => ?_) args kw
    simp only
    split
    · rename_i d oi oj ni nj
      refine logs_andThen_of (R := fun blocks => blocks.length = 4) (logs_subdivide str _ _) (fun s blocks h => ?_)
        fun blocks hb => ?_
      · obtain ⟨b, h1, -, h2⟩ := loggedSubdivide_run (keepLog_quiet str) oi oj ni nj s
        rw [h] at h1
        cases h1
        have := congrArg List.length h2
        rw [List.length_map] at this
        exact this
      · rw [show 4 * (5 * 4 ^ n - 1) = blocks.length * (5 * 4 ^ n - 1) by rw [hb]]
        exact logs_forEach (fun k => ih _ _) blocks
    · exact logs_fail _ _

/-- **C152** (messages) An interpolation of depth `n` that returns logs `5 · 4ⁿ - 1` calls, well nested.  If it raises an
exception, the calls that are open have no `SUCCESS!` and all others have theirs. -/
theorem C152_messages (str : BlrbState K → BlrbVal K → String) (n : ℕ) (args : List (BlrbVal K))
    (kw : List (String × BlrbVal K)) (s : BlrbState K) : ∃ l,
    (loggedGrid (keepLog str) eval n args kw s).2.2 = s.2 ++ l ∧
    ((loggedGrid (keepLog str) eval n args kw s).1 = .ok () → Nested l ∧ l.count "SUCCESS!" = 5 * 4 ^ n - 1) ∧
    ∀ e, (loggedGrid (keepLog str) eval n args kw s).1 = .error e →
      ∃ m, Nested (l ++ List.replicate m "SUCCESS!") := by
  obtain ⟨l, h1, h2, h3⟩ := logs_grid (eval := eval) str n args kw s
  exact ⟨l, h1, fun h => h2 ⟨_, h⟩, fun e h => h3 ⟨e, h⟩⟩

end Blrb

/-! ### The hypotheses can be met -/

/-- A function `f(a, b=2)` that adds its second argument to a counter, fails when the first is zero, and returns the
second. -/
def sampleFunc : PyFunc (ℕ × List String) ℕ ℕ where
  module := "m"
  name := "f"
  params := [("a", none), ("b", some 2)]
  body := fun
    | [a, b] => fun s => if a = 0 then (.error .assertion, (s.1 + b, s.2)) else (.ok b, (s.1 + b, s.2))
    | _ => Prog.fail .typeError

theorem sampleFunc_blind (vs : List ℕ) : Blind Prod.fst (sampleFunc.body vs) := by
  intro s s' h
  unfold sampleFunc
  simp only
  split
  · split_ifs <;> simp [h]
  · simp [Prog.fail, h]

/-- Called with `a` by keyword and `b` left out. -/
example : printCall (keepLog fun _ v => toString v) sampleFunc [] [("a", 1)] (0, []) =
    (.ok 2, (2, ["\ncalling m.f(\n\ta=1,\n\tb=2\n)\n", "SUCCESS!"])) := by decide +kernel

/-- Called with `a` by position and `b` by keyword: both are told; there is no success. -/
example : printCall (keepLog fun _ v => toString v) sampleFunc [0] [("b", 5)] (0, []) =
    (.error .assertion, (5, ["\ncalling m.f(\n\ta=0,\n\tb=5\n)\n"])) := by decide +kernel

example : ∃ text, TellsCall "m" "f" ["a", "b"] ["1", "2"] text ∧
    printCall (keepLog fun _ v => toString v) sampleFunc [1] [] (0, []) = (.ok 2, (2, [text, "SUCCESS!"])) := by
  obtain ⟨text, h1, h2, -⟩ := (C152_log (fun _ v => toString v) sampleFunc (by decide) [1] [] (by decide) (0, [])).1
    [1, 2] rfl
  exact ⟨text, h1, h2 2 (2, [text]) rfl⟩

/-- The decorated function and the function itself, with arguments that fit and with one too many. -/
example : (printCall (keepLog fun _ v => toString v) sampleFunc [1] [] (0, [])).1 = .ok 2 ∧
    (printCall (keepLog fun _ v => toString v) sampleFunc [1, 2, 3] [] (0, [])).1 = .error .typeError :=
  ⟨(C152_transparent _ Prod.fst (keepLog_quiet _) sampleFunc (by decide) sampleFunc_blind [1] [] (by decide) _).1,
    (C152_transparent _ Prod.fst (keepLog_quiet _) sampleFunc (by decide) sampleFunc_blind [1, 2, 3] [] (by decide)
      _).1⟩

example : printCall ⟨true, some fun _ s => (.ok (), s), fun _ _ => ""⟩ sampleFunc [1] [] (0, []) = (.ok 2, (2, [])) := by
  rw [C152_off _ (.inr rfl)]
  decide

/-- The pixel sizes of a map of five by five cells, with 19 calls logged. -/
example (str : BlrbState ℚ → BlrbVal ℚ → String) : ∃ g l,
    pixelSizeGrid (fun x y => .ok ((90 : ℚ) - y + 2 * x)) 5 5 = .ok g ∧
    loggedPixelSize (keepLog str) (fun x y => .ok ((90 : ℚ) - y + 2 * x)) 5 5 (⟨5, 5, fun _ _ => some 0⟩, []) =
      (.ok (), (g, l)) ∧ Nested l ∧ l.count "SUCCESS!" = 19 := by
  obtain ⟨g, own, hg, -⟩ := C57_partial (fun x y => (90 : ℚ) - y + 2 * x) 5 (by decide)
  obtain ⟨h1, h2⟩ := (C152_pixel_sizes (keepLog_quiet str) (fun x y => .ok ((90 : ℚ) - y + 2 * x)) 5 5 []).1 g hg
  have hl := C152_messages (eval := fun x y => .ok ((90 : ℚ) - y + 2 * x)) str 1 []
    [("depth", .int 1), ("shape", .pair ((5 : ℕ) : ℚ) (5 : ℕ)), ("eval_func", .func), ("grid", .array)]
    (⟨5, 5, fun _ _ => some 0⟩, [])
  unfold loggedPixelSize at h1 h2 ⊢
  generalize loggedGrid (keepLog str) (fun x y => .ok ((90 : ℚ) - y + 2 * x)) 1 [] [("depth", .int 1),
    ("shape", .pair ((5 : ℕ) : ℚ) (5 : ℕ)), ("eval_func", .func), ("grid", .array)] (⟨5, 5, fun _ _ => some 0⟩, []) = x
    at h1 h2 hl ⊢
  obtain ⟨l, h3, h4, -⟩ := hl
  obtain ⟨h5, h6⟩ := h4 h1
  obtain ⟨x1, x2, x3⟩ := x
  simp only [List.nil_append] at h1 h2 h3
  subst h1 h2 h3
  exact ⟨x2, x3, hg, rfl, h5, h6⟩

end WindMult
