import Verif.Model.CallLog

/-!
# What is said about the log of calls (C152)
-/

set_option autoImplicit false

namespace WindMult
variable {S V A W : Type}

/-- The logger raises no exception and leaves alone what `π` shows of the state. -/
def CallLog.Quiet (c : CallLog S V) (π : S → W) : Prop :=
  ∀ log, c.logger = some log → ∀ m s, (log m s).1 = .ok () ∧ π (log m s).2 = π s

/-- The outcome of a computation, and what `π` shows of the state after it, depend only on what `π` shows
of the state before it. -/
def Blind (π : S → W) (p : Prog S A) : Prop :=
  ∀ s s', π s = π s' → (p s).1 = (p s').1 ∧ π (p s).2 = π (p s').2

/-- `text` tells the call of `module.name` with the given values: `parameter=value` for each of the
parameters, once each, in some order. -/
def TellsCall (module name : String) (params : List String) (values : List String) (text : String) : Prop :=
  ∃ items : List (String × String), items.Perm (params.zip values) ∧
    text = "\ncalling " ++ module ++ "." ++ name ++ "(\n\t" ++
      String.intercalate ",\n\t" (items.map fun x => x.1 ++ "=" ++ x.2) ++ "\n)\n"

/-- The message of a call. -/
def IsCallMessage (m : String) : Prop := "\ncalling ".toList <+: m.toList

/-- Messages like brackets: after each message of a call come those of the calls it makes, and then
`SUCCESS!`. -/
inductive Nested : List String → Prop
  | nil : Nested []
  | call (m : String) (inner rest : List String) (hm : IsCallMessage m) (hi : Nested inner) (hr : Nested rest) :
      Nested (m :: inner ++ "SUCCESS!" :: rest)

/-- The log that keeps the messages beside the rest of the state. -/
def keepLog (str : W × List String → V → String) : CallLog (W × List String) V :=
  ⟨false, some fun m s => (.ok (), (s.1, s.2 ++ [m])), str⟩

/-- A computation that logs `k` calls, well nested, if it returns.  If it raises an exception, the messages
become well nested when those calls that did not return get their `SUCCESS!`. -/
def Logs (k : ℕ) (p : Prog (W × List String) A) : Prop :=
  ∀ s, ∃ l, (p s).2.2 = s.2 ++ l ∧
    ((∃ a, (p s).1 = .ok a) → Nested l ∧ l.count "SUCCESS!" = k) ∧
    ((∃ e, (p s).1 = .error e) → ∃ m, Nested (l ++ List.replicate m "SUCCESS!"))

end WindMult
