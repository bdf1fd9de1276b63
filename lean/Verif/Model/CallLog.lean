import Verif.Model.Blrb

/-!
# The decorator that logs calls (`/repo/utilities/meta.py` 36-86) and the interpolation with it
(`/repo/utilities/blrb.py`)

`Model/Blrb.lean` models the five functions of `blrb.py` without their decorator.  Here the decorator
is modelled for any function, and the five functions are modelled with it.
-/

set_option autoImplicit false

namespace WindMult

/-- The exceptions of the functions modelled here: a call that does not fit the parameters, a failed
assertion (`/repo/utilities/blrb.py` 189-190), or another. -/
inductive CallErr
  | typeError
  | assertion
  | other (e : PyErr)
  deriving DecidableEq

/-- A Python computation that reads and changes the state and returns or raises an exception; what it
changed before the exception stays (e.g. the grid, `/repo/utilities/blrb.py` 150). -/
abbrev Prog (S A : Type) : Type := S → Except CallErr A × S

section Prog
variable {S A B : Type}

/-- `return a` (e.g. `/repo/utilities/meta.py` 82). -/
def Prog.ret (a : A) : Prog S A := fun s => (.ok a, s)

/-- `raise` (e.g. `/repo/utilities/blrb.py` 189). -/
def Prog.fail (e : CallErr) : Prog S A := fun s => (.error e, s)

/-- One computation after another (e.g. `/repo/utilities/meta.py` 80-82): not if there was an
exception. -/
def Prog.andThen (p : Prog S A) (f : A → Prog S B) : Prog S B := fun s =>
  match p s with
  | (.ok a, s') => f a s'
  | (.error e, s') => (.error e, s')

/-- A computation without effect, like a call of `eval_func` (`/repo/utilities/blrb.py` 142-145). -/
def Prog.lift (x : Except PyErr A) : Prog S A := fun s =>
  match x with
  | .ok a => (.ok a, s)
  | .error e => (.error (.other e), s)

/-- A `for` loop (e.g. `/repo/utilities/blrb.py` 196-198). -/
def Prog.forEach : List A → (A → Prog S Unit) → Prog S Unit
  | [], _ => Prog.ret ()
  | a :: l, f => (f a).andThen fun _ => Prog.forEach l f

end Prog

/-- A function (e.g. `/repo/utilities/blrb.py` 108-150): its module and name, its parameters with their
defaults, and what it does with a value for each parameter.  Only parameters that may be given by
position or by keyword: the decorated functions have no others. -/
structure PyFunc (S V A : Type) where
  module : String
  name : String
  params : List (String × Option V)
  body : List V → Prog S A

section Call
variable {S V A : Type}

/-- A value for each parameter: those given by position, then those given by keyword, or else the
defaults (`/repo/utilities/meta.py` 80, the rules of a call of Python). -/
def fillSlots : List (String × Option V) → List V → List (String × V) → Except CallErr (List V)
  | [], _, _ => .ok []
  | _ :: ps, a :: args, kw =>
    match fillSlots ps args kw with
    | .ok vs => .ok (a :: vs)
    | .error e => .error e
  | (n, d) :: ps, [], kw =>
    match (kw.lookup n).or d with
    | none => .error .typeError
    | some v =>
      match fillSlots ps [] kw with
      | .ok vs => .ok (v :: vs)
      | .error e => .error e

/-- The rules of a call of Python (`/repo/utilities/meta.py` 80): also, not too many arguments by
position, no unknown keyword, and no parameter given twice. -/
def bindArgs (ps : List (String × Option V)) (args : List V) (kw : List (String × V)) :
    Except CallErr (List V) :=
  if ps.length < args.length ∨ (∃ k ∈ kw, k.1 ∉ ps.map Prod.fst) ∨
      ∃ k ∈ kw, k.1 ∈ (ps.map Prod.fst).take args.length then .error .typeError
  else fillSlots ps args kw

/-- `func(*args, **kwargs)` (`/repo/utilities/meta.py` 80). -/
def PyFunc.call (f : PyFunc S V A) (args : List V) (kw : List (String × V)) : Prog S A := fun s =>
  match bindArgs f.params args kw with
  | .ok vs => f.body vs s
  | .error e => (.error e, s)

/-- `inspect.getcallargs(func, *args, **kwargs).items()` (`/repo/utilities/meta.py` 49), as the standard
library computes it: the arguments by position, those by keyword, then the defaults of the others, in
this order. -/
def getcallargs (ps : List (String × Option V)) (args : List V) (kw : List (String × V)) :
    Except CallErr (List (String × V)) :=
  let positional := (ps.map Prod.fst).zip args
  let given := positional ++ kw
  if ∃ k ∈ kw, k.1 ∉ ps.map Prod.fst ∨ k.1 ∈ positional.map Prod.fst then .error .typeError
  else if ps.length < args.length then .error .typeError
  else if ∃ p ∈ ps, p.2.isNone ∧ p.1 ∉ given.map Prod.fst then .error .typeError
  else .ok (given ++ ps.filterMap fun p =>
    if p.1 ∈ given.map Prod.fst then none else p.2.map fun d => (p.1, d))

/-- What the decorator uses: `RUNNING_SPHINX` (`/repo/utilities/meta.py` 10), the logger, if any (52), and
`str` (48), which may read the state, as for an array. `str` is taken to raise no exception. -/
structure CallLog (S V : Type) where
  sphinx : Bool
  logger : Option (String → Prog S Unit)
  str : S → V → String

/-- `create_arg_string` (`/repo/utilities/meta.py` 36-49). -/
def createArgString (c : CallLog S V) (f : PyFunc S V A) (args : List V) (kw : List (String × V)) (s : S) :
    Except CallErr String :=
  match getcallargs f.params args kw with
  | .ok items => .ok (String.intercalate ",\n\t" (items.map fun x => String.intercalate "=" [x.1, c.str s x.2]))
  | .error e => .error e

/-- The message of a call (`/repo/utilities/meta.py` 78-79). -/
def callMessage (f : PyFunc S V A) (argStr : String) : String :=
  "\ncalling " ++ f.module ++ "." ++ f.name ++ "(\n\t" ++ argStr ++ "\n)\n"

/-- A decorated function, called (`/repo/utilities/meta.py` 52-86). -/
def printCall (c : CallLog S V) (f : PyFunc S V A) (args : List V) (kw : List (String × V)) : Prog S A :=
  match c.logger with
  | none => f.call args kw
  | some log =>
    if c.sphinx then f.call args kw
    else fun s =>
      match createArgString c f args kw s with
      | .error e => (.error e, s)
      | .ok a =>
        ((log (callMessage f a)).andThen fun _ => (f.call args kw).andThen fun res =>
          (log "SUCCESS!").andThen fun _ => Prog.ret res) s

end Call

/-! ### `blrb.py` -/

/-- The arguments of the functions of `/repo/utilities/blrb.py`: a depth, a pair of numbers, a number,
`numpy.float64`, the evaluator, the grid, `None`. -/
inductive BlrbVal (K : Type)
  | int (n : ℕ)
  | pair (a b : K)
  | num (x : K)
  | float64
  | func
  | array
  | none

section Blrb
variable {K : Type} [Field K] [LinearOrder K] [IsStrictOrderedRing K] [FloorRing K]

/-- The state of `/repo/utilities/blrb.py`: the grid, which is changed in place (150), and the messages
logged so far. -/
abbrev BlrbState (K : Type) : Type := Grid (Option K) × List String

/-- `indices` (`/repo/utilities/blrb.py` 59-74).  Here and below, arguments of other types are taken to
raise a `TypeError` at once. -/
def loggedIndices (c : CallLog (BlrbState K) (BlrbVal K)) :
    List (BlrbVal K) → List (String × BlrbVal K) → Prog (BlrbState K) (K × K × K × K) :=
  printCall c ⟨"utilities.blrb", "indices", [("origin", some (.pair 0 0)), ("shape", some (.pair 8 8))], fun
    | [.pair oi oj, .pair ni nj] => Prog.ret (oi, oi + ni - 1, oj, oj + nj - 1)
    | _ => Prog.fail .typeError⟩

/-- `subdivide` (`/repo/utilities/blrb.py` 77-104), the four corners of the four blocks. -/
def loggedSubdivide (c : CallLog (BlrbState K) (BlrbVal K)) :
    List (BlrbVal K) → List (String × BlrbVal K) →
      Prog (BlrbState K) (List ((K × K) × (K × K) × (K × K) × (K × K))) :=
  printCall c ⟨"utilities.blrb", "subdivide", [("origin", some (.pair 0 0)), ("shape", some (.pair 8 8))], fun
    | [.pair oi oj, .pair ni nj] =>
      (loggedIndices c [.pair oi oj, .pair ni nj] []).andThen fun q =>
        let i0 := q.1
        let ie := q.2.1
        let j0 := q.2.2.1
        let je := q.2.2.2
        let ic := oi + ni / 2
        let jc := oj + nj / 2
        Prog.ret [((i0, j0), (i0, jc), (ic, j0), (ic, jc)),
          ((ic, j0), (ic, jc), (ie, j0), (ie, jc)),
          ((i0, jc), (i0, je), (ic, jc), (ic, je)),
          ((ic, jc), (ic, je), (ie, jc), (ie, je))]
    | _ => Prog.fail .typeError⟩

/-- `bilinear` (`/repo/utilities/blrb.py` 23-56); the type of data is not used otherwise. -/
def loggedBilinear (c : CallLog (BlrbState K) (BlrbVal K)) :
    List (BlrbVal K) → List (String × BlrbVal K) → Prog (BlrbState K) (Grid (Option K)) :=
  printCall c ⟨"utilities.blrb", "bilinear", [("shape", none), ("f_ul", none), ("f_ur", none), ("f_lr", none),
      ("f_ll", none), ("dtype", some .float64)], fun
    | [.pair nr nc, .num ul, .num ur, .num lr, .num ll, _] => Prog.ret (bilinear nr nc ul ur lr ll)
    | _ => Prog.fail .typeError⟩

/-- `interpolate_block` (`/repo/utilities/blrb.py` 107-150). -/
def loggedBlock (c : CallLog (BlrbState K) (BlrbVal K)) (eval : ℤ → ℤ → Except PyErr K) :
    List (BlrbVal K) → List (String × BlrbVal K) → Prog (BlrbState K) (Option (Grid (Option K))) :=
  printCall c ⟨"utilities.blrb", "interpolate_block", [("origin", some (.pair 0 0)), ("shape", some (.pair 8 8)),
      ("eval_func", some .none), ("grid", some .none)], fun
    | [.pair oi oj, .pair ni nj, .func, grid] =>
      (loggedIndices c [.pair oi oj, .pair ni nj] []).andThen fun q =>
        let i0 := ⌊q.1⌋
        let j0 := ⌊q.2.2.1⌋
        let i1 := ⌈q.2.1⌉
        let j1 := ⌈q.2.2.2⌉
        (Prog.lift (eval i0 j0)).andThen fun fUL =>
        (Prog.lift (eval i1 j0)).andThen fun fLL =>
        (Prog.lift (eval i0 j1)).andThen fun fUR =>
        (Prog.lift (eval i1 j1)).andThen fun fLR =>
        (loggedBilinear c [.pair ni nj, .num fUL, .num fUR, .num fLR, .num fLL] []).andThen fun a =>
          match grid with
          | .none => Prog.ret (some a)
          | .array => fun s =>
            match assignBlock s.1 i0 i1 j0 j1 a with
            | .ok g => (.ok none, (g, s.2))
            | .error e => (.error (.other e), s)
          | _ => Prog.fail .typeError
    | _ => Prog.fail .typeError⟩

/-- The parameters of `interpolate_grid` (`/repo/utilities/blrb.py` 154-155). -/
def gridParams : List (String × Option (BlrbVal K)) :=
  [("depth", some (.int 0)), ("origin", some (.pair 0 0)), ("shape", some (.pair 8 8)), ("eval_func", some .none),
    ("grid", some .none)]

/-- `interpolate_grid` (`/repo/utilities/blrb.py` 153-198), with a depth that is given as an argument and
again as the first argument here, for the recursion; calls in which the two differ mean nothing.
Depths are not negative. -/
def loggedGrid (c : CallLog (BlrbState K) (BlrbVal K)) (eval : ℤ → ℤ → Except PyErr K) :
    ℕ → List (BlrbVal K) → List (String × BlrbVal K) → Prog (BlrbState K) Unit
  | 0 => printCall c ⟨"utilities.blrb", "interpolate_grid", gridParams, fun
    | [.int _, .pair oi oj, .pair ni nj, .func, .array] =>
      (loggedBlock c eval [.pair oi oj, .pair ni nj, .func, .array] []).andThen fun _ => Prog.ret ()
    | _ => Prog.fail .assertion⟩
  | n + 1 => printCall c ⟨"utilities.blrb", "interpolate_grid", gridParams, fun
    | [.int _, .pair oi oj, .pair ni nj, .func, .array] =>
      (loggedSubdivide c [.pair oi oj, .pair ni nj] []).andThen fun blocks =>
        Prog.forEach blocks fun k => loggedGrid c eval n [.int n, .pair k.1.1 k.1.2,
          .pair (k.2.2.2.1 - k.1.1 + 1) (k.2.2.2.2 - k.1.2 + 1), .func, .array] []
    | _ => Prog.fail .assertion⟩

/-- The call that makes one of the two grids of pixel sizes
(`/repo/utilities/get_pixel_size_grid.py` 145-153). -/
def loggedPixelSize (c : CallLog (BlrbState K) (BlrbVal K)) (size : ℤ → ℤ → Except PyErr K) (rows cols : ℕ) :
    Prog (BlrbState K) Unit :=
  loggedGrid c size 1 [] [("depth", .int 1), ("shape", .pair rows cols), ("eval_func", .func), ("grid", .array)]

end Blrb

end WindMult
