import Verif.Model.Run

/-!
# Several runs at the same time (`/repo/all_multipliers.py` 714-777)

The program may be started several times on one machine, with different configurations, and other programs may be
running as well; all share the files.
-/

set_option autoImplicit false

namespace WindMult
variable {K T : Type} [Zero K] [One K] [Mul K] [Max K]

/-- Executions with exactly `k` steps of the run itself (`/repo/all_multipliers.py` 760-777); in between any other
program may change files that are not below the output folder of the run. The input files do not occur in the model of
a run: `files`, `empty` and `noLand` say what is computed from them, so it is taken for granted that nobody changes
them. -/
inductive SharedSteps (c : RunCfg K T) : ℕ → RunState K T → RunState K T → Prop
  | refl (s : RunState K T) : SharedSteps c 0 s s
  | own {k : ℕ} {s s' s'' : RunState K T} (h : SharedSteps c k s s') (h' : RunStep c s' s'') :
      SharedSteps c (k + 1) s s''
  | other {k : ℕ} {s s' : RunState K T} (h : SharedSteps c k s s') (st : Store K T)
      (h' : ∀ p, c.below <+: p → st p = s'.store p) : SharedSteps c k s { s' with store := st }

/-- The program started once for each `i`, with the configuration `cs i`, on common files: `state i` is where run `i`
is (its own `store` is not used), `store` the files. `/repo/all_multipliers.py` 756-777. -/
structure Together (ι K T : Type) where
  state : ι → RunState K T
  store : Store K T

variable {ι : Type} [DecidableEq ι]

/-- All runs at the start, on the files `st`. `/repo/all_multipliers.py` 760. -/
def Together.start (cs : ι → RunCfg K T) (st : Store K T) : Together ι K T :=
  ⟨fun i => (cs i).start st, st⟩

/-- One step of one process of one of the runs, on the common files. `/repo/all_multipliers.py` 760-777. -/
inductive TogetherStep (cs : ι → RunCfg K T) (i : ι) : Together ι K T → Together ι K T → Prop
  | mk (g : Together ι K T) (s' : RunState K T) (h : RunStep (cs i) { g.state i with store := g.store } s') :
      TogetherStep cs i g ⟨Function.update g.state i s', s'.store⟩

/-- Executions; `k i` steps are those of run `i`. `/repo/all_multipliers.py` 760-777. -/
inductive TogetherSteps (cs : ι → RunCfg K T) : (ι → ℕ) → Together ι K T → Together ι K T → Prop
  | refl (g : Together ι K T) : TogetherSteps cs (fun _ => 0) g g
  | step {k : ι → ℕ} {g g' g'' : Together ι K T} (h : TogetherSteps cs k g g') (i : ι)
      (h' : TogetherStep cs i g' g'') : TogetherSteps cs (Function.update k i (k i + 1)) g g''

end WindMult
