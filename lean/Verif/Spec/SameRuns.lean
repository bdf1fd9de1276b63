import Verif.Spec.Run

/-!
# Runs with the same result

Used in the statements C140–C142 on whole runs.
-/

set_option autoImplicit false

namespace WindMult
variable {K T : Type} [Zero K] [One K] [Mul K] [Max K]

/-- Completed runs with the parameters `a` and `b` (any schedules, any numbers of processes), from the same files, leave
the same contents at every path; only the order in which the virtual rasters list the tiles may differ. -/
def SameRuns (a b : RunCfg K T) : Prop :=
  ∀ (st0 : Store K T) (k k' : ℕ) (s s' : RunState K T), RunSteps a k (a.start st0) s → a.Done s →
    RunSteps b k' (b.start st0) s' → b.Done s' →
    (∀ p, p ≠ a.vrt → p ≠ a.vrtMax → s'.store p = s.store p) ∧
    ∃ l l' : List (List Char), l.Perm l' ∧
      s.store a.vrt = some (.vrt (l.map a.m3)) ∧ s.store a.vrtMax = some (.vrt (l.map a.m3Max)) ∧
      s'.store a.vrt = some (.vrt (l'.map a.m3)) ∧ s'.store a.vrtMax = some (.vrt (l'.map a.m3Max))

end WindMult
