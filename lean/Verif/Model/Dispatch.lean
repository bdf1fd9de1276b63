import Mathlib.Logic.Function.Basic
import Mathlib.Data.Nat.Notation

/-!
# Master/worker dispatch of tiles (`/repo/all_multipliers.py` 429-499)

A transition system: one step is one statement of the master or of one worker that sends,
receives, computes or returns.  Messages travel in per-worker FIFO queues (MPI guarantees
order between one sender and one receiver on one communicator and tag).  Sends are buffered.
-/

set_option autoImplicit false

namespace WindMult

/-- Control state of a worker, `/repo/all_multipliers.py` 481-487. `waiting`: blocked in
`comm.recv`; `busy t`: inside `multipliers_calculate` for tile `t`; `finished`: left the loop
after receiving `None`; `crashed t`: the process died inside `multipliers_calculate`. -/
inductive WState (T : Type)
  | waiting
  | busy (t : T)
  | finished
  | crashed (t : T)

/-- Control state of the master, `/repo/all_multipliers.py` 439-477. `init d`: about to run the
body of `for d in range(1, comm.size)`; `loop terminated`: at the test `while terminated < p`;
`returned`: past the loop. -/
inductive MPhase
  | init (d : ℕ)
  | loop (terminated : ℕ)
  | returned

/-- Global state.  `w`, `p` are the master's variables (442-443); `work d` is the queue of
messages master → rank `d` (`some t`: `[dem_tile, tile]`, `none`: `None`); `results d` the
number of undelivered result messages rank `d` → master; `computed` the log of tiles whose
`multipliers_calculate` has returned, latest first (history variable). `/repo/all_multipliers.py`
429-499. -/
structure DState (T : Type) where
  w : ℕ
  p : ℕ
  phase : MPhase
  work : ℕ → List (Option T)
  results : ℕ → ℕ
  wk : ℕ → WState T
  computed : List T

variable {T : Type}

/-- Start of `parallelise_on_tiles` with `nW = comm.size - 1` workers (442-444).
`/repo/all_multipliers.py` 442-444. -/
def DState.start (nW : ℕ) : DState T where
  w := 0
  p := nW
  phase := .init 1
  work := fun _ => []
  results := fun _ => 0
  wk := fun _ => .waiting
  computed := []

/-- One step of the system with tile list `tiles` and workers of rank `1 … nW`
(`/repo/all_multipliers.py` 439-487).  `crashes` says whether worker processes may die.
Logging, `progress_callback`, the creation of the DEM cut-out (`cut_dem`) and the content of
result messages are left out. -/
inductive DStep (tiles : List T) (nW : ℕ) (crashes : Prop) : DState T → DState T → Prop
  /-- 445-450: `w < len(tiles)`: send tile `w` to rank `d`. -/
  | dispatch (s : DState T) (d : ℕ) (t : T) (hphase : s.phase = .init d) (hd : d ≤ nW)
      (hw : tiles[s.w]? = some t) :
      DStep tiles nW crashes s
        { s with work := Function.update s.work d (s.work d ++ [some t])
                 w := s.w + 1
                 phase := .init (d + 1) }
  /-- 451-453: no tile left: send `None`, `p = w`. -/
  | dispatchNone (s : DState T) (d : ℕ) (hphase : s.phase = .init d) (hd : d ≤ nW)
      (hw : tiles.length ≤ s.w) :
      DStep tiles nW crashes s
        { s with work := Function.update s.work d (s.work d ++ [none])
                 p := s.w
                 phase := .init (d + 1) }
  /-- end of the `for` loop, `terminated = 0` (455). -/
  | endInit (s : DState T) (d : ℕ) (hphase : s.phase = .init d) (hd : nW < d) :
      DStep tiles nW crashes s { s with phase := .loop 0 }
  /-- 457-470: receive a result from any rank `d`, send it the next tile. -/
  | recvMore (s : DState T) (d k : ℕ) (t : T) (hphase : s.phase = .loop k) (hk : k < s.p)
      (hd1 : 1 ≤ d) (hd : d ≤ nW) (hres : 0 < s.results d) (hw : tiles[s.w]? = some t) :
      DStep tiles nW crashes s
        { s with results := Function.update s.results d (s.results d - 1)
                 work := Function.update s.work d (s.work d ++ [some t])
                 w := s.w + 1 }
  /-- 471-473: receive a result from any rank `d`, send it `None`, `terminated += 1`. -/
  | recvLast (s : DState T) (d k : ℕ) (hphase : s.phase = .loop k) (hk : k < s.p)
      (hd1 : 1 ≤ d) (hd : d ≤ nW) (hres : 0 < s.results d) (hw : tiles.length ≤ s.w) :
      DStep tiles nW crashes s
        { s with results := Function.update s.results d (s.results d - 1)
                 work := Function.update s.work d (s.work d ++ [none])
                 phase := .loop (k + 1) }
  /-- 457: loop condition false, the method returns on the master. -/
  | masterReturn (s : DState T) (k : ℕ) (hphase : s.phase = .loop k) (hk : s.p ≤ k) :
      DStep tiles nW crashes s { s with phase := .returned }
  /-- 483, 486: a waiting worker receives a tile and starts computing it. -/
  | workerTake (s : DState T) (d : ℕ) (t : T) (q : List (Option T)) (hd1 : 1 ≤ d) (hd : d ≤ nW)
      (hwk : s.wk d = .waiting) (hq : s.work d = some t :: q) :
      DStep tiles nW crashes s
        { s with work := Function.update s.work d q
                 wk := Function.update s.wk d (.busy t) }
  /-- 483-485: a waiting worker receives `None` and returns. -/
  | workerStop (s : DState T) (d : ℕ) (q : List (Option T)) (hd1 : 1 ≤ d) (hd : d ≤ nW)
      (hwk : s.wk d = .waiting) (hq : s.work d = none :: q) :
      DStep tiles nW crashes s
        { s with work := Function.update s.work d q
                 wk := Function.update s.wk d .finished }
  /-- 486-487: the computation returns, the result is sent. -/
  | workerDone (s : DState T) (d : ℕ) (t : T) (hd1 : 1 ≤ d) (hd : d ≤ nW)
      (hwk : s.wk d = .busy t) :
      DStep tiles nW crashes s
        { s with computed := t :: s.computed
                 results := Function.update s.results d (s.results d + 1)
                 wk := Function.update s.wk d .waiting }
  /-- the worker process dies inside `multipliers_calculate`. -/
  | workerCrash (s : DState T) (d : ℕ) (t : T) (hc : crashes) (hd1 : 1 ≤ d) (hd : d ≤ nW)
      (hwk : s.wk d = .busy t) :
      DStep tiles nW crashes s { s with wk := Function.update s.wk d (.crashed t) }

/-- Executions of exactly `k` steps. `/repo/all_multipliers.py` 429-499. -/
inductive DRun (tiles : List T) (nW : ℕ) (crashes : Prop) : ℕ → DState T → DState T → Prop
  | refl (s : DState T) : DRun tiles nW crashes 0 s s
  | step {k : ℕ} {s s' s'' : DState T} (h : DRun tiles nW crashes k s s')
      (h' : DStep tiles nW crashes s' s'') : DRun tiles nW crashes (k + 1) s s''

/-- The single-process branch (`/repo/all_multipliers.py` 489-499): the log of tiles after the
`for` loop, oldest first. -/
def serialRun (tiles : List T) : List T :=
  tiles.foldl (fun log t => log ++ [t]) []

end WindMult
