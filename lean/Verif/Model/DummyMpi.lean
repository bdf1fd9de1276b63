import Verif.Model.Convert

/-!
# Without mpi4py (`/repo/utilities/parallel.py` 23-119)

What a program asks of the communicator, and the answers of `DummyCommWorld` and of mpi4py with one process.
-/

set_option autoImplicit false

namespace WindMult

/-- A program that calls the communicator (`/repo/all_multipliers.py` 741-777, `/repo/utilities/mpi_runner.py` 23-54):
`work` is anything it does on its own with the state `σ`, `look` goes on as the state says, the others are the calls.
`scatter` hands out values of type `V` (`none` is Python's `None`), `gather` collects values of type `W`.  The root is
always 0.  What is sent and received is left out. -/
inductive MpiCalls (σ V W : Type) : Type
  | done : MpiCalls σ V W
  | work (f : σ → Except PyErr σ) (k : MpiCalls σ V W) : MpiCalls σ V W
  | look (k : σ → MpiCalls σ V W) : MpiCalls σ V W
  | rank (k : ℕ → MpiCalls σ V W) : MpiCalls σ V W
  | size (k : ℕ → MpiCalls σ V W) : MpiCalls σ V W
  | barrier (k : MpiCalls σ V W) : MpiCalls σ V W
  | scatter (l : Option (List V)) (k : V → MpiCalls σ V W) : MpiCalls σ V W
  | gather (w : W) (k : Option (List W) → MpiCalls σ V W) : MpiCalls σ V W
  | status (k : MpiCalls σ V W) : MpiCalls σ V W
  | send (dest : ℕ) (k : MpiCalls σ V W) : MpiCalls σ V W
  | recv (k : MpiCalls σ V W) : MpiCalls σ V W

/-- With `DummyMPI` (`/repo/utilities/parallel.py` 35-80, 102-119): rank 0 of 1 (48-49), `barrier` does nothing (70-71),
`scatter` is the first entry (76-77), `gather` a list of one (79-80).  There is no `send` or `recv`
(`AttributeError`), and `Status` is an object that cannot be called (109, a `TypeError`), as is subscripting `None`;
all three are `runtimeError` here. -/
def dummyRun {σ V W : Type} : MpiCalls σ V W → σ → Except PyErr σ
  | .done, s => .ok s
  | .work f k, s => match f s with
    | .ok s' => dummyRun k s'
    | .error e => .error e
  | .look k, s => dummyRun (k s) s
  | .rank k, s => dummyRun (k 0) s
  | .size k, s => dummyRun (k 1) s
  | .barrier k, s => dummyRun k s
  | .scatter (some (v :: _)) k, s => dummyRun (k v) s
  | .scatter (some []) _, _ => .error .indexError
  | .scatter none _, _ => .error .runtimeError
  | .gather w k, s => dummyRun (k (some [w])) s
  | .status _, _ => .error .runtimeError
  | .send _ _, _ => .error .runtimeError
  | .recv _, _ => .error .runtimeError

/-- With mpi4py and one process (`/repo/utilities/parallel.py` 101; an assumption on mpi4py): `scatter` takes a list of as
many entries as there are processes and otherwise raises a `ValueError`; nobody is there to send to, and receiving
waits for ever. -/
def oneProcessRun {σ V W : Type} : MpiCalls σ V W → σ → Except PyErr σ
  | .done, s => .ok s
  | .work f k, s => match f s with
    | .ok s' => oneProcessRun k s'
    | .error e => .error e
  | .look k, s => oneProcessRun (k s) s
  | .rank k, s => oneProcessRun (k 0) s
  | .size k, s => oneProcessRun (k 1) s
  | .barrier k, s => oneProcessRun k s
  | .scatter (some [v]) k, s => oneProcessRun (k v) s
  | .scatter _ _, _ => .error .valueError
  | .gather w k, s => oneProcessRun (k (some [w])) s
  | .status k, s => oneProcessRun k s
  | .send _ _, _ => .error .runtimeError
  | .recv _, _ => .error .noEnd

/-- The parts of the program that do not call the communicator: `open_dem` if it is not open yet
(`/repo/all_multipliers.py` 491-492), a tile (494-496), the names of the tiles that were written
(`/repo/utilities/mpi_runner.py` 24-25), converting them (34-35), what that returns (35), and the virtual rasters
(41-53). -/
structure LocalParts (σ T N W : Type) where
  openDem : σ → Except PyErr σ
  tile : T → σ → Except PyErr σ
  names : σ → List N
  convert : List N → σ → Except PyErr σ
  results : σ → W
  build : List W → σ → Except PyErr σ

/-- `parallelise_on_tiles` (`/repo/all_multipliers.py` 439-499), then `k`.  With several processes (439-487) only the
kinds of calls are given; what happens then is in `Model/Dispatch`.  The progress callback (498-499) is not used. -/
def tilesCalls {σ T N W : Type} (p : LocalParts σ T N W) (tiles : List T) (k : MpiCalls σ (List N) W) :
    MpiCalls σ (List N) W :=
  .rank fun r => .size fun n =>
    if r = 0 ∧ n > 1 then .work p.openDem (.send 1 (.status (.recv k)))
    else if n > 1 ∧ r ≠ 0 then .recv (.send 0 k)
    else if n = 1 ∧ r = 0 then .work p.openDem (tiles.foldr (fun t c => .work (p.tile t) c) k)
    else k

/-- `parallelise_convert_on_tiles` (`/repo/utilities/mpi_runner.py` 23-54), then `k`.  The logging (31-32, 37, 42, 54) is
left out. -/
def convertCalls {σ T N W : Type} (p : LocalParts σ T N W) (k : MpiCalls σ (List N) W) : MpiCalls σ (List N) W :=
  let rest : List N → MpiCalls σ (List N) W := fun l =>
    .work (p.convert l) (.look fun s => .gather (p.results s) fun g => .rank fun r =>
      if r = 0 then match g with
        | some (w :: ws) => .work (p.build (w :: ws)) k
        | _ => k
      else k)
  .rank fun r => .size fun n =>
    if r = 0 then .look fun s => .scatter (some (rankSlices (p.names s) n)) rest
    else .scatter none rest

/-- The end of `run` (`/repo/all_multipliers.py` 767-777). -/
def runCalls {σ T N W : Type} (p : LocalParts σ T N W) (tiles : List T) : MpiCalls σ (List N) W :=
  .barrier (tilesCalls p tiles (.barrier (convertCalls p (.barrier .done))))

end WindMult
