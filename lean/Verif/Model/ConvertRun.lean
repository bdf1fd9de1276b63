import Verif.Model.Run

/-!
# The converter run on its own (`/repo/utilities/mpi_runner.py` 14-70)

`mpi_runner.py --path DIR` converts whatever multiplier files there are in a folder.  A transition
system like that of a whole run (`Model/Run.lean`), which contains the same function after the
computation of the tiles; here the folder may hold anything at the start.
-/

set_option autoImplicit false

namespace WindMult

/-- The folder given by `--path` (59) and the number of processes besides the master
(`comm.size - 1`). `/repo/utilities/mpi_runner.py` 57-70. -/
structure ConvCfg where
  out : List Char
  nW : ℕ

/-- The GeoTIFF of a tile (`/repo/utilities/convert.py` 155). -/
def ConvCfg.m3 (c : ConvCfg) (t : List Char) : List Char := pjoin c.out (m3File t)

/-- The GeoTIFF of the maxima of a tile (`/repo/utilities/convert.py` 70). -/
def ConvCfg.m3Max (c : ConvCfg) (t : List Char) : List Char := pjoin c.out (m3MaxFile t)

/-- The virtual raster of the tiles (`/repo/utilities/mpi_runner.py` 47-48). -/
def ConvCfg.vrt (c : ConvCfg) : List Char := pjoin (pjoin c.out ['M', '3']) vrtName

/-- The virtual raster of the maxima (`/repo/utilities/mpi_runner.py` 50-51). -/
def ConvCfg.vrtMax (c : ConvCfg) : List Char :=
  pjoin (pjoin c.out ['M', '3', '_', 'm', 'a', 'x']) vrtName

/-- `os.path.join(data_path, 'shielding')` (`/repo/utilities/mpi_runner.py` 25). -/
def ConvCfg.shieldDir (c : ConvCfg) : List Char := pjoin c.out Mult.ms.folder

/-- The state of all processes.

* `pos r`: where rank `r` is: 0 before `scatter` (`/repo/utilities/mpi_runner.py` 67-30), 1 in
  `converter.run()` (35) up to `gather` (38), 2 past it;
* `share r`: the tiles rank `r` got by `scatter`; `todo r`: those it has not finished converting;
  `half r`: it has written the GeoTIFF of the first of them, but not yet the maxima
  (`/repo/utilities/convert.py` 166-169);
* `store`: the files.

The folders made by `create_sub_dirs_for_convert` (68) are not represented, as folders never are. -/
structure ConvState (K T : Type) where
  pos : ℕ → ℕ
  share : ℕ → List (List Char)
  todo : ℕ → List (List Char)
  half : ℕ → Bool
  store : Store K T

variable {K T : Type}

/-- All processes at their start, with the given files. `/repo/utilities/mpi_runner.py` 64-70. -/
def ConvState.start (st : Store K T) : ConvState K T where
  pos := fun _ => 0
  share := fun _ => []
  todo := fun _ => []
  half := fun _ => false
  store := st

variable [Zero K] [One K] [Mul K] [Max K]

/-- One step of one process.  A process that raises an exception takes no further step.
`/repo/utilities/mpi_runner.py` 23-54. -/
inductive ConvStep (c : ConvCfg) : ConvState K T → ConvState K T → Prop
  /-- the master lists the tiles, in some order (`list` of a set), and scatters them (23-30).  Folders
  in the shielding folder, which `listdir` lists too, are left out. -/
  | list (s : ConvState K T) (l : List (List Char)) (h : s.pos 0 = 0) (hnd : l.Nodup)
      (hl : ∀ t, t ∈ l ↔ ∃ f, f ≠ [] ∧ '/' ∉ f ∧ s.store (pjoin c.shieldDir f) ≠ none ∧
        tileOfFile f = t) :
      ConvStep c s { s with
        pos := Function.update s.pos 0 1
        share := fun r => (rankSlices l (c.nW + 1))[r]?.getD []
        todo := fun r => (rankSlices l (c.nW + 1))[r]?.getD [] }
  /-- another process receives its share (30). -/
  | receive (s : ConvState K T) (r : ℕ) (h1 : 1 ≤ r) (hr : r ≤ c.nW) (h : s.pos r = 0)
      (h0 : 1 ≤ s.pos 0) : ConvStep c s { s with pos := Function.update s.pos r 1 }
  /-- `process_tile` (`/repo/utilities/convert.py` 168). -/
  | convert (s : ConvState K T) (r : ℕ) (t : List Char) (ts : List (List Char)) (x : TileTif K T)
      (hr : r ≤ c.nW) (h : s.pos r = 1) (htodo : s.todo r = t :: ts) (hhalf : s.half r = false)
      (hx : processTile (fun m d => readMult s.store (openedNc c.out t d m)) = .ok x) :
      ConvStep c s { s with
        half := Function.update s.half r true
        store := Function.update s.store (c.m3 t) (some (.tif x)) }
  /-- `process_max_tile` (`/repo/utilities/convert.py` 169), which opens the GeoTIFF just written. -/
  | convertMax (s : ConvState K T) (r : ℕ) (t : List Char) (ts : List (List Char)) (x : TileTif K T)
      (mx : Raster K T) (hr : r ≤ c.nW) (h : s.pos r = 1) (htodo : s.todo r = t :: ts)
      (hhalf : s.half r = true) (hfile : s.store (c.m3 t) = some (.tif x))
      (hx : processMaxTile x = .ok mx) :
      ConvStep c s { s with
        half := Function.update s.half r false
        todo := Function.update s.todo r ts
        store := Function.update s.store (c.m3Max t) (some (.maxTif mx)) }
  /-- another process sends its list of files (38). -/
  | send (s : ConvState K T) (r : ℕ) (h1 : 1 ≤ r) (hr : r ≤ c.nW) (h : s.pos r = 1)
      (htodo : s.todo r = []) : ConvStep c s { s with pos := Function.update s.pos r 2 }
  /-- the master gathers the lists and writes the virtual rasters (38-52).  `len(results)` (41) is the
  number of processes, hence the other branch is never taken. -/
  | gather (s : ConvState K T) (h : s.pos 0 = 1) (htodo : s.todo 0 = [])
      (hall : ∀ r, 1 ≤ r → r ≤ c.nW → 2 ≤ s.pos r) :
      ConvStep c s { s with
        pos := Function.update s.pos 0 2
        store := Function.update
          (Function.update s.store c.vrt
            (some (.vrt (((List.range (c.nW + 1)).flatMap s.share).map c.m3))))
          c.vrtMax (some (.vrt (((List.range (c.nW + 1)).flatMap s.share).map c.m3Max))) }

/-- Executions of exactly `k` steps. `/repo/utilities/mpi_runner.py` 57-70. -/
inductive ConvSteps (c : ConvCfg) : ℕ → ConvState K T → ConvState K T → Prop
  | refl (s : ConvState K T) : ConvSteps c 0 s s
  | step {k : ℕ} {s s' s'' : ConvState K T} (h : ConvSteps c k s s') (h' : ConvStep c s' s'') :
      ConvSteps c (k + 1) s s''

end WindMult
