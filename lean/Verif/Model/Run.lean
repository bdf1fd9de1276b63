import Verif.Model.Dispatch
import Verif.Model.TempFiles

/-!
# A whole run of all processes (`/repo/all_multipliers.py` 756-777)

A transition system for the part of `run` that touches the output folder: the master prepares the
folder, barrier, the tiles are computed in parallel, barrier, the files are converted in parallel,
barrier.  One step is one file operation or one communication of one process; the steps of different
processes are interleaved arbitrarily.  The conversion of a tile (reading 24 files and writing one)
is one step, the maximum of a tile another.  A process that raises an exception takes no further step.
-/

set_option autoImplicit false

namespace WindMult

/-- What a file holds: a temporary raster, a multiplier of a tile, the GeoTIFF of a tile, its maximum
over the directions, or a virtual raster, which lists files. The files written at
`/repo/all_multipliers.py` 326, 395, by the three steps (`/repo/all_multipliers.py` 403-412) and by
`/repo/utilities/convert.py` 70-77, 155-165. -/
inductive Content (K T : Type)
  | scratch
  | mult (r : Raster K T)
  | tif (x : TileTif K T)
  | maxTif (r : Raster K T)
  | vrt (l : List (List Char))

/-- The files and what they hold.  Directories are not represented (see `Model/OutputDir.lean`).
`/repo/all_multipliers.py` 756-777. -/
abbrev Store (K T : Type) := List Char → Option (Content K T)

/-- The parameters of a run: the output folder (absolute), the names of the tiles, the number of
worker processes (`comm.size - 1`), whether the DEM of a tile is empty and whether its land cover is
unknown throughout (as in `tileOps`), and the multipliers computed for a tile.
`/repo/all_multipliers.py` 754-777. -/
structure RunCfg (K T : Type) where
  out : List Char
  tiles : List (List Char)
  nW : ℕ
  empty : List Char → Bool
  noLand : List Char → Bool
  files : List Char → Mult → Dir → Raster K T

variable {K T : Type}

/-- What the computation of tile `t` writes to the path `p` (`save_multiplier`,
`/repo/terrain/terrain_mult.py` 149, `/repo/shielding/shield_mult.py` 328,
`/repo/topographic/topo_mult.py` 148): multipliers to the multiplier files, temporary rasters
elsewhere. -/
def RunCfg.written (c : RunCfg K T) (t p : List Char) : Content K T :=
  match (Mult.order.flatMap fun m => Dir.convertOrder.map fun d => (m, d)).find?
      (fun md => decide (p = savedNc c.out t md.2 md.1)) with
  | some (m, d) => .mult (c.files t m d)
  | none => .scratch

/-- The effect of a file operation on files with contents; `w p` is what is written to `p`.  The same
operations without contents: `FileOp.run`. `/repo/all_multipliers.py` 367-427. -/
def FileOp.exec (w : List Char → Content K T) (st : Store K T) : FileOp → Except PyErr (Store K T)
  | .create p => .ok (Function.update st p (some (w p)))
  | .remove p => if (st p).isSome then .ok (Function.update st p none) else .error .osError
  | .removeIfThere p => .ok (Function.update st p none)
  | .expect p => if (st p).isSome then .ok st else .error .osError
  | .removeXml dir => .ok (fun q => if isXmlIn dir q then none else st q)

/-- `gdal.Open` of a multiplier file (`/repo/utilities/convert.py` 117): `none` if there is no such
file, or no raster that could be read. -/
def readMult (st : Store K T) (p : List Char) : Option (Raster K T) :=
  match st p with
  | some (.mult r) => some r
  | _ => none

/-- The output folder with a final slash: the paths below it start with this. `output_folder`,
`/repo/all_multipliers.py` 758-759. -/
def RunCfg.below (c : RunCfg K T) : List Char := pjoin c.out []

/-- `do_output_directory_creation` (`/repo/all_multipliers.py` 556-583) as far as files are concerned:
everything below the output folder is removed (the directories: `Model/OutputDir.lean`). -/
def RunCfg.wipe (c : RunCfg K T) (st : Store K T) : Store K T :=
  fun p => if c.below <+: p then none else st p

/-- The GeoTIFF of a tile (`/repo/utilities/convert.py` 155). -/
def RunCfg.m3 (c : RunCfg K T) (t : List Char) : List Char := pjoin c.out (m3File t)

/-- The GeoTIFF of the maxima of a tile (`/repo/utilities/convert.py` 70). -/
def RunCfg.m3Max (c : RunCfg K T) (t : List Char) : List Char := pjoin c.out (m3MaxFile t)

/-- `'wind-multipliers.vrt'` (`/repo/utilities/mpi_runner.py` 48, 51). -/
def vrtName : List Char :=
  ['w', 'i', 'n', 'd', '-', 'm', 'u', 'l', 't', 'i', 'p', 'l', 'i', 'e', 'r', 's', '.', 'v', 'r', 't']

/-- The virtual raster of the tiles (`/repo/utilities/mpi_runner.py` 47-49). -/
def RunCfg.vrt (c : RunCfg K T) : List Char := pjoin (pjoin c.out ['M', '3']) vrtName

/-- The virtual raster of the maxima (`/repo/utilities/mpi_runner.py` 50-52). -/
def RunCfg.vrtMax (c : RunCfg K T) : List Char :=
  pjoin (pjoin c.out ['M', '3', '_', 'm', 'a', 'x']) vrtName

/-- The folder whose files name the tiles to convert (`/repo/utilities/mpi_runner.py` 25). -/
def RunCfg.shieldDir (c : RunCfg K T) : List Char := pjoin c.out Mult.ms.folder

/-- The file operations of a tile. `/repo/all_multipliers.py` 367-427. -/
def RunCfg.ops (c : RunCfg K T) (t : List Char) : List FileOp :=
  tileOps c.out t (c.empty t) (c.noLand t)

/-- The state of all processes.

* `pos r`: where rank `r` is: 0 before `do_output_directory_creation` (760), 1 in the first barrier
  (767), 2 in `parallelise_on_tiles` (770), 3 in the second barrier (772), 4 in
  `parallelise_convert_on_tiles` before `scatter` (`/repo/utilities/mpi_runner.py` 23-30), 5 in
  `converter.run()` (35) up to `gather` (38), 6 in the third barrier (777), 7 past it;
* `disp`: the dispatch of the tiles (`Model/Dispatch.lean`);
* `rem t`: the file operations of tile `t` still to be done;
* `share r`: the tiles rank `r` got by `scatter`; `todo r`: those it has not finished converting;
  `half r`: it has written the GeoTIFF of the first of them, but not yet the maxima;
* `store`: the files. -/
structure RunState (K T : Type) where
  pos : ℕ → ℕ
  disp : DState (List Char)
  rem : List Char → List FileOp
  share : ℕ → List (List Char)
  todo : ℕ → List (List Char)
  half : ℕ → Bool
  store : Store K T

/-- All processes before line 760, with the given files. `/repo/all_multipliers.py` 760. -/
def RunCfg.start (c : RunCfg K T) (st : Store K T) : RunState K T where
  pos := fun _ => 0
  disp := DState.start c.nW
  rem := c.ops
  share := fun _ => []
  todo := fun _ => []
  half := fun _ => false
  store := st

variable [Zero K] [One K] [Mul K] [Max K]

/-- One step of one process.  A barrier can be left when all ranks have reached it.
`/repo/all_multipliers.py` 760-777. -/
inductive RunStep (c : RunCfg K T) : RunState K T → RunState K T → Prop
  /-- `do_output_directory_creation` on the master (760). -/
  | prepare (s : RunState K T) (h : s.pos 0 = 0) :
      RunStep c s { s with pos := Function.update s.pos 0 1, store := c.wipe s.store }
  /-- the same on a worker: nothing is done (`disable_on_workers`). -/
  | skip (s : RunState K T) (r : ℕ) (h1 : 1 ≤ r) (hr : r ≤ c.nW) (h : s.pos r = 0) :
      RunStep c s { s with pos := Function.update s.pos r 1 }
  /-- the first barrier (767). -/
  | leave1 (s : RunState K T) (r : ℕ) (hr : r ≤ c.nW) (h : s.pos r = 1)
      (hall : ∀ q, q ≤ c.nW → 1 ≤ s.pos q) :
      RunStep c s { s with pos := Function.update s.pos r 2 }
  /-- a step of the dispatch (429-487), with workers.  The acting process must be in
  `parallelise_on_tiles` (`hmaster`, `hworker`: exactly the workers' steps change `wk`).  The master
  sends a tile after cutting its DEM (`hcut`: all but the first operation is left); a worker answers
  when the operations of the tile are done (`hdone`).  A tile whose computation raises an exception
  is not answered. -/
  | sched (s : RunState K T) (d' : DState (List Char)) (hn : 1 ≤ c.nW)
      (h : DStep c.tiles c.nW False s.disp d')
      (hmaster : d'.wk = s.disp.wk → s.pos 0 = 2)
      (hworker : ∀ d, d'.wk d ≠ s.disp.wk d → s.pos d = 2)
      (hcut : d'.w ≠ s.disp.w → ∀ t, c.tiles[s.disp.w]? = some t → s.rem t = (c.ops t).tail)
      (hdone : ∀ t, d'.computed = t :: s.disp.computed → s.rem t = []) :
      RunStep c s { s with disp := d' }
  /-- `cut_dem` on the master (446, 466).  It is allowed here to cut the next tile also before the
  result of the previous one is received. -/
  | masterOp (s : RunState K T) (t : List Char) (o : FileOp) (os : List FileOp) (st : Store K T)
      (hn : 1 ≤ c.nW) (h : s.pos 0 = 2) (ht : c.tiles[s.disp.w]? = some t)
      (hfull : s.rem t = c.ops t) (ho : s.rem t = o :: os)
      (hst : o.exec (c.written t) s.store = .ok st) :
      RunStep c s { s with rem := Function.update s.rem t os, store := st }
  /-- one file operation of `multipliers_calculate` on a worker (486). -/
  | workerOp (s : RunState K T) (d : ℕ) (t : List Char) (o : FileOp) (os : List FileOp)
      (st : Store K T) (hd1 : 1 ≤ d) (hd : d ≤ c.nW) (h : s.pos d = 2)
      (hbusy : s.disp.wk d = .busy t) (ho : s.rem t = o :: os)
      (hst : o.exec (c.written t) s.store = .ok st) :
      RunStep c s { s with rem := Function.update s.rem t os, store := st }
  /-- one file operation when there is only one process (489-499): the tiles in turn. -/
  | serialOp (s : RunState K T) (i : ℕ) (t : List Char) (o : FileOp) (os : List FileOp)
      (st : Store K T) (hn : c.nW = 0) (h : s.pos 0 = 2) (ht : c.tiles[i]? = some t)
      (hprev : ∀ j t', j < i → c.tiles[j]? = some t' → s.rem t' = []) (ho : s.rem t = o :: os)
      (hst : o.exec (c.written t) s.store = .ok st) :
      RunStep c s { s with rem := Function.update s.rem t os, store := st }
  /-- `parallelise_on_tiles` returns on the master or the only process. -/
  | masterEnd (s : RunState K T) (h : s.pos 0 = 2) (hret : 1 ≤ c.nW → s.disp.phase = .returned)
      (hser : c.nW = 0 → ∀ t ∈ c.tiles, s.rem t = []) :
      RunStep c s { s with pos := Function.update s.pos 0 3 }
  /-- `parallelise_on_tiles` returns on a worker. -/
  | workerEnd (s : RunState K T) (d : ℕ) (hd1 : 1 ≤ d) (hd : d ≤ c.nW) (h : s.pos d = 2)
      (hfin : s.disp.wk d = .finished) :
      RunStep c s { s with pos := Function.update s.pos d 3 }
  /-- the second barrier (772). -/
  | leave2 (s : RunState K T) (r : ℕ) (hr : r ≤ c.nW) (h : s.pos r = 3)
      (hall : ∀ q, q ≤ c.nW → 3 ≤ s.pos q) :
      RunStep c s { s with pos := Function.update s.pos r 4 }
  /-- the master lists the tiles, in some order (`list` of a set), and scatters them
  (`/repo/utilities/mpi_runner.py` 23-30). -/
  | list (s : RunState K T) (l : List (List Char)) (h : s.pos 0 = 4) (hnd : l.Nodup)
      (hl : ∀ t, t ∈ l ↔ ∃ f, f ≠ [] ∧ '/' ∉ f ∧ s.store (pjoin c.shieldDir f) ≠ none ∧
        tileOfFile f = t) :
      RunStep c s { s with
        pos := Function.update s.pos 0 5
        share := fun r => (rankSlices l (c.nW + 1))[r]?.getD []
        todo := fun r => (rankSlices l (c.nW + 1))[r]?.getD [] }
  /-- a worker receives its share (`/repo/utilities/mpi_runner.py` 30). -/
  | receive (s : RunState K T) (r : ℕ) (h1 : 1 ≤ r) (hr : r ≤ c.nW) (h : s.pos r = 4)
      (h0 : 5 ≤ s.pos 0) : RunStep c s { s with pos := Function.update s.pos r 5 }
  /-- `process_tile` (`/repo/utilities/convert.py` 168). -/
  | convert (s : RunState K T) (r : ℕ) (t : List Char) (ts : List (List Char)) (x : TileTif K T)
      (hr : r ≤ c.nW) (h : s.pos r = 5) (htodo : s.todo r = t :: ts) (hhalf : s.half r = false)
      (hx : processTile (fun m d => readMult s.store (openedNc c.out t d m)) = .ok x) :
      RunStep c s { s with
        half := Function.update s.half r true
        store := Function.update s.store (c.m3 t) (some (.tif x)) }
  /-- `process_max_tile` (`/repo/utilities/convert.py` 169), which opens the GeoTIFF just written. -/
  | convertMax (s : RunState K T) (r : ℕ) (t : List Char) (ts : List (List Char)) (x : TileTif K T)
      (mx : Raster K T) (hr : r ≤ c.nW) (h : s.pos r = 5) (htodo : s.todo r = t :: ts)
      (hhalf : s.half r = true) (hfile : s.store (c.m3 t) = some (.tif x))
      (hx : processMaxTile x = .ok mx) :
      RunStep c s { s with
        half := Function.update s.half r false
        todo := Function.update s.todo r ts
        store := Function.update s.store (c.m3Max t) (some (.maxTif mx)) }
  /-- a worker sends its list of files (`/repo/utilities/mpi_runner.py` 38). -/
  | send (s : RunState K T) (r : ℕ) (h1 : 1 ≤ r) (hr : r ≤ c.nW) (h : s.pos r = 5)
      (htodo : s.todo r = []) : RunStep c s { s with pos := Function.update s.pos r 6 }
  /-- the master gathers the lists and writes the virtual rasters
  (`/repo/utilities/mpi_runner.py` 38-52). -/
  | gather (s : RunState K T) (h : s.pos 0 = 5) (htodo : s.todo 0 = [])
      (hall : ∀ r, 1 ≤ r → r ≤ c.nW → 6 ≤ s.pos r) :
      RunStep c s { s with
        pos := Function.update s.pos 0 6
        store := Function.update
          (Function.update s.store c.vrt
            (some (.vrt (((List.range (c.nW + 1)).flatMap s.share).map c.m3))))
          c.vrtMax (some (.vrt (((List.range (c.nW + 1)).flatMap s.share).map c.m3Max))) }
  /-- the third barrier (777). -/
  | leave3 (s : RunState K T) (r : ℕ) (hr : r ≤ c.nW) (h : s.pos r = 6)
      (hall : ∀ q, q ≤ c.nW → 6 ≤ s.pos q) :
      RunStep c s { s with pos := Function.update s.pos r 7 }

/-- Executions of exactly `k` steps. `/repo/all_multipliers.py` 760-777. -/
inductive RunSteps (c : RunCfg K T) : ℕ → RunState K T → RunState K T → Prop
  | refl (s : RunState K T) : RunSteps c 0 s s
  | step {k : ℕ} {s s' s'' : RunState K T} (h : RunSteps c k s s') (h' : RunStep c s' s'') :
      RunSteps c (k + 1) s s''

end WindMult
