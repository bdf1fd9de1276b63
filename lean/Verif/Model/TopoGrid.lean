import Verif.Model.TopoLine
import Verif.Model.Dir
import Mathlib.Data.List.Dedup
import Mathlib.Data.List.Sort

/-!
# Topographic multiplier of a raster
(`/repo/topographic/make_path.py`, `/repo/topographic/topo_mult.py`)
-/

set_option autoImplicit false

namespace WindMult
variable {K : Type} [Field K] [LinearOrder K] [IsStrictOrderedRing K] [FloorRing K]

/-- `direction.find('n') >= 0` and so on: the letters of a direction name
(`/repo/topographic/make_path.py` 34-43, `topo_mult.py` 95-101). -/
def Dir.letters : Dir → List Char
  | .n => ['n']
  | .s => ['s']
  | .e => ['e']
  | .w => ['w']
  | .ne => ['n', 'e']
  | .nw => ['n', 'w']
  | .se => ['s', 'e']
  | .sw => ['s', 'w']

/-- `i_incr` (`/repo/topographic/make_path.py` 34-39). -/
def iIncr (d : Dir) : ℤ :=
  if 'n' ∈ d.letters then 1 else if 's' ∈ d.letters then -1 else 0

/-- `j_incr` (`/repo/topographic/make_path.py` 41-46). -/
def jIncr (d : Dir) : ℤ :=
  if 'w' ∈ d.letters then 1 else if 'e' ∈ d.letters then -1 else 0

/-- The `while` loop of `make_path` (`/repo/topographic/make_path.py` 50-54).  The first argument is
fuel; C42 shows that with the fuel given by `makePath` the loop ends by its own condition. -/
def pathLoop (nr nc : ℤ) (di dj : ℤ) : ℕ → ℤ → ℤ → List ℤ
  | 0, _, _ => []
  | fuel + 1, i, j =>
    if (i ≤ nr ∧ 1 ≤ i) ∧ (j ≤ nc ∧ 1 ≤ j) then
      (i + (j - 1) * nr - 1) :: pathLoop nr nc di dj fuel (i + di) (j + dj)
    else []

/-- `make_path` (`/repo/topographic/make_path.py` 10-56).  `j` is a float in the code; the division
is exact, so integer division gives the same value. -/
def makePath (nr nc : ℕ) (n : ℕ) (d : Dir) : List ℤ :=
  let i : ℤ := (n : ℤ) % nr + 1
  let j : ℤ := ((n : ℤ) + 1 - i) / nr + 1
  pathLoop nr nc (iIncr d) (jIncr d) (nr + nc) i j

/-- Python's `range(a, b, step)` for naturals, `step > 0`. `/repo/topographic/topo_mult.py` 96-102. -/
def natRangeStep (a b step : ℕ) : List ℕ :=
  (List.range ((b - a + step - 1) / step)).map fun t => a + step * t

/-- The starting positions of the lines (`/repo/topographic/topo_mult.py` 94-107); `np.unique` sorts
and removes duplicates. -/
def startIdx (nr nc : ℕ) (d : Dir) : List ℕ :=
  let s0 : List ℕ := []
  let s1 := if 'n' ∈ d.letters then s0 ++ natRangeStep 0 (nr * nc) nr else s0
  let s2 := if 's' ∈ d.letters then s1 ++ natRangeStep (nr - 1) (nr * nc) nr else s1
  let s3 := if 'e' ∈ d.letters then s2 ++ natRangeStep ((nc - 1) * nr) (nr * nc) 1 else s2
  let s4 := if 'w' ∈ d.letters then s3 ++ natRangeStep 0 nr 1 else s3
  (s4.insertionSort (· ≤ ·)).dedup

/-- `np.transpose(elevation_array).flatten()` (`/repo/topographic/topo_mult.py` 71-72). -/
def Grid.flattenT {α : Type} (g : Grid α) : ℕ → α := fun k => g.val (k % g.rows) (k / g.rows)

/-- `line = data[path]; line[np.isnan(line)] = 0.` (`/repo/topographic/topo_mult.py` 116-117). -/
def lineAlong (data : ℕ → Option K) (path : List ℤ) : Line K :=
  ⟨path.length, fun t =>
    match path[t]? with
    | some k => (data k.toNat).getD 0
    | none => 0⟩

/-- `mhdata[path] = m` (`/repo/topographic/topo_mult.py` 122): the entries are assigned in order. -/
def scatter {α : Type} (v : ℕ → α) : ℕ → List ℤ → (ℕ → α) → ℕ → α
  | _, [], mh => mh
  | t, k :: ks, mh => scatter v (t + 1) ks (fun q => if q = k.toNat then v t else mh q)

/-- The loop over the starting positions (`/repo/topographic/topo_mult.py` 109-122). -/
def topoLines (nr nc : ℕ) (d : Dir) (data : ℕ → Option K) (spacing : K) :
    List ℕ → (ℕ → K) → Except PyErr (ℕ → K)
  | [], mh => .ok mh
  | s :: ss, mh => do
    let path := makePath nr nc s d
    let m ← multiplierCalc (lineAlong data path) spacing
    topoLines nr nc d data spacing ss (scatter m.val 0 path mh)

/-- `remove_conservatism` on one cell (`/repo/topographic/topo_mult.py` 173-191); both masks are
computed before anything is assigned. -/
def removeConservatism (x : K) : K :=
  if 1 < x ∧ x < 14 / 10 then x * (125 / 100 - 25 / 100 * x)
  else if 14 / 10 ≤ x then x * (9 / 10) else x

/-- `tasmania` on one cell (`/repo/topographic/topo_mult.py` 156-170); `NaN > 500` is false. -/
def tasmaniaCell (mh : K) (dem : Option K) : K :=
  match dem with
  | none => mh
  | some z => if 500 < z then mh * (1 + 15 / 100000 * z) else mh

/-- Zero-padded reading. `signal.convolve` with `mode='same'`, `/repo/topographic/topo_mult.py` 137. -/
def Grid.orZero (g : Grid K) (r c : ℤ) : K :=
  if 0 ≤ r ∧ r < g.rows ∧ 0 ≤ c ∧ c < g.cols then g.val r.toNat c.toNat else 0

/-- `signal.convolve(mhdata, np.ones((3, 3)) / 9., mode='same')` on one cell
(`/repo/topographic/topo_mult.py` 136-137). -/
def smoothCell (g : Grid K) (i j : ℕ) : K :=
  ((List.range 3).map fun (a : ℕ) => ((List.range 3).map fun (b : ℕ) =>
    g.orZero ((i : ℤ) + a - 1) ((j : ℤ) + b - 1) * (1 / 9)).sum).sum

/-- One direction of `topomult` up to the correction and the Tasmania factor
(`/repo/topographic/topo_mult.py` 87-133). -/
def topoRaw (dem : Grid (Option K)) (cellsize root2 xLeft yUpper : K) (d : Dir) :
    Except PyErr (Grid K) := do
  let spacing := if d.letters.length = 2 then cellsize * root2 else cellsize
  let mh ← topoLines dem.rows dem.cols d dem.flattenT spacing (startIdx dem.rows dem.cols d)
    (fun _ => 1)
  let g : Grid K := ⟨dem.rows, dem.cols, fun i j => removeConservatism (mh (j * dem.rows + i))⟩
  if 143 < xLeft ∧ 40 < yUpper then
    return ⟨g.rows, g.cols, fun i j => tasmaniaCell (g.val i j) (dem.val i j)⟩
  else return g

/-- One direction of `topomult` (`/repo/topographic/topo_mult.py` 84-138): the array that is clipped
and saved; `none` is NaN. -/
def topoDir (dem : Grid (Option K)) (cellsize root2 xLeft yUpper : K) (d : Dir) :
    Except PyErr (Grid (Option K)) := do
  let g ← topoRaw dem cellsize root2 xLeft yUpper d
  return ⟨g.rows, g.cols, fun i j =>
    match dem.val i j with
    | none => none
    | some _ => some (smoothCell g i j)⟩

/-- The direction list of `topomult` (`/repo/topographic/topo_mult.py` 82). -/
def Dir.topoOrder : List Dir := [.n, .s, .e, .w, .ne, .nw, .se, .sw]

/-- `topomult` (`/repo/topographic/topo_mult.py` 38-153) after the reading of the tile: the files
saved, in order, or the exception that ended the run.  `clip` is the clipping to the unbuffered tile;
the cell size is an argument; reading, logging and writing are left out. -/
def topomult (dem : Grid (Option K)) (cellsize root2 xLeft yUpper : K)
    (clip : Grid (Option K) → Grid (Option K)) :
    List Dir → List (Dir × Grid (Option K)) → List (Dir × Grid (Option K)) × Except PyErr Unit
  | [], saved => (saved, .ok ())
  | d :: ds, saved =>
    match topoDir dem cellsize root2 xLeft yUpper d with
    | .error e => (saved, .error e)
    | .ok g => topomult dem cellsize root2 xLeft yUpper clip ds (saved ++ [(d, clip g)])

end WindMult
