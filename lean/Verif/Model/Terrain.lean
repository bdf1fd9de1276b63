import Verif.Model.Basic
import Verif.Model.Dir

/-!
# Terrain multiplier (`/repo/terrain/terrain_mult.py`, `/repo/utilities/value_lookup.py`)
-/

set_option autoImplicit false

namespace WindMult
variable {K : Type} [Field K] [LinearOrder K] [IsStrictOrderedRing K] [FloorRing K]

/-- `ALL_NEIGHB` (`/repo/utilities/value_lookup.py` 36-52). -/
def allNeighb : Dir → ℤ → ℤ → ℤ → ℤ → ℤ → ℤ
  | .w, _, jj, _, _, lag => jj - lag
  | .e, _, jj, _, cols, lag => cols - jj - 1 - lag
  | .n, i, _, _, _, lag => i - lag
  | .s, i, _, rows, _, lag => rows - i - 1 - lag
  | .nw, i, jj, _, _, lag => min i jj - lag
  | .ne, i, jj, _, cols, lag => min i (cols - jj - 1) - lag
  | .sw, i, jj, rows, _, lag => min (rows - i - 1) jj - lag
  | .se, i, jj, rows, cols, lag => min (rows - i - 1) (cols - jj - 1) - lag

/-- `POINT_R` (`/repo/utilities/value_lookup.py` 55-63). -/
def pointR : Dir → ℤ → ℤ → ℤ → ℤ
  | .w, i, _, _ => i
  | .e, i, _, _ => i
  | .n, i, m, lag => i - m - lag - 1
  | .s, i, m, lag => i + m + lag + 1
  | .nw, i, m, lag => i - m - lag - 1
  | .ne, i, m, lag => i - m - lag - 1
  | .sw, i, m, lag => i + m + lag + 1
  | .se, i, m, lag => i + m + lag + 1

/-- `POINT_C` (`/repo/utilities/value_lookup.py` 66-74). -/
def pointC : Dir → ℤ → ℤ → ℤ → ℤ
  | .w, jj, m, lag => jj - m - lag - 1
  | .e, jj, m, lag => jj + m + lag + 1
  | .n, jj, _, _ => jj
  | .s, jj, _, _ => jj
  | .nw, jj, m, lag => jj - m - lag - 1
  | .ne, jj, m, lag => jj + m + lag + 1
  | .sw, jj, m, lag => jj - m - lag - 1
  | .se, jj, m, lag => jj + m + lag + 1

/-- The inner accumulation `for m in range(max_neighb_no): neighbour_sum += data[...]`
(`/repo/terrain/terrain_mult.py` 234-239); a bad index raises `IndexError`. -/
def neighbourSum (d : Dir) (data : Grid K) (lag : ℤ) (i jj : ℕ) : List ℕ → K → Except PyErr K
  | [], acc => .ok acc
  | m :: ms, acc => do
    let v ← data.pyGet (pointR d i m lag) (pointC d jj m lag)
    neighbourSum d data lag i jj ms (acc + v)

/-- The body of the double loop of `convo` for one cell (`/repo/terrain/terrain_mult.py`
222-247): the value stored in `outdata[i, jj]`.  float32 storage is not modelled. -/
def convoCell (d : Dir) (data : Grid K) (avg lag : ℤ) (i jj : ℕ) : Except PyErr K :=
  let allNo := allNeighb d i jj data.rows data.cols lag
  if 0 < allNo then
    let maxNo := if allNo < avg then allNo else avg
    do
      let sum ← neighbourSum d data lag i jj (List.range maxNo.toNat) 0
      if (maxNo : K) = 0 then .error .zeroDivisionError else return sum / (maxNo : K)
  else data.pyGet i jj

/-- Run a cell computation over a raster in raster order, stopping at the first exception.
`junk` fills cells outside the raster, which are never read. The loops of `convo`,
`/repo/terrain/terrain_mult.py` 220-247. -/
def Grid.tabulateM {α : Type} (junk : α) (rows cols : ℕ) (f : ℕ → ℕ → Except PyErr α) :
    Except PyErr (Grid α) := do
  (List.range rows).forM fun i => (List.range cols).forM fun j => (do let _ ← f i j; return ())
  return ⟨rows, cols, fun i j => match f i j with | .ok v => v | .error _ => junk⟩

/-- `convo` (`/repo/terrain/terrain_mult.py` 199-248). -/
def convo (d : Dir) (data : Grid K) (avg lag : ℤ) : Except PyErr (Grid K) :=
  Grid.tabulateM 0 data.rows data.cols fun i jj => convoCell d data avg lag i jj

/-- One row of the terrain table: category and roughness length. `/repo/terrain/terrain_mult.py`
190-192. -/
structure TerrainRow (C K : Type) where
  category : C
  roughness : K

/-- `terrain_class2mz_orig` (`/repo/terrain/terrain_mult.py` 178-196): `mz` is the formula
turning a roughness length into a multiplier; later rows overwrite earlier ones. -/
def terrainClass2mz {C : Type} [DecidableEq C] (mz : K → K) (data : Grid C)
    (table : List (TerrainRow C K)) : Grid K :=
  table.foldl
    (fun out row => ⟨out.rows, out.cols, fun i j =>
      if data.val i j = row.category then mz row.roughness else out.val i j⟩)
    ⟨data.rows, data.cols, fun _ _ => 0⟩

/-- All cells of an array in raster order. `np.max`, `/repo/terrain/terrain_mult.py` 86. -/
def Grid.cells {α : Type} (g : Grid α) : List α :=
  (List.range g.rows).flatMap fun i => (List.range g.cols).map fun j => g.val i j

/-- Averaging width and lag in cells for one direction before the tile-size check
(`/repo/terrain/terrain_mult.py` 96-109), `gw` the grid width in metres. -/
def terrainWidths (d : Dir) (gw : K) : ℤ × ℤ :=
  if d.isCardinal then (around (500 / gw), around (200 / gw))
  else (pyInt (500 / (gw * (1414 / 1000))), pyInt (200 / (gw * (1414 / 1000))))

/-- The loop body of `terrain` for one direction (`/repo/terrain/terrain_mult.py` 100-122): the
array `outdata` that is clipped and saved.  `recl` is the reclassified array in which no-data
(0) has been replaced by 1, `mask` the no-data mask; `none` is NaN. -/
def terrainDir (d : Dir) (gw : K) (recl : Grid K) (mask : ℕ → ℕ → Bool) :
    Except PyErr (Grid (Option K)) :=
  let aw := (terrainWidths d gw).1
  let lag := (terrainWidths d gw).2
  if (recl.rows : ℤ) < lag then
    .ok (recl.map some)
  else do
    let avg := if (recl.rows : ℤ) < aw + lag then (recl.rows : ℤ) - lag else aw
    let out ← convo d recl avg lag
    return ⟨out.rows, out.cols, fun i j => if mask i j then none else some (out.val i j)⟩

/-- The direction loop of `terrain` (`/repo/terrain/terrain_mult.py` 100-140): the files saved
and how the loop ended.  `clip` is the clipping to the unbuffered tile. -/
def terrainLoop (gw : K) (recl : Grid K) (mask : ℕ → ℕ → Bool)
    (clip : Grid (Option K) → Grid (Option K)) :
    List Dir → List (Dir × Grid (Option K)) → List (Dir × Grid (Option K)) × Except PyErr Unit
  | [], saved => (saved, .ok ())
  | d :: ds, saved =>
    match terrainDir d gw recl mask with
    | .error e => (saved, .error e)
    | .ok g => terrainLoop gw recl mask clip ds (saved ++ [(d, clip g)])

/-- `terrain` (`/repo/terrain/terrain_mult.py` 34-144) from the reading of the tile on: nothing
is saved if the maximum of the reclassified array is 0, else zeros are masked, replaced by 1 and
each direction is convolved and saved.  `numpy.max` of an array without cells raises
`ValueError`.  I/O, logging and the grid-width computation are left out (`gw` is an argument). -/
def terrain {C : Type} [DecidableEq C] (mz : K → K) (gw : K) (data : Grid C)
    (table : List (TerrainRow C K)) (clip : Grid (Option K) → Grid (Option K)) :
    List (Dir × Grid (Option K)) × Except PyErr Unit :=
  let recl := terrainClass2mz mz data table
  match recl.cells.max? with
  | none => ([], .error .valueError)
  | some mx =>
    if mx = 0 then ([], .ok ())
    else
      let mask := fun i j => decide (recl.val i j = 0)
      terrainLoop gw ⟨recl.rows, recl.cols, fun i j => if mask i j then 1 else recl.val i j⟩ mask
        clip Dir.terrainOrder []

end WindMult
