import Verif.Model.TileGrid
import Verif.Model.Pipeline
import Verif.Model.Run

/-!
# A whole run on given inputs

Puts the tile grid, the computation of a tile and the run of all processes together.
-/

set_option autoImplicit false

namespace WindMult

/-- `get_tiles`, `get_tileinfo` (`/repo/all_multipliers.py` 502-529): name, buffered extent and extent
of each tile. -/
def TileGrid.getTiles {K : Type} [Field K] [LinearOrder K] [IsStrictOrderedRing K] [FloorRing K]
    (str : K → List Char) (g : TileGrid K) :
    Except PyErr (List (List Char × Extent K × Extent K)) :=
  (List.range g.numTiles).mapM fun t => do
    let n ← g.getTilename str t
    let eb ← g.getTileExtentBuffer t
    let e ← g.getTileExtent t
    return (n, eb, e)

/-- The run (`/repo/all_multipliers.py` 756-777) on the inputs `c`: what is computed for a tile is what
`tileStep` gives for its extents.  A tile whose computation raises an exception is outside this
definition (its files are not those of an aborted computation); the theorems exclude such tiles.
Tiles of the same name are not told apart (nor in the file system); the theorems exclude these too. -/
noncomputable def Inputs.runCfg (c : Inputs) (out : List Char) (nW : ℕ)
    (tiles : List (List Char × Extent ℝ × Extent ℝ)) : RunCfg (NanNum ℝ) (List ℝ × List ℝ) where
  out := out
  tiles := tiles.map Prod.fst
  nW := nW
  empty := fun t =>
    match tiles.lookup t with
    | some (EB, _) => decide (c.checksum (cutDem c.r c.dem EB 0) = 0)
    | none => true
  noLand := fun t =>
    match tiles.lookup t with
    | some (EB, E) => (tileStep c EB E).1.mz.isEmpty
    | none => true
  files := fun t m d =>
    match tiles.lookup t with
    | some (EB, E) => (tileFiles c EB E m d).getD ⟨⟨0, 0, fun _ _ => .nan⟩, ([], [])⟩
    | none => ⟨⟨0, 0, fun _ _ => .nan⟩, ([], [])⟩

end WindMult
