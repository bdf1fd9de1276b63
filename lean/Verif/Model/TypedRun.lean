import Verif.Model.DataTypes
import Verif.Model.RunInputs

/-!
# A run on rasters of given data types (`/repo/all_multipliers.py` 756-777)
-/

set_option autoImplicit false

namespace WindMult

/-- The 24 multiplier files of a tile (`tileFiles`) for rasters of the given data types
(`/repo/utilities/convert.py` 113-117, `/repo/all_multipliers.py` 342-345, 622). -/
noncomputable def tileFilesTyped (demT lcvT : BandType) (c : Inputs) (EB E : Extent ℝ) (m : Mult) (d : Dir) :
    Option (Raster (NanNum ℝ) (List ℝ × List ℝ)) :=
  let coords := getLatLon E (clipInfo c.r EB).gt1 (-(clipInfo c.r EB).gt5)
  match m with
  | .mz => savedFile coords (tileStepTyped demT lcvT c EB E).1.mz d
  | .ms => savedFile coords (tileStepTyped demT lcvT c EB E).1.ms d
  | .mt => savedFile coords (tileStepTyped demT lcvT c EB E).1.mt d

/-- The run on the inputs `c` (`Inputs.runCfg`) for rasters of the given data types
(`/repo/all_multipliers.py` 756-777). As there, a tile whose computation raises an exception is outside this
definition. -/
noncomputable def Inputs.runCfgTyped (demT lcvT : BandType) (c : Inputs) (out : List Char) (nW : ℕ)
    (tiles : List (List Char × Extent ℝ × Extent ℝ)) : RunCfg (NanNum ℝ) (List ℝ × List ℝ) where
  out := out
  tiles := tiles.map Prod.fst
  nW := nW
  empty := fun t =>
    match tiles.lookup t with
    | some (EB, _) => decide (c.checksum ((cutDem c.r c.dem EB 0).map demT.stored) = 0)
    | none => true
  noLand := fun t =>
    match tiles.lookup t with
    | some (EB, E) => (tileStepTyped demT lcvT c EB E).1.mz.isEmpty
    | none => true
  files := fun t m d =>
    match tiles.lookup t with
    | some (EB, E) => (tileFilesTyped demT lcvT c EB E m d).getD ⟨⟨0, 0, fun _ _ => .nan⟩, ([], [])⟩
    | none => ⟨⟨0, 0, fun _ _ => .nan⟩, ([], [])⟩

end WindMult
