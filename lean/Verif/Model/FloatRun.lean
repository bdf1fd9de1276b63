import Verif.Model.FloatPipeline
import Verif.Model.RunInputs

/-!
# A whole run with rounded arithmetic
-/

set_option autoImplicit false

namespace WindMult

/-- The run (`/repo/all_multipliers.py` 756-777) on the inputs `c`, as `Inputs.runCfg`, with the multipliers of a tile
computed in rounded arithmetic (`tileStepFl`) and the converter computing in the format of the files.  The extents of
the tiles are exact here; for their rounding see `Model/FloatGeo.lean`. -/
noncomputable def Inputs.runCfgFl (N : TileFp) (c : Inputs) (out : List Char) (nW : ℕ)
    (tiles : List (List Char × Extent ℝ × Extent ℝ)) : RunCfg (NanNum (Fl N.file)) (List ℝ × List ℝ) where
  out := out
  tiles := tiles.map Prod.fst
  nW := nW
  empty := fun t =>
    match tiles.lookup t with
    | some (EB, _) => decide (c.checksum (cutDem c.r c.dem EB 0) = 0)
    | none => true
  noLand := fun t =>
    match tiles.lookup t with
    | some (EB, E) => (tileStepFl N c EB E).1.mz.isEmpty
    | none => true
  files := fun t m d =>
    match tiles.lookup t with
    | some (EB, E) => (tileFilesFl N c EB E m d).getD ⟨⟨0, 0, fun _ _ => .nan⟩, ([], [])⟩
    | none => ⟨⟨0, 0, fun _ _ => .nan⟩, ([], [])⟩

end WindMult
