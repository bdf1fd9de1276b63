import Verif.Spec.PreScript
import Verif.Model.Pipeline

/-!
# Vocabulary: a run on the files that the pre-processing script leaves
-/

set_option autoImplicit false

namespace WindMult

/-- The texts among the files. -/
def PreDisk.texts (disk : PreDisk) (name : String) : Option (List Char) :=
  match disk name with
  | some (.text t) => some t
  | _ => none

/-- The rasters of a run are those in the files `land` and `dem`: the grids are those of the files, elevations that are
not missing are those of the file, and land cover 0 is read as no data. -/
structure PreDisk.Gives (disk : PreDisk) (land dem : String) (c : Inputs) : Prop where
  dem : ∃ cells, disk dem = some (.raster c.r cells) ∧ ∀ i j v, c.dem.val i j = some v → cells.val i j = v
  land : ∃ cells, disk land = some (.raster c.lr cells) ∧
    ∀ i j, c.lcv.val i j = if cells.val i j = 0 then none else some ⌊cells.val i j⌋

end WindMult
