import Verif.Model.Convert

/-!
# What the conversion should produce
-/

set_option autoImplicit false

namespace WindMult
variable {K T : Type}

namespace Spec

/-- The value of one multiplier in a cell; a missing file counts as 1. -/
def multiplierAt [One K] (file : Option (Raster K T)) (i j : ℕ) : K :=
  match file with
  | none => 1
  | some r => r.band.val i j

/-- The product of the three multipliers of a direction in a cell. -/
def productAt [One K] [Mul K] (files : Mult → Dir → Option (Raster K T)) (d : Dir) (i j : ℕ) : K :=
  multiplierAt (files .ms d) i j * multiplierAt (files .mz d) i j * multiplierAt (files .mt d) i j

/-- All files of the tile that exist have `ny` rows and `nx` columns. -/
def TileShape (files : Mult → Dir → Option (Raster K T)) (nx ny : ℕ) : Prop :=
  ∀ m d r, files m d = some r → r.band.rows = ny ∧ r.band.cols = nx

/-- The value by which the multiplier files mark cells without data. -/
def noData [Field K] : K := -9999

end Spec
end WindMult
