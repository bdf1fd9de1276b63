import Verif.Model.Run
import Verif.Proofs.FileNames

/-!
# What a whole run is to leave behind

Used in the statements C93–C97.
-/

set_option autoImplicit false

namespace WindMult
variable {K T : Type}

/-- What is assumed of the parameters: the output folder does not end in two slashes, the tiles have
pairwise different names of the usual form. -/
structure RunCfg.Good (c : RunCfg K T) : Prop where
  out : ¬ ['/', '/'] <:+ c.out
  names : ∀ t ∈ c.tiles, TileName t
  nodup : c.tiles.Nodup

/-- The multipliers of a tile there are to be: none if the DEM is empty; no terrain multipliers if
the land cover is unknown throughout. -/
def RunCfg.seen (c : RunCfg K T) (t : List Char) (m : Mult) (d : Dir) : Option (Raster K T) :=
  if c.empty t = false ∧ (m = .mz → c.noLand t = false) then some (c.files t m d) else none

/-- All ranks have passed the last barrier. -/
def RunCfg.Done (c : RunCfg K T) (s : RunState K T) : Prop := ∀ r, r ≤ c.nW → s.pos r = 7

/-- The rasters computed for a non-empty tile have one size; it is square if there is no land cover
(else the converter fails, see C17). -/
def RunCfg.Shapes (c : RunCfg K T) : Prop :=
  ∀ t ∈ c.tiles, c.empty t = false → ∃ nx ny : ℕ, (c.noLand t = true → nx = ny) ∧
    ∀ m d, (c.files t m d).band.rows = ny ∧ (c.files t m d).band.cols = nx

end WindMult
