import Verif.Spec.Run

/-!
# What may be in the output folder while a run is going on

Used in the statements C136 and C137.
-/

set_option autoImplicit false

namespace WindMult
variable {K T : Type} [Zero K] [One K] [Mul K] [Max K]

/-- `x` is what the file `p` is to hold in the end, or a temporary raster of one of the tiles. -/
def RunCfg.Right (c : RunCfg K T) (p : List Char) : Content K T → Prop
  | .scratch => ∃ t ∈ c.tiles, p = demTemp c.out t ∨ p = landTemp c.out t ∨ p = shieldTemp (landTemp c.out t)
  | .mult r => ∃ t ∈ c.tiles, ∃ m d, p = openedNc c.out t d m ∧ c.seen t m d = some r
  | .tif x => ∃ t ∈ c.tiles, c.empty t = false ∧ p = c.m3 t ∧ processTile (c.seen t) = .ok x
  | .maxTif mx => ∃ t ∈ c.tiles, c.empty t = false ∧ p = c.m3Max t ∧
      ∃ x, processTile (c.seen t) = .ok x ∧ processMaxTile x = .ok mx
  | .vrt ps => ∃ l : List (List Char), l.Perm (c.tiles.filter fun t => c.empty t = false) ∧
      ((p = c.vrt ∧ ps = l.map c.m3) ∨ (p = c.vrtMax ∧ ps = l.map c.m3Max))

end WindMult
