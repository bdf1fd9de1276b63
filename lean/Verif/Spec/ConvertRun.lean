import Verif.Model.ConvertRun
import Verif.Proofs.FileNames

/-!
# What the converter run on its own is to do

Used in the statements C135.
-/

set_option autoImplicit false

namespace WindMult
variable {K T : Type} [Zero K] [One K] [Mul K] [Max K]

/-- All processes have finished. -/
def ConvCfg.Done (c : ConvCfg) (s : ConvState K T) : Prop := ∀ r, r ≤ c.nW → s.pos r = 2

/-- There is a file in the shielding folder whose name starts with `t`, up to its first underscore (or
altogether, if there is none). -/
def ConvCfg.Named (c : ConvCfg) (st : Store K T) (t : List Char) : Prop :=
  '_' ∉ t ∧ '/' ∉ t ∧
    ((t ≠ [] ∧ st (withSlash c.out ++ (Mult.ms.folder ++ '/' :: t)) ≠ none) ∨
      ∃ u, '/' ∉ u ∧ st (withSlash c.out ++ (Mult.ms.folder ++ '/' :: (t ++ '_' :: u))) ≠ none)

/-- The multiplier of tile `t` the folder holds, if any. -/
def ConvCfg.found (c : ConvCfg) (st : Store K T) (t : List Char) (m : Mult) (d : Dir) :
    Option (Raster K T) :=
  match st (withSlash c.out ++
    (m.folder ++ '/' :: (t ++ '_' :: (m.unit ++ '_' :: (d.letters ++ ['.', 'n', 'c']))))) with
  | some (.mult r) => some r
  | _ => none

/-- The path of the GeoTIFF of tile `t`. -/
def ConvCfg.tifAt (c : ConvCfg) (t : List Char) : List Char :=
  withSlash c.out ++ (['M', '3', '/'] ++ t ++ ['.', 't', 'i', 'f'])

/-- The path of the GeoTIFF of the maxima of tile `t`. -/
def ConvCfg.maxAt (c : ConvCfg) (t : List Char) : List Char :=
  withSlash c.out ++ (['M', '3', '_', 'm', 'a', 'x', '/'] ++ t ++ ['.', 't', 'i', 'f'])

/-- The path of the virtual raster of the tiles. -/
def ConvCfg.vrtAt (c : ConvCfg) : List Char :=
  withSlash c.out ++ ['M', '3', '/', 'w', 'i', 'n', 'd', '-', 'm', 'u', 'l', 't', 'i', 'p', 'l', 'i', 'e', 'r', 's',
    '.', 'v', 'r', 't']

/-- The path of the virtual raster of the maxima. -/
def ConvCfg.vrtMaxAt (c : ConvCfg) : List Char :=
  withSlash c.out ++ ['M', '3', '_', 'm', 'a', 'x', '/', 'w', 'i', 'n', 'd', '-', 'm', 'u', 'l', 't', 'i', 'p', 'l',
    'i', 'e', 'r', 's', '.', 'v', 'r', 't']

/-- `x` and `mx` are what the converter makes of the multipliers of tile `t`. -/
def ConvCfg.Makes (c : ConvCfg) (st : Store K T) (t : List Char) (x : TileTif K T) (mx : Raster K T) :
    Prop :=
  processTile (c.found st t) = .ok x ∧ processMaxTile x = .ok mx

end WindMult
