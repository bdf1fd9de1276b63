import Mathlib.Data.List.Infix

/-!
# Paths below a folder

What C143 speaks of.
-/

set_option autoImplicit false

namespace WindMult.Spec

/-- The path `p` below a folder. -/
def under (folder p : List Char) : List Char :=
  if folder = [] ∨ folder.getLast? = some '/' then folder ++ p else folder ++ '/' :: p

/-- Two folders of which none contains the other (or is the other). -/
def Apart (a b : List Char) : Prop := ¬ under a [] <+: under b [] ∧ ¬ under b [] <+: under a []

/-- `M3/wind-multipliers.vrt` -/
def vrtPath : List Char := "M3/wind-multipliers.vrt".toList
/-- `M3_max/wind-multipliers.vrt` -/
def vrtMaxPath : List Char := "M3_max/wind-multipliers.vrt".toList
/-- `M3/TILE.tif` -/
def tifPath (t : List Char) : List Char := "M3/".toList ++ t ++ ".tif".toList
/-- `M3_max/TILE.tif` -/
def tifMaxPath (t : List Char) : List Char := "M3_max/".toList ++ t ++ ".tif".toList

end WindMult.Spec
