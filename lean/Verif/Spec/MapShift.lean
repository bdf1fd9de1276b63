import Verif.Model.Pipeline

/-!
# The same country further east or west

What C139 speaks of.
-/

set_option autoImplicit false

namespace WindMult.Spec

/-- The raster with the same size and pixels, `east` degrees further east. -/
def movedRaster {K : Type} [Add K] (east : K) (r : RasterInfo K) : RasterInfo K := { r with gt0 := r.gt0 + east }

/-- The rectangle `east` degrees further east. -/
def movedExtent {K : Type} [Add K] (east : K) (x : Extent K) : Extent K :=
  ⟨x.xStart + east, x.yStart, x.xEnd + east, x.yEnd⟩

/-- The same country, land cover and tables, `east` degrees further east. -/
def movedInputs (east : ℝ) (c : Inputs) : Inputs :=
  { c with r := movedRaster east c.r, lr := movedRaster east c.lr }

/-- The longitudes and latitudes of the pixels, `east` degrees further east. -/
def movedCoords (east : ℝ) (x : List ℝ × List ℝ) : List ℝ × List ℝ := (x.1.map (· + east), x.2)

/-- Whether the corner of a tile's area is where the program takes the land for Tasmania. -/
def CornerInTasmania (x : Extent ℝ) : Prop := 143 < x.xStart ∧ x.yStart < -40

end WindMult.Spec
