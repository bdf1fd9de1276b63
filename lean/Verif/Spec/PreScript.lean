import Verif.Model.PreScript
import Verif.Spec.PreProcess
import Verif.Spec.ConfigText

/-!
# Vocabulary of the specification of the pre-processing script

Of the model only files and the input of the pre-processing occur.
-/

set_option autoImplicit false

namespace WindMult

/-- The configuration text names the files and attributes.  `topo` is the raster whose grid is used: the file given as
`input_topo`, or, if that is `True`, the DEM of the multipliers. -/
structure PreConf (f : IniFile) (settlement settlementCat landUse landUseCat mask shapes raster topo : String) :
    Prop where
  ok : f.Ok
  settlementData : f.Sets "Preprocessing".toList "settlement_data".toList settlement.toList
  settlementCat : f.Sets "Preprocessing".toList "settlement_cat".toList settlementCat.toList
  landUseData : f.Sets "Preprocessing".toList "land_use_data".toList landUse.toList
  landUseCat : f.Sets "Preprocessing".toList "land_use_cat".toList landUseCat.toList
  cropMask : f.Sets "Preprocessing".toList "crop_mask".toList mask.toList
  outShapes : f.Sets "Preprocessing".toList "output_shapefile".toList shapes.toList
  outRaster : f.Sets "Preprocessing".toList "output_rasterized".toList raster.toList
  grid : (topo ≠ "True" ∧ f.Sets "Preprocessing".toList "input_topo".toList topo.toList) ∨
    (f.Sets "Preprocessing".toList "input_topo".toList "True".toList ∧
      f.Sets "inputValues".toList "dem_data".toList topo.toList)

/-- The features of a layer that have a geometry. -/
def Drawn (l : List (ShpAttr × Option Region)) (l' : List (ShpAttr × Region)) : Prop :=
  l.filter (fun f => f.2.isSome) = l'.map fun f => (f.1, some f.2)

end WindMult
