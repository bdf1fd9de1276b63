import Verif.Model.Shapefiles
import Verif.Model.GeoClip
import Mathlib.MeasureTheory.Measure.Lebesgue.Basic

/-!
# Pre-processing: from the shape files to the land-cover raster (`/repo/pre_process.py`)

Geometries are sets of points of the plane, the operations of shapely those of sets.
-/

set_option autoImplicit false

namespace WindMult
open MeasureTheory

/-- A shapely geometry: the points it covers.  Geometries without a point set (invalid polygons) are
not modelled; the attempt to repair them (`/repo/pre_process.py` 123-131) is left out. -/
abbrev Region := Set (ℝ × ℝ)

/-- `.area` of a geometry (`/repo/utilities/shapefiles.py` 62, 89). -/
noncomputable def Region.area (g : Region) : ℝ := (volume g).toReal

/-- `unary_union` of a list of geometries (`/repo/utilities/shapefiles.py` 45). -/
def Region.unionAll (l : List Region) : Region := {p | ∃ g ∈ l, p ∈ g}

/-- The bounding box of a geometry as a polygon (`/repo/utilities/shapefiles.py` 53-59). -/
def Region.box (g : Region) : Region :=
  {p | (∃ a ∈ g, a.1 ≤ p.1) ∧ (∃ a ∈ g, p.1 ≤ a.1) ∧ (∃ a ∈ g, a.2 ≤ p.2) ∧ ∃ a ∈ g, p.2 ≤ a.2}

/-- The input of `pre_process` (`/repo/pre_process.py` 84-85): the features of the shape files, the
names of the two attributes, and the geometries of the crop mask (`none`: no mask).  `query` is the
search tree (`STRtree.query`), whose order is not specified; `finish` the order in which the thread
pool finishes `n` calls.  Attributes are total functions: `KeyError` for a missing attribute is not modelled. -/
structure PreCfg where
  settlement : List (ShpAttr × Region)
  settlementCat : String
  landUse : List (ShpAttr × Region)
  landUseCat : String
  mask : Option (List Region)
  query : List Region → Region → List ℕ
  finish : ℕ → List ℕ

/-- The settlements after filtering and dissolving (`/repo/pre_process.py` 110-119). -/
def PreCfg.settled (c : PreCfg) : List (ShpAttr × Region) :=
  dissolve Region.unionAll c.settlementCat (c.settlement.map fun f =>
    (fun k => if k = c.settlementCat then authorise (f.1 k) else f.1 k, f.2))

/-- Both layers after cropping (`/repo/pre_process.py` 140-144): settlements, land use, each as
geometries and attributes.  `domain.geom[0]` is an `IndexError` for an empty mask file. -/
noncomputable def PreCfg.cropped (c : PreCfg) :
    Except PyErr ((List Region × List ShpAttr) × (List Region × List ShpAttr)) :=
  let s := (c.settled.map Prod.snd, c.settled.map Prod.fst)
  let l := (c.landUse.map Prod.snd, c.landUse.map Prod.fst)
  match c.mask with
  | none => .ok (s, l)
  | some [] => .error .indexError
  | some (m :: _) => do
    let s' ← crop Region.box (· ∩ ·) Region.area m s.1 s.2
    let l' ← crop Region.box (· ∩ ·) Region.area m l.1 l.2
    .ok (s', l')

open Classical in
/-- `pre_process` (`/repo/pre_process.py` 84-181): the features written to the output file, with their
code `CAT`. -/
noncomputable def preProcess (c : PreCfg) : Except PyErr (List (Region × ℕ)) := do
  let (s, l) ← c.cropped
  let attrs ← spatialJoin c.settlementCat
    (fun i =>
      let poly := l.1.getD i ∅
      joinOne (c.query s.1 poly) (fun j => decide (poly ∩ s.1.getD j ∅).Nonempty)
        (fun j => Region.area (poly ∩ s.1.getD j ∅)) poly.area)
    (c.finish l.2.length) l.2 s.2
  .ok ((l.1.zip attrs).map fun f => (f.1, catCode (f.2 c.settlementCat) (f.2 c.landUseCat)))

open Classical in
/-- One step of `gdal.RasterizeLayer` (`/repo/pre_process.py` 79-80): `CAT` of a feature is written where
the centre of the pixel is inside.  On boundaries of polygons GDAL's rule is not modelled. -/
noncomputable def burn (r : RasterInfo ℝ) (g : Grid ℕ) (f : Region × ℕ) : Grid ℕ :=
  ⟨g.rows, g.cols, fun i j =>
    if (r.gt0 + (j + 1 / 2) * r.gt1, r.gt3 + (i + 1 / 2) * r.gt5) ∈ f.1 then f.2 else g.val i j⟩

/-- `rasterize` (`/repo/pre_process.py` 35-80): a raster on the grid of the DEM (50-54, 70-74), 0 to
begin with (also its no-data value, 76-77), onto which the features are written one after another. -/
noncomputable def rasterize (r : RasterInfo ℝ) (features : List (Region × ℕ)) : Grid ℕ :=
  features.foldl (burn r) ⟨r.yDim, r.xDim, fun _ _ => 0⟩

end WindMult
