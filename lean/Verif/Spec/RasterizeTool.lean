import Verif.Model.RasterizeTool
import Verif.Props.GeoClip

/-!
# Vocabulary of the specification of the command-line tool `rasterize.py`

Of the model only files, arguments and sets of points occur.
-/

set_option autoImplicit false

namespace WindMult

/-- `cells` is the map of the attribute on the grid `r` inside `area`: a pixel whose centre is outside of `area`, or
in no feature, is 0; otherwise it has the value of the last feature that contains its centre. -/
def IsAttributeMap (attr : String) (features : List ((String → ℕ) × Region)) (area : Region)
    (r : RasterInfo ℝ) (cells : Grid ℝ) : Prop :=
  cells.rows = r.yDim ∧ cells.cols = r.xDim ∧ ∀ px py : ℕ, px < r.xDim → py < r.yDim →
    ((r.lonCentre px, r.latCentre py) ∉ area → cells.val py px = 0) ∧
    ((∀ f ∈ features, (r.lonCentre px, r.latCentre py) ∉ f.2) → cells.val py px = 0) ∧
    (∀ before f after, features = before ++ f :: after → (r.lonCentre px, r.latCentre py) ∈ area →
      (r.lonCentre px, r.latCentre py) ∈ f.2 → (∀ g ∈ after, (r.lonCentre px, r.latCentre py) ∉ g.2) →
      cells.val py px = (f.1 attr : ℕ))

/-- What the help text promises: the attribute that was asked for, on the grid of the elevations, cut to the mask if
one is given; all other files as before.  `out` is the file with the result, `scratch` what else may be written. -/
def ToolKeepsPromise (cut : RasterInfo ℝ → Region → RasterInfo ℝ) (a : RasterizeArgs) (disk : GeoDisk)
    (features : List ((String → ℕ) × Region)) (grid : RasterInfo ℝ) (area : Region) (out : List Char)
    (scratch : List (List Char)) : Prop :=
  ∃ after cells, rasterizeTool cut a disk = (.ok (), after) ∧ after out = some (.raster grid cells (some 0)) ∧
    IsAttributeMap a.attr features area grid cells ∧ ∀ n, n ≠ out → n ∉ scratch → after n = disk n

/-- The name has a beginning and an extension: a dot and what follows, in the last component of the path, and before it
something else than dots. -/
def HasExtension (root ext name : List Char) : Prop :=
  name = root ++ ext ∧ (∃ e, ext = '.' :: e ∧ '.' ∉ e ∧ '/' ∉ e) ∧
    ∃ folder stem, root = folder ++ stem ∧ '/' ∉ stem ∧ ∃ c ∈ stem, c ≠ '.'

/-- The name with `_crop` before its extension, or at its end if it has none. -/
def IsCropName (name cropped : List Char) : Prop :=
  (∃ root ext, HasExtension root ext name ∧ cropped = root ++ "_crop".toList ++ ext) ∨
  ((∀ root ext, ¬ HasExtension root ext name) ∧ cropped = name ++ "_crop".toList)

end WindMult
