import Verif.Model.TileGrid

/-!
# Clipping and coordinates (`/repo/utilities/nctools.py` 22-80)
-/

set_option autoImplicit false

namespace WindMult
variable {K : Type} [Field K] [LinearOrder K] [IsStrictOrderedRing K] [FloorRing K]

/-- `clip_array` (`/repo/utilities/nctools.py` 22-50).  `yUpper` is minus the top latitude,
as passed by all callers. -/
def clipArray {α : Type} (data : Grid α) (xLeft yUpper pixelwidth pixelheight : K)
    (e : Extent K) : Grid α :=
  let lonStart := around ((e.xStart - xLeft) / pixelwidth)
  let latStart := around ((-yUpper - e.yStart) / pixelheight)
  let cols := around ((e.xEnd - e.xStart) / pixelwidth)
  let rows := around ((e.yStart - e.yEnd) / pixelheight)
  data.slice latStart (latStart + rows) lonStart (lonStart + cols)

/-- `get_lat_lon` (`/repo/utilities/nctools.py` 53-80); returns `(lon, lat)`.
`range(0, n)` of a negative `n` is empty (`Int.toNat`). -/
def getLatLon (e : Extent K) (pixelwidth pixelheight : K) : List K × List K :=
  let xLeft := e.xStart
  let yUpper := -e.yStart
  let cols := around ((e.xEnd - e.xStart) / pixelwidth)
  let rows := around ((e.yStart - e.yEnd) / pixelheight)
  ((List.range cols.toNat).map fun (x : ℕ) => xLeft + 1 / 2 * pixelwidth + x * pixelwidth,
   (List.range rows.toNat).map fun (y : ℕ) => -yUpper - 1 / 2 * pixelheight - y * pixelheight)

end WindMult
