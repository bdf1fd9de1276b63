import Verif.Model.Basic

/-!
# Tiling of the input raster (`/repo/all_multipliers.py`, class `TileGrid`)
-/

set_option autoImplicit false

namespace WindMult

/-- Shape and geotransform of the input raster as read by `TileGrid.__init__`
(`/repo/all_multipliers.py` 70-84).  `gt0, gt1, gt3, gt5` are entries of
`GetGeoTransform()`; rotation terms are not used by the code. -/
structure RasterInfo (K : Type) where
  xDim : ℕ
  yDim : ℕ
  gt0 : K
  gt1 : K
  gt3 : K
  gt5 : K

/-- One entry of the four index arrays `x_start, x_end, y_start, y_end`
(`/repo/all_multipliers.py` 107-110, 126-136); ends are inclusive, as in the code. -/
structure TileIdx where
  xStart : ℤ
  xEnd : ℤ
  yStart : ℤ
  yEnd : ℤ
  deriving DecidableEq, Repr

/-- Return value of `get_gridlimit` / `get_gridlimit_buffer`: `x1, x2, y1, y2`.
`/repo/all_multipliers.py` 155, 189. -/
structure Limits where
  x1 : ℤ
  x2 : ℤ
  y1 : ℤ
  y2 : ℤ
  deriving DecidableEq, Repr

/-- The fields of a `TileGrid` object (`/repo/all_multipliers.py` 70-112). -/
structure TileGrid (K : Type) where
  xDim : ℤ
  yDim : ℤ
  xLeft : K
  yUpper : K
  pixelwidth : K
  pixelheight : K
  xStep : ℤ
  yStep : ℤ
  xBuffer : ℤ
  yBuffer : ℤ
  tiles : List TileIdx

/-- Return value of `get_tile_extent`: `(x_start, y_start, x_end, y_end)`. `/repo/all_multipliers.py`
239, 259. -/
structure Extent (K : Type) where
  xStart : K
  yStart : K
  xEnd : K
  yEnd : K

variable {K : Type} [Field K] [LinearOrder K] [IsStrictOrderedRing K] [FloorRing K]

/-- `TileGrid.tile_grid` (`/repo/all_multipliers.py` 116-136): columns outer, rows inner.
The four parallel arrays written at the running index `k` are one list of records;
array dtype `int32` is unbounded here. -/
def tileGridLoop (maxcols maxrows : ℕ) (xStep yStep xBuffer yBuffer xDim yDim : ℤ) :
    List TileIdx :=
  (List.range maxcols).flatMap fun (i : ℕ) =>
    (List.range maxrows).map fun (j : ℕ) =>
      { xStart := max 0 (i * xStep - xBuffer)
        xEnd := min ((i + 1) * xStep + xBuffer) xDim - 1
        yStart := max 0 (j * yStep - yBuffer)
        yEnd := min ((j + 1) * yStep + yBuffer) yDim - 1 }

/-- `TileGrid.__init__` (`/repo/all_multipliers.py` 48-114) after the raster has been
opened.  Simplifications: file errors and logging dropped; a zero pixel size
(`ZeroDivisionError` in Python) is excluded by the hypotheses of the theorems. -/
def TileGrid.init (upwindLength : K) (r : RasterInfo K) : TileGrid K :=
  let pixelwidth := r.gt1
  let pixelheight := -r.gt5
  let xStep : ℤ := ⌈1 / pixelwidth⌉
  let yStep : ℤ := ⌈1 / pixelheight⌉
  let xBuffer := pyInt (upwindLength / pixelwidth)
  let yBuffer := pyInt (upwindLength / pixelheight)
  let maxcols : ℤ := ⌈(r.xDim : K) / (xStep : K)⌉
  let maxrows : ℤ := ⌈(r.yDim : K) / (yStep : K)⌉
  { xDim := r.xDim
    yDim := r.yDim
    xLeft := r.gt0
    yUpper := -r.gt3
    pixelwidth, pixelheight, xStep, yStep, xBuffer, yBuffer
    tiles := tileGridLoop maxcols.toNat maxrows.toNat xStep yStep xBuffer yBuffer
      r.xDim r.yDim }

namespace TileGrid

/-- `num_tiles` (`/repo/all_multipliers.py` 106): length of the index arrays. -/
def numTiles (g : TileGrid K) : ℕ := g.tiles.length

/-- Read of the index arrays at `k` (tile numbers are non-negative in all callers).
`/repo/all_multipliers.py` 150-153, 169-185. -/
def idx (g : TileGrid K) (k : ℕ) : Except PyErr TileIdx :=
  match g.tiles[k]? with
  | some t => .ok t
  | none => .error .indexError

/-- `get_gridlimit_buffer` (`/repo/all_multipliers.py` 138-155). -/
def getGridlimitBuffer (g : TileGrid K) (k : ℕ) : Except PyErr Limits := do
  let t ← g.idx k
  return ⟨t.xStart, t.xEnd + 1, t.yStart, t.yEnd + 1⟩

/-- `get_gridlimit` (`/repo/all_multipliers.py` 157-189). -/
def getGridlimit (g : TileGrid K) (k : ℕ) : Except PyErr Limits := do
  let t ← g.idx k
  let x1 := if t.xStart ≠ 0 then t.xStart + g.xBuffer else t.xStart
  let y1 := if t.yStart ≠ 0 then t.yStart + g.yBuffer else t.yStart
  let x2 := if t.xEnd ≠ g.xDim - 1 then t.xEnd - g.xBuffer + 1 else g.xDim
  let y2 := if t.yEnd ≠ g.yDim - 1 then t.yEnd - g.yBuffer + 1 else g.yDim
  return ⟨x1, x2, y1, y2⟩

/-- `get_startcord` (`/repo/all_multipliers.py` 191-204). -/
def getStartcord (g : TileGrid K) (k : ℕ) : Except PyErr (K × K) := do
  let l ← g.getGridlimit k
  return (g.xLeft + l.x1 * g.pixelwidth, g.yUpper + l.y1 * g.pixelheight)

/-- `get_tilename` (`/repo/all_multipliers.py` 206-219).  `str` is Python's rendering of a
float; `s[:n]` is `List.take` on characters. -/
def getTilename (str : K → List Char) (g : TileGrid K) (k : ℕ) : Except PyErr (List Char) := do
  let s ← g.getStartcord k
  return ['e'] ++ (str s.1).take 8 ++ ['s'] ++ (str s.2).take 7

/-- Shared body of the two extent methods (`/repo/all_multipliers.py` 233-237, 253-257). -/
def extentOf (g : TileGrid K) (l : Limits) : Extent K :=
  { xStart := g.xLeft + l.x1 * g.pixelwidth
    yStart := -(g.yUpper + l.y1 * g.pixelheight)
    xEnd := g.xLeft + l.x2 * g.pixelwidth
    yEnd := -(g.yUpper + l.y2 * g.pixelheight) }

/-- `get_tile_extent_buffer` (`/repo/all_multipliers.py` 221-239). -/
def getTileExtentBuffer (g : TileGrid K) (k : ℕ) : Except PyErr (Extent K) := do
  let l ← g.getGridlimitBuffer k
  return g.extentOf l

/-- `get_tile_extent` (`/repo/all_multipliers.py` 241-259). -/
def getTileExtent (g : TileGrid K) (k : ℕ) : Except PyErr (Extent K) := do
  let l ← g.getGridlimit k
  return g.extentOf l

end TileGrid
end WindMult
