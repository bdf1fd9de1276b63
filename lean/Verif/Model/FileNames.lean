import Verif.Model.Convert
import Verif.Model.TopoGrid

/-!
# File names: where each step writes a tile and where the converter looks for it

Paths and file names are lists of characters; `os.path` is `posixpath`.
-/

set_option autoImplicit false

namespace WindMult

/-- `posixpath.join(a, b)` (as `pjoin`, e.g. `/repo/all_multipliers.py` 326). -/
def pjoin (a b : List Char) : List Char :=
  if b.head? = some '/' then b
  else if a = [] ∨ a.getLast? = some '/' then a ++ b
  else a ++ '/' :: b

/-- `os.path.basename` (e.g. `/repo/terrain/terrain_mult.py` 133). -/
def basename (p : List Char) : List Char := (p.reverse.takeWhile (· ≠ '/')).reverse

/-- `head` in `posixpath.dirname`: everything up to and including the last slash. Used at
`/repo/terrain/terrain_mult.py` 132, `/repo/shielding/shield_mult.py` 176, 287,
`/repo/topographic/topo_mult.py` 47. -/
def dirHead (p : List Char) : List Char := (p.reverse.dropWhile (· ≠ '/')).reverse

/-- `os.path.dirname` (e.g. `/repo/terrain/terrain_mult.py` 132): the head without trailing
slashes unless it consists of slashes only. -/
def dirname (p : List Char) : List Char :=
  if (dirHead p).all (· = '/') then dirHead p
  else ((dirHead p).reverse.dropWhile (· = '/')).reverse

/-- `os.path.splitext(p)[0]` (e.g. `/repo/terrain/terrain_mult.py` 140): cut at the last dot,
provided it lies in the last path component and is not one of its leading dots. -/
def splitextRoot (p : List Char) : List Char :=
  match p.reverse.dropWhile (· ≠ '.') with
  | [] => p
  | _ :: rest =>
    if '/' ∈ p.reverse.takeWhile (· ≠ '.') then p
    else if (rest.takeWhile (· ≠ '/')).all (· = '.') then p
    else rest.reverse

/-- Python `s[:-n]`. `[:-4]`, `/repo/topographic/topo_mult.py` 142. -/
def dropLast (n : ℕ) (s : List Char) : List Char := s.take (s.length - n)

/-- Python `s[-n:]` for `n ≥ 1`. `/repo/utilities/nctools.py` 307-310. -/
def takeLast (n : ℕ) (s : List Char) : List Char := s.drop (s.length - n)

/-- `temp_tile_dem` (`/repo/all_multipliers.py` 326). -/
def demTemp (out tile : List Char) : List Char := pjoin out (tile ++ ['_', 'd', 'e', 'm', '.', 'i', 'm', 'g'])

/-- `terrain_resample` (`/repo/all_multipliers.py` 395). -/
def landTemp (out tile : List Char) : List Char := pjoin out (tile ++ ['.', 'i', 'm', 'g'])

/-- `tile_nc` of the terrain step (`/repo/terrain/terrain_mult.py` 132-143), from its argument
`temp_tile`. -/
def terrainNc (tempTile : List Char) (d : Dir) : List Char :=
  pjoin (pjoin (dirname tempTile) ['t', 'e', 'r', 'r', 'a', 'i', 'n'])
    (splitextRoot (basename tempTile) ++ ['_', 'm', 'z', '_'] ++ d.letters ++ ['.', 'n', 'c'])

/-- `ms_orig` (`/repo/shielding/shield_mult.py` 176-177, 220), from the argument `terrain`. -/
def shieldTemp (tempTile : List Char) : List Char :=
  pjoin (pjoin (dirname tempTile) ['s', 'h', 'i', 'e', 'l', 'd', 'i', 'n', 'g'])
    (splitextRoot (basename tempTile) ++ ['_', 'm', 's', '.', 'i', 'm', 'g'])

/-- `tile_nc` of the shielding step (`/repo/shielding/shield_mult.py` 287-288, 317-322), from its
argument `ms_orig`. -/
def shieldNc (msOrig : List Char) (d : Dir) : List Char :=
  pjoin (dirname msOrig) (splitextRoot (basename msOrig) ++ ['_'] ++ d.letters ++ ['.', 'n', 'c'])

/-- `tile_nc` of the topographic step (`/repo/topographic/topo_mult.py` 47-48, 142-143), from its
argument `input_dem`. -/
def topoNc (inputDem : List Char) (d : Dir) : List Char :=
  pjoin (pjoin (dirname inputDem) ['t', 'o', 'p', 'o', 'g', 'r', 'a', 'p', 'h', 'i', 'c'])
    (dropLast 4 (splitextRoot (basename inputDem)) ++ ['_', 'm', 't', '_'] ++ d.letters ++ ['.', 'n', 'c'])

/-- The file under which `multipliers_calculate` saves a multiplier of a tile
(`/repo/all_multipliers.py` 395-412 passes the temporary rasters to the three steps). -/
def savedNc (out tile : List Char) (d : Dir) : Mult → List Char
  | .ms => shieldNc (shieldTemp (landTemp out tile)) d
  | .mz => terrainNc (landTemp out tile) d
  | .mt => topoNc (demTemp out tile) d

/-- The keys of `Converter.types` (`/repo/utilities/convert.py` 31). -/
def Mult.folder : Mult → List Char
  | .ms => ['s', 'h', 'i', 'e', 'l', 'd', 'i', 'n', 'g']
  | .mz => ['t', 'e', 'r', 'r', 'a', 'i', 'n']
  | .mt => ['t', 'o', 'p', 'o', 'g', 'r', 'a', 'p', 'h', 'i', 'c']

/-- `unit.lower()` (`/repo/utilities/convert.py` 31, 114). -/
def Mult.unit : Mult → List Char
  | .ms => ['m', 's']
  | .mz => ['m', 'z']
  | .mt => ['m', 't']

/-- The base name of the file the converter opens (`/repo/utilities/convert.py` 114). -/
def openedName (tile : List Char) (d : Dir) (m : Mult) : List Char :=
  tile ++ ['_'] ++ m.unit ++ ['_'] ++ d.letters ++ ['.', 'n', 'c']

/-- `filename` in `process_tile` (`/repo/utilities/convert.py` 113-114). -/
def openedNc (path tile : List Char) (d : Dir) (m : Mult) : List Char :=
  pjoin (pjoin path m.folder) (openedName tile d m)

/-- `direction` in `save_multiplier` (`/repo/utilities/nctools.py` 307-310). -/
def metaDirection (ncName : List Char) : List Char :=
  if '_' ∈ takeLast 2 (splitextRoot ncName) then takeLast 1 (takeLast 2 (splitextRoot ncName))
  else takeLast 2 (splitextRoot ncName)

end WindMult
