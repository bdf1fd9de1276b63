import Verif.Model.FileNames

/-!
# Files created and removed while the tiles are processed
-/

set_option autoImplicit false

namespace WindMult

/-- What the computation of a tile does to the file system. `/repo/all_multipliers.py` 367-427. -/
inductive FileOp
  /-- a data set is created (or overwritten) -/
  | create (p : List Char)
  /-- `os.remove(p)`: `OSError` if there is no such file -/
  | remove (p : List Char)
  /-- `os.remove(p)` guarded by `os.path.exists` or by `except: pass` -/
  | removeIfThere (p : List Char)
  /-- `if not os.path.exists(p): raise OSError`, or `gdal.Open(p)`, which raises if there is no
  such file (`gdal.UseExceptions()` is on, `/repo/utilities/convert.py` 19); the kind of exception is
  not distinguished -/
  | expect (p : List Char)
  /-- remove all files in directory `dir` whose name ends in `.xml`, ignoring errors -/
  | removeXml (dir : List Char)
  deriving DecidableEq

/-- A state of the file system: which paths are files. `/repo/all_multipliers.py` 367-427. -/
abbrev FileSys := List Char → Bool

/-- `glob.glob('*.xml')` in `dir` (`/repo/shielding/shield_mult.py` 337-338), assuming that the
directory has no subdirectories. -/
def isXmlIn (dir p : List Char) : Bool :=
  (dir ++ ['/']).isPrefixOf p && (['.', 'x', 'm', 'l']).isSuffixOf p

/-- The effect of one operation. `/repo/all_multipliers.py` 418, 421, 426-427. -/
def FileOp.run (fs : FileSys) : FileOp → Except PyErr FileSys
  | .create p => .ok (fun q => if q = p then true else fs q)
  | .remove p => if fs p then .ok (fun q => if q = p then false else fs q) else .error .osError
  | .removeIfThere p => .ok (fun q => if q = p then false else fs q)
  | .expect p => if fs p then .ok fs else .error .osError
  | .removeXml dir => .ok (fun q => if isXmlIn dir q then false else fs q)

/-- A sequence of operations. `/repo/all_multipliers.py` 367-427. -/
def runOps : FileSys → List FileOp → Except PyErr FileSys
  | fs, [] => .ok fs
  | fs, a :: as =>
    match a.run fs with
    | .error e => .error e
    | .ok fs' => runOps fs' as

/-- The direction loop of the shielding step (`/repo/shielding/shield_mult.py` 290). -/
def Dir.shieldOrder : List Dir := [.w, .e, .n, .s, .nw, .ne, .se, .sw]

/-- The file operations for one tile: `cut_dem` (`/repo/all_multipliers.py` 326-327) and
`multipliers_calculate` (367-427).  `empty`: the checksum of the tile's DEM is 0;
`noLand`: all land-cover classes are unknown, in which case the terrain step returns without
writing (`/repo/terrain/terrain_mult.py` 86-89).  The terrain step writes its eight files
(106-146), the shielding step its temporary raster, its eight files, and removes the raster and
`*.xml` (`/repo/shielding/shield_mult.py` 220-237, 292-345), the topographic step its eight files
(`/repo/topographic/topo_mult.py` 82-148).  The steps open the rasters they read: the terrain step
the land cover (`/repo/terrain/terrain_mult.py` 44), the shielding step the DEM, the land cover and
its own raster (`/repo/shielding/shield_mult.py` 102, 182, 257), the topographic step the DEM
(`/repo/topographic/topo_mult.py` 50).  Paths are assumed absolute here; relative ones are the
subject of `Verif/Model/Cwd.lean`. -/
def tileOps (out tile : List Char) (empty noLand : Bool) : List FileOp :=
  .create (demTemp out tile) :: .expect (demTemp out tile) ::
  if empty then [.removeIfThere (demTemp out tile)]
  else
    [.create (landTemp out tile), .expect (landTemp out tile)] ++
    (if noLand then [] else Dir.terrainOrder.map fun d => .create (savedNc out tile d .mz)) ++
    [.expect (demTemp out tile), .expect (landTemp out tile),
      .create (shieldTemp (landTemp out tile)), .expect (shieldTemp (landTemp out tile))] ++
    (Dir.shieldOrder.map fun d => .create (savedNc out tile d .ms)) ++
    [.removeIfThere (shieldTemp (landTemp out tile)),
      .removeXml (dirname (shieldTemp (landTemp out tile))), .expect (demTemp out tile)] ++
    (Dir.topoOrder.map fun d => .create (savedNc out tile d .mt)) ++
    [.remove (demTemp out tile), .remove (landTemp out tile)]

end WindMult
