import Verif.Model.Basic

/-!
# How the programs find their modules (the import statements of `/repo`)

Python's import system as far as the statements in `/repo` use it: module names of one or two parts, absolute imports,
`sys.modules`, the search along `sys.path`.
-/

set_option autoImplicit false

namespace WindMult

/-- A module name `top` or `top.sub`: no import in `/repo` has more parts (e.g. `/repo/all_multipliers.py` 15-36). -/
structure ModName where
  top : String
  sub : Option String
  deriving DecidableEq, Repr

/-- `import name` (no names) or `from name import names` (e.g. `/repo/utilities/blrb.py` 11-15).  `as` is left out, as
it changes only how the module is called. -/
structure ImportStmt where
  name : ModName
  names : List String
  deriving DecidableEq, Repr

/-- The import statements of the files and the names they define at the top level, both as in the files (lines at each
entry).  The `try` of `/repo/utilities/files.py` 12-17 counts as `import hashlib`, which Python always has; the import of
`/repo/pre_process.py` 200, made when it is run as a script, is listed with the others; imports inside of functions
are not made at the start and are left out. -/
def repoFiles : List (String × List ImportStmt × List String) := [
  -- `/repo/all_multipliers.py`, lines 15-36
  ("all_multipliers.py",
    [⟨⟨"inspect", none⟩, []⟩, ⟨⟨"logging", none⟩, []⟩, ⟨⟨"os", none⟩, []⟩, ⟨⟨"shutil", none⟩, []⟩,
      ⟨⟨"sys", none⟩, []⟩, ⟨⟨"time", none⟩, []⟩, ⟨⟨"functools", none⟩, ["reduce", "wraps"]⟩,
      ⟨⟨"os", some "path"⟩, ["join", "realpath", "isdir", "dirname"]⟩, ⟨⟨"argparse", none⟩, []⟩,
      ⟨⟨"numpy", none⟩, []⟩, ⟨⟨"osgeo", none⟩, ["osr", "gdal"]⟩,
      ⟨⟨"osgeo", some "gdalconst"⟩, ["GA_ReadOnly", "GRA_NearestNeighbour", "GDT_Float32", "GDT_Int32"]⟩,
      ⟨⟨"shielding", some "shield_mult"⟩, []⟩, ⟨⟨"terrain", some "terrain_mult"⟩, []⟩,
      ⟨⟨"topographic", some "topo_mult"⟩, []⟩, ⟨⟨"utilities", none⟩, ["mpi_runner"]⟩,
      ⟨⟨"utilities", some "config"⟩, ["configparser"]⟩, ⟨⟨"utilities", some "files"⟩, ["fl_start_log"]⟩,
      ⟨⟨"utilities", some "parallel"⟩, ["attempt_parallel", "disable_on_workers"]⟩],
    ["__version__", "TileGrid", "Multipliers", "get_tiles", "get_tileinfo", "timer",
      "do_output_directory_creation", "reproject_dataset", "run"]),
  -- `/repo/pre_process.py`, lines 1-200
  ("pre_process.py",
    [⟨⟨"utilities", some "shapefiles"⟩, ["shp_file"]⟩, ⟨⟨"logging", none⟩, []⟩,
      ⟨⟨"shapely", some "geometry"⟩, ["shape", "mapping", "Polygon", "Point"]⟩,
      ⟨⟨"shapely", some "ops"⟩, ["unary_union"]⟩, ⟨⟨"shapely", some "strtree"⟩, ["STRtree"]⟩,
      ⟨⟨"fiona", none⟩, []⟩, ⟨⟨"itertools", none⟩, []⟩, ⟨⟨"time", none⟩, []⟩, ⟨⟨"sys", none⟩, []⟩,
      ⟨⟨"rtree", none⟩, ["index"]⟩, ⟨⟨"osgeo", none⟩, ["ogr", "gdal"]⟩, ⟨⟨"numpy", none⟩, []⟩,
      ⟨⟨"utilities", some "config"⟩, ["configparser"]⟩],
    ["logger", "fh", "ch", "formatter", "rasterize", "pre_process", "cmd_line"]),
  -- `/repo/rasterize.py`, lines 1-7
  ("rasterize.py",
    [⟨⟨"argparse", none⟩, []⟩, ⟨⟨"os", some "path"⟩, ["splitext"]⟩, ⟨⟨"osgeo", none⟩, ["gdal"]⟩,
      ⟨⟨"utilities", some "shapefiles"⟩, ["shp_file"]⟩, ⟨⟨"pre_process", none⟩, ["rasterize"]⟩],
    ["cmdline"]),
  -- `/repo/shielding/__init__.py`, no imports
  ("shielding/__init__.py",
    [],
    []),
  -- `/repo/shielding/shield_mult.py`, lines 19-36
  ("shielding/shield_mult.py",
    [⟨⟨"sys", none⟩, []⟩, ⟨⟨"os", none⟩, []⟩, ⟨⟨"glob", none⟩, []⟩, ⟨⟨"logging", none⟩, []⟩,
      ⟨⟨"numexpr", none⟩, []⟩, ⟨⟨"scipy", none⟩, ["ndimage"]⟩, ⟨⟨"os", some "path"⟩, ["join"]⟩,
      ⟨⟨"numpy", none⟩, []⟩, ⟨⟨"osgeo", some "gdalconst"⟩, ["GDT_Float32"]⟩, ⟨⟨"osgeo", none⟩, ["gdal"]⟩,
      ⟨⟨"utilities", some "config"⟩, ["configparser"]⟩, ⟨⟨"utilities", none⟩, ["value_lookup"]⟩,
      ⟨⟨"utilities", some "get_pixel_size_grid"⟩, ["get_pixel_size_grids", "RADIANS_PER_DEGREE"]⟩,
      ⟨⟨"utilities", some "nctools"⟩, ["save_multiplier", "get_lat_lon", "clip_array"]⟩, ⟨⟨"pandas", none⟩, []⟩],
    ["shield", "reclassify_aspect", "get_slope_aspect", "get_shielding_table", "terrain_class2ms_orig",
      "convo_combine", "combine", "init_kern_diag", "init_kern", "kern_w", "kern_e", "kern_n", "kern_s", "kern_ne",
      "kern_nw", "kern_sw", "kern_se", "blur_image"]),
  -- `/repo/terrain/__init__.py`, no imports
  ("terrain/__init__.py",
    [],
    []),
  -- `/repo/terrain/terrain_mult.py`, lines 20-31
  ("terrain/terrain_mult.py",
    [⟨⟨"os", none⟩, []⟩, ⟨⟨"sys", none⟩, []⟩, ⟨⟨"logging", none⟩, []⟩,
      ⟨⟨"utilities", some "config"⟩, ["configparser"]⟩, ⟨⟨"utilities", none⟩, ["value_lookup"]⟩,
      ⟨⟨"utilities", some "nctools"⟩, ["save_multiplier", "get_lat_lon", "clip_array"]⟩,
      ⟨⟨"utilities", some "get_pixel_size_grid"⟩, ["get_pixel_size_grids"]⟩, ⟨⟨"numpy", none⟩, []⟩,
      ⟨⟨"osgeo", none⟩, ["gdal"]⟩, ⟨⟨"os", some "path"⟩, ["join"]⟩, ⟨⟨"pandas", none⟩, []⟩],
    ["terrain", "get_terrain_table", "terrain_class2mz_orig", "convo"]),
  -- `/repo/topographic/__init__.py`, no imports
  ("topographic/__init__.py",
    [],
    []),
  -- `/repo/topographic/findpeaks.py`, lines 8-8
  ("topographic/findpeaks.py",
    [⟨⟨"numpy", none⟩, []⟩],
    ["findpeaks", "findvalleys"]),
  -- `/repo/topographic/make_path.py`, lines 7-7
  ("topographic/make_path.py",
    [⟨⟨"numpy", none⟩, []⟩],
    ["make_path"]),
  -- `/repo/topographic/mh.py`, lines 8-8
  ("topographic/mh.py",
    [⟨⟨"numpy", none⟩, []⟩],
    ["escarpment_factor", "mh_calc"]),
  -- `/repo/topographic/multiplier_calc.py`, lines 8-13
  ("topographic/multiplier_calc.py",
    [⟨⟨"logging", none⟩, []⟩, ⟨⟨"numpy", none⟩, []⟩, ⟨⟨"topographic", none⟩, ["mh"]⟩,
      ⟨⟨"topographic", some "findpeaks"⟩, ["findpeaks", "findvalleys"]⟩],
    ["multiplier_calc"]),
  -- `/repo/topographic/topo_mult.py`, lines 20-32
  ("topographic/topo_mult.py",
    [⟨⟨"os", none⟩, []⟩, ⟨⟨"math", none⟩, []⟩, ⟨⟨"logging", none⟩, []⟩, ⟨⟨"os", some "path"⟩, ["join"]⟩,
      ⟨⟨"numpy", none⟩, []⟩, ⟨⟨"scipy", none⟩, ["signal"]⟩, ⟨⟨"osgeo", none⟩, ["gdal"]⟩,
      ⟨⟨"utilities", some "get_pixel_size_grid"⟩, ["get_pixel_size_grids"]⟩,
      ⟨⟨"utilities", some "nctools"⟩, ["save_multiplier", "get_lat_lon", "clip_array"]⟩,
      ⟨⟨"topographic", none⟩, ["make_path"]⟩, ⟨⟨"topographic", none⟩, ["multiplier_calc"]⟩],
    ["__version__", "topomult", "tasmania", "remove_conservatism"]),
  -- `/repo/utilities/__init__.py`, no imports
  ("utilities/__init__.py",
    [],
    []),
  -- `/repo/utilities/blrb.py`, lines 11-15
  ("utilities/blrb.py",
    [⟨⟨"numpy", none⟩, []⟩, ⟨⟨"logging", none⟩, []⟩, ⟨⟨"utilities", some "meta"⟩, ["print_call"]⟩,
      ⟨⟨"meta", none⟩, ["print_call"]⟩, ⟨⟨"math", none⟩, []⟩],
    ["LOGGER", "DEFAULT_ORIGIN", "DEFAULT_SHAPE", "bilinear", "indices", "subdivide", "interpolate_block",
      "interpolate_grid"]),
  -- `/repo/utilities/config.py`, lines 12-14
  ("utilities/config.py",
    [⟨⟨"inspect", none⟩, []⟩, ⟨⟨"os", some "path"⟩, []⟩, ⟨⟨"configparser", none⟩, ["RawConfigParser"]⟩],
    ["_get_default_config", "_ConfigParser", "configparser"]),
  -- `/repo/utilities/convert.py`, lines 8-16
  ("utilities/convert.py",
    [⟨⟨"logging", none⟩, []⟩, ⟨⟨"os", none⟩, []⟩, ⟨⟨"functools", none⟩, ["reduce"]⟩,
      ⟨⟨"os", some "path"⟩, ["join"]⟩, ⟨⟨"numpy", none⟩, []⟩, ⟨⟨"numpy", some "ma"⟩, []⟩,
      ⟨⟨"osgeo", none⟩, ["gdal", "osr"]⟩, ⟨⟨"osgeo", some "gdal_array"⟩, ["BandReadAsArray"]⟩],
    ["SRS", "PROJECTION", "Converter", "create_sub_dirs_for_convert"]),
  -- `/repo/utilities/files.py`, lines 5-13
  ("utilities/files.py",
    [⟨⟨"os", none⟩, []⟩, ⟨⟨"sys", none⟩, []⟩, ⟨⟨"logging", none⟩, []⟩, ⟨⟨"datetime", none⟩, []⟩,
      ⟨⟨"numpy", none⟩, []⟩, ⟨⟨"time", none⟩, ["ctime", "localtime", "strftime"]⟩, ⟨⟨"hashlib", none⟩, []⟩],
    ["__version__", "logger", "fl_module_path", "fl_module_name", "fl_program_version", "fl_load_file",
      "fl_save_file", "fl_get_stat", "fl_config_file", "fl_start_log", "fl_log_fatal_error", "fl_mod_date",
      "fl_size"]),
  -- `/repo/utilities/get_pixel_size_grid.py`, lines 9-14
  ("utilities/get_pixel_size_grid.py",
    [⟨⟨"numpy", none⟩, []⟩, ⟨⟨"logging", none⟩, []⟩, ⟨⟨"osgeo", none⟩, ["osr"]⟩,
      ⟨⟨"utilities", some "vincenty"⟩, ["vinc_dist"]⟩, ⟨⟨"utilities", some "blrb"⟩, ["interpolate_grid"]⟩],
    ["RADIANS_PER_DEGREE", "Earth", "get_pixel_size", "get_pixel_size_grids"]),
  -- `/repo/utilities/meta.py`, lines 5-8
  ("utilities/meta.py",
    [⟨⟨"threading", none⟩, []⟩, ⟨⟨"os", none⟩, []⟩, ⟨⟨"functools", none⟩, ["wraps"]⟩,
      ⟨⟨"inspect", none⟩, ["getcallargs"]⟩],
    ["RUNNING_SPHINX", "Singleton", "create_arg_string", "print_call"]),
  -- `/repo/utilities/mpi_runner.py`, lines 1-11
  ("utilities/mpi_runner.py",
    [⟨⟨"functools", none⟩, []⟩, ⟨⟨"logging", none⟩, []⟩, ⟨⟨"os", none⟩, []⟩, ⟨⟨"argparse", none⟩, []⟩,
      ⟨⟨"osgeo", none⟩, ["gdal"]⟩, ⟨⟨"utilities", some "convert"⟩, ["Converter", "create_sub_dirs_for_convert"]⟩,
      ⟨⟨"utilities", some "parallel"⟩, ["attempt_parallel"]⟩,
      ⟨⟨"convert", none⟩, ["Converter", "create_sub_dirs_for_convert"]⟩,
      ⟨⟨"parallel", none⟩, ["attempt_parallel"]⟩],
    ["parallelise_convert_on_tiles"]),
  -- `/repo/utilities/nctools.py`, lines 5-15
  ("utilities/nctools.py",
    [⟨⟨"sys", none⟩, []⟩, ⟨⟨"logging", none⟩, []⟩, ⟨⟨"os", none⟩, []⟩, ⟨⟨"netCDF4", none⟩, ["Dataset"]⟩,
      ⟨⟨"numpy", none⟩, []⟩, ⟨⟨"time", none⟩, []⟩, ⟨⟨"getpass", none⟩, []⟩, ⟨⟨"subprocess", none⟩, []⟩,
      ⟨⟨"utilities", some "config"⟩, ["configparser"]⟩, ⟨⟨"utilities", some "files"⟩, ["fl_program_version"]⟩],
    ["LOGGER", "ISO_FORMAT", "clip_array", "get_lat_lon", "nc_create_var", "nc_create_dim", "nc_save_grid",
      "save_multiplier"]),
  -- `/repo/utilities/parallel.py`, lines 20-20
  ("utilities/parallel.py",
    [⟨⟨"functools", none⟩, ["wraps"]⟩],
    ["DummyStatus", "DummyCommWorld", "attempt_parallel", "disable_on_workers"]),
  -- `/repo/utilities/shapefiles.py`, lines 1-7
  ("utilities/shapefiles.py",
    [⟨⟨"logging", none⟩, []⟩, ⟨⟨"itertools", none⟩, []⟩,
      ⟨⟨"shapely", some "geometry"⟩, ["shape", "mapping", "Polygon", "Point"]⟩,
      ⟨⟨"shapely", some "ops"⟩, ["unary_union"]⟩, ⟨⟨"shapely", some "strtree"⟩, ["STRtree"]⟩,
      ⟨⟨"fiona", none⟩, []⟩, ⟨⟨"numpy", none⟩, []⟩],
    ["logger", "shp_file"]),
  -- `/repo/utilities/value_lookup.py`, no imports
  ("utilities/value_lookup.py",
    [],
    ["MULTIPLIER_TYPE", "MS_INIT", "DIRE_ASPECT", "ALL_NEIGHB", "POINT_R", "POINT_C"]),
  -- `/repo/utilities/vincenty.py`, lines 3-4
  ("utilities/vincenty.py",
    [⟨⟨"numpy", none⟩, []⟩, ⟨⟨"math", none⟩, []⟩],
    ["__version__", "GreatCircle", "vinc_dist", "vinc_pt"])]

/-- A file with Python code: one of `/repo`, or another one (`/repo/all_multipliers.py` 15-36 import both). -/
inductive SrcFile
  | repo (path : String)
  | other (id : ℕ)
  deriving DecidableEq, Repr

/-- The folders below `/repo` that hold modules of `/repo/all_multipliers.py` 30-36. -/
inductive RepoDir
  | shielding
  | terrain
  | topographic
  | utilities
  deriving DecidableEq, Repr

/-- The path of a module in a folder (`/repo/all_multipliers.py` 30-36). -/
def RepoDir.file : RepoDir → String → String
  | .shielding, n => "shielding/" ++ n ++ ".py"
  | .terrain, n => "terrain/" ++ n ++ ".py"
  | .topographic, n => "topographic/" ++ n ++ ".py"
  | .utilities, n => "utilities/" ++ n ++ ".py"

/-- An entry of `sys.path`: the folder of the scripts (Python puts it first), a folder in it (`/repo/.travis.yml` 39
names two of them), or a folder with other modules (the standard library is one). -/
inductive PathEntry
  | root
  | folder (d : RepoDir)
  | foreign (top : String → Option ℕ)

/-- The file if `/repo` has it (as listed for `/repo/all_multipliers.py` 30-36 and what these import). -/
def inRepo (p : String) : Option String := if p ∈ repoFiles.map Prod.fst then some p else none

/-- Which file of `/repo` an absolute import of `top` finds in the folder of the scripts: a package or a script
(`/repo/all_multipliers.py` 30-36, `/repo/rasterize.py` 6-7). -/
def repoTop (top : String) : Option String := (inRepo (top ++ "/__init__.py")).or (inRepo (top ++ ".py"))

/-- Which file of `/repo` is the module `sub` of the package with the file `p` (`/repo/all_multipliers.py` 30-36). -/
def repoSub (p : String) (sub : String) : Option String :=
  if p = "shielding/__init__.py" then inRepo (RepoDir.shielding.file sub)
  else if p = "terrain/__init__.py" then inRepo (RepoDir.terrain.file sub)
  else if p = "topographic/__init__.py" then inRepo (RepoDir.topographic.file sub)
  else if p = "utilities/__init__.py" then inRepo (RepoDir.utilities.file sub)
  else none

/-- What an entry of `sys.path` has for a name (Python's path finder; `/repo/utilities/blrb.py` 13-14 search along
it). -/
def PathEntry.find : PathEntry → String → Option SrcFile
  | .root, n => (repoTop n).map .repo
  | .folder d, n => (inRepo (d.file n)).map .repo
  | .foreign t, n => (t n).map .other

/-- Where a program is started: `sys.path`, and for the files that are not in `/repo` the names they define and the
modules of packages (`/repo/requirements.txt`, `/repo/.travis.yml` 39).  Simplified: what these files import themselves
is left out, i.e. what is installed can be imported. -/
structure PyEnv where
  path : List PathEntry
  otherNames : ℕ → List String
  otherSub : ℕ → String → Option ℕ

/-- The file of a module: the first on the path, and for `top.sub` what its package has (Python's import system, for
imports as in `/repo/utilities/mpi_runner.py` 8-11). -/
def PyEnv.resolve (E : PyEnv) (n : ModName) : Option SrcFile :=
  match n.sub, E.path.findSome? fun e => e.find n.top with
  | none, r => r
  | some _, none => none
  | some b, some (.repo p) => (repoSub p b).map .repo
  | some b, some (.other i) => (E.otherSub i b).map .other

/-- The import statements of a file (as listed from `/repo/all_multipliers.py` on). -/
def PyEnv.imports (_ : PyEnv) : SrcFile → List ImportStmt
  | .repo p => ((repoFiles.lookup p).map Prod.fst).getD []
  | .other _ => []

/-- The names that a file defines (as listed from `/repo/all_multipliers.py` on). -/
def PyEnv.fileNames (E : PyEnv) : SrcFile → List String
  | .repo p => ((repoFiles.lookup p).map Prod.snd).getD []
  | .other i => E.otherNames i

/-- The names that a module defines (used by `from … import`, e.g. `/repo/utilities/blrb.py` 13-14).  Simplified: all
names of the file, also while it is still being executed (`/repo` has no imports in a circle). -/
def PyEnv.names (E : PyEnv) (n : ModName) : List String :=
  match E.resolve n with
  | none => []
  | some f => E.fileNames f

/-- Why an import fails: no module of that name (`ModuleNotFoundError`), no such name in the module (`ImportError`),
too many modules inside of each other (for statements such as `/repo/utilities/blrb.py` 14). -/
inductive ImportErr
  | notFound (n : ModName)
  | noName (x : String)
  | tooDeep
  deriving DecidableEq, Repr

/-- One import statement, given what loading a module does: the package, the module, then the names, each of which is
one that the module defines or a module in the package (e.g. `/repo/all_multipliers.py` 30-36). -/
def runStmt (E : PyEnv) (ld : List ModName → ModName → Except ImportErr (List ModName)) (mods : List ModName)
    (s : ImportStmt) : Except ImportErr (List ModName) := do
  let m1 ← ld mods ⟨s.name.top, none⟩
  let m2 ← ld m1 s.name
  s.names.foldlM (fun m x =>
    if x ∈ E.names s.name then pure m
    else if s.name.sub = none ∧ (E.resolve ⟨s.name.top, some x⟩).isSome then ld m ⟨s.name.top, some x⟩
    else .error (.noName x)) m2

/-- Loading a module: nothing if it is in `sys.modules` (the list), else it is searched, entered there, and its import
statements are executed (e.g. `/repo/utilities/blrb.py` for `/repo/utilities/get_pixel_size_grid.py` 14).  The first
argument bounds how deep this goes. -/
def load (E : PyEnv) : ℕ → List ModName → ModName → Except ImportErr (List ModName)
  | 0, _, _ => .error .tooDeep
  | k + 1, mods, n =>
    if n ∈ mods then .ok mods
    else match E.resolve n with
      | none => .error (.notFound n)
      | some f => (E.imports f).foldlM (runStmt E (load E k)) (n :: mods)

/-- The start of a script of `/repo` (`/repo/all_multipliers.py` 15-36, `/repo/pre_process.py` 1-13 and 200,
`/repo/rasterize.py` 1-7): its import statements. -/
def startScript (E : PyEnv) (script : String) : Except ImportErr (List ModName) :=
  (E.imports (.repo script)).foldlM (runStmt E (load E 100)) []

/-- The module from which a name in a file comes: that of the last statement that imports it
(`/repo/utilities/mpi_runner.py` 8-11 import two names twice). -/
def importedFrom (E : PyEnv) (script : String) (x : String) : Option ModName :=
  (((E.imports (.repo script)).filter fun s => x ∈ s.names).getLast?).map ImportStmt.name

end WindMult
