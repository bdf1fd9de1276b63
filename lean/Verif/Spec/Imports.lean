import Verif.Model.Imports

/-!
# What the programs need in order to start

What C151 speaks of.  Of the model only the place where a program is started (`PyEnv`) and the listed statements of the
files occur.
-/

set_option autoImplicit false

namespace WindMult.Spec

/-- The first entry of `sys.path` that has something under the name has this file. -/
def FirstOn (E : PyEnv) (top : String) (f : SrcFile) : Prop :=
  ∃ before e after, E.path = before ++ e :: after ∧ (∀ x ∈ before, x.find top = none) ∧ e.find top = some f

/-- A module of that name is found, and the names are in it (or, if it is a package, are modules in it). -/
def Offers (E : PyEnv) (top : String) (names : List String) : Prop :=
  ∃ f, FirstOn E top f ∧ ∀ x ∈ names, x ∈ E.fileNames f ∨ ∃ i, f = .other i ∧ (E.otherSub i x).isSome

/-- The names of the packages and scripts of the repository. -/
def ownNames : List String :=
  ["shielding", "terrain", "topographic", "utilities", "pre_process", "all_multipliers", "rasterize", "conf"]

/-- What `blrb.py` and `mpi_runner.py` import as if their folder were on `sys.path`. -/
def bareNames : List String := ["meta", "convert", "parallel"]

/-- The import can be made from what is installed: a module, or a package with the module in it, that has the names
(those of a package may be modules in it). -/
def CanImport (E : PyEnv) (s : ImportStmt) : Prop :=
  ∃ i, FirstOn E s.name.top (.other i) ∧
    ((s.name.sub = none ∧ ∀ x ∈ s.names, x ∈ E.otherNames i ∨ (E.otherSub i x).isSome) ∨
      ∃ b j, s.name.sub = some b ∧ E.otherSub i b = some j ∧ ∀ x ∈ s.names, x ∈ E.otherNames j)

/-- Everything that these files of the repository import from elsewhere is installed. -/
def Installed (E : PyEnv) (files : List String) : Prop :=
  ∀ p ∈ files, ∀ s ∈ E.imports (.repo p), s.name.top ∉ ownNames ++ bareNames → CanImport E s

/-- The files of the main program. -/
def mainFiles : List String :=
  ["all_multipliers.py", "shielding/__init__.py", "shielding/shield_mult.py", "terrain/__init__.py",
    "terrain/terrain_mult.py", "topographic/__init__.py", "topographic/findpeaks.py", "topographic/make_path.py",
    "topographic/mh.py", "topographic/multiplier_calc.py", "topographic/topo_mult.py", "utilities/__init__.py",
    "utilities/blrb.py", "utilities/config.py", "utilities/convert.py", "utilities/files.py",
    "utilities/get_pixel_size_grid.py", "utilities/meta.py", "utilities/mpi_runner.py", "utilities/nctools.py",
    "utilities/parallel.py", "utilities/value_lookup.py", "utilities/vincenty.py"]

/-- The files of the pre-processing and of the rasterising tool. -/
def toolFiles : List String :=
  ["pre_process.py", "rasterize.py", "utilities/__init__.py", "utilities/config.py", "utilities/shapefiles.py"]

/-- The program gets past its imports. -/
def Starts (E : PyEnv) (script : String) : Prop := ∃ mods, startScript E script = .ok mods

end WindMult.Spec
