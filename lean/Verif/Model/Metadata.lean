import Verif.Model.FileNames

/-!
# Names taken from the call stack, and the attributes of the multiplier files

`/repo/utilities/files.py` 28–88 and 185–213, `/repo/utilities/nctools.py` 296–350.
-/

set_option autoImplicit false

namespace WindMult

/-- A frame of the interpreter's stack (`sys._getframe`, `/repo/utilities/files.py` 42, 64, 84): the file and the name of
the function (`<module>` for the code of a file itself), and `__version__` of its globals, if there.  Simplification:
file names are absolute, without links, so that `os.path.realpath` (42) changes nothing. -/
structure Frame where
  file : List Char
  func : List Char
  version : Option (List Char)

/-- The frame of a function of `/repo/utilities/files.py`, whose `__version__` is set in line 19. -/
def filesFrame (files func : List Char) : Frame :=
  ⟨files, func, some "$Id: files.py 685 2012-03-29 04:22:32Z carthur $".toList⟩

/-- `sys._getframe(level)` (`/repo/utilities/files.py` 42, 64, 84), innermost frame first.  Levels below 0 are left
out. -/
def getframe (stack : List Frame) (level : ℕ) : Except PyErr Frame :=
  match stack[level]? with
  | some f => .ok f
  | none => .error .valueError

/-- `os.path.splitext(p)[1]` (`/repo/utilities/files.py` 44). -/
def splitextExt (p : List Char) : List Char := p.drop (splitextRoot p).length

/-- `fl_module_path(level)` (`/repo/utilities/files.py` 28-46) in the file `files`, with the frames it is called from. -/
def modulePath (files : List Char) (callers : List Frame) (level : ℕ) :
    Except PyErr (List Char × List Char × List Char) := do
  let f ← getframe (filesFrame files "fl_module_path".toList :: callers) level
  pure (dirname f.file, splitextRoot (basename f.file), splitextExt (basename f.file))

/-- `fl_module_name(level)` (`/repo/utilities/files.py` 49-65). -/
def moduleName (files : List Char) (callers : List Frame) (level : ℕ) : Except PyErr (List Char) := do
  let f ← getframe (filesFrame files "fl_module_name".toList :: callers) level
  pure f.func

/-- `fl_program_version(level)` (`/repo/utilities/files.py` 68-88); `None` and 0 are the same (81). -/
def programVersion (files : List Char) (callers : List Frame) (level : Option ℕ) : Except PyErr (List Char) := do
  let stack := filesFrame files "fl_program_version".toList :: callers
  let f ← getframe stack (if level.getD 0 = 0 then stack.length - 1 else level.getD 0)
  pure (f.version.getD [])

/-- `fl_config_file(extension, prefix, level)` (`/repo/utilities/files.py` 185-213); `inspect.stack()` (208) begins with
the frame of `fl_config_file`. -/
def configFile (files : List Char) (callers : List Frame) (extension pre : List Char) (level : Option ℕ) :
    Except PyErr (List Char) := do
  let stack := filesFrame files "fl_config_file".toList :: callers
  let (path, base, _) ← modulePath files stack (if level.getD 0 = 0 then stack.length else level.getD 0)
  pure (pjoin path (pre ++ base ++ extension))

/-- Global attributes of a netCDF file (`/repo/utilities/nctools.py` 325-350), a dictionary.  Simplification: the names
are any texts; the netCDF library does not take all of them. -/
abbrev Atts := List Char → Option (List Char)

/-- The names of the attributes of the dictionary in `/repo/utilities/nctools.py` 325-344. -/
def fixedKeys : List (List Char) :=
  ["Abstract".toList, "Lineage".toList, "Inputs".toList, "Python_version".toList,
    "Wind_multipler_code_version".toList, "Git_version".toList, "Conventions".toList, "Created_on".toList,
    "Created_by".toList, "Custodian".toList]

/-- What is known about the process besides its configuration: `sys.version`, the answer of `git describe` (an error if
the folder is no repository or has no tags), the time and the user (`/repo/utilities/nctools.py` 321, 339-343).  The
bytes of `check_output` are texts here. -/
structure Env where
  python : List Char
  git : Except PyErr (List Char)
  time : List Char
  user : List Char

/-- The dictionary `multiplier` (`/repo/utilities/nctools.py` 312-314). -/
def Mult.title : Mult → List Char
  | .ms => "shielding multiplier".toList
  | .mz => "terrain multiplier".toList
  | .mt => "topographic multiplier".toList

/-- The sections of the configuration with their options and values, as `config.sections()`, `config.options` and
`config.get` give them (`/repo/utilities/nctools.py` 346-349). -/
abbrev Sections := List (List Char × List (List Char × List Char))

/-- `config.get(section, option)` (`/repo/utilities/nctools.py` 316-317). -/
def Sections.get (c : Sections) (s o : List Char) : Except PyErr (List Char) :=
  match (c.lookup s).bind (fun os => os.lookup o) with
  | some v => .ok v
  | none => .error .keyError

/-- `global_atts[key] = value` (`/repo/utilities/nctools.py` 350). -/
def Atts.set (a : Atts) (k v : List Char) : Atts := fun x => if x = k then some v else a x

/-- The loop of `/repo/utilities/nctools.py` 346-350. -/
def addSections (c : Sections) (a : Atts) : Atts :=
  c.foldl (fun a s => s.2.foldl (fun a o => a.set (s.1 ++ '_' :: o.1) o.2) a) a

/-- `global_atts` of `save_multiplier` (`/repo/utilities/nctools.py` 307-350), called from the frames `callers`; its own
frame is one of `nctools.py`. -/
def multiplierAtts (files nctools : List Char) (callers : List Frame) (e : Env) (c : Sections) (m : Mult)
    (ncName : List Char) : Except PyErr Atts := do
  let land ← c.get "inputValues".toList "terrain_data".toList
  let dem ← c.get "inputValues".toList "dem_data".toList
  let git ← e.git
  let version ← programVersion files (⟨nctools, "save_multiplier".toList, none⟩ :: callers) none
  pure (addSections c (fun k => (fixedKeys.zip
    ["This dataset is the local ".toList ++ m.title ++ " for each grid cell in ".toList ++ metaDirection ncName ++
        " direction for this tile".toList,
      ("Methodology is based on the reference: Yang, T., Nadimpalli, K. & Cechet, R.P. 2014. Local wind assessment " ++
        "in Australia: computation methodology for wind multipliers. Record 2014/33. Geoscience Australia, " ++
        "Canberra.").toList,
      "terrain data: ".toList ++ land ++ ", dem data: ".toList ++ dem, e.python, version, git, "CF-1.6".toList,
      e.time, e.user, "Geoscience Australia".toList]).lookup k))

end WindMult
