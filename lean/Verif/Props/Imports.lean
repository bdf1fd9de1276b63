import Verif.Proofs.Imports

/-!
# C151: the programs start where they find their modules
-/

set_option autoImplicit false

namespace WindMult
open Spec

/-! ### The main program -/

/-- Which statements of the main program name a module of `utilities` as if that folder were on `sys.path`. -/
theorem bare_stmts : ∀ p ∈ mainFiles, ∀ s ∈ importsOf p, s.name.top ∈ bareNames →
    2 ≤ importRank (.repo p) ∧ (s = ⟨⟨"meta", none⟩, ["print_call"]⟩ ∨
      s = ⟨⟨"convert", none⟩, ["Converter", "create_sub_dirs_for_convert"]⟩ ∨
      s = ⟨⟨"parallel", none⟩, ["attempt_parallel"]⟩) := by
  decide +kernel

/-- A file of the repository that such a statement finds is one of `utilities`. -/
theorem bare_file {e : PathEntry} {top q : String} (ht : top ∈ bareNames) (h : e.find top = some (.repo q)) :
    q ∈ mainFiles ∧ importRank (.repo q) ≤ 1 ∧ ∀ x, repoSub q x = none := by
  have key : ∀ d top, top ∈ bareNames → ∀ q ∈ inRepo (RepoDir.file d top),
      q ∈ mainFiles ∧ importRank (.repo q) ≤ 1 ∧ q ∉ ["shielding/__init__.py", "terrain/__init__.py",
        "topographic/__init__.py", "utilities/__init__.py"] := by
    intro d
    cases d <;> decide +kernel
  have hroot : ∀ top ∈ bareNames, repoTop top = none := by decide +kernel
  cases e with
  | root =>
    simp only [PathEntry.find, hroot top ht] at h
    cases h
  | folder d =>
    simp only [PathEntry.find, Option.map_eq_some_iff, SrcFile.repo.injEq, exists_eq_right] at h
    obtain ⟨h1, h2, h3⟩ := key d top ht q h
    refine ⟨h1, h2, fun x => ?_⟩
    simp only [List.mem_cons, List.not_mem_nil, or_false, not_or] at h3
    obtain ⟨a, b, c, d⟩ := h3
    rw [repoSub, if_neg a, if_neg b, if_neg c, if_neg d]
  | foreign t =>
    simp [PathEntry.find] at h

theorem bare_ok {E : PyEnv} {top : String} {names : List String} (ht : top ∈ bareNames) (h : Offers E top names) :
    StmtOk E ⟨⟨top, none⟩, names⟩ ∧ ∀ m ∈ stmtMods E ⟨⟨top, none⟩, names⟩, ∀ g, E.resolve m = some g →
      (∀ q, g = .repo q → q ∈ mainFiles) ∧ importRank g ≤ 1 := by
  obtain ⟨f, hf, hn⟩ := h
  have h0 := (resolve_top E top f).mpr hf
  have key : ∀ m ∈ stmtMods E ⟨⟨top, none⟩, names⟩, ∃ g, E.resolve m = some g ∧
      (∀ q, g = .repo q → q ∈ mainFiles) ∧ importRank g ≤ 1 := by
    have hself : (∀ q, f = .repo q → q ∈ mainFiles) ∧ importRank f ≤ 1 := by
      obtain ⟨b, e, a, -, -, he⟩ := hf
      constructor
      · rintro q rfl
        exact (bare_file ht he).1
      · cases f with
        | repo q => exact (bare_file ht he).2.1
        | other i => exact Nat.zero_le _
    intro m hm
    rcases List.mem_cons.mp hm with rfl | hm
    · exact ⟨f, h0, hself⟩
    rcases List.mem_cons.mp hm with rfl | hm
    · exact ⟨f, h0, hself⟩
    rw [if_pos rfl] at hm
    obtain ⟨x, hx, rfl⟩ := List.mem_map.mp hm
    obtain ⟨hx1, hx2⟩ := List.mem_filter.mp hx
    have hx3 := of_decide_eq_true hx2
    rcases hn x hx1 with h | ⟨i, rfl, h⟩
    · refine absurd ?_ hx3
      unfold PyEnv.names
      rw [h0]
      exact h
    · obtain ⟨j, hj⟩ := Option.isSome_iff_exists.mp h
      exact ⟨.other j, by rw [resolve_sub_other E top x h0, hj]; rfl, by simp, Nat.zero_le _⟩
  refine ⟨⟨fun m hm => ?_, fun h => absurd rfl h⟩, fun m hm g hg => ?_⟩
  · obtain ⟨g, hg, -⟩ := key m hm
    rw [hg]
    rfl
  · obtain ⟨g', hg', h⟩ := key m hm
    obtain rfl : g = g' := Option.some.inj (hg.symm.trans hg')
    exact h

theorem bare_offers {E : PyEnv} {top : String} {names : List String} (ht : top ∈ bareNames)
    (h : StmtOk E ⟨⟨top, none⟩, names⟩) : Offers E top names := by
  obtain ⟨f, h0⟩ := Option.isSome_iff_exists.mp (h.1 ⟨top, none⟩ List.mem_cons_self)
  have hf := (resolve_top E top f).mp h0
  refine ⟨f, hf, fun x hx => ?_⟩
  by_cases hn : x ∈ E.names ⟨top, none⟩
  · left
    unfold PyEnv.names at hn
    rw [h0] at hn
    exact hn
  · right
    have hmem : (⟨top, some x⟩ : ModName) ∈ stmtMods E ⟨⟨top, none⟩, names⟩ := by
      refine List.mem_cons_of_mem _ (List.mem_cons_of_mem _ ?_)
      rw [if_pos rfl]
      exact List.mem_map.mpr ⟨x, List.mem_filter.mpr ⟨hx, decide_eq_true hn⟩, rfl⟩
    have h1 := h.1 _ hmem
    cases f with
    | repo q =>
      obtain ⟨b, e, a, -, -, he⟩ := hf
      rw [resolve_sub_repo E top x h0, (bare_file ht he).2.2 x] at h1
      cases h1
    | other i =>
      rw [resolve_sub_other E top x h0] at h1
      exact ⟨i, rfl, by simpa using h1⟩

/-- A file of the repository that a loaded file imports is loaded as well. -/
theorem loaded_next {E : PyEnv} {rest : List PathEntry} (hE : E.path = .root :: rest) {mods : List ModName}
    (hmods : ∀ n ∈ mods, ∃ f, E.resolve n = some f ∧ FileOk E mods f) {p q : String} (hp : FileOk E mods (.repo p))
    (s : ImportStmt) (hs : s ∈ importsOf p) (n : ModName) (hn : n ∈ stmtModsR s) (ht : (repoTop s.name.top).isSome)
    (hn' : (repoTop n.top).isSome) (hq : repoResolve n = some q) : FileOk E mods (.repo q) := by
  obtain ⟨-, h1⟩ := hp s hs
  rw [stmtMods_own hE s ht] at h1
  obtain ⟨f, hf, hf'⟩ := hmods n (h1 n hn)
  rw [resolve_own hE n hn', hq] at hf
  obtain rfl : SrcFile.repo q = f := Option.some.inj hf
  exact hf'

/-- **C151** (partial: the full claim, that the main program starts where everything that is documented as required is
installed, is false, `C151_documented`)  Started from its folder, with everything installed that it imports from
elsewhere, the main program gets past its imports if and only if modules `meta`, `convert` and `parallel` with the four
names are found along `sys.path`. -/
theorem C151_main_partial (E : PyEnv) (rest : List PathEntry) (hE : E.path = .root :: rest)
    (hinst : Installed E mainFiles) :
    Starts E "all_multipliers.py" ↔ Offers E "meta" ["print_call"] ∧
      Offers E "convert" ["Converter", "create_sub_dirs_for_convert"] ∧ Offers E "parallel" ["attempt_parallel"] := by
  constructor
  · rintro ⟨mods, h⟩
    obtain ⟨h0, hmods⟩ := imports_ok h
    have h1 := loaded_next hE hmods h0 ⟨⟨"shielding", some "shield_mult"⟩, []⟩ (by decide +kernel)
      ⟨"shielding", some "shield_mult"⟩ (by decide +kernel) (by decide +kernel) (by decide +kernel)
      (q := "shielding/shield_mult.py") (by decide +kernel)
    have h2 := loaded_next hE hmods h1
      ⟨⟨"utilities", some "get_pixel_size_grid"⟩, ["get_pixel_size_grids", "RADIANS_PER_DEGREE"]⟩ (by decide +kernel)
      ⟨"utilities", some "get_pixel_size_grid"⟩ (by decide +kernel) (by decide +kernel) (by decide +kernel)
      (q := "utilities/get_pixel_size_grid.py") (by decide +kernel)
    have h3 := loaded_next hE hmods h2 ⟨⟨"utilities", some "blrb"⟩, ["interpolate_grid"]⟩ (by decide +kernel)
      ⟨"utilities", some "blrb"⟩ (by decide +kernel) (by decide +kernel) (by decide +kernel)
      (q := "utilities/blrb.py") (by decide +kernel)
    have h4 := loaded_next hE hmods h0 ⟨⟨"utilities", none⟩, ["mpi_runner"]⟩ (by decide +kernel)
      ⟨"utilities", some "mpi_runner"⟩ (by decide +kernel) (by decide +kernel) (by decide +kernel)
      (q := "utilities/mpi_runner.py") (by decide +kernel)
    have mem : ∀ {p s}, s ∈ importsOf p → s ∈ E.imports (.repo p) := fun h => h
    exact ⟨bare_offers (by decide) (h3 _ (mem (by decide +kernel))).1,
      bare_offers (by decide) (h4 _ (mem (by decide +kernel))).1,
      bare_offers (by decide) (h4 _ (mem (by decide +kernel))).1⟩
  · rintro ⟨hm, hc, hp⟩
    refine imports_exist E (fun f => ∀ q, f = .repo q → q ∈ mainFiles) importRank ?_ _
      (by rintro q h; cases h; decide) (by decide +kernel)
    intro f hf s hs
    cases f with
    | other i => cases hs
    | repo p =>
      have hp' := hf p rfl
      have hs' : s ∈ importsOf p := hs
      have hpos : 0 < importRank (.repo p) := by
        have h1 := List.all_eq_true.mp ownCheck_main p hp'
        rw [Bool.and_eq_true] at h1
        rcases of_decide_eq_true h1.1 with h | h
        · rw [h] at hs'; cases hs'
        · exact h
      by_cases hown : s.name.top ∈ ownNames
      · obtain ⟨h1, h2⟩ := own_ok hE ownCheck_main hp' hs' hown
        refine ⟨h1, fun m hm g hg => ?_⟩
        obtain ⟨⟨q, hq, rfl⟩, hr⟩ := h2 m hm g hg
        refine ⟨fun q' e => ?_, hr⟩
        cases e
        exact hq
      by_cases hbare : s.name.top ∈ bareNames
      · obtain ⟨hr, hs⟩ := bare_stmts p hp' s hs' hbare
        have : StmtOk E s ∧ ∀ m ∈ stmtMods E s, ∀ g, E.resolve m = some g →
            (∀ q, g = .repo q → q ∈ mainFiles) ∧ importRank g ≤ 1 := by
          rcases hs with rfl | rfl | rfl
          · exact bare_ok hbare hm
          · exact bare_ok hbare hc
          · exact bare_ok hbare hp
        exact ⟨this.1, fun m hm g hg => ⟨(this.2 m hm g hg).1, by have := (this.2 m hm g hg).2; omega⟩⟩
      · obtain ⟨h1, h2⟩ := canImport_ok (hinst p hp' s hs (by
          rw [List.mem_append]
          rintro (h | h)
          · exact hown h
          · exact hbare h))
        refine ⟨h1, fun m hm g hg => ?_⟩
        obtain ⟨i, rfl⟩ := h2 m hm g hg
        exact ⟨by simp, hpos⟩

/-- **C151** So it starts if `utilities` is on `sys.path` and nothing before it has modules of these names; the modules
are then those of the repository. -/
theorem C151_utilities (E : PyEnv) (before after : List PathEntry)
    (hE : E.path = .root :: before ++ .folder .utilities :: after)
    (hbefore : ∀ e ∈ before, ∀ top ∈ bareNames, e.find top = none) (hinst : Installed E mainFiles) :
    Starts E "all_multipliers.py" ∧
      ∀ top ∈ bareNames, FirstOn E top (.repo ("utilities/" ++ top ++ ".py")) := by
  have hf : ∀ top ∈ bareNames, FirstOn E top (.repo ("utilities/" ++ top ++ ".py")) := by
    intro top ht
    refine ⟨.root :: before, .folder .utilities, after, hE, fun x hx => ?_, ?_⟩
    · rcases List.mem_cons.mp hx with rfl | hx
      · have : ∀ top ∈ bareNames, repoTop top = none := by decide +kernel
        simp [PathEntry.find, this top ht]
      · exact hbefore x hx top ht
    · have : ∀ top ∈ bareNames, inRepo (RepoDir.utilities.file top) = some ("utilities/" ++ top ++ ".py") := by
        decide +kernel
      simp [PathEntry.find, this top ht]
  refine ⟨(C151_main_partial E _ hE hinst).mpr ⟨?_, ?_, ?_⟩, hf⟩
  · refine ⟨_, hf "meta" (by decide), fun x hx => .inl ?_⟩
    show x ∈ ((repoFiles.lookup ("utilities/" ++ "meta" ++ ".py")).map Prod.snd).getD []
    revert x
    decide +kernel
  · refine ⟨_, hf "convert" (by decide), fun x hx => .inl ?_⟩
    show x ∈ ((repoFiles.lookup ("utilities/" ++ "convert" ++ ".py")).map Prod.snd).getD []
    revert x
    decide +kernel
  · refine ⟨_, hf "parallel" (by decide), fun x hx => .inl ?_⟩
    show x ∈ ((repoFiles.lookup ("utilities/" ++ "parallel" ++ ".py")).map Prod.snd).getD []
    revert x
    decide +kernel

/-- **C151** The converter of a run is the one in the first module `convert` on `sys.path`, whoever wrote it: the second
import of `mpi_runner.py` replaces that of `utilities.convert`. -/
theorem C151_converter (E : PyEnv) (f : SrcFile) (h : FirstOn E "convert" f) :
    (importedFrom E "utilities/mpi_runner.py" "Converter").bind E.resolve = some f := by
  have : importedFrom E "utilities/mpi_runner.py" "Converter" = some ⟨"convert", none⟩ := by
    show (((importsOf "utilities/mpi_runner.py").filter fun s => "Converter" ∈ s.names).getLast?).map _ = _
    decide +kernel
  rw [this]
  exact (resolve_top E _ _).mpr h

/-! ### The pre-processing and the rasterising tool -/

/-- **C151** The pre-processing and the rasterising tool start wherever everything is installed that they import from
elsewhere. -/
theorem C151_tools (E : PyEnv) (rest : List PathEntry) (hE : E.path = .root :: rest)
    (hinst : Installed E toolFiles) : Starts E "pre_process.py" ∧ Starts E "rasterize.py" := by
  have hR : ∀ f, (∀ q, f = .repo q → q ∈ toolFiles) → ∀ s ∈ E.imports f, StmtOk E s ∧ ∀ m ∈ stmtMods E s, ∀ g,
      E.resolve m = some g → (∀ q, g = .repo q → q ∈ toolFiles) ∧ importRank g < importRank f := by
    intro f hf s hs
    cases f with
    | other i => cases hs
    | repo p =>
      have hp' := hf p rfl
      have hs' : s ∈ importsOf p := hs
      have hpos : 0 < importRank (.repo p) := by
        have h1 := List.all_eq_true.mp ownCheck_tools p hp'
        rw [Bool.and_eq_true] at h1
        rcases of_decide_eq_true h1.1 with h | h
        · rw [h] at hs'; cases hs'
        · exact h
      by_cases hown : s.name.top ∈ ownNames
      · obtain ⟨h1, h2⟩ := own_ok hE ownCheck_tools hp' hs' hown
        refine ⟨h1, fun m hm g hg => ?_⟩
        obtain ⟨⟨q, hq, rfl⟩, hr⟩ := h2 m hm g hg
        refine ⟨fun q' e => ?_, hr⟩
        cases e
        exact hq
      · have hno : ∀ p ∈ toolFiles, ∀ s ∈ importsOf p, s.name.top ∉ bareNames := by decide +kernel
        obtain ⟨h1, h2⟩ := canImport_ok (hinst p hp' s hs (by
          rw [List.mem_append]
          rintro (h | h)
          · exact hown h
          · exact hno p hp' s hs' h))
        refine ⟨h1, fun m hm g hg => ?_⟩
        obtain ⟨i, rfl⟩ := h2 m hm g hg
        exact ⟨by simp, hpos⟩
  exact ⟨imports_exist E _ importRank hR _ (by rintro q h; cases h; decide) (by decide +kernel),
    imports_exist E _ importRank hR _ (by rintro q h; cases h; decide) (by decide +kernel)⟩

/-! ### As documented -/

/-- The standard library as far as it is used, the packages of `requirements.txt`, GDAL and MPI. -/
def documentedPackages : List String :=
  ["argparse", "collections", "concurrent", "configparser", "datetime", "functools", "getpass", "glob", "hashlib",
    "inspect", "itertools", "logging", "math", "os", "shutil", "subprocess", "sys", "threading", "time",
    "dateutil", "netCDF4", "pytz", "pandas", "pep8", "numexpr", "numpy", "scipy", "osgeo", "mpi4py"]

/-- Started with the packages that are named, and more entries of `sys.path` before and after them.  (All packages
have all names and modules that are used.) -/
def pathEnv (packages : List String) (before after : List PathEntry) : PyEnv where
  path := .root :: before ++ .foreign (fun n => if n ∈ packages then some 0 else none) :: after
  otherNames := fun _ => ["reduce", "wraps", "join", "realpath", "isdir", "dirname", "GA_ReadOnly",
    "GRA_NearestNeighbour", "GDT_Float32", "GDT_Int32", "RawConfigParser", "BandReadAsArray", "ctime", "localtime",
    "strftime", "getcallargs", "Dataset", "splitext", "shape", "mapping", "Polygon", "Point", "unary_union", "STRtree"]
  otherSub := fun _ b => if b ∈ ["path", "gdalconst", "gdal_array", "ma", "osr", "ogr", "gdal", "ndimage", "signal",
    "geometry", "ops", "strtree", "index"] then some 1 else none

/-- The packages cover what the files import from elsewhere. -/
def packagesCheck (packages files : List String) : Bool :=
  let E := pathEnv packages [] []
  files.all fun p => (importsOf p).all fun s => decide (s.name.top ∈ ownNames ++ bareNames) ||
    (decide (s.name.top ∈ packages) && (repoTop s.name.top).isNone &&
      (RepoDir.file .utilities s.name.top ∉ repoFiles.map Prod.fst) && match s.name.sub with
      | none => s.names.all fun x => decide (x ∈ E.otherNames 0) || (E.otherSub 0 x).isSome
      | some b => decide (E.otherSub 0 b = some 1) && s.names.all fun x => decide (x ∈ E.otherNames 1))

theorem installed_of_check {packages files : List String} (h : packagesCheck packages files = true)
    {before after : List PathEntry} (hb : ∀ e ∈ before, e = .folder .utilities) :
    Installed (pathEnv packages before after) files := by
  intro p hp s hs hnot
  have h1 := List.all_eq_true.mp (List.all_eq_true.mp h p hp) s hs
  rw [Bool.or_eq_true, Bool.and_eq_true, Bool.and_eq_true, Bool.and_eq_true] at h1
  rcases h1 with h1 | ⟨⟨⟨h1, h2⟩, h3⟩, h4⟩
  · exact absurd (of_decide_eq_true h1) hnot
  refine ⟨0, ⟨.root :: before, _, after, rfl, fun e he => ?_, ?_⟩, ?_⟩
  · rcases List.mem_cons.mp he with rfl | he
    · simp only [PathEntry.find, Option.map_eq_none_iff]
      exact Option.isNone_iff_eq_none.mp h2
    · rw [hb e he]
      simp only [PathEntry.find, Option.map_eq_none_iff, inRepo]
      exact if_neg (of_decide_eq_true h3)
  · simp only [PathEntry.find, if_pos (of_decide_eq_true h1), Option.map_some]
  · cases hsub : s.name.sub with
    | none =>
      rw [hsub] at h4
      refine .inl ⟨rfl, fun x hx => ?_⟩
      have h5 := List.all_eq_true.mp h4 x hx
      rw [Bool.or_eq_true] at h5
      exact h5.imp of_decide_eq_true id
    | some b =>
      rw [hsub] at h4
      simp only [Bool.and_eq_true] at h4
      exact .inr ⟨b, 1, rfl, of_decide_eq_true h4.1, fun x hx =>
        of_decide_eq_true (List.all_eq_true.mp h4.2 x hx)⟩

/-- **C151** Started as documented, the main program stops at its first import of that kind, although everything it
imports from elsewhere is installed. -/
theorem C151_documented : Installed (pathEnv documentedPackages [] []) mainFiles ∧
    startScript (pathEnv documentedPackages [] []) "all_multipliers.py" = .error (.notFound ⟨"meta", none⟩) :=
  ⟨installed_of_check (by decide +kernel) (by simp), by decide +kernel⟩

/-- **C151** Nor does the pre-processing start with what is documented: three packages that it needs are not on the
lists.  With these it does. -/
theorem C151_tools_documented :
    startScript (pathEnv documentedPackages [] []) "pre_process.py" = .error (.notFound ⟨"shapely", none⟩) ∧
    Starts (pathEnv (documentedPackages ++ ["shapely", "fiona", "rtree"]) [] []) "pre_process.py" ∧
    Starts (pathEnv (documentedPackages ++ ["shapely", "fiona", "rtree"]) [] []) "rasterize.py" :=
  ⟨by decide +kernel, C151_tools _ _ rfl (installed_of_check (by decide +kernel) (by simp))⟩

/-! ### The hypotheses can be met -/

/-- With `utilities` first on `PYTHONPATH` the main program starts. -/
example : Starts (pathEnv documentedPackages [.folder .utilities] []) "all_multipliers.py" :=
  (C151_utilities _ [] _ rfl (by simp) (installed_of_check (by decide +kernel) (by simp))).1

/-- Another module `convert` before it: the program starts, with that module's converter. -/
def foreignConvert : PyEnv :=
  { pathEnv documentedPackages [] [.folder .utilities] with
    path := .root :: .foreign (fun n => if n ∈ documentedPackages then some 0 else if n = "convert" then some 2 else none)
      :: [.folder .utilities]
    otherNames := fun i => if i = 2 then ["Converter", "create_sub_dirs_for_convert"]
      else (pathEnv documentedPackages [] []).otherNames i }

example : (∃ mods, startScript foreignConvert "all_multipliers.py" = .ok mods) ∧
    FirstOn foreignConvert "convert" (.other 2) := by
  refine ⟨?_, [.root], _, [.folder .utilities], rfl, ?_, ?_⟩
  · have : (startScript foreignConvert "all_multipliers.py").isOk = true := by decide +kernel
    cases h : startScript foreignConvert "all_multipliers.py" with
    | error e => rw [h] at this; cases this
    | ok m => exact ⟨m, rfl⟩
  · simp only [List.mem_singleton, forall_eq, PathEntry.find, Option.map_eq_none_iff]
    decide +kernel
  · decide +kernel

end WindMult
