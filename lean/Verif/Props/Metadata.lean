import Verif.Spec.Metadata
import Verif.Proofs.FileNames
import Verif.Props.ConfigText
import Verif.Props.TileNames

/-!
# C134: names taken from the call stack, and the record kept in the multiplier files
-/

set_option autoImplicit false

namespace WindMult

theorem Located.parts {file dir base ext : List Char} (h : Located file dir base ext) :
    dirname file = (if dir = [] then ['/'] else dir) ∧ splitextRoot (basename file) = base ∧
      splitextExt (basename file) = '.' :: ext := by
  have hb : '/' ∉ base ++ '.' :: ext := by simp [h.noSlash]
  have e0 : file = (dir ++ ['/']) ++ (base ++ '.' :: ext) := by simp [h.path]
  have ew : withSlash (dir ++ ['/']) = dir ++ ['/'] := by unfold withSlash; simp
  have e1 : basename file = base ++ '.' :: ext := by
    rw [e0, ← ew]; exact basename_withSlash hb
  have e2 : splitextRoot (base ++ '.' :: ext) = base := by
    refine splitextRoot_eq h.noDot h.noSlash.2 ?_
    obtain ⟨c, hc, hne⟩ := h.visible
    obtain ⟨a, b, rfl⟩ := List.append_of_mem hc
    have := h.noSlash.1
    simp only [List.mem_append, List.mem_cons, not_or] at this
    exact ⟨a, c, b, rfl, hne, Ne.symm this.2.1, this.2.2⟩
  refine ⟨?_, by rw [e1, e2], by rw [e1, splitextExt, e2]; simp⟩
  have e3 : dirHead file = dir ++ ['/'] := by rw [e0, ← ew]; exact dirHead_withSlash hb
  unfold dirname
  rw [e3]
  by_cases hd : dir = []
  · subst hd; simp
  · rw [if_neg hd]
    obtain ⟨d', x, rfl⟩ := List.eq_nil_or_concat dir |>.resolve_left hd
    have hx : x ≠ '/' := by
      rintro rfl
      exact h.plain (by simp)
    rw [if_neg (by simp [hx])]
    simp [hx]

/-- **C134** (path) `fl_module_path(k + 1)` gives folder, name and extension of the file of the `k`-th caller (the
function that calls it is number 0). -/
theorem C134_module_path (files : List Char) (callers : List Frame) (k : ℕ) (f : Frame) (hk : callers[k]? = some f)
    {dir base ext : List Char} (h : Located f.file dir base ext) :
    modulePath files callers (k + 1) = .ok (if dir = [] then ['/'] else dir, base, '.' :: ext) := by
  obtain ⟨h1, h2, h3⟩ := h.parts
  unfold modulePath getframe
  simp only [List.getElem?_cons_succ, hk]
  simp only [bind, Except.bind, pure, Except.pure, h1, h2, h3]

/-- **C134** (version) From however deep it is called, `fl_program_version()` gives the version of the program that was
started, and the empty text if that has none. -/
theorem C134_program_version (files : List Char) (inner : List Frame) (main : Frame) :
    programVersion files (inner ++ [main]) none = .ok (main.version.getD []) := by
  unfold programVersion getframe
  simp [bind, Except.bind, pure, Except.pure]

/-- **C134** (configuration file) From however deep it is called, `fl_config_file(extension, prefix)` gives the name of
the program that was started, with this extension and with the prefix in front of its last part. -/
theorem C134_config_file (files : List Char) (inner : List Frame) (main : Frame) (extension pre : List Char)
    (hpre : pre.head? ≠ some '/') {dir base ext : List Char} (h : Located main.file dir base ext) :
    configFile files (inner ++ [main]) extension pre none = .ok (dir ++ '/' :: (pre ++ base ++ extension)) := by
  unfold configFile
  have hk : (filesFrame files "fl_config_file".toList :: (inner ++ [main]))[inner.length + 1]? = some main := by
    simp
  have := C134_module_path files _ _ main hk h
  simp only [Option.getD_none, ↓reduceIte]
  rw [show (filesFrame files "fl_config_file".toList :: (inner ++ [main])).length = inner.length + 1 + 1 by simp, this]
  simp only [bind, Except.bind, pure, Except.pure]
  congr 1
  have hb : base ≠ [] := by
    rintro rfl
    obtain ⟨c, hc, -⟩ := h.visible
    cases hc
  have hh : (pre ++ base ++ extension).head? ≠ some '/' := by
    cases pre with
    | cons a l => simpa using hpre
    | nil =>
      cases base with
      | nil => exact absurd rfl hb
      | cons a l =>
        have := h.noSlash.1
        simp only [List.mem_cons, not_or] at this
        simpa using Ne.symm this.1
  unfold pjoin
  rw [if_neg hh]
  by_cases hd : dir = []
  · subst hd; simp
  · rw [if_neg hd, if_neg (by simp [hd, h.plain])]

/-- A script of three frames, with the function of a library that asks for the names. -/
def callStack : List Frame :=
  [⟨"/home/lib/nctools.py".toList, "save".toList, none⟩, ⟨"/home/all.py".toList, "main".toList, some "2.0".toList⟩,
    ⟨"/home/all.py".toList, "<module>".toList, some "2.0".toList⟩]

example : modulePath [] callStack 1 = .ok ("/home/lib".toList, "nctools".toList, ".py".toList) ∧
    programVersion [] callStack none = .ok "2.0".toList ∧
    configFile [] callStack ".ini".toList "my_".toList none = .ok "/home/my_all.ini".toList :=
  ⟨C134_module_path [] callStack 0 _ rfl (dir := "/home/lib".toList) (base := "nctools".toList) (ext := "py".toList)
      ⟨by decide +kernel, by decide +kernel, by decide +kernel, by decide +kernel, 'n', by decide +kernel, by decide⟩,
    C134_program_version [] (callStack.take 2) _,
    C134_config_file [] (callStack.take 2) ⟨"/home/all.py".toList, "<module>".toList, some "2.0".toList⟩ ".ini".toList
      "my_".toList (by decide +kernel) (dir := "/home".toList) (base := "all".toList) (ext := "py".toList)
      ⟨by decide +kernel, by decide +kernel, by decide +kernel, by decide +kernel, 'a', by decide +kernel, by decide⟩⟩

/-- C134 is false of `fl_config_file` as its example has it (called from `/foo/bar/baz.py` it gives `/foo/bar/baz.ini`):
a function that is called by another file gets the name of the program. -/
theorem C134_not_caller : ∃ callers, callers[0]? = some (⟨"/foo/bar/baz.py".toList, "f".toList, none⟩ : Frame) ∧
    configFile "/l/files.py".toList callers ".ini".toList [] none = .ok "/home/all.ini".toList :=
  ⟨[⟨"/foo/bar/baz.py".toList, "f".toList, none⟩, ⟨"/home/all.py".toList, "<module>".toList, none⟩], rfl,
    by decide +kernel⟩

/-- C134: a level that is given means another function for `fl_config_file` than for `fl_program_version`: level
`k + 1` is the `k`-th caller for the latter; for the former that is level `k + 2`, and level 1 is `files.py` itself. -/
theorem C134_levels (files : List Char) (callers : List Frame) (extension : List Char) :
    (∀ k f, callers[k]? = some f → programVersion files callers (some (k + 1)) = .ok (f.version.getD [])) ∧
    (∀ k f dir base ext, callers[k]? = some f → Located f.file dir base ext → dir ≠ [] →
      configFile files callers extension [] (some (k + 2)) = .ok (pjoin dir (base ++ extension))) ∧
    ∀ dir base ext, Located files dir base ext → dir ≠ [] →
      configFile files callers extension [] (some 1) = .ok (pjoin dir (base ++ extension)) := by
  refine ⟨?_, ?_, ?_⟩
  · intro k f hk
    unfold programVersion getframe
    simp [hk, bind, Except.bind, pure, Except.pure]
  · intro k f dir base ext hk h hd
    have := C134_module_path files (filesFrame files "fl_config_file".toList :: callers) (k + 1) f (by simpa using hk) h
    unfold configFile
    simp only [Option.getD_some, Nat.add_eq_zero_iff, OfNat.ofNat_ne_zero, and_false, ↓reduceIte, this]
    simp [bind, Except.bind, pure, Except.pure, hd]
  · intro dir base ext h hd
    have := C134_module_path files (filesFrame files "fl_config_file".toList :: callers) 0 _ rfl h
    unfold configFile
    simp only [Option.getD_some, one_ne_zero, ↓reduceIte]
    rw [zero_add] at this
    rw [this]
    simp [bind, Except.bind, pure, Except.pure, hd]

example : programVersion [] callStack (some 1) = .ok [] ∧ programVersion [] callStack (some 2) = .ok "2.0".toList ∧
    configFile "/l/files.py".toList callStack ".ini".toList [] (some 1) = .ok "/l/files.ini".toList := by
  decide +kernel

/-- C134: `fl_module_name` gives the name of the calling function, not, as documented, of its module. -/
theorem C134_module_name (files : List Char) (callers : List Frame) (k : ℕ) (f : Frame) (hk : callers[k]? = some f) :
    moduleName files callers (k + 1) = .ok f.func := by
  unfold moduleName getframe
  simp [hk, bind, Except.bind, pure, Except.pure]

example : moduleName [] callStack 1 = .ok "save".toList ∧ moduleName [] callStack 3 = .ok "<module>".toList := by
  decide +kernel

/-! ### The attributes of the multiplier files -/

theorem Sections.Sets.unique {c : Sections} (hc : c.Ok) {s o v v' : List Char} (h : c.Sets s o v)
    (h' : c.Sets s o v') : v = v' := by
  obtain ⟨os, h1, h2⟩ := h
  obtain ⟨os', h1', h2'⟩ := h'
  have e := List.inj_on_of_nodup_map hc.1 h1 h1' rfl
  cases e
  have := List.inj_on_of_nodup_map (hc.2 _ h1) h2 h2' rfl
  cases this
  rfl

theorem atts_mem_of_lookup {α β : Type} [BEq α] [LawfulBEq α] : ∀ {l : List (α × β)} {a : α} {b : β},
    l.lookup a = some b → (a, b) ∈ l
  | [], _, _, h => by simp at h
  | (a', b') :: l, a, b, h => by
    rw [List.lookup_cons] at h
    by_cases e : a == a'
    · rw [e] at h
      cases h
      rw [eq_of_beq e]
      simp
    · simp only [Bool.not_eq_true] at e
      rw [e] at h
      exact List.mem_cons_of_mem _ (atts_mem_of_lookup h)

theorem atts_lookup_of_mem {α β : Type} [BEq α] [LawfulBEq α] : ∀ {l : List (α × β)} {a : α} {b : β},
    (l.map Prod.fst).Nodup → (a, b) ∈ l → l.lookup a = some b
  | (a', b') :: l, a, b, hn, h => by
    rw [List.lookup_cons]
    rw [List.map_cons, List.nodup_cons] at hn
    rcases List.mem_cons.mp h with h | h
    · cases h
      simp
    · have : (a == a') = false := by
        rw [beq_eq_false_iff_ne]
        rintro e
        exact hn.1 (e ▸ List.mem_map.mpr ⟨(a, b), h, rfl⟩)
      rw [this]
      exact atts_lookup_of_mem hn.2 h

theorem Sections.get_of_sets {c : Sections} (hc : c.Ok) {s o v : List Char} (h : c.Sets s o v) :
    c.get s o = .ok v := by
  obtain ⟨os, h1, h2⟩ := h
  unfold Sections.get
  rw [atts_lookup_of_mem hc.1 h1, Option.bind_some, atts_lookup_of_mem (hc.2 _ h1) h2]

/-- The settings as one list of attributes. -/
def Sections.flat (c : Sections) : List (List Char × List Char) :=
  c.flatMap fun s => s.2.map fun o => (s.1 ++ '_' :: o.1, o.2)

theorem addSections_eq (c : Sections) (a : Atts) :
    addSections c a = c.flat.foldl (fun a p => a.set p.1 p.2) a := by
  unfold addSections Sections.flat
  rw [List.foldl_flatMap]
  congr 1
  funext a s
  rw [List.foldl_map]

theorem foldl_set : ∀ (l : List (List Char × List Char)) (a : Atts) (k : List Char),
    ((∀ p ∈ l, p.1 ≠ k) → l.foldl (fun a p => a.set p.1 p.2) a k = a k) ∧
    ∀ v, (∃ p ∈ l, p.1 = k) → (∀ p ∈ l, p.1 = k → p.2 = v) → l.foldl (fun a p => a.set p.1 p.2) a k = some v
  | [], a, k => by simp
  | p :: l, a, k => by
    obtain ⟨h1, h2⟩ := foldl_set l (a.set p.1 p.2) k
    constructor
    · intro h
      rw [List.foldl_cons, h1 (fun q hq => h q (by simp [hq]))]
      exact if_neg (Ne.symm (h p (by simp)))
    · intro v hex hv
      rw [List.foldl_cons]
      by_cases hl : ∃ q ∈ l, q.1 = k
      · exact h2 v hl (fun q hq => hv q (by simp [hq]))
      · push Not at hl
        rw [h1 hl]
        obtain ⟨q, hq, e⟩ := hex
        rcases List.mem_cons.mp hq with rfl | hq
        · unfold Atts.set
          rw [if_pos e.symm, hv q (by simp) e]
        · exact absurd e (hl q hq)

theorem mem_flat {c : Sections} {k v : List Char} :
    (k, v) ∈ c.flat ↔ ∃ s o, c.Sets s o v ∧ k = s ++ '_' :: o := by
  unfold Sections.flat Sections.Sets
  simp only [List.mem_flatMap, List.mem_map, Prod.mk.injEq, Prod.exists]
  constructor
  · rintro ⟨s, os, h1, o, v', h2, rfl, rfl⟩
    exact ⟨s, o, ⟨os, h1, h2⟩, rfl⟩
  · rintro ⟨s, o, ⟨os, h1, h2⟩, rfl⟩
    exact ⟨s, os, h1, o, v, h2, rfl, rfl⟩

/-- **C134** (attributes; partial) Every file of multipliers records under `section_option` the value of each option of
the configuration in use, and what it is, from which rasters, by which version of which program, when and by whom, and
nothing else, provided that the names of the options do not clash; *missing:* configurations with clashing names, for
which this is false (`C134_clash`). -/
theorem C134_attributes_partial (files nctools : List Char) (inner : List Frame) (main : Frame) (e : Env) (c : Sections)
    (m : Mult) (d : Dir) (out tile git land dem : List Char) (hout : ¬ ['/', '/'] <:+ out) (ht : TileName tile)
    (hc : c.Ok) (hn : c.NoClash) (hg : e.git = .ok git)
    (hl : c.Sets "inputValues".toList "terrain_data".toList land)
    (hd : c.Sets "inputValues".toList "dem_data".toList dem) :
    ∃ a, multiplierAtts files nctools (inner ++ [main]) e c m (savedNc out tile d m) = .ok a ∧
      (∀ s o v, c.Sets s o v → a (s ++ '_' :: o) = some v) ∧
      Recorded a e m d land dem (main.version.getD []) git ∧
      ∀ k v, a k = some v → k ∈ Spec.reserved ∨ ∃ s o, c.Sets s o v ∧ k = s ++ '_' :: o := by
  have hdir : metaDirection (savedNc out tile d m) = d.letters := by
    rw [savedNc_eq_openedNc hout ht d m, metaDirection_opened ht]
  have hver := C134_program_version files (⟨nctools, "save_multiplier".toList, none⟩ :: inner) main
  rw [List.cons_append] at hver
  have hkeys : ∀ k, k ∈ fixedKeys → k ∈ Spec.reserved := by decide +kernel
  have htitle : m.title = Spec.title m := by cases m <;> decide +kernel
  have hfix : ∀ (a : Atts) k, k ∈ Spec.reserved → addSections c a k = a k := by
    intro a k hk
    rw [addSections_eq]
    refine (foldl_set _ _ _).1 ?_
    rintro ⟨k', v⟩ hp rfl
    obtain ⟨s, o, h1, h2⟩ := mem_flat.mp hp
    exact (hn s o v h1).1 (h2 ▸ hk)
  unfold multiplierAtts
  simp only [Sections.get_of_sets hc hl, Sections.get_of_sets hc hd, hg, hver, hdir, htitle, bind, Except.bind, pure,
    Except.pure, Except.ok.injEq, exists_eq_left']
  refine ⟨?_, ?_, ?_⟩
  · intro s o v h
    rw [addSections_eq]
    refine (foldl_set _ _ _).2 v ⟨(s ++ '_' :: o, v), mem_flat.mpr ⟨s, o, h, rfl⟩, rfl⟩ ?_
    rintro ⟨k, w⟩ hp (rfl : k = _)
    obtain ⟨s', o', h1, h2⟩ := mem_flat.mp hp
    obtain ⟨rfl, rfl⟩ := (hn s o v h).2 s' o' w h1 h2
    exact h1.unique hc h
  · constructor <;> rw [hfix _ _ (by decide +kernel)] <;> rfl
  · intro k v h
    by_cases hk : ∃ p ∈ c.flat, p.1 = k
    · right
      obtain ⟨⟨k', w⟩, hp, rfl⟩ := hk
      obtain ⟨s, o, h1, h2⟩ := mem_flat.mp hp
      have hw : ∀ a, addSections c a k' = some w := by
        intro a
        rw [addSections_eq]
        refine (foldl_set c.flat _ k').2 w ⟨_, hp, rfl⟩ ?_
        rintro ⟨k'', w'⟩ hp' (rfl : k'' = k')
        obtain ⟨s', o', h1', h2'⟩ := mem_flat.mp hp'
        obtain ⟨rfl, rfl⟩ := (hn s o w h1).2 s' o' w' h1' (h2.symm.trans h2')
        exact h1'.unique hc h1
      simp only at h
      rw [hw] at h
      cases h
      exact ⟨s, o, h1, h2⟩
    · left
      push Not at hk
      rw [addSections_eq, (foldl_set _ _ _).1 hk] at h
      have := atts_mem_of_lookup h
      exact hkeys k (List.of_mem_zip this).1

/-- Sections whose names have no underscore, other than `Python`, `Git`, `Created` and `Wind`, do not clash. -/
theorem C134_no_clash (c : Sections) (h : ∀ x ∈ c, '_' ∉ x.1 ∧
    x.1 ∉ ["Python".toList, "Git".toList, "Created".toList, "Wind".toList]) : c.NoClash := by
  have key : ∀ {a b s o : List Char}, '_' ∉ s → '_' ∉ a → s ++ '_' :: o = a ++ '_' :: b → s = a ∧ o = b :=
    fun h1 h2 e => split_at e h1 h2
  intro s o v hs
  obtain ⟨os, h1, -⟩ := id hs
  obtain ⟨h2, h3⟩ := h _ h1
  constructor
  · intro hf
    have hmem : '_' ∈ s ++ '_' :: o := by simp
    simp only [Spec.reserved, List.map_cons, List.map_nil, List.mem_cons, List.not_mem_nil, or_false] at hf
    simp only [List.mem_cons, List.not_mem_nil, or_false, not_or] at h3
    rcases hf with e | e | e | e | e | e | e | e | e | e
    · rw [e] at hmem; revert hmem; decide
    · rw [e] at hmem; revert hmem; decide
    · rw [e] at hmem; revert hmem; decide
    · rw [e] at hmem; revert hmem; decide
    · rw [e] at hmem; revert hmem; decide
    · exact h3.2.2.1 (key h2 (by decide) (e.trans (show _ = "Created".toList ++ '_' :: "on".toList by decide))).1
    · exact h3.2.2.1 (key h2 (by decide) (e.trans (show _ = "Created".toList ++ '_' :: "by".toList by decide))).1
    · exact h3.1 (key h2 (by decide) (e.trans (show _ = "Python".toList ++ '_' :: "version".toList by decide))).1
    · exact h3.2.1 (key h2 (by decide) (e.trans (show _ = "Git".toList ++ '_' :: "version".toList by decide))).1
    · exact h3.2.2.2 (key h2 (by decide)
        (e.trans (show _ = "Wind".toList ++ '_' :: "multipler_code_version".toList by decide))).1
  · intro s' o' v' hs' e
    obtain ⟨os', h1', -⟩ := hs'
    exact key h2 (h _ h1').1 e

/-- **C134** (settings) After a configuration file is read, in any layout, every file of multipliers records each option
that is written in it, with the value written; and an option of the default configuration that the file does not
set is recorded with its value there. -/
theorem C134_settings (f : IniFile) (hf : f.Ok) (st : CfgState) : ∃ st', setConfigText (some f.text) st = .ok st' ∧
    ∀ (c : Sections), c.Lists st' → c.NoClash →
    ∀ (files nctools : List Char) (callers : List Frame) (e : Env) (m : Mult) (ncName : List Char) (a : Atts),
      multiplierAtts files nctools callers e c m ncName = .ok a →
      (∀ s o v, f.Sets s o v → a (s ++ '_' :: o) = some v) ∧
      ∀ s o v, (∀ w, ¬ f.Sets s o w) → st.values (String.ofList s) (String.ofList o) = some (String.ofList v) →
        a (s ++ '_' :: o) = some v := by
  obtain ⟨st', h1, h2, h3⟩ := C123_read f hf st
  refine ⟨st', h1, fun c hc hn files nctools callers e m ncName a ha => ?_⟩
  have key : ∀ s o v, c.Sets s o v → a (s ++ '_' :: o) = some v := by
    intro s o v h
    unfold multiplierAtts at ha
    simp only [bind, Except.bind, pure, Except.pure] at ha
    split at ha
    · cases ha
    · split at ha
      · cases ha
      · split at ha
        · cases ha
        · split at ha
          · cases ha
          · cases ha
            rw [addSections_eq]
            refine (foldl_set _ _ _).2 v ⟨(s ++ '_' :: o, v), mem_flat.mpr ⟨s, o, h, rfl⟩, rfl⟩ ?_
            rintro ⟨k, w⟩ hp (rfl : k = _)
            obtain ⟨s', o', e1, e2⟩ := mem_flat.mp hp
            obtain ⟨rfl, rfl⟩ := (hn s o v h).2 s' o' w e1 e2
            exact e1.unique hc.1 h
  refine ⟨fun s o v h => key s o v ((hc.2 s o v).mp (h2 s o v h)), fun s o v h hv => key s o v ((hc.2 s o v).mp ?_)⟩
  rw [h3 s o h]
  exact hv

/-- The settings of a run, with a section that the program does not know. -/
def recordedConf : Sections :=
  [("inputValues".toList, [("terrain_data".toList, "land.tif".toList), ("dem_data".toList, "dem.tif".toList)]),
    ("Output".toList, [("output_dir".toList, "/o".toList)])]

/-- The hypotheses of C134 are met by a file of this run. -/
example : ∃ a, multiplierAtts "/l/files.py".toList "/l/nctools.py".toList callStack
      ⟨"3.9".toList, .ok "v2-1".toList, "now".toList, "me".toList⟩ recordedConf .mz
      (savedNc "/o".toList "e150.0s30.0".toList .ne .mz) = .ok a ∧
    a "Output_output_dir".toList = some "/o".toList ∧ a "Wind_multipler_code_version".toList = some "2.0".toList := by
  have sets : ∀ s o v, recordedConf.Sets s o v ↔
      (s, o, v) ∈ recordedConf.flatMap (fun x => x.2.map fun y => (x.1, y)) := by
    intro s o v
    unfold Sections.Sets
    simp only [List.mem_flatMap, List.mem_map, Prod.mk.injEq, Prod.exists]
    constructor
    · rintro ⟨os, h1, h2⟩
      exact ⟨s, os, h1, o, v, h2, rfl, rfl, rfl⟩
    · rintro ⟨s', os, h1, o', v', h2, rfl, rfl, rfl⟩
      exact ⟨os, h1, h2⟩
  obtain ⟨a, h1, h2, h3, -⟩ := C134_attributes_partial "/l/files.py".toList "/l/nctools.py".toList (callStack.take 2)
    ⟨"/home/all.py".toList, "<module>".toList, some "2.0".toList⟩
    ⟨"3.9".toList, .ok "v2-1".toList, "now".toList, "me".toList⟩ recordedConf .mz .ne "/o".toList "e150.0s30.0".toList
    "v2-1".toList "land.tif".toList "dem.tif".toList (by decide +kernel)
    ⟨by decide +kernel, by decide +kernel, 'e', by decide +kernel, by decide⟩
    ⟨by decide +kernel, by decide +kernel⟩ (C134_no_clash _ (by decide +kernel)) rfl ((sets _ _ _).mpr (by decide +kernel))
    ((sets _ _ _).mpr (by decide +kernel))
  exact ⟨a, h1, h2 "Output".toList "output_dir".toList "/o".toList ((sets _ _ _).mpr (by decide +kernel)), h3.version⟩

/-- The same settings as the text of a file. -/
def recordedText : IniFile :=
  ⟨["# my run".toList], [⟨"inputValues".toList, [], 
      [.option "terrain_data".toList " ".toList false " ".toList "land.tif".toList [],
      .option "DEM_data".toList [] true [] "dem.tif".toList []]⟩,
    ⟨"Output".toList, [], [.option "output_dir".toList [] false [] "/o".toList []]⟩]⟩

/-- A configuration file in which the hypotheses of C134 (settings) are met. -/
example : recordedText.Ok ∧ ∃ st', setConfigText (some recordedText.text) ⟨fun _ _ => none, false⟩ = .ok st' ∧
    recordedConf.Lists st' ∧ recordedConf.NoClash := by
  have hok : recordedText.Ok := by
    refine ⟨?_, ?_, by decide +kernel, by decide +kernel⟩
    · intro s hs
      simp only [recordedText, List.mem_singleton] at hs
      exact .inr ⟨[], '#', " my run".toList, by simp [Blanks], .inl rfl, hs, by decide +kernel⟩
    · intro s hs
      simp only [recordedText, List.mem_cons, List.not_mem_nil, or_false] at hs
      rcases hs with rfl | rfl <;>
        refine ⟨by decide +kernel, by decide +kernel, by decide +kernel, by decide +kernel, by simp [Blanks], ?_⟩ <;>
        · intro i hi
          simp only [List.mem_cons, List.not_mem_nil, or_false] at hi
          rcases hi with rfl | rfl <;> simp [IniItem.Ok, Trimmed, Blanks]
  obtain ⟨st', h1, h2, h3⟩ := C123_read recordedText hok ⟨fun _ _ => none, false⟩
  have hs : ∀ s o v, recordedText.Sets s o v ↔ recordedConf.Sets s o v := by
    have e : recordedText.sections.map (fun x => (x.name, x.options)) = recordedConf := by decide +kernel
    intro s o v
    unfold IniFile.Sets Sections.Sets
    rw [← e]
    simp only [List.mem_map, Prod.mk.injEq]
    constructor
    · rintro ⟨x, hx, rfl, ho⟩
      exact ⟨_, ⟨x, hx, rfl, rfl⟩, ho⟩
    · rintro ⟨_, ⟨x, hx, rfl, rfl⟩, ho⟩
      exact ⟨x, hx, rfl, ho⟩
  have hc : recordedConf.Ok := ⟨by decide +kernel, by decide +kernel⟩
  refine ⟨hok, st', h1, ⟨hc, fun s o v => ?_⟩, C134_no_clash _ (by decide +kernel)⟩
  constructor
  · intro h
    by_cases hw : ∃ w, recordedText.Sets s o w
    · obtain ⟨w, hw⟩ := hw
      rw [h2 s o w hw] at h
      have : w = v := String.ofList_injective (Option.some.inj h)
      exact (hs s o v).mp (this ▸ hw)
    · push Not at hw
      rw [h3 s o hw] at h
      cases h
  · intro h
    exact h2 s o v ((hs s o v).mpr h)

/-- C134 is false of configurations whose names clash: of the options `c` of `a_b` and `b_c` of `a` only one is
recorded, and an option `version` of a section `Git` takes the place of the version of the code. -/
theorem C134_clash : ∃ (c : Sections) (callers : List Frame) (e : Env) (a : Atts),
    c.Ok ∧ e.git = .ok "v2".toList ∧
    multiplierAtts [] [] callers e c .mz (savedNc "/o".toList "e1".toList .ne .mz) = .ok a ∧
    c.Sets "a_b".toList "c".toList "1".toList ∧ a ("a_b".toList ++ '_' :: "c".toList) = some "2".toList ∧
    a "Git_version".toList = some "0".toList := by
  refine ⟨recordedConf ++ [("a_b".toList, [("c".toList, "1".toList)]), ("a".toList, [("b_c".toList, "2".toList)]),
      ("Git".toList, [("version".toList, "0".toList)])], callStack, ⟨[], .ok "v2".toList, [], []⟩, _,
    ⟨by decide +kernel, by decide +kernel⟩, rfl, rfl,
    ⟨[("c".toList, "1".toList)], by decide +kernel, by decide +kernel⟩, ?_, ?_⟩
  · decide +kernel
  · decide +kernel

/-- C134: where `git describe` fails, no file of multipliers is saved. -/
theorem C134_no_git (files nctools : List Char) (callers : List Frame) (e : Env) (c : Sections) (m : Mult)
    (ncName : List Char) (err : PyErr) (h : e.git = .error err) :
    ∃ err', multiplierAtts files nctools callers e c m ncName = .error err' := by
  unfold multiplierAtts
  simp only [h, bind, Except.bind]
  split
  · exact ⟨_, rfl⟩
  · split <;> exact ⟨_, rfl⟩

end WindMult
