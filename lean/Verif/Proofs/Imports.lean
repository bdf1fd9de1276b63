import Verif.Spec.Imports

/-!
# Lemmas about imports
-/

set_option autoImplicit false

namespace WindMult
open Spec

/-- What a statement loads besides its package. -/
def stmtMods (E : PyEnv) (s : ImportStmt) : List ModName :=
  ⟨s.name.top, none⟩ :: s.name :: (if s.name.sub = none then
    (s.names.filter fun x => x ∉ E.names s.name).map fun x => ⟨s.name.top, some x⟩ else [])

/-- The statement has what it needs. -/
def StmtOk (E : PyEnv) (s : ImportStmt) : Prop :=
  (∀ n ∈ stmtMods E s, (E.resolve n).isSome) ∧ (s.name.sub ≠ none → ∀ x ∈ s.names, x ∈ E.names s.name)

/-- The statements of a file have what they need, and what they load is loaded. -/
def FileOk (E : PyEnv) (mods : List ModName) (f : SrcFile) : Prop :=
  ∀ s ∈ E.imports f, StmtOk E s ∧ ∀ m ∈ stmtMods E s, m ∈ mods

/-- All loaded modules are found, and complete unless they are being loaded. -/
def ModsOk (E : PyEnv) (S mods : List ModName) : Prop :=
  ∀ n ∈ mods, ∃ f, E.resolve n = some f ∧ (n ∈ S ∨ FileOk E mods f)

theorem FileOk.mono {E : PyEnv} {m m' : List ModName} {f : SrcFile} (h : FileOk E m f) (hs : m ⊆ m') :
    FileOk E m' f := fun s h1 => ⟨(h s h1).1, fun n hn => hs ((h s h1).2 n hn)⟩

/-- What a successful loading does. -/
def LoadsWell (E : PyEnv) (ld : List ModName → ModName → Except ImportErr (List ModName)) : Prop :=
  ∀ S mods n mods', ModsOk E S mods → ld mods n = .ok mods' → mods ⊆ mods' ∧ n ∈ mods' ∧ ModsOk E S mods'

theorem names_fold_ok {E : PyEnv} {ld : List ModName → ModName → Except ImportErr (List ModName)}
    (hld : LoadsWell E ld) (S : List ModName) (a : ModName) : ∀ (l : List String) (m m' : List ModName),
    ModsOk E S m → l.foldlM (fun m x =>
      if x ∈ E.names a then pure m
      else if a.sub = none ∧ (E.resolve ⟨a.top, some x⟩).isSome then ld m ⟨a.top, some x⟩
      else .error (.noName x)) m = .ok m' →
    m ⊆ m' ∧ ModsOk E S m' ∧ ∀ x ∈ l, x ∈ E.names a ∨ (a.sub = none ∧ (⟨a.top, some x⟩ : ModName) ∈ m') := by
  intro l
  induction l with
  | nil =>
    intro m m' hm h
    obtain rfl : m = m' := Except.ok.inj h
    exact ⟨fun _ h => h, hm, by simp⟩
  | cons x l ih =>
    intro m m' hm h
    rw [List.foldlM_cons] at h
    by_cases hx : x ∈ E.names a
    · rw [if_pos hx] at h
      obtain ⟨h1, h2, h3⟩ := ih m m' hm h
      refine ⟨h1, h2, fun y hy => ?_⟩
      rcases List.mem_cons.mp hy with rfl | hy
      · exact .inl hx
      · exact h3 y hy
    · rw [if_neg hx] at h
      by_cases hsub : a.sub = none ∧ (E.resolve ⟨a.top, some x⟩).isSome
      · rw [if_pos hsub] at h
        cases hl : ld m ⟨a.top, some x⟩ with
        | error e => rw [hl] at h; cases h
        | ok m1 =>
          rw [hl] at h
          obtain ⟨k1, k2, k3⟩ := hld S m _ m1 hm hl
          obtain ⟨h1, h2, h3⟩ := ih m1 m' k3 h
          refine ⟨fun y hy => h1 (k1 hy), h2, fun y hy => ?_⟩
          rcases List.mem_cons.mp hy with rfl | hy
          · exact .inr ⟨hsub.1, h1 k2⟩
          · exact h3 y hy
      · rw [if_neg hsub] at h
        cases h

theorem runStmt_ok {E : PyEnv} {ld : List ModName → ModName → Except ImportErr (List ModName)}
    (hld : LoadsWell E ld) (S mods mods' : List ModName) (s : ImportStmt) (hm : ModsOk E S mods)
    (h : runStmt E ld mods s = .ok mods') :
    mods ⊆ mods' ∧ ModsOk E S mods' ∧ StmtOk E s ∧ ∀ n ∈ stmtMods E s, n ∈ mods' := by
  unfold runStmt at h
  cases h1 : ld mods ⟨s.name.top, none⟩ with
  | error e => rw [h1] at h; cases h
  | ok m1 =>
    rw [h1] at h
    change (ld m1 s.name >>= _) = _ at h
    cases h2 : ld m1 s.name with
    | error e => rw [h2] at h; cases h
    | ok m2 =>
      rw [h2] at h
      obtain ⟨a1, a2, a3⟩ := hld S mods _ m1 hm h1
      obtain ⟨b1, b2, b3⟩ := hld S m1 _ m2 a3 h2
      obtain ⟨c1, c2, c3⟩ := names_fold_ok hld S s.name s.names m2 mods' b3 h
      have hall : ∀ n ∈ stmtMods E s, n ∈ mods' := by
        intro n hn
        rcases List.mem_cons.mp hn with rfl | hn
        · exact c1 (b1 a2)
        rcases List.mem_cons.mp hn with rfl | hn
        · exact c1 b2
        by_cases hsub : s.name.sub = none
        · rw [if_pos hsub] at hn
          obtain ⟨x, hx, rfl⟩ := List.mem_map.mp hn
          obtain ⟨hx1, hx2⟩ := List.mem_filter.mp hx
          rcases c3 x hx1 with h | h
          · exact absurd h (of_decide_eq_true hx2)
          · exact h.2
        · rw [if_neg hsub] at hn
          cases hn
      refine ⟨fun n hn => c1 (b1 (a1 hn)), c2, ⟨fun n hn => ?_, fun hsub x hx => ?_⟩, hall⟩
      · obtain ⟨f, hf, -⟩ := c2 n (hall n hn)
        rw [hf]
        rfl
      · rcases c3 x hx with h | h
        · exact h
        · exact absurd h.1 hsub

theorem stmts_ok {E : PyEnv} {ld : List ModName → ModName → Except ImportErr (List ModName)}
    (hld : LoadsWell E ld) (S : List ModName) : ∀ (l : List ImportStmt) (mods mods' : List ModName),
    ModsOk E S mods → l.foldlM (runStmt E ld) mods = .ok mods' →
    mods ⊆ mods' ∧ ModsOk E S mods' ∧ ∀ s ∈ l, StmtOk E s ∧ ∀ n ∈ stmtMods E s, n ∈ mods' := by
  intro l
  induction l with
  | nil =>
    intro m m' hm h
    obtain rfl : m = m' := Except.ok.inj h
    exact ⟨fun _ h => h, hm, by simp⟩
  | cons s l ih =>
    intro m m' hm h
    rw [List.foldlM_cons] at h
    cases h1 : runStmt E ld m s with
    | error e => rw [h1] at h; cases h
    | ok m1 =>
      rw [h1] at h
      obtain ⟨a1, a2, a3, a4⟩ := runStmt_ok hld S m m1 s hm h1
      obtain ⟨b1, b2, b3⟩ := ih m1 m' a2 h
      refine ⟨fun n hn => b1 (a1 hn), b2, fun t ht => ?_⟩
      rcases List.mem_cons.mp ht with rfl | ht
      · exact ⟨a3, fun n hn => b1 (a4 n hn)⟩
      · exact b3 t ht

theorem load_ok (E : PyEnv) : ∀ k, LoadsWell E (load E k) := by
  intro k
  induction k with
  | zero => intro S mods n mods' _ h; cases h
  | succ k ih =>
    intro S mods n mods' hm h
    unfold load at h
    by_cases hn : n ∈ mods
    · rw [if_pos hn] at h
      obtain rfl : mods = mods' := Except.ok.inj h
      exact ⟨fun _ h => h, hn, hm⟩
    · rw [if_neg hn] at h
      cases hf : E.resolve n with
      | none => rw [hf] at h; cases h
      | some f =>
        rw [hf] at h
        have h0 : ModsOk E (n :: S) (n :: mods) := by
          intro m hmem
          rcases List.mem_cons.mp hmem with rfl | hmem
          · exact ⟨f, hf, .inl List.mem_cons_self⟩
          · obtain ⟨g, hg, hg'⟩ := hm m hmem
            exact ⟨g, hg, hg'.imp (List.mem_cons_of_mem _) fun h => h.mono (List.subset_cons_self _ _)⟩
        obtain ⟨a1, a2, a3⟩ := stmts_ok ih (n :: S) _ _ _ h0 h
        refine ⟨fun m hmem => a1 (List.mem_cons_of_mem _ hmem), a1 List.mem_cons_self, fun m hmem => ?_⟩
        obtain ⟨g, hg, hg'⟩ := a2 m hmem
        refine ⟨g, hg, ?_⟩
        by_cases he : m = n
        · subst he
          obtain rfl : f = g := Option.some.inj (hf.symm.trans hg)
          exact .inr a3
        · rcases hg' with h | h
          · exact .inl ((List.mem_cons.mp h).resolve_left he)
          · exact .inr h

/-- After a start every import statement of the script and of every loaded file had what it needs. -/
theorem imports_ok {E : PyEnv} {script : String} {mods : List ModName} (h : startScript E script = .ok mods) :
    FileOk E mods (.repo script) ∧ ∀ n ∈ mods, ∃ f, E.resolve n = some f ∧ FileOk E mods f := by
  obtain ⟨-, h2, h3⟩ := stmts_ok (load_ok E 100) [] _ _ _ (fun n hn => by cases hn) h
  refine ⟨h3, fun n hn => ?_⟩
  obtain ⟨f, hf, h⟩ := h2 n hn
  exact ⟨f, hf, h.resolve_left (by simp)⟩

/-! ### When it succeeds -/

theorem foldlM_exists {α σ ε : Type} (f : σ → α → Except ε σ) : ∀ (l : List α) (s : σ),
    (∀ a ∈ l, ∀ s, ∃ s', f s a = .ok s') → ∃ s', l.foldlM f s = .ok s' := by
  intro l
  induction l with
  | nil => intro s _; exact ⟨s, rfl⟩
  | cons a l ih =>
    intro s h
    obtain ⟨s1, h1⟩ := h a List.mem_cons_self s
    obtain ⟨s2, h2⟩ := ih s1 fun b hb => h b (List.mem_cons_of_mem _ hb)
    refine ⟨s2, ?_⟩
    rw [List.foldlM_cons, h1]
    exact h2

theorem runStmt_exists {E : PyEnv} {ld : List ModName → ModName → Except ImportErr (List ModName)} {s : ImportStmt}
    (hs : StmtOk E s) (hld : ∀ n ∈ stmtMods E s, ∀ mods, ∃ mods', ld mods n = .ok mods') (mods : List ModName) :
    ∃ mods', runStmt E ld mods s = .ok mods' := by
  obtain ⟨m1, h1⟩ := hld ⟨s.name.top, none⟩ List.mem_cons_self mods
  obtain ⟨m2, h2⟩ := hld s.name (List.mem_cons_of_mem _ List.mem_cons_self) m1
  unfold runStmt
  rw [h1]
  change ∃ mods', (ld m1 s.name >>= _) = _
  rw [h2]
  refine foldlM_exists _ _ _ fun x hx m => ?_
  by_cases hn : x ∈ E.names s.name
  · exact ⟨m, by rw [if_pos hn]; rfl⟩
  · rw [if_neg hn]
    have hsub : s.name.sub = none := by
      by_contra h
      exact hn (hs.2 h x hx)
    have hmem : (⟨s.name.top, some x⟩ : ModName) ∈ stmtMods E s := by
      refine List.mem_cons_of_mem _ (List.mem_cons_of_mem _ ?_)
      rw [if_pos hsub]
      exact List.mem_map.mpr ⟨x, List.mem_filter.mpr ⟨hx, decide_eq_true hn⟩, rfl⟩
    rw [if_pos ⟨hsub, hs.1 _ hmem⟩]
    exact hld _ hmem m

/-- A set of files whose statements have what they need and lead to files of the set of lower rank can be loaded. -/
theorem load_exists (E : PyEnv) (R : SrcFile → Prop) (rank : SrcFile → ℕ)
    (hR : ∀ f, R f → ∀ s ∈ E.imports f, StmtOk E s ∧ ∀ m ∈ stmtMods E s, ∀ g, E.resolve m = some g →
      R g ∧ rank g < rank f) : ∀ k n f, E.resolve n = some f → R f → rank f < k → ∀ mods,
    ∃ mods', load E k mods n = .ok mods' := by
  intro k
  induction k with
  | zero => intro n f _ _ h; omega
  | succ k ih =>
    intro n f hf hRf hk mods
    unfold load
    by_cases hn : n ∈ mods
    · exact ⟨mods, if_pos hn⟩
    · rw [if_neg hn, hf]
      refine foldlM_exists _ _ _ fun s hs m => ?_
      obtain ⟨h1, h2⟩ := hR f hRf s hs
      refine runStmt_exists h1 (fun a ha m => ?_) m
      obtain ⟨g, hg⟩ := Option.isSome_iff_exists.mp (h1.1 a ha)
      obtain ⟨k1, k2⟩ := h2 a ha g hg
      exact ih a g hg k1 (by omega) m

theorem imports_exist (E : PyEnv) (R : SrcFile → Prop) (rank : SrcFile → ℕ)
    (hR : ∀ f, R f → ∀ s ∈ E.imports f, StmtOk E s ∧ ∀ m ∈ stmtMods E s, ∀ g, E.resolve m = some g →
      R g ∧ rank g < rank f) (script : String) (h : R (.repo script)) (hrank : rank (.repo script) ≤ 100) :
    Starts E script := by
  refine foldlM_exists _ _ _ fun s hs m => ?_
  obtain ⟨h1, h2⟩ := hR _ h s hs
  refine runStmt_exists h1 (fun a ha m => ?_) m
  obtain ⟨g, hg⟩ := Option.isSome_iff_exists.mp (h1.1 a ha)
  obtain ⟨k1, k2⟩ := h2 a ha g hg
  exact load_exists E R rank hR 100 a g hg k1 (by omega) m

/-! ### Names -/

theorem resolve_top (E : PyEnv) (top : String) (f : SrcFile) :
    E.resolve ⟨top, none⟩ = some f ↔ FirstOn E top f := by
  show (E.path.findSome? fun e => e.find top) = some f ↔ _
  rw [List.findSome?_eq_some_iff]
  constructor
  · rintro ⟨b, e, a, h1, h2, h3⟩
    exact ⟨b, e, a, h1, h3, h2⟩
  · rintro ⟨b, e, a, h1, h2, h3⟩
    exact ⟨b, e, a, h1, h3, h2⟩

theorem resolve_sub_none (E : PyEnv) (top b : String) (h : E.resolve ⟨top, none⟩ = none) :
    E.resolve ⟨top, some b⟩ = none := by
  unfold PyEnv.resolve at h ⊢
  dsimp only at h ⊢
  rw [h]

theorem resolve_sub_repo (E : PyEnv) (top b : String) {p : String} (h : E.resolve ⟨top, none⟩ = some (.repo p)) :
    E.resolve ⟨top, some b⟩ = (repoSub p b).map .repo := by
  unfold PyEnv.resolve at h ⊢
  dsimp only at h ⊢
  rw [h]

theorem resolve_sub_other (E : PyEnv) (top b : String) {i : ℕ} (h : E.resolve ⟨top, none⟩ = some (.other i)) :
    E.resolve ⟨top, some b⟩ = (E.otherSub i b).map .other := by
  unfold PyEnv.resolve at h ⊢
  dsimp only at h ⊢
  rw [h]

/-! ### What is in the repository -/

/-- The file of the repository for a module. -/
def repoResolve (n : ModName) : Option String :=
  match n.sub with
  | none => repoTop n.top
  | some b => (repoTop n.top).bind fun p => repoSub p b

/-- The statements of a file of the repository. -/
def importsOf (p : String) : List ImportStmt := ((repoFiles.lookup p).map Prod.fst).getD []

/-- The names of a module of the repository. -/
def repoNames (n : ModName) : List String :=
  match repoResolve n with
  | none => []
  | some p => ((repoFiles.lookup p).map Prod.snd).getD []

/-- What a statement loads, for modules of the repository. -/
def stmtModsR (s : ImportStmt) : List ModName :=
  ⟨s.name.top, none⟩ :: s.name :: (if s.name.sub = none then
    (s.names.filter fun x => x ∉ repoNames s.name).map fun x => ⟨s.name.top, some x⟩ else [])

theorem resolve_own {E : PyEnv} {rest : List PathEntry} (hE : E.path = .root :: rest) (n : ModName)
    (h : (repoTop n.top).isSome) : E.resolve n = (repoResolve n).map .repo := by
  obtain ⟨p, hp⟩ := Option.isSome_iff_exists.mp h
  have h0 : E.resolve ⟨n.top, none⟩ = some (.repo p) := by
    rw [resolve_top]
    exact ⟨[], .root, rest, hE, by simp, by simp [PathEntry.find, hp]⟩
  obtain ⟨top, sub⟩ := n
  cases sub with
  | none =>
    rw [h0]
    show _ = (repoTop top).map _
    rw [hp]
    rfl
  | some b =>
    rw [resolve_sub_repo E top b h0]
    show _ = ((repoTop top).bind _).map _
    rw [hp]
    rfl

theorem names_own {E : PyEnv} {rest : List PathEntry} (hE : E.path = .root :: rest) (n : ModName)
    (h : (repoTop n.top).isSome) : E.names n = repoNames n := by
  unfold PyEnv.names repoNames
  rw [resolve_own hE n h]
  cases repoResolve n <;> rfl

theorem stmtMods_own {E : PyEnv} {rest : List PathEntry} (hE : E.path = .root :: rest) (s : ImportStmt)
    (h : (repoTop s.name.top).isSome) : stmtMods E s = stmtModsR s := by
  unfold stmtMods stmtModsR
  rw [names_own hE s.name h]

/-- How deep the imports below a file go. -/
def importRanks : List (String × ℕ) :=
  [("utilities/meta.py", 1), ("utilities/config.py", 1), ("utilities/files.py", 1), ("utilities/vincenty.py", 1),
    ("utilities/parallel.py", 1), ("utilities/convert.py", 1), ("utilities/shapefiles.py", 1),
    ("topographic/findpeaks.py", 1), ("topographic/make_path.py", 1), ("topographic/mh.py", 1),
    ("utilities/blrb.py", 2), ("utilities/nctools.py", 2), ("topographic/multiplier_calc.py", 2),
    ("utilities/mpi_runner.py", 2), ("pre_process.py", 2), ("utilities/get_pixel_size_grid.py", 3),
    ("rasterize.py", 3), ("shielding/shield_mult.py", 4), ("terrain/terrain_mult.py", 4),
    ("topographic/topo_mult.py", 4), ("all_multipliers.py", 5)]

/-- The rank of a file. -/
def importRank : SrcFile → ℕ
  | .repo p => (importRanks.lookup p).getD 0
  | .other _ => 0

/-- The imports of the files among each other work. -/
def ownCheck (files : List String) : Bool :=
  files.all fun p => decide (importsOf p = [] ∨ 0 < importRank (.repo p)) && (importsOf p).all fun s =>
    !decide (s.name.top ∈ ownNames) || ((repoTop s.name.top).isSome &&
      ((stmtModsR s).all fun n => (repoResolve n).any fun q =>
        decide (q ∈ files) && decide (importRank (.repo q) < importRank (.repo p))) &&
      (s.name.sub == none || s.names.all fun x => decide (x ∈ repoNames s.name)))

theorem ownCheck_main : ownCheck mainFiles = true := by decide +kernel

theorem ownCheck_tools : ownCheck toolFiles = true := by decide +kernel

theorem own_ok {E : PyEnv} {rest : List PathEntry} (hE : E.path = .root :: rest) {files : List String}
    (hc : ownCheck files = true) {p : String} (hp : p ∈ files) {s : ImportStmt} (hs : s ∈ importsOf p)
    (hown : s.name.top ∈ ownNames) : StmtOk E s ∧ ∀ m ∈ stmtMods E s, ∀ g, E.resolve m = some g →
      (∃ q ∈ files, g = .repo q) ∧ importRank g < importRank (.repo p) := by
  have h1 := List.all_eq_true.mp hc p hp
  rw [Bool.and_eq_true] at h1
  have h2 := List.all_eq_true.mp h1.2 s hs
  rw [decide_eq_true hown] at h2
  simp only [Bool.not_true, Bool.false_or, Bool.and_eq_true, Bool.or_eq_true] at h2
  obtain ⟨⟨ht, hm⟩, hn⟩ := h2
  have htop : ∀ m ∈ stmtModsR s, m.top = s.name.top := by
    intro m hm
    unfold stmtModsR at hm
    rcases List.mem_cons.mp hm with rfl | hm
    · rfl
    rcases List.mem_cons.mp hm with rfl | hm
    · rfl
    split_ifs at hm
    · obtain ⟨x, -, rfl⟩ := List.mem_map.mp hm
      rfl
    · cases hm
  have key : ∀ m ∈ stmtMods E s, ∃ q ∈ files, E.resolve m = some (.repo q) ∧
      importRank (.repo q) < importRank (.repo p) := by
    intro m hmem
    rw [stmtMods_own hE s ht] at hmem
    have h3 := List.all_eq_true.mp hm m hmem
    rw [resolve_own hE m (by rw [htop m hmem]; exact ht)]
    cases hq : repoResolve m with
    | none => rw [hq] at h3; cases h3
    | some q =>
      rw [hq] at h3
      simp only [Option.any_some, Bool.and_eq_true, decide_eq_true_eq] at h3
      exact ⟨q, h3.1, rfl, h3.2⟩
  refine ⟨⟨fun m hmem => ?_, fun hsub x hx => ?_⟩, fun m hmem g hg => ?_⟩
  · obtain ⟨q, -, h, -⟩ := key m hmem
    rw [h]
    rfl
  · rcases hn with h | h
    · exact absurd (eq_of_beq h) hsub
    · rw [names_own hE s.name ht]
      exact of_decide_eq_true (List.all_eq_true.mp h x hx)
  · obtain ⟨q, h1, h2, h3⟩ := key m hmem
    obtain rfl : SrcFile.repo q = g := Option.some.inj (h2.symm.trans hg)
    exact ⟨⟨q, h1, rfl⟩, h3⟩

/-- What is installed can be imported. -/
theorem canImport_ok {E : PyEnv} {s : ImportStmt} (h : CanImport E s) : StmtOk E s ∧ ∀ m ∈ stmtMods E s, ∀ g,
    E.resolve m = some g → ∃ i, g = .other i := by
  obtain ⟨i, h1, h2⟩ := h
  have h0 := (resolve_top E _ _).mpr h1
  have key : ∀ m ∈ stmtMods E s, ∃ j, E.resolve m = some (.other j) := by
    intro m hm
    rcases List.mem_cons.mp hm with rfl | hm
    · exact ⟨i, h0⟩
    rcases h2 with ⟨hs, hn⟩ | ⟨b, j, hs, hb, hn⟩
    · have hname : s.name = ⟨s.name.top, none⟩ := by
        cases h : s.name
        rw [h] at hs
        simp only at hs
        rw [hs]
      rcases List.mem_cons.mp hm with rfl | hm
      · exact ⟨i, by rw [hname]; exact h0⟩
      rw [if_pos hs] at hm
      obtain ⟨x, hx, rfl⟩ := List.mem_map.mp hm
      obtain ⟨hx1, hx2⟩ := List.mem_filter.mp hx
      have hx3 := of_decide_eq_true hx2
      rcases hn x hx1 with h | h
      · refine absurd ?_ hx3
        unfold PyEnv.names
        rw [hname, h0]
        exact h
      · obtain ⟨j, hj⟩ := Option.isSome_iff_exists.mp h
        exact ⟨j, by rw [resolve_sub_other E _ x h0, hj]; rfl⟩
    · have hname : s.name = ⟨s.name.top, some b⟩ := by
        cases h : s.name
        rw [h] at hs
        simp only at hs
        rw [hs]
      rcases List.mem_cons.mp hm with rfl | hm
      · exact ⟨j, by rw [hname, resolve_sub_other E _ b h0, hb]; rfl⟩
      · rw [if_neg (by rw [hs]; simp)] at hm
        cases hm
  refine ⟨⟨fun m hm => ?_, fun hsub x hx => ?_⟩, fun m hm g hg => ?_⟩
  · obtain ⟨j, hj⟩ := key m hm
    rw [hj]
    rfl
  · rcases h2 with ⟨hs, -⟩ | ⟨b, j, hs, hb, hn⟩
    · exact absurd hs hsub
    · have hname : s.name = ⟨s.name.top, some b⟩ := by
        cases h : s.name
        rw [h] at hs
        simp only at hs
        rw [hs]
      unfold PyEnv.names
      rw [hname, resolve_sub_other E _ b h0, hb]
      exact hn x hx
  · obtain ⟨j, hj⟩ := key m hm
    exact ⟨j, Option.some.inj (hg.symm.trans hj)⟩

end WindMult
