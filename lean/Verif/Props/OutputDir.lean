import Verif.Model.OutputDir
import Mathlib.Tactic.Push

/-!
# C63, C68: saving a grid, preparing the output directory
-/

set_option autoImplicit false

namespace WindMult

/-! ### C63 -/

theorem ncDims_ok : ∀ (dims : List NcDim) (f : NcFile), (∀ d ∈ dims, d.complete = true) →
    (f.vars ++ dims.map NcDim.name).Nodup →
    ncDims dims f = ({ f with dims := f.dims ++ dims.map (fun d => (d.name, d.size)),
                              vars := f.vars ++ dims.map NcDim.name }, .ok ()) := by
  intro dims
  induction dims with
  | nil => intro f _ _; simp [ncDims]
  | cons d rest ih =>
    intro f hc hn
    have h1 : d.name ∉ f.vars := by
      intro h
      rw [List.nodup_append] at hn
      exact hn.2.2 d.name h d.name (by simp) rfl
    rw [ncDims, if_pos (hc d List.mem_cons_self), if_neg h1, ih]
    · simp
    · exact fun d' hd' => hc d' (List.mem_cons_of_mem _ hd')
    · simpa using hn

/-- A call with complete entries: the names are different, the variables use the dimensions and have
as many axes. -/
structure NcValid (dims : List NcDim) (vars : List NcVar) : Prop where
  dimsComplete : ∀ d ∈ dims, d.complete = true
  varsComplete : ∀ v ∈ vars, v.complete = true
  names : (dims.map NcDim.name ++ vars.map NcVar.name).Nodup
  axes : ∀ v ∈ vars, ∀ n, v.ndim = some n → n = v.dims.length
  known : ∀ v ∈ vars, ∀ d ∈ v.dims, d ∈ dims.map NcDim.name

theorem ncSave_valid {dims : List NcDim} {v : NcVar} {rest : List NcVar}
    (h : NcValid dims (v :: rest)) (keepOpen : Bool) : ncSaveGrid dims (v :: rest) keepOpen =
      (⟨keepOpen, dims.map (fun d => (d.name, d.size)), dims.map NcDim.name ++ [v.name]⟩,
        .ok ()) := by
  have hn := h.names
  rw [List.nodup_append] at hn
  unfold ncSaveGrid
  rw [ncDims_ok dims _ h.dimsComplete (by simpa using hn.1)]
  simp only [List.nil_append]
  rw [ncVars, if_pos (h.varsComplete v List.mem_cons_self), if_neg, if_neg, if_neg]
  · intro hv
    exact hn.2.2 v.name hv v.name (by simp) rfl
  · intro hc
    obtain ⟨d, hd, hnot⟩ := List.any_eq_true.mp hc
    have := h.known v List.mem_cons_self d hd
    simp only [List.map_map, Bool.not_eq_eq_eq_not, Bool.not_true] at hnot
    have h2 : d ∈ List.map (Prod.fst ∘ fun d : NcDim => (d.name, d.size)) dims := this
    rw [← List.contains_iff_mem, hnot] at h2
    cases h2
  · rintro ⟨h1, h2⟩
    obtain ⟨n, hn'⟩ := Option.isSome_iff_exists.mp h1
    exact h2 (by rw [hn', h.axes v List.mem_cons_self n hn'])

/-- C63, the part that holds: for a valid call with at least one variable the file is closed and
contains all dimensions and the *first* variable.  The full statement is that it contains *all*
variables, `∀ v ∈ vars, v.name ∈ file.vars`; it is false, see `C63_false`. -/
theorem C63_partial {dims : List NcDim} {v : NcVar} {rest : List NcVar}
    (h : NcValid dims (v :: rest)) :
    ∃ file, ncSaveGrid dims (v :: rest) false = (file, .ok ()) ∧ file.isOpen = false ∧
      (∀ d ∈ dims, (d.name, d.size) ∈ file.dims) ∧ v.name ∈ file.vars := by
  refine ⟨_, ncSave_valid h false, rfl, ?_, by simp⟩
  intro d hd
  exact List.mem_map.mpr ⟨d, hd, rfl⟩

/-- C63: no variable but the first is ever written. -/
theorem C63_only_first {dims : List NcDim} {v : NcVar} {rest : List NcVar}
    (h : NcValid dims (v :: rest)) (keepOpen : Bool) :
    ∀ w ∈ rest, w.name ∉ (ncSaveGrid dims (v :: rest) keepOpen).1.vars := by
  intro w hw
  rw [ncSave_valid h keepOpen]
  have hn := h.names
  rw [List.nodup_append] at hn
  obtain ⟨-, h2, h3⟩ := hn
  simp only [List.map_cons, List.nodup_cons] at h2
  simp only [List.mem_append, List.mem_singleton, not_or]
  constructor
  · intro hd
    exact h3 w.name hd w.name (by simp only [List.map_cons, List.mem_cons, List.mem_map]
                                  exact Or.inr ⟨w, hw, rfl⟩) rfl
  · intro he
    exact h2.1 (by rw [← he]; exact List.mem_map.mpr ⟨w, hw, rfl⟩)

theorem multiplier_valid (name : String) (rows cols : ℕ) (h1 : name ≠ "lat") (h2 : name ≠ "lon")
    (h3 : name ≠ "crs") : NcValid (multiplierDims rows cols) (multiplierVars name) := by
  refine ⟨by simp [multiplierDims], by simp [multiplierVars], ?_, ?_, ?_⟩
  · simp [multiplierDims, multiplierVars, h1.symm, h2.symm, h3]
  · simp [multiplierVars]
  · simp [multiplierDims, multiplierVars]

/-- C63 is false for every multiplier file the program writes: the variable `crs` is missing. -/
theorem C63_no_crs (name : String) (rows cols : ℕ) (h1 : name ≠ "lat") (h2 : name ≠ "lon")
    (h3 : name ≠ "crs") :
    (ncSaveGrid (multiplierDims rows cols) (multiplierVars name) false).2 = .ok () ∧
    "crs" ∉ (ncSaveGrid (multiplierDims rows cols) (multiplierVars name) false).1.vars := by
  have hv := multiplier_valid name rows cols h1 h2 h3
  constructor
  · rw [multiplierVars] at hv ⊢
    rw [ncSave_valid hv]
  · exact C63_only_first hv false ⟨true, "crs", [], none⟩ (by simp)

/-- The full statement of C63 is false. -/
theorem C63_false : ¬ ∀ (dims : List NcDim) (vars : List NcVar), NcValid dims vars →
    ∀ v ∈ vars, v.name ∈ (ncSaveGrid dims vars false).1.vars := by
  intro h
  have hv := multiplier_valid "Mz" 2 3 (by decide) (by decide) (by decide)
  exact (C63_no_crs "Mz" 2 3 (by decide) (by decide) (by decide)).2
    (h _ _ hv ⟨true, "crs", [], none⟩ (by simp [multiplierVars]))

/-- Two dimensions and two variables, as the program writes them: the second variable is not in the file. -/
example : "crs" ∉ (ncSaveGrid (multiplierDims 2 3) (multiplierVars "Mt") true).1.vars :=
  C63_only_first (v := ⟨true, "Mt", ["lat", "lon"], some 2⟩) (rest := [⟨true, "crs", [], none⟩])
    (multiplier_valid "Mt" 2 3 (by decide) (by decide) (by decide)) true ⟨true, "crs", [], none⟩ (by simp)

/-- A grid without variables. -/
example : NcValid (multiplierDims 2 3) [] :=
  ⟨by simp [multiplierDims], by simp, by simp [multiplierDims], by simp, by simp⟩

/-- C63: without variables the file is left open. -/
theorem C63_no_variables {dims : List NcDim} (h : NcValid dims []) (keepOpen : Bool) :
    (ncSaveGrid dims [] keepOpen).1.isOpen = true ∧ (ncSaveGrid dims [] keepOpen).2 = .ok () := by
  have hn := h.names
  unfold ncSaveGrid
  rw [ncDims_ok dims _ h.dimsComplete (by simpa using hn)]
  exact ⟨rfl, rfl⟩

/-- C63: an incomplete dimension, an incomplete first variable and a first variable with the wrong
number of axes raise an error and close the file. -/
theorem C63_errors (dims : List NcDim) (vars : List NcVar) (keepOpen : Bool)
    (hn : (dims.map NcDim.name).Nodup) :
    ((∃ d ∈ dims, d.complete = false) →
      (ncSaveGrid dims vars keepOpen).2 = .error .keyError ∧
      (ncSaveGrid dims vars keepOpen).1.isOpen = false) ∧
    ((∀ d ∈ dims, d.complete = true) → ∀ v rest, vars = v :: rest →
      (v.complete = false → (ncSaveGrid dims vars keepOpen).2 = .error .keyError ∧
        (ncSaveGrid dims vars keepOpen).1.isOpen = false) ∧
      (v.complete = true → (∃ n, v.ndim = some n ∧ n ≠ v.dims.length) →
        (ncSaveGrid dims vars keepOpen).2 = .error .valueError ∧
        (ncSaveGrid dims vars keepOpen).1.isOpen = false)) := by
  have hdim : ∀ (dims : List NcDim) (f : NcFile), (f.vars ++ dims.map NcDim.name).Nodup →
      (∃ d ∈ dims, d.complete = false) →
      ∃ f', ncDims dims f = (f', .error .keyError) ∧ f'.isOpen = false := by
    intro dims
    induction dims with
    | nil => intro f _ h; simp at h
    | cons d rest ih =>
      intro f hn h
      have h1 : d.name ∉ f.vars := by
        intro h
        rw [List.nodup_append] at hn
        exact hn.2.2 d.name h d.name (by simp) rfl
      rw [ncDims]
      by_cases hc : d.complete = true
      · rw [if_pos hc, if_neg h1]
        apply ih
        · simpa using hn
        · obtain ⟨d', hd', hc'⟩ := h
          rcases List.mem_cons.mp hd' with rfl | hd'
          · rw [hc] at hc'; cases hc'
          · exact ⟨d', hd', hc'⟩
      · rw [if_neg hc]
        exact ⟨_, rfl, rfl⟩
  constructor
  · intro h
    obtain ⟨f', h1, h2⟩ := hdim dims ⟨true, [], []⟩ (by simpa using hn) h
    unfold ncSaveGrid
    rw [h1]
    exact ⟨rfl, h2⟩
  · rintro hc v rest rfl
    unfold ncSaveGrid
    rw [ncDims_ok dims _ hc (by simpa using hn)]
    simp only
    rw [ncVars]
    constructor
    · intro hv
      rw [if_neg (by simp [hv])]
      exact ⟨rfl, rfl⟩
    · rintro hv ⟨n, h1, h2⟩
      rw [if_pos hv, if_pos ⟨by simp [h1], by rw [h1]; simpa using h2⟩]
      exact ⟨rfl, rfl⟩

example : (ncSaveGrid (multiplierDims 2 3) (multiplierVars "Mt") false).1.vars =
    ["lat", "lon", "Mt"] := by decide +kernel

/-! ### C68 -/

/-- Everything lies in a directory. -/
def FsOk (fs : Fs) : Prop := ∀ p q, p <+: q → p ≠ q → fs q ≠ none → fs p = some .dir

theorem freshDir_eq (p : List String) (fs : Fs) (hwf : FsOk fs)
    (h : ∀ q, q <+: p → fs q ≠ some .file) :
    freshDir p fs = .ok fun q =>
      if q <+: p then some .dir else if p <+: q then none else fs q := by
  unfold freshDir
  split_ifs with hp
  · unfold makedirs
    rw [if_neg (by simpa using hp), if_neg (by rintro ⟨q, h1, h2⟩; exact h q h1 h2)]
    congr 1
    funext q
    split_ifs with h1 h2
    · rfl
    · by_contra hq
      have hne : p ≠ q := fun he => h1 (he ▸ List.prefix_refl p)
      have := hwf p q h2 hne hq
      rw [hp] at this
      cases this
    · rfl
  · have hd : fs p = some .dir := by
      cases hk : fs p with
      | none => exact absurd hk hp
      | some k =>
        cases k with
        | file => exact absurd hk (h p (List.prefix_refl p))
        | dir => rfl
    unfold rmtree
    rw [hd]
    simp only
    unfold makedirs
    rw [if_neg (by simp), if_neg]
    rintro ⟨q, h1, h2⟩
    simp only at h2
    split_ifs at h2
    exact h q h1 h2

open Classical in
/-- The state after preparing the folders `subs` in `out`. -/
noncomputable def preparedFs (out : List String) (subs : List String) (fs : Fs) : Fs := fun q =>
  if q <+: out ∨ ∃ s ∈ subs, q = out ++ [s] then some .dir
  else if out <+: q then none else fs q

theorem preparedFs_ok {out : List String} {subs : List String} {fs : Fs} (hwf : FsOk fs) :
    FsOk (preparedFs out subs fs) := by
  intro p q hpq hne hq
  unfold preparedFs at hq ⊢
  split_ifs at hq with h1 h2
  · rcases h1 with h1 | ⟨s, hs, rfl⟩
    · rw [if_pos (Or.inl (hpq.trans h1))]
    · rw [List.prefix_concat_iff] at hpq
      rcases hpq with rfl | hpq
      · exact absurd rfl hne
      · rw [if_pos (Or.inl hpq)]
  · exact absurd rfl hq
  · by_cases hp : p <+: out ∨ ∃ s ∈ subs, p = out ++ [s]
    · rw [if_pos hp]
    · rw [if_neg hp, if_neg (fun h => h2 (h.trans hpq))]
      exact hwf p q hpq hne hq

theorem freshDir_sub {out : List String} {subs : List String} {fs : Fs} (hwf : FsOk fs)
    (s : String) : freshDir (out ++ [s]) (preparedFs out subs fs) =
      .ok (preparedFs out (subs ++ [s]) fs) := by
  rw [freshDir_eq _ _ (preparedFs_ok hwf)]
  · congr 1
    funext q
    unfold preparedFs
    by_cases h1 : q <+: out ++ [s]
    · rw [if_pos h1, if_pos]
      rw [List.prefix_concat_iff] at h1
      rcases h1 with h1 | h1
      · exact Or.inr ⟨s, by simp, h1⟩
      · exact Or.inl h1
    · rw [if_neg h1]
      have hnq : ¬ q <+: out := fun h => h1 (h.trans (List.prefix_append _ _))
      have hns : q ≠ out ++ [s] := fun h => h1 (h ▸ List.prefix_refl _)
      by_cases h2 : out ++ [s] <+: q
      · rw [if_pos h2, if_neg, if_pos ((List.prefix_append _ _).trans h2)]
        rintro (h | ⟨s', -, rfl⟩)
        · exact hnq h
        · exact hns (h2.eq_of_length (by simp)).symm
      · rw [if_neg h2]
        have e : (q <+: out ∨ ∃ s' ∈ subs ++ [s], q = out ++ [s']) ↔
            (q <+: out ∨ ∃ s' ∈ subs, q = out ++ [s']) := by
          constructor
          · rintro (h | ⟨s', hs', rfl⟩)
            · exact Or.inl h
            · rcases List.mem_append.mp hs' with h | h
              · exact Or.inr ⟨s', h, rfl⟩
              · rw [List.mem_singleton] at h
                exact absurd (by rw [h]) hns
          · rintro (h | ⟨s', hs', rfl⟩)
            · exact Or.inl h
            · exact Or.inr ⟨s', List.mem_append_left _ hs', rfl⟩
        simp only [e]
  · intro q hq
    unfold preparedFs
    rw [List.prefix_concat_iff] at hq
    rcases hq with rfl | hq
    · split_ifs with h1 h2
      · simp
      · simp
      · exact absurd (List.prefix_append _ _) h2
    · rw [if_pos (Or.inl hq)]; simp

theorem prepareOutput_eq {size rank : ℕ} (hr : ¬ (size > 1 ∧ rank > 0)) {out : List String}
    {fs : Fs} (hwf : FsOk fs) (h : ∀ q, q <+: out → fs q ≠ some .file) :
    prepareOutput size rank out fs = .ok (preparedFs out resultFolders fs) := by
  unfold prepareOutput
  rw [if_neg hr, freshDir_eq out fs hwf h]
  simp only
  have e0 : (fun q => if q <+: out then some FsKind.dir else if out <+: q then none else fs q) =
      preparedFs out [] fs := by
    funext q
    unfold preparedFs
    simp
  have step : ∀ (todo done : List String),
      todo.foldlM (fun fs sub => freshDir (out ++ [sub]) fs) (preparedFs out done fs) =
        .ok (preparedFs out (done ++ todo) fs) := by
    intro todo
    induction todo with
    | nil => intro done; simp; rfl
    | cons s todo ih =>
      intro done
      rw [List.foldlM_cons, freshDir_sub hwf]
      have := ih (done ++ [s])
      rw [List.append_assoc] at this
      exact this
  have := step resultFolders []
  rw [← e0, List.nil_append] at this
  exact this

/-- C68: on a worker nothing happens. -/
theorem C68_worker {size rank : ℕ} (h1 : size > 1) (h2 : rank > 0) (out : List String) (fs : Fs) :
    prepareOutput size rank out fs = .ok fs := by
  unfold prepareOutput
  rw [if_pos ⟨h1, h2⟩]

/-- C68: on the master, or with a single process, and unless the path leads through a file,
preparation succeeds; afterwards the output directory holds exactly the five empty folders, whatever
it held before, and nothing outside it has changed but that the directories leading to it exist. -/
theorem C68_prepared {size rank : ℕ} (hr : ¬ (size > 1 ∧ rank > 0)) {out : List String} {fs : Fs}
    (hwf : FsOk fs) (h : ∀ q, q <+: out → fs q ≠ some .file) :
    ∃ fs', prepareOutput size rank out fs = .ok fs' ∧ fs' out = some .dir ∧
      (∀ s ∈ ["terrain", "shielding", "topographic", "M3", "M3_max"],
        fs' (out ++ [s]) = some .dir) ∧
      (∀ q, out <+: q → fs' q ≠ none → q = out ∨
        ∃ s ∈ ["terrain", "shielding", "topographic", "M3", "M3_max"], q = out ++ [s]) ∧
      (∀ q, ¬ out <+: q → ¬ q <+: out → fs' q = fs q) ∧ ∀ q, q <+: out → fs' q = some .dir := by
  refine ⟨_, prepareOutput_eq hr hwf h, ?_, ?_, ?_, ?_, ?_⟩
  · unfold preparedFs; rw [if_pos (Or.inl (List.prefix_refl _))]
  · intro s hs; unfold preparedFs; rw [if_pos (Or.inr ⟨s, hs, rfl⟩)]
  · intro q hq hne
    unfold preparedFs at hne
    split_ifs at hne with h1
    · rcases h1 with h1 | h1
      · exact Or.inl (h1.eq_of_length (le_antisymm h1.length_le hq.length_le))
      · exact Or.inr h1
    · exact absurd rfl hne
  · intro q h1 h2
    unfold preparedFs
    rw [if_neg, if_neg h1]
    rintro (h' | ⟨s, -, rfl⟩)
    · exact h2 h'
    · exact h1 (List.prefix_append _ _)
  · intro q hq; unfold preparedFs; rw [if_pos (Or.inl hq)]

/-- C68: doing it again changes nothing. -/
theorem C68_idempotent {size rank : ℕ} (hr : ¬ (size > 1 ∧ rank > 0)) {out : List String} {fs fs' : Fs}
    (hwf : FsOk fs) (h : ∀ q, q <+: out → fs q ≠ some .file)
    (h' : prepareOutput size rank out fs = .ok fs') :
    prepareOutput size rank out fs' = .ok fs' := by
  rw [prepareOutput_eq hr hwf h, Except.ok.injEq] at h'
  subst h'
  rw [prepareOutput_eq hr (preparedFs_ok hwf)]
  · congr 1
    funext q
    unfold preparedFs
    split_ifs <;> rfl
  · intro q hq
    unfold preparedFs
    rw [if_pos (Or.inl hq)]
    simp

/-- C68: if the output path is a file, nothing is removed and an error is raised. -/
theorem C68_file {size rank : ℕ} (hr : ¬ (size > 1 ∧ rank > 0)) {out : List String} {fs : Fs}
    (h : fs out = some .file) : prepareOutput size rank out fs = .error .osError := by
  unfold prepareOutput freshDir rmtree
  rw [if_neg hr, if_neg (by rw [h]; simp), h]

/-- A disk with `/w/old.nc` and `/w/terrain/x`, to be used as output directory `/w`, and `/data`. -/
def exampleFs : Fs := fun q =>
  if q = [] ∨ q = ["w"] ∨ q = ["w", "terrain"] ∨ q = ["data"] then some .dir
  else if q = ["w", "old.nc"] ∨ q = ["w", "terrain", "x"] then some .file
  else none

example : ∃ fs', prepareOutput 1 0 ["w"] exampleFs = .ok fs' ∧ fs' ["w", "old.nc"] = none ∧
    fs' ["w", "terrain"] = some .dir ∧ fs' ["w", "terrain", "x"] = none ∧
    fs' ["data"] = some .dir := by
  refine ⟨_, prepareOutput_eq (by decide) ?_ ?_, ?_, ?_, ?_, ?_⟩
  · intro p q hpq hne hq
    have hq' : q = [] ∨ q = ["w"] ∨ q = ["w", "terrain"] ∨ q = ["data"] ∨ q = ["w", "old.nc"] ∨
        q = ["w", "terrain", "x"] := by
      unfold exampleFs at hq
      split_ifs at hq with h1 h2
      · rcases h1 with h | h | h | h <;> simp [h]
      · rcases h2 with h | h <;> simp [h]
      · exact absurd rfl hq
    rcases hq' with rfl | rfl | rfl | rfl | rfl | rfl <;>
      simp only [List.prefix_cons_iff, List.prefix_nil] at hpq <;>
      (try rcases hpq with rfl | ⟨t, rfl, hpq⟩) <;>
      (try rcases hpq with rfl | ⟨t, rfl, hpq⟩) <;>
      (try rcases hpq with rfl | ⟨t, rfl, rfl⟩) <;> simp_all [exampleFs]
  · intro q hq
    simp only [List.prefix_cons_iff, List.prefix_nil] at hq
    rcases hq with rfl | ⟨t, rfl, rfl⟩ <;> decide
  all_goals simp [preparedFs, resultFolders, exampleFs, List.prefix_cons_iff]

end WindMult
