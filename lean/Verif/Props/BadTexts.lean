import Verif.Spec.BadTexts
import Verif.Props.RunTexts

/-!
# C130: a run does not start with a faulty configuration or table
-/

set_option autoImplicit false

namespace WindMult

theorem bind_eq_ok {ε α β : Type} {x : Except ε α} {f : α → Except ε β} {b : β} (h : (x >>= f) = .ok b) :
    ∃ a, x = .ok a ∧ f a = .ok b := by
  cases x with
  | error e => cases h
  | ok a => exact ⟨a, rfl, h⟩

/-- What a run that starts has found. -/
theorem start_ok {files : String → Option (List Char)} {name : String} (hname : name ≠ "") {verbose : Bool}
    {st : CfgState} {s : Settings} (h : startSettings files (some name) verbose st = .ok s) :
    ∃ st', setConfigText (files name) st = .ok st' ∧
      (∀ p ∈ neededOptions, ∃ v, configGet st' p.1 p.2 = .ok v) ∧
      (∃ q, configUpwind st' = .ok q) ∧ (∃ v ∈ logLevels, configGet st' "Logging" "loglevel" = .ok v) ∧
      (verbose = false → ∃ b, configBool st' "Logging" "verbose" = .ok b) ∧
      ∃ tname text, configGet st' "inputValues" "terrain_table" = .ok tname ∧ files tname = some text ∧
        (∃ t, terrainTableOf text = .ok t) ∧ ∃ t, shieldTableOf text = .ok t := by
  unfold startSettings at h
  simp only [hname, if_false] at h
  obtain ⟨st', h0, h⟩ := bind_eq_ok h
  obtain ⟨v1, h1, h⟩ := bind_eq_ok h
  obtain ⟨q, h2, h⟩ := bind_eq_ok h
  obtain ⟨v3, h3, h⟩ := bind_eq_ok h
  obtain ⟨v4, h4, h⟩ := bind_eq_ok h
  have h3' : configGet st' "Logging" "logfile" = .ok v3 := h3
  have h4' : configGet st' "Logging" "loglevel" = .ok v4 := h4
  have h2' := h2
  unfold configUpwind at h2'
  obtain ⟨v2, h2', -⟩ := bind_eq_ok h2'
  have hv : (verbose = false → ∃ b, configBool st' "Logging" "verbose" = .ok b) ∧ v4 ∈ logLevels ∧
      ∃ v6 v7 v8 v9 text, configGet st' "inputValues" "terrain_data" = .ok v6 ∧
        configGet st' "inputValues" "dem_data" = .ok v7 ∧ configGet st' "Output" "output_dir" = .ok v8 ∧
        configGet st' "inputValues" "terrain_table" = .ok v9 ∧ files v9 = some text ∧
        (∃ t, terrainTableOf text = .ok t) ∧ ∃ t, shieldTableOf text = .ok t := by
    by_cases hl : v4 ∈ logLevels
    · simp only [hl, if_true] at h
      have rest : ∀ {b : Bool} {s : Settings}, (do
          let land ← configGet st' "inputValues" "terrain_data"
          let dem ← configGet st' "inputValues" "dem_data"
          let out ← configGet st' "Output" "output_dir"
          let name ← configGet st' "inputValues" "terrain_table"
          match files name with
          | none => .error .osError
          | some text =>
            let terr ← terrainTableOf text
            let sh ← shieldTableOf text
            .ok ⟨q, land, dem, out, terr, sh⟩ : Except PyErr Settings) = .ok s →
          ∃ v6 v7 v8 v9 text, configGet st' "inputValues" "terrain_data" = .ok v6 ∧
            configGet st' "inputValues" "dem_data" = .ok v7 ∧ configGet st' "Output" "output_dir" = .ok v8 ∧
            configGet st' "inputValues" "terrain_table" = .ok v9 ∧ files v9 = some text ∧
            (∃ t, terrainTableOf text = .ok t) ∧ ∃ t, shieldTableOf text = .ok t := by
        intro _ s h
        obtain ⟨v6, h6, h⟩ := bind_eq_ok h
        obtain ⟨v7, h7, h⟩ := bind_eq_ok h
        obtain ⟨v8, h8, h⟩ := bind_eq_ok h
        obtain ⟨v9, h9, h⟩ := bind_eq_ok h
        cases hf : files v9 with
        | none => rw [hf] at h; cases h
        | some text =>
          rw [hf] at h
          obtain ⟨t1, g1, h⟩ := bind_eq_ok h
          obtain ⟨t2, g2, -⟩ := bind_eq_ok h
          exact ⟨v6, v7, v8, v9, text, h6, h7, h8, h9, hf, ⟨t1, g1⟩, t2, g2⟩
      cases verbose with
      | true =>
        obtain ⟨-, -, h⟩ := bind_eq_ok (x := Except.ok true) h
        exact ⟨by simp, hl, rest (b := true) h⟩
      | false =>
        obtain ⟨b, h5, h⟩ := bind_eq_ok (x := configBool st' "Logging" "Verbose") h
        exact ⟨fun _ => ⟨b, h5⟩, hl, rest (b := true) h⟩
    · exfalso
      simp only [hl, if_false] at h
      cases verbose with
      | true =>
        obtain ⟨-, -, h⟩ := bind_eq_ok (x := Except.ok true) h
        obtain ⟨x, h', hx⟩ := bind_eq_ok h
        cases h'
      | false =>
        obtain ⟨-, -, h⟩ := bind_eq_ok (x := configBool st' "Logging" "Verbose") h
        obtain ⟨x, h', hx⟩ := bind_eq_ok h
        cases h'
  obtain ⟨h5, hl, v6, v7, v8, v9, text, h6, h7, h8, h9, hf, ht1, ht2⟩ := hv
  refine ⟨st', h0, ?_, ⟨q, h2⟩, ⟨v4, hl, h4'⟩, h5, v9, text, h9, hf, ht1, ht2⟩
  intro p hp
  simp only [neededOptions, List.mem_cons, List.not_mem_nil, or_false] at hp
  rcases hp with rfl | rfl | rfl | rfl | rfl | rfl | rfl | rfl
  exacts [⟨_, h1⟩, ⟨_, h2'⟩, ⟨_, h6⟩, ⟨_, h7⟩, ⟨_, h9⟩, ⟨_, h3'⟩, ⟨_, h4'⟩, ⟨_, h8⟩]

/-! ### Numbers -/

theorem digit_numberChar {c : Char} {d : ℕ} (h : digitVal c = some d) : c ∈ numberChars := by
  unfold digitVal at h
  split_ifs at h with hc
  obtain ⟨h1, h2⟩ := hc
  have h1' : (48 : ℕ) ≤ c.toNat := h1
  have h2' : c.toNat ≤ 57 := h2
  have : c = Char.ofNat c.toNat := (Char.ofNat_toNat c).symm
  rw [this]
  generalize c.toNat = m at *
  interval_cases m <;> decide

theorem takeDigits_chars (s : List Char) {c : Char} (hc : c ∈ s) : c ∈ numberChars ∨ c ∈ (takeDigits s).2 := by
  induction s with
  | nil => cases hc
  | cons a s ih =>
    unfold takeDigits
    cases hd : digitVal a with
    | none => exact .inr hc
    | some d =>
      rcases List.mem_cons.1 hc with rfl | hc
      · exact .inl (digit_numberChar hd)
      · exact ih hc

theorem takeSign_chars (s : List Char) {c : Char} (hc : c ∈ s) : c ∈ numberChars ∨ c ∈ (takeSign s).2 := by
  unfold takeSign
  split
  · rcases List.mem_cons.1 hc with rfl | hc
    · exact .inl (by decide)
    · exact .inr hc
  · rcases List.mem_cons.1 hc with rfl | hc
    · exact .inl (by decide)
    · exact .inr hc
  · exact .inr hc

theorem takeFraction_chars (s : List Char) {c : Char} (hc : c ∈ s) : c ∈ numberChars ∨ c ∈ (takeFraction s).2 := by
  unfold takeFraction
  split
  · rcases List.mem_cons.1 hc with rfl | hc
    · exact .inl (by decide)
    · exact takeDigits_chars _ hc
  · exact .inr hc

theorem readExponent_chars {s : List Char} {x : ℤ} (h : readExponent s = some x) {c : Char} (hc : c ∈ s) :
    c ∈ numberChars := by
  cases s with
  | nil => cases hc
  | cons a s =>
    unfold readExponent at h
    dsimp only at h
    rw [ite_eq_iff] at h
    obtain ⟨ha, h⟩ := h.resolve_right (by simp)
    rcases List.mem_cons.1 hc with rfl | hc
    · rcases ha with rfl | rfl <;> decide
    · rcases takeSign_chars s hc with h1 | h1
      · exact h1
      rcases takeDigits_chars _ h1 with h1 | h1
      · exact h1
      split at h
      · next heq => rw [heq] at h1; cases h1
      · cases h

theorem dropWhile_chars {p : Char → Bool} {s : List Char} {c : Char} (hc : c ∈ s) : p c = true ∨ c ∈ s.dropWhile p := by
  rw [← List.takeWhile_append_dropWhile (p := p) (l := s), List.mem_append] at hc
  exact hc.imp (fun h => (List.all_eq_true.1 List.all_takeWhile) c h) id

theorem stripBlanks_chars (s : List Char) {c : Char} (hc : c ∈ s) : c ∈ numberChars ∨ c ∈ stripBlanks s := by
  have hb : ∀ c : Char, (c == ' ' || c == '\t') = true → c ∈ numberChars := by
    intro c h
    simp only [Bool.or_eq_true, beq_iff_eq] at h
    rcases h with rfl | rfl <;> decide
  rcases dropWhile_chars (p := fun c : Char => c == ' ' || c == '\t') hc with h | h
  · exact .inl (hb c h)
  rcases dropWhile_chars (p := fun c : Char => c == ' ' || c == '\t') (List.mem_reverse.2 h) with h | h
  · exact .inl (hb c h)
  · exact .inr (List.mem_reverse.2 h)

/-- Numbers have no other characters. -/
theorem readNumber_chars {s : List Char} {q : ℚ} (h : readNumber s = some q) : ∀ c ∈ s, c ∈ numberChars := by
  intro c hc
  unfold readNumber at h
  dsimp only at h
  rw [ite_eq_iff] at h
  replace h := (h.resolve_left (by simp)).2
  rcases stripBlanks_chars s hc with h1 | h1
  · exact h1
  rcases takeSign_chars _ h1 with h1 | h1
  · exact h1
  rcases takeDigits_chars _ h1 with h1 | h1
  · exact h1
  rcases takeFraction_chars _ h1 with h1 | h1
  · exact h1
  split at h
  · cases h
  · next hx => exact readExponent_chars hx h1

theorem readNumber_of_not {s : List Char} (h : NotNumber s) : readNumber s = none := by
  obtain ⟨c, hc, -, -, hn⟩ := h
  cases hq : readNumber s with
  | none => rfl
  | some q => exact absurd (readNumber_chars hq c hc) hn

theorem not_na {s : List Char} (h : NotNumber s) (hm : s ∉ missingTexts) : s ∉ naFields := by
  intro hs
  obtain ⟨c, hc, -, -, hn⟩ := h
  have : ∀ t ∈ naFields, t ∉ missingTexts → ∀ c ∈ t, c ∈ numberChars := by decide +kernel
  exact hn (this s hs hm c hc)

/-! ### Tables -/

theorem mapM_error {α β ε : Type} {f : α → Except ε β} {l : List α} {a : α} (ha : a ∈ l) {e : ε} (he : f a = .error e) :
    ∃ e', l.mapM f = .error e' := by
  induction l with
  | nil => cases ha
  | cons b l ih =>
    rw [List.mapM_cons]
    cases hb : f b with
    | error e' => exact ⟨e', rfl⟩
    | ok y =>
      rcases List.mem_cons.1 ha with rfl | ha
      · rw [he] at hb; cases hb
      · obtain ⟨e', h'⟩ := ih ha
        exact ⟨e', by rw [h']; rfl⟩

/-- Unusable tables are not read. -/
theorem tableRows_unusable {f : FileText} (hf : ∀ l ∈ f.allLines, l.Ok) {name : List Char} (h : f.Unusable name) :
    ∃ e, (do tableRows (← readCsv f.text) name) = .error e := by
  have hl := csvLines_text f hf
  rcases h with h | ⟨h, r, rs, hr, x, hx, h1, h2⟩ | ⟨h, r, rs, hr, hn⟩ | ⟨h, rs, k, hr, hk, r, hrm, s, hs, hns, hm⟩
  · rw [h] at hl
    exact ⟨.valueError, by simp [readCsv, hl, bind, Except.bind]⟩
  · rw [hr] at hl
    have : ((r :: rs).any fun y => decide (max h.length ((r :: rs).headD []).length < y.length)) = true := by
      rw [List.any_eq_true]
      exact ⟨x, List.mem_cons_of_mem _ hx, by simpa using ⟨h1, h2⟩⟩
    exact ⟨.valueError, by simp only [readCsv, hl, bind, Except.bind, this, if_true]⟩
  · rw [hr] at hl
    by_cases hw : ((r :: rs).any fun y => decide (max h.length ((r :: rs).headD []).length < y.length)) = true
    · exact ⟨.valueError, by simp only [readCsv, hl, bind, Except.bind, hw, if_true]⟩
    · refine ⟨.keyError, ?_⟩
      simp only [readCsv, hl, bind, Except.bind, hw, if_false, tableRows, List.map_cons, reduceCtorEq,
        CsvTable.column, Bool.false_eq_true]
      rcases hn with hn | hn
      · rw [List.idxOf?_eq_none_iff.2 hn]
      · rw [List.idxOf?_eq_none_iff.2 hn]
        cases List.idxOf? "CATEGORY".toList h <;> rfl
  · rw [hr] at hl
    by_cases hw : (rs.any fun y => decide (max h.length (rs.headD []).length < y.length)) = true
    · exact ⟨.valueError, by simp only [readCsv, hl, bind, Except.bind, hw, if_true]⟩
    have hne : rs ≠ [] := List.ne_nil_of_mem hrm
    set rows := rs.map fun r => (r ++ List.replicate (h.length - r.length) []).take h.length with hrows
    have hrne : rows ≠ [] := by simpa [hrows] using hne
    have hkl : k < h.length := (List.getElem?_eq_some_iff.1 hk.1).1
    have hcell : ((r ++ List.replicate (h.length - r.length) []).take h.length).getD k [] = s := by
      rw [List.getD_eq_getElem?_getD, List.getElem?_take_of_lt hkl,
        List.getElem?_append_left (List.getElem?_eq_some_iff.1 hs).1, hs]
      rfl
    have hcol : (rows.map fun r => r.getD k []).all (fun s => s ∈ naFields || (readNumber s).isSome) = false := by
      rw [List.all_eq_false]
      refine ⟨s, ?_, ?_⟩
      · rw [hrows, List.map_map, List.mem_map]
        exact ⟨r, hrm, hcell⟩
      · simp [not_na hns hm, readNumber_of_not hns]
    simp only [readCsv, hl, bind, Except.bind, hw, if_false, tableRows, ← hrows, hrne, CsvTable.column,
      idxOf?_of_first hk, Bool.false_eq_true]
    cases hc : h.idxOf? "CATEGORY".toList with
    | none => exact ⟨.keyError, rfl⟩
    | some j =>
      dsimp only
      obtain ⟨i, hi, hri⟩ := List.getElem_of_mem hrm
      have hil : i < rows.length := by simpa [hrows] using hi
      have hlen : ∀ col, (typedColumn col).length = col.length := by
        intro col; unfold typedColumn; split_ifs <;> simp
      have hmem : ((typedColumn (rows.map fun r => r.getD j []))[i]'(by simpa [hlen] using hil),
          CsvCell.str s) ∈ (typedColumn (rows.map fun r => r.getD j [])).zip
            (typedColumn (rows.map fun r => r.getD k [])) := by
        rw [List.mem_iff_getElem]
        refine ⟨i, by simpa [hlen] using hil, ?_⟩
        rw [List.getElem_zip]
        congr 1
        have : (typedColumn (rows.map fun r => r.getD k []))[i]? = some (.str s) := by
          unfold typedColumn
          rw [hcol]
          simp only [Bool.false_eq_true, if_false, List.getElem?_map, hrows, List.getElem?_eq_getElem hi, hri,
            Option.map_some, hcell, not_na hns hm]
        exact (List.getElem?_eq_some_iff.1 this).2
      obtain ⟨e', he'⟩ := mapM_error (f := fun p : CsvCell × CsvCell => tableRow p.1 p.2) hmem
        (e := .runtimeError) rfl
      exact ⟨e', by rw [he']⟩

/-! ### The property -/

theorem error_of_not_ok {α : Type} {x : Except PyErr α} (h : ∀ a, x ≠ .ok a) : ∃ e, x = .error e := by
  cases x with
  | error e => exact ⟨e, rfl⟩
  | ok a => exact absurd rfl (h a)

section
variable (files : String → Option (List Char)) (name : String) (hname : name ≠ "") (verbose : Bool) (st : CfgState)
  (f : IniFile) (hf : f.Ok) (hfile : files name = some f.text)
include hname hf hfile

/-- **C130** (missing option) A run whose configuration lacks a needed option, and which has no value for it from
before, does not start. -/
theorem C130_missing_option (p : String × String) (hp : p ∈ neededOptions)
    (hno : ∀ v, ¬ f.Sets p.1.toList p.2.toList v) (hst : st.values p.1 p.2 = none) :
    ∃ e, startSettings files (some name) verbose st = .error e := by
  refine error_of_not_ok fun s h => ?_
  obtain ⟨st', h0, h1, -⟩ := start_ok hname h
  obtain ⟨v, hv⟩ := h1 p hp
  obtain ⟨st'', g0, -, g2⟩ := C123_read f hf st
  rw [hfile, g0] at h0
  cases h0
  have low : ∀ p ∈ neededOptions, String.ofList (p.2.toList.map Char.toLower) = p.2 := by decide
  have hlow := low p hp
  have := g2 _ _ hno
  rw [String.ofList_toList, String.ofList_toList, hst] at this
  rw [configGet, hlow, this] at hv
  cases hv

/-- The run's value of an option that the configuration sets. -/
theorem start_get {s : Settings} (h : startSettings files (some name) verbose st = .ok s) :
    ∃ st', setConfigText (files name) st = .ok st' ∧ ∀ (sect opt : String) (v : List Char),
      f.Sets sect.toList (opt.toList.map Char.toLower) v → configGet st' sect opt = .ok (String.ofList v) := by
  obtain ⟨st', h0, -⟩ := start_ok hname h
  refine ⟨st', h0, fun sect opt v hv => ?_⟩
  obtain ⟨st'', g0, g1⟩ := C123_get f hf st sect opt v hv
  rw [hfile, g0] at h0
  cases h0
  exact g1

/-- **C130** (buffer width) A run whose buffer width is not a number does not start. -/
theorem C130_bad_width (v : List Char) (hv : f.Sets "inputValues".toList "upwind_length".toList v)
    (hbad : v = [] ∨ NotNumber v) : ∃ e, startSettings files (some name) verbose st = .error e := by
  refine error_of_not_ok fun s h => ?_
  obtain ⟨st', h0, -, ⟨q, hq⟩, -⟩ := start_ok hname h
  obtain ⟨st'', g0, g⟩ := start_get files name hname verbose st f hf hfile h
  rw [g0] at h0
  cases h0
  have hg := g "inputValues" "upwind_length" v hv
  have hn : readNumber v = none := by
    rcases hbad with rfl | hbad
    · decide
    · exact readNumber_of_not hbad
  simp [configUpwind, hg, bind, Except.bind, hn] at hq

/-- **C130** (log level) A run whose log level is not known to Python does not start. -/
theorem C130_bad_level (v : List Char) (hv : f.Sets "Logging".toList "loglevel".toList v) (hbad : v ∉ levelTexts) :
    ∃ e, startSettings files (some name) verbose st = .error e := by
  refine error_of_not_ok fun s h => ?_
  obtain ⟨st', h0, -, -, ⟨w, hw, hl⟩, -⟩ := start_ok hname h
  obtain ⟨st'', g0, g⟩ := start_get files name hname verbose st f hf hfile h
  rw [g0] at h0
  cases h0
  rw [g "Logging" "loglevel" v hv] at hl
  cases hl
  refine hbad ?_
  have : ∀ w ∈ logLevels, w.toList ∈ levelTexts := by decide
  simpa using this _ hw

/-- **C130** (verbose) Without `-v`, a run whose option `Verbose` is no truth value does not start. -/
theorem C130_bad_verbose (v : List Char) (hv : f.Sets "Logging".toList "verbose".toList v)
    (hbad : v.map Char.toLower ∉ truthTexts) : ∃ e, startSettings files (some name) false st = .error e := by
  refine error_of_not_ok fun s h => ?_
  obtain ⟨st', h0, -, -, -, hb, -⟩ := start_ok hname h
  obtain ⟨b, hb⟩ := hb rfl
  obtain ⟨st'', g0, g⟩ := start_get files name hname false st f hf hfile h
  rw [g0] at h0
  cases h0
  have hg := g "Logging" "verbose" v hv
  have key : ∀ w : List Char, String.ofList w ∈ ["1", "yes", "true", "on"] ∨
      String.ofList w ∈ ["0", "no", "false", "off"] → w ∈ truthTexts := by
    intro w hw
    have : ∀ t : String, t ∈ ["1", "yes", "true", "on"] ∨ t ∈ ["0", "no", "false", "off"] → t.toList ∈ truthTexts := by
      intro t ht
      simp only [List.mem_cons, List.not_mem_nil, or_false] at ht
      rcases ht with (rfl | rfl | rfl | rfl) | (rfl | rfl | rfl | rfl) <;> decide
    simpa using this _ hw
  simp only [configBool, hg, bind, Except.bind, String.toList_ofList] at hb
  split_ifs at hb with h1 h2
  · exact hbad (key _ (.inl h1))
  · exact hbad (key _ (.inr h2))

/-- **C130** (table) A run whose table does not exist, or is no table of roughness lengths and of shielding percentages,
does not go on. -/
theorem C130_bad_table (t : List Char) (ht : f.Sets "inputValues".toList "terrain_table".toList t)
    (hbad : files (String.ofList t) = none ∨ ∃ tab : FileText, files (String.ofList t) = some tab.text ∧
      (∀ l ∈ tab.allLines, l.Ok) ∧
        (tab.Unusable "ROUGHNESS_LENGTH_m".toList ∨ tab.Unusable "SHIELDING".toList)) :
    ∃ e, startSettings files (some name) verbose st = .error e := by
  refine error_of_not_ok fun s h => ?_
  obtain ⟨st', h0, -, -, -, -, tn, text, h1, h2, ⟨t1, h3⟩, t2, h4⟩ := start_ok hname h
  obtain ⟨st'', g0, g⟩ := start_get files name hname verbose st f hf hfile h
  rw [g0] at h0
  cases h0
  rw [g "inputValues" "terrain_table" t ht] at h1
  cases h1
  rcases hbad with hb | ⟨tab, hb, hok, hu⟩
  · rw [hb] at h2; cases h2
  · rw [hb] at h2
    cases h2
    rcases hu with hu | hu
    · obtain ⟨e', he'⟩ := tableRows_unusable hok hu
      rw [terrainTableOf, he'] at h3
      cases h3
    · obtain ⟨e', he'⟩ := tableRows_unusable hok hu
      rw [shieldTableOf, he'] at h4
      cases h4

end

/-! ### Lines that are no lines of a configuration -/

theorem step_bad (st : IniSt) (line : List Char) (h : st.bad = true) : (st.step line).bad = true := by
  unfold IniSt.step
  dsimp only
  repeat' split
  all_goals first | exact h | rfl

theorem foldl_bad (lines : List (List Char)) (st : IniSt) (h : st.bad = true) :
    (lines.foldl IniSt.step st).bad = true := by
  induction lines generalizing st with
  | nil => exact h
  | cons l ls ih => exact ih _ (step_bad st l h)

theorem dropWhile_none {p : Char → Bool} {s : List Char} (h : ∀ c ∈ s, p c = true) : s.dropWhile p = [] := by
  induction s with
  | nil => rfl
  | cons c s ih =>
    rw [List.dropWhile_cons_of_pos (h c (by simp))]
    exact ih fun x hx => h x (by simp [hx])

/-- A meaningless line is found, whatever comes before. -/
theorem step_meaningless (st : IniSt) (line : List Char) (h : Meaningless line) : (st.step line).bad = true := by
  obtain ⟨c, t, rfl, hc, h1, h2⟩ := h
  have hw : (c :: t).takeWhile Char.isWhitespace = [] := by simp [hc]
  have hl : lstrip (c :: t) = c :: t := by simp [lstrip, hc]
  have hmem : ∀ x ∈ pyStrip (c :: t), x ∈ c :: t := by
    intro x hx
    rw [pyStrip, hl, rstrip, List.mem_reverse] at hx
    exact List.mem_reverse.1 ((List.dropWhile_sublist _).mem hx)
  have hhead : ∃ t', pyStrip (c :: t) = c :: t' := by
    have hp : pyStrip (c :: t) <+: c :: t := by
      rw [pyStrip, hl, rstrip, ← List.reverse_suffix, List.reverse_reverse]
      exact List.dropWhile_suffix _
    have hne : pyStrip (c :: t) ≠ [] := by
      rw [pyStrip, hl, rstrip, Ne, List.reverse_eq_nil_iff]
      intro hd
      rcases dropWhile_chars (p := Char.isWhitespace) (s := (c :: t).reverse) (c := c) (by simp) with h | h
      · rw [hc] at h; cases h
      · rw [hd] at h; cases h
    cases hs : pyStrip (c :: t) with
    | nil => exact absurd hs hne
    | cons x t' =>
      rw [hs] at hp
      obtain ⟨r, hr⟩ := hp
      simp only [List.cons_append, List.cons.injEq] at hr
      exact ⟨t', by rw [hr.1]⟩
  obtain ⟨t', ht⟩ := hhead
  have h1' : ¬ (c = '#' ∨ c = ';') := by
    rintro (rfl | rfl)
    · exact h1.1 rfl
    · exact h1.2.1 rfl
  have hsec : sectionName (c :: t') = none := by
    unfold sectionName
    split
    · next heq => exact absurd (List.cons.inj heq).1 h1.2.2
    · rfl
  unfold IniSt.step
  dsimp only
  rw [ht]
  simp only [h1', if_false, hw, List.length_nil, Nat.not_lt_zero, and_false, hsec]
  rcases h2 with h2 | h2
  · have hsp : splitOption (c :: t') = none := by
      unfold splitOption
      rw [dropWhile_none]
      intro x hx
      have := h2 x (hmem x (by rw [ht]; exact hx))
      simp [this.1, this.2]
    rw [hsp]
    split <;> rfl
  · have hsp : splitOption (c :: t') = some ([], t') := by
      unfold splitOption
      rcases h2 with rfl | rfl <;> simp
    rw [hsp]
    split
    · rfl
    · rfl

/-- **C130** (meaningless line) A run whose configuration has, wherever, a line at the margin that is neither a comment
nor a header nor an option does not start. -/
theorem C130_meaningless_line (files : String → Option (List Char)) (name : String) (hname : name ≠ "") (verbose : Bool)
    (st : CfgState) (lines : List (List Char)) (hl : ∀ l ∈ lines, '\n' ∉ l)
    (hfile : files name = some (['\n'].intercalate lines)) (line : List Char) (hmem : line ∈ lines)
    (hbad : Meaningless line) : ∃ e, startSettings files (some name) verbose st = .error e := by
  refine error_of_not_ok fun s h => ?_
  obtain ⟨st', h0, -⟩ := start_ok hname h
  have hne : lines ≠ [] := List.ne_nil_of_mem hmem
  have hb : ((lines.foldl IniSt.step ⟨[], none, false, 0, false⟩)).bad = true := by
    obtain ⟨a, b, rfl⟩ := List.append_of_mem hmem
    rw [List.foldl_append, List.foldl_cons]
    exact foldl_bad _ _ (step_meaningless _ _ hbad)
  rw [hfile, setConfigText, iniLines, List.splitOn_intercalate '\n' hl hne] at h0
  simp only [hb, if_true] at h0
  cases h0

/-! ### Examples -/

/-- A configuration with several faults: the buffer width has a unit, the level of the log is written in small letters,
and there is no output folder. -/
def faultyConf : IniFile :=
  ⟨[], [⟨"inputValues".toList, [], [.option "root".toList [' '] false [' '] "/data".toList [],
      .option "upwind_length".toList [' '] false [' '] "0.01 deg".toList [],
      .option "terrain_table".toList [' '] false [' '] "table.csv".toList []]⟩,
    ⟨"Logging".toList, [], [.option "LogLevel".toList [' '] false [' '] "debug".toList [],
      .option "Verbose".toList [' '] false [' '] "maybe".toList []]⟩]⟩

theorem faultyConf_ok : faultyConf.Ok := ok_of_simple rfl (by decide) (by decide) (by decide)

/-- A table with the percentages written as such. -/
def percentTable : FileText :=
  ⟨[(.record [.plain "CATEGORY".toList, .plain "ROUGHNESS_LENGTH_m".toList, .plain "SHIELDING".toList] none, false),
    (.record [.plain "1".toList, .plain "2.0".toList, .plain "85%".toList] none, false)], none⟩

/-- The files. -/
def faultyFiles (n : String) : Option (List Char) :=
  if n = "run.cfg" then some faultyConf.text else if n = "table.csv" then some percentTable.text else none

/-- Each of the faults alone would stop the run. -/
example (st : CfgState) : ∃ e, startSettings faultyFiles (some "run.cfg") true st = .error e :=
  C130_bad_width faultyFiles "run.cfg" (by decide) true st faultyConf faultyConf_ok rfl "0.01 deg".toList
    (by unfold IniFile.Sets; decide +kernel) (.inr (by unfold NotNumber; decide +kernel))

example (st : CfgState) : ∃ e, startSettings faultyFiles (some "run.cfg") true st = .error e :=
  C130_bad_level faultyFiles "run.cfg" (by decide) true st faultyConf faultyConf_ok rfl "debug".toList
    (by unfold IniFile.Sets; decide +kernel) (by decide +kernel)

example (st : CfgState) : ∃ e, startSettings faultyFiles (some "run.cfg") false st = .error e :=
  C130_bad_verbose faultyFiles "run.cfg" (by decide) st faultyConf faultyConf_ok rfl "maybe".toList
    (by unfold IniFile.Sets; decide +kernel) (by decide +kernel)

example : ∃ e, startSettings faultyFiles (some "run.cfg") true ⟨fun _ _ => none, false⟩ = .error e :=
  C130_missing_option faultyFiles "run.cfg" (by decide) true _ faultyConf faultyConf_ok rfl ("Output", "output_dir")
    (by decide) (by
      rintro v ⟨sec, hsec, hn, -⟩
      have : ∀ sec ∈ faultyConf.sections, sec.name ≠ "Output".toList := by decide
      exact this sec hsec hn) rfl

example (st : CfgState) : ∃ e, startSettings faultyFiles (some "run.cfg") true st = .error e :=
  C130_bad_table faultyFiles "run.cfg" (by decide) true st faultyConf faultyConf_ok rfl "table.csv".toList
    (by unfold IniFile.Sets; decide +kernel) (.inr ⟨percentTable, rfl, by
      intro l hl
      simp only [percentTable, FileText.allLines, List.map_cons, List.map_nil, Option.toList_none, List.append_nil,
        List.mem_cons, List.not_mem_nil, or_false] at hl
      rcases hl with rfl | rfl <;> simp [LineText.Ok, FieldText.Ok, FieldText.text], .inr (.inr (.inr (.inr
        ⟨_, _, 2, rfl, ⟨rfl, by decide⟩, _, List.mem_singleton_self _, "85%".toList, rfl,
          by unfold NotNumber; decide +kernel, by decide +kernel⟩)))⟩)

example (st : CfgState) : ∃ e, startSettings (fun n => if n = "run.cfg" then
    some "[inputValues]\nroot = /data\nupwind_length 0.01".toList else none) (some "run.cfg") true st = .error e :=
  C130_meaningless_line _ "run.cfg" (by decide) true st
    ["[inputValues]".toList, "root = /data".toList, "upwind_length 0.01".toList] (by decide) (by decide) _
    (List.mem_cons_of_mem _ (List.mem_cons_of_mem _ (List.mem_singleton_self _)))
    ⟨'u', "pwind_length 0.01".toList, rfl, by decide, by decide, .inl (by decide)⟩

end WindMult
