import Verif.Model.ConfigText
import Verif.Spec.ConfigText
import Verif.Props.Utilities
import Verif.Proofs.Numerals

/-!
# C123: configuration files are read as written
-/

set_option autoImplicit false

namespace WindMult

/-! ### Stripping -/

theorem ws_of_blanks {s : List Char} (h : Blanks s) : ∀ c ∈ s, c.isWhitespace = true := by
  intro c hc
  rcases h c hc with rfl | rfl | rfl <;> decide

theorem dropWhile_all {p : Char → Bool} {a s : List Char} (ha : ∀ c ∈ a, p c = true)
    (hs : ∀ c ∈ s.head?, p c = false) : (a ++ s).dropWhile p = s := by
  induction a with
  | nil =>
    cases s with
    | nil => rfl
    | cons c s => simp [hs c rfl]
  | cons c a ih => simp [ha c (by simp), ih fun x hx => ha x (by simp [hx])]

theorem rstrip_append {a s : List Char} (ha : ∀ c ∈ a, c.isWhitespace = true)
    (hs : ∀ c ∈ s.getLast?, c.isWhitespace = false) : rstrip (s ++ a) = s := by
  rw [rstrip, List.reverse_append, dropWhile_all (by simpa using ha) (by simpa using hs), List.reverse_reverse]

theorem rstrip_self {s : List Char} (hs : ∀ c ∈ s.getLast?, c.isWhitespace = false) : rstrip s = s := by
  simpa using rstrip_append (a := []) (by simp) hs

theorem lstrip_append {a s : List Char} (ha : ∀ c ∈ a, c.isWhitespace = true)
    (hs : ∀ c ∈ s.head?, c.isWhitespace = false) : lstrip (a ++ s) = s := dropWhile_all ha hs

theorem pyStrip_append {a s b : List Char} (ha : ∀ c ∈ a, c.isWhitespace = true)
    (hb : ∀ c ∈ b, c.isWhitespace = true) (h1 : ∀ c ∈ s.head?, c.isWhitespace = false)
    (h2 : ∀ c ∈ s.getLast?, c.isWhitespace = false) : pyStrip (a ++ s ++ b) = s := by
  cases s with
  | nil =>
    have : ∀ c ∈ a ++ [] ++ b, c.isWhitespace = true := by
      intro c hc
      simp only [List.append_nil, List.mem_append] at hc
      exact hc.elim (ha c) (hb c)
    have h := lstrip_append (s := []) this (by simp)
    rw [List.append_nil] at h
    rw [pyStrip, h]; rfl
  | cons x s =>
    rw [pyStrip, List.append_assoc, lstrip_append ha (by simpa using h1), rstrip_append hb h2]

/-! ### Lines -/

/-- What has been read so far. -/
def IniSt.Inv (toks : List CfgLine) (st : IniSt) : Prop :=
  st.indent = 0 ∧ st.bad = false ∧
    ((st.opt = none ∧ st.out.reverse = toks) ∨
      ∃ (k v : List Char) (n : ℕ), st.opt = some (k, List.replicate n [] ++ [v]) ∧
        (∀ c ∈ v.getLast?, c.isWhitespace = false) ∧
        (CfgLine.entry (String.ofList k) (String.ofList v) :: st.out).reverse = toks)

theorem intercalate_empty (v : List Char) (n : ℕ) :
    ['\n'].intercalate (List.replicate n [] ++ [v]).reverse = v ++ List.replicate n '\n' := by
  rw [List.reverse_append, List.reverse_singleton, List.reverse_replicate]
  induction n generalizing v with
  | zero => simp [List.intercalate]
  | succ n ih =>
    have : ['\n'].intercalate ([v] ++ List.replicate (n + 1) [])
        = v ++ ['\n'] ++ ['\n'].intercalate ([[]] ++ List.replicate n []) := by
      simp [List.intercalate, List.replicate_succ]
    rw [this, ih]
    simp [List.replicate_succ]

theorem IniSt.Inv.flush {toks : List CfgLine} {st : IniSt} (h : st.Inv toks) : st.flush.reverse = toks := by
  obtain ⟨-, -, ⟨h1, h2⟩ | ⟨k, v, n, h1, h2, h3⟩⟩ := h
  · rw [IniSt.flush, h1]; exact h2
  · rw [IniSt.flush, h1]
    simp only [intercalate_empty]
    rw [rstrip_append (by intro c hc; rw [List.eq_of_mem_replicate hc]; decide) h2]
    exact h3

theorem step_skip {toks : List CfgLine} {st : IniSt} (h : st.Inv toks) {s : List Char} (hs : IsSkip s) :
    (st.step s).Inv toks ∧ (st.step s).sect = st.sect := by
  rcases hs with hs | ⟨a, c, t, ha, hc, rfl, -⟩
  · have hstrip : pyStrip s = [] := by
      simpa using pyStrip_append (s := []) (b := []) (ws_of_blanks hs) (by simp) (by simp) (by simp)
    rw [IniSt.step, hstrip]
    refine ⟨?_, rfl⟩
    obtain ⟨h0, h1, ⟨h2, h3⟩ | ⟨k, v, n, h2, h3, h4⟩⟩ := h
    · exact ⟨h0, h1, .inl ⟨by simp [h2], h3⟩⟩
    · refine ⟨h0, h1, .inr ⟨k, v, n + 1, ?_, h3, h4⟩⟩
      simp [h2, List.replicate_succ]
  · have hw : c.isWhitespace = false := by rcases hc with rfl | rfl <;> decide
    have hstrip : ∃ r, pyStrip (a ++ c :: t) = c :: r := by
      rw [pyStrip, lstrip_append (ws_of_blanks ha) (by simpa using hw)]
      have : ∃ r, rstrip (c :: t) = c :: r := by
        rw [rstrip, List.reverse_cons]
        have : ∀ l : List Char, ∃ r, (l ++ [c]).dropWhile Char.isWhitespace = r ++ [c] := by
          intro l
          induction l with
          | nil => exact ⟨[], by simp [hw]⟩
          | cons x l ih =>
            by_cases hx : x.isWhitespace
            · simpa [hx] using ih
            · exact ⟨x :: l, by simp [hx]⟩
        obtain ⟨r, hr⟩ := this t.reverse
        exact ⟨r.reverse, by rw [hr]; simp⟩
      exact this
    obtain ⟨r, hr⟩ := hstrip
    have : st.step (a ++ c :: t) = st := by
      rw [IniSt.step, hr]
      simp [hc]
    rw [this]
    exact ⟨h, rfl⟩

theorem sectionName_header (name : List Char) (hn : name ≠ []) :
    sectionName ('[' :: (name ++ [']'])) = some name := by
  rw [sectionName]
  obtain ⟨x, y, hxy⟩ : ∃ x y, name.reverse = x :: y := by
    cases h : name.reverse with
    | nil => simp at h; exact absurd h hn
    | cons x y => exact ⟨x, y, rfl⟩
  have : (name ++ [']']).reverse.dropWhile (fun c => c != ']') = ']' :: x :: y := by
    rw [List.reverse_append, hxy]
    simp
  rw [this]
  simp only [Option.some.injEq]
  rw [← hxy, List.reverse_reverse]

theorem step_header {toks : List CfgLine} {st : IniSt} (h : st.Inv toks) {name trail : List Char} (hn : name ≠ [])
    (ht : Blanks trail) : (st.step (('[' :: name) ++ ']' :: trail)).Inv (toks ++ [.header (String.ofList name)]) ∧
      (st.step (('[' :: name) ++ ']' :: trail)).sect = true := by
  have hstrip : pyStrip (('[' :: name) ++ ']' :: trail) = '[' :: (name ++ [']']) := by
    have := pyStrip_append (a := []) (s := '[' :: (name ++ [']'])) (b := trail) (by simp) (ws_of_blanks ht)
      (by simp [Char.isWhitespace]) (by
        intro c hc
        rw [← List.cons_append, List.getLast?_append_of_ne_nil _ (by simp)] at hc
        simp only [List.getLast?_singleton, Option.mem_def, Option.some.injEq] at hc
        subst hc; decide)
    simpa using this
  have htake : (('[' :: name) ++ ']' :: trail).takeWhile Char.isWhitespace = [] := by
    simp [Char.isWhitespace]
  have : st.step (('[' :: name) ++ ']' :: trail)
      = ⟨.header (String.ofList name) :: st.flush, none, true, 0, st.bad⟩ := by
    rw [IniSt.step, hstrip]
    simp only [htake, List.length_nil, h.1, lt_self_iff_false, and_false, if_false, sectionName_header name hn]
    simp
  rw [this]
  refine ⟨⟨rfl, h.2.1, .inl ⟨rfl, ?_⟩⟩, rfl⟩
  simp [h.flush]

theorem splitOption_first {k w : List Char} {d : Char} (hk : ∀ c ∈ k, c ≠ '=' ∧ c ≠ ':') (hd : d = '=' ∨ d = ':') :
    splitOption (k ++ d :: w) = some (k, w) := by
  have h1 : (k ++ d :: w).dropWhile (fun c => c != '=' && c != ':') = d :: w :=
    dropWhile_all (fun c hc => by simp [hk c hc]) (by rcases hd with rfl | rfl <;> simp)
  have h2 : (k ++ d :: w).takeWhile (fun c => c != '=' && c != ':') = k := by
    clear h1
    induction k with
    | nil => rcases hd with rfl | rfl <;> simp
    | cons c k ih => simp [hk c (by simp), ih fun x hx => hk x (by simp [hx])]
  rw [splitOption, h1, h2]

theorem step_option_eq {st : IniSt} {line r k w : List Char} {c : Char} (hstrip : pyStrip line = c :: r)
    (h1 : c ≠ '#') (h2 : c ≠ ';') (htake : line.takeWhile Char.isWhitespace = []) (hi : st.indent = 0)
    (hsn : sectionName (c :: r) = none) (hsect : st.sect = true) (hsplit : splitOption (c :: r) = some (k, w))
    (hk : rstrip k ≠ []) :
    st.step line = ⟨st.flush, some ((rstrip k).map Char.toLower, [pyStrip w]), true, 0, st.bad⟩ := by
  rw [IniSt.step, hstrip]
  simp [htake, hi, hsn, hsect, hsplit, hk, h1, h2]

theorem step_option {toks : List CfgLine} {st : IniSt} (h : st.Inv toks) (hsect : st.sect = true)
    {name sp sp' value trail : List Char} {colon : Bool}
    (hok : (IniItem.option name sp colon sp' value trail).Ok) :
    (st.step (IniItem.option name sp colon sp' value trail).line).Inv
        (toks ++ [.entry (String.ofList (name.map Char.toLower)) (String.ofList value)]) ∧
      (st.step (IniItem.option name sp colon sp' value trail).line).sect = true := by
  obtain ⟨hne, ⟨hn1, hn2, hn3⟩, hdel, hlook, hsp, hsp', ⟨hv1, hv2, hv3⟩, htr⟩ := hok
  rw [IniItem.line]
  set d : Char := if colon then ':' else '=' with hd
  have hd' : d = '=' ∨ d = ':' := by rw [hd]; cases colon <;> simp
  have hdw : d.isWhitespace = false := by rcases hd' with h | h <;> rw [h] <;> decide
  obtain ⟨c, name', rfl⟩ := List.exists_cons_of_ne_nil hne
  -- the line without white space at its end
  obtain ⟨w, hw1, hw2⟩ : ∃ w, pyStrip (c :: name' ++ sp ++ d :: (sp' ++ value ++ trail)) = c :: name' ++ sp ++ d :: w ∧
      pyStrip w = value := by
    cases value with
    | nil =>
      refine ⟨[], ?_, rfl⟩
      have hb : ∀ x ∈ sp' ++ trail, x.isWhitespace = true := by
        intro x hx
        rcases List.mem_append.1 hx with h | h
        · exact ws_of_blanks hsp' x h
        · exact ws_of_blanks htr x h
      have := pyStrip_append (a := []) (s := c :: name' ++ sp ++ [d]) (b := sp' ++ trail) (by simp) hb
        (by simpa using hn2) (by
          intro x hx
          rw [List.getLast?_append_of_ne_nil _ (by simp)] at hx
          simp only [List.getLast?_singleton, Option.mem_def, Option.some.injEq] at hx
          subst hx; exact hdw)
      simpa using this
    | cons x value =>
      refine ⟨sp' ++ x :: value, ?_, ?_⟩
      · have := pyStrip_append (a := []) (s := c :: name' ++ sp ++ d :: (sp' ++ x :: value)) (b := trail) (by simp)
          (ws_of_blanks htr) (by simpa using hn2) (by
            have e : c :: name' ++ sp ++ d :: (sp' ++ x :: value) = (c :: name' ++ sp ++ d :: sp') ++ (x :: value) := by
              simp
            rw [e, List.getLast?_append_of_ne_nil _ (by simp)]
            exact hv3)
        simpa using this
      · simpa using pyStrip_append (a := sp') (s := x :: value) (b := []) (ws_of_blanks hsp') (by simp) hv2 hv3
  have hcw : c.isWhitespace = false := hn2 c (by simp)
  obtain ⟨hl1, hl2, hl3⟩ := hlook c (by simp)
  have htake : (c :: name' ++ sp ++ d :: (sp' ++ value ++ trail)).takeWhile Char.isWhitespace = [] := by
    simp [hcw]
  have hsn : sectionName (c :: name' ++ sp ++ d :: w) = none := by
    rw [List.cons_append, List.cons_append]
    unfold sectionName
    split
    · rename_i h; exact absurd (List.cons.inj h).1 hl3
    · rfl
  have hsplit : splitOption (c :: name' ++ sp ++ d :: w) = some (c :: name' ++ sp, w) := by
    refine splitOption_first (fun x hx => ?_) hd'
    rcases List.mem_append.1 hx with h | h
    · exact hdel x h
    · rcases hsp x h with rfl | rfl | rfl <;> decide
  have hk : rstrip (c :: name' ++ sp) = c :: name' := rstrip_append (ws_of_blanks hsp) hn3
  have : st.step (c :: name' ++ sp ++ d :: (sp' ++ value ++ trail))
      = ⟨st.flush, some ((c :: name').map Char.toLower, [value]), true, 0, st.bad⟩ := by
    have := step_option_eq (st := st) (r := name' ++ sp ++ d :: w) (by simpa using hw1) hl1 hl2 htake h.1
      (by simpa using hsn) hsect (by simpa using hsplit) (by simpa [hk] using hk ▸ List.cons_ne_nil c name')
    rw [this, hw2]
    simp only [← List.cons_append, hk]
  rw [this]
  refine ⟨⟨rfl, h.2.1, .inr ⟨_, value, 0, rfl, hv3, ?_⟩⟩, rfl⟩
  simp [h.flush]

/-! ### Files -/

/-- The lines that a section stands for. -/
def IniSection.tokens (s : IniSection) : List CfgLine :=
  .header (String.ofList s.name) :: s.options.map fun o => .entry (String.ofList o.1) (String.ofList o.2)

theorem fold_body : ∀ (body : List IniItem), (∀ i ∈ body, i.Ok) → ∀ (toks : List CfgLine) (st : IniSt),
    st.Inv toks → st.sect = true →
    ((body.map IniItem.line).foldl IniSt.step st).Inv (toks ++ (IniSection.options ⟨[], [], body⟩).map fun o =>
        .entry (String.ofList o.1) (String.ofList o.2)) ∧
      ((body.map IniItem.line).foldl IniSt.step st).sect = true := by
  intro body
  induction body with
  | nil => intro _ toks st h hs; simpa [IniSection.options] using ⟨h, hs⟩
  | cons i body ih =>
    intro hb toks st h hs
    have hi := hb i (by simp)
    have hb' : ∀ x ∈ body, x.Ok := fun x hx => hb x (by simp [hx])
    rw [List.map_cons, List.foldl_cons]
    cases i with
    | skip s =>
      obtain ⟨h1, h2⟩ := step_skip h hi
      simpa [IniSection.options, IniItem.line] using ih hb' toks _ h1 (h2.trans hs)
    | option name sp colon sp' value trail =>
      obtain ⟨h1, h2⟩ := step_option h hs hi
      have := ih hb' _ _ h1 h2
      simpa [IniSection.options] using this

theorem fold_sections : ∀ (secs : List IniSection), (∀ s ∈ secs, s.Ok) → ∀ (toks : List CfgLine) (st : IniSt),
    st.Inv toks → ((secs.flatMap IniSection.lines).foldl IniSt.step st).Inv (toks ++ secs.flatMap IniSection.tokens) := by
  intro secs
  induction secs with
  | nil => intro _ toks st h; simpa using h
  | cons s secs ih =>
    intro hs toks st h
    obtain ⟨hn, -, -, -, ht, hb⟩ := hs s (by simp)
    rw [List.flatMap_cons (f := IniSection.lines), List.foldl_append, IniSection.lines, List.foldl_cons]
    obtain ⟨h1, h2⟩ := step_header h hn ht
    have h3 := (fold_body s.body hb _ _ h1 h2).1
    have h4 := ih (fun x hx => hs x (by simp [hx])) _ _ h3
    have e : toks ++ (s :: secs).flatMap IniSection.tokens = toks ++ [CfgLine.header (String.ofList s.name)] ++
        (List.map (fun o : List Char × List Char => CfgLine.entry (String.ofList o.1) (String.ofList o.2))
          (IniSection.options ⟨[], [], s.body⟩)) ++ secs.flatMap IniSection.tokens := by
      simp [IniSection.tokens, IniSection.options]
    rw [e]
    exact h4

theorem fold_skips : ∀ (ls : List (List Char)), (∀ s ∈ ls, IsSkip s) → ∀ (toks : List CfgLine) (st : IniSt),
    st.Inv toks → (ls.foldl IniSt.step st).Inv toks := by
  intro ls
  induction ls with
  | nil => intro _ toks st h; exact h
  | cons s ls ih =>
    intro hs toks st h
    exact ih (fun x hx => hs x (by simp [hx])) toks _ (step_skip h (hs s (by simp))).1

theorem newline_blanks {s : List Char} (h : Blanks s) : '\n' ∉ s := by
  intro hm
  rcases h _ hm with h | h | h <;> exact absurd h (by decide)

theorem newline_skip {s : List Char} (h : IsSkip s) : '\n' ∉ s := by
  rcases h with h | ⟨a, c, t, ha, hc, rfl, ht⟩
  · exact newline_blanks h
  · simp only [List.mem_append, List.mem_cons, not_or]
    refine ⟨newline_blanks ha, ?_, ht⟩
    rcases hc with rfl | rfl <;> decide

theorem newline_item {i : IniItem} (h : i.Ok) : '\n' ∉ i.line := by
  cases i with
  | skip s => exact newline_skip h
  | option name sp colon sp' value trail =>
    obtain ⟨-, hn, -, -, hsp, hsp', hv, ht⟩ := h
    simp only [IniItem.line, List.mem_append, List.mem_cons, not_or]
    refine ⟨⟨hn.1, newline_blanks hsp⟩, ?_, ⟨newline_blanks hsp', hv.1⟩, newline_blanks ht⟩
    cases colon <;> decide

/-- The lines that are read are those that were written. -/
theorem iniLines_text (f : IniFile) (hf : f.Ok) : iniLines f.text = .ok (f.sections.flatMap IniSection.tokens) := by
  obtain ⟨hb, hs, -, -⟩ := hf
  have h0 : IniSt.Inv [] ⟨[], none, false, 0, false⟩ := ⟨rfl, rfl, .inl ⟨rfl, rfl⟩⟩
  have key : ((f.text.splitOn '\n').foldl IniSt.step ⟨[], none, false, 0, false⟩).Inv
      (f.sections.flatMap IniSection.tokens) := by
    by_cases hnil : f.before ++ f.sections.flatMap IniSection.lines = []
    · have h1 : f.sections = [] := by
        cases hsec : f.sections with
        | nil => rfl
        | cons s secs => simp [hsec, IniSection.lines] at hnil
      rw [IniFile.text, hnil, h1]
      exact (step_skip (s := []) h0 (.inl (by intro c hc; simp at hc))).1
    · rw [IniFile.text, List.splitOn_intercalate '\n' ?_ hnil, List.foldl_append]
      · have h1 := fold_skips f.before hb [] _ h0
        simpa using fold_sections f.sections hs _ _ h1
      · intro l hl
        rcases List.mem_append.1 hl with h | h
        · exact newline_skip (hb l h)
        · obtain ⟨s, hsec, hl⟩ := List.mem_flatMap.1 h
          obtain ⟨-, hn, -, -, ht, hbody⟩ := hs s hsec
          rcases List.mem_cons.1 hl with rfl | hl
          · have := newline_blanks ht
            simp [hn, this]
          · obtain ⟨i, hi, rfl⟩ := List.mem_map.1 hl
            exact newline_item (hbody i hi)
  simp only [iniLines, key.2.1, Bool.false_eq_true, if_false, key.flush]

/-! ### Storing -/

theorem cfgRead_entries (sec : String) (rest : List CfgLine) (secs : List String) :
    ∀ (os : List (List Char × List Char)), (os.map Prod.fst).Nodup → ∀ (opts : List (String × String)) (c : Cfg),
    (∀ o ∈ os, (sec, String.ofList o.1) ∉ opts) →
    ∃ (opts' : List (String × String)) (c' : Cfg), (∀ p ∈ opts', p ∈ opts ∨ p.1 = sec) ∧
      cfgRead (os.map (fun o => CfgLine.entry (String.ofList o.1) (String.ofList o.2)) ++ rest) (some sec) secs opts c
        = cfgRead rest (some sec) secs opts' c' := by
  intro os
  induction os with
  | nil => intro _ opts c _; exact ⟨opts, c, fun p hp => .inl hp, rfl⟩
  | cons o os ih =>
    intro hnd opts c hno
    rw [List.map_cons, List.nodup_cons] at hnd
    rw [List.map_cons, List.cons_append, cfgRead, if_neg (hno o (by simp))]
    obtain ⟨opts', c', h1, h2⟩ := ih hnd.2 ((sec, String.ofList o.1) :: opts) _ (by
      intro x hx hm
      rcases List.mem_cons.1 hm with h | h
      · have : x.1 = o.1 := String.ofList_injective (Prod.mk.inj h).2
        exact hnd.1 (List.mem_map.2 ⟨x, hx, this⟩)
      · exact hno x (List.mem_cons_of_mem _ hx) h)
    refine ⟨opts', c', fun p hp => ?_, h2⟩
    rcases h1 p hp with h | h
    · rcases List.mem_cons.1 h with rfl | h
      · exact .inr rfl
      · exact .inl h
    · exact .inr h

theorem cfgRead_sections : ∀ (secs : List IniSection), (secs.map IniSection.name).Nodup →
    (∀ s ∈ secs, (s.options.map Prod.fst).Nodup) → ∀ (cur : Option String) (seen : List String)
      (opts : List (String × String)) (c : Cfg), (∀ s ∈ secs, String.ofList s.name ∉ seen) →
      (∀ p ∈ opts, p.1 ∈ seen) → ∃ c', cfgRead (secs.flatMap IniSection.tokens) cur seen opts c = .ok c' := by
  intro secs
  induction secs with
  | nil => intro _ _ cur seen opts c _ _; exact ⟨c, rfl⟩
  | cons s secs ih =>
    intro hnd hopt cur seen opts c hseen hopts
    rw [List.map_cons, List.nodup_cons] at hnd
    rw [List.flatMap_cons, IniSection.tokens, List.cons_append, cfgRead, if_neg (hseen s (by simp))]
    obtain ⟨opts', c', h1, h2⟩ := cfgRead_entries (String.ofList s.name) (secs.flatMap IniSection.tokens)
      (String.ofList s.name :: seen) s.options (hopt s (by simp)) opts c (fun o _ hm =>
        hseen s (by simp) (hopts _ hm))
    rw [h2]
    refine ih hnd.2 (fun x hx => hopt x (by simp [hx])) _ _ _ _ ?_ ?_
    · intro x hx hm
      rcases List.mem_cons.1 hm with h | h
      · exact hnd.1 (List.mem_map.2 ⟨x, hx, String.ofList_injective h⟩)
      · exact hseen x (by simp [hx]) h
    · intro p hp
      rcases h1 p hp with h | h
      · exact List.mem_cons_of_mem _ (hopts p h)
      · rw [h]; exact List.mem_cons_self

theorem definesFrom_sections (s k v : List Char) : ∀ (secs : List IniSection) (cur : Option String),
    DefinesFrom cur (secs.flatMap IniSection.tokens) (String.ofList s) (String.ofList k) (String.ofList v) ↔
      ∃ sec ∈ secs, sec.name = s ∧ (k, v) ∈ sec.options := by
  have entries : ∀ (name : List Char) (rest : List CfgLine) (os : List (List Char × List Char)),
      DefinesFrom (some (String.ofList name))
          (os.map (fun o => CfgLine.entry (String.ofList o.1) (String.ofList o.2)) ++ rest)
          (String.ofList s) (String.ofList k) (String.ofList v) ↔
        (name = s ∧ (k, v) ∈ os) ∨
          DefinesFrom (some (String.ofList name)) rest (String.ofList s) (String.ofList k) (String.ofList v) := by
    intro name rest os
    induction os with
    | nil => simp
    | cons o os ih =>
      rw [List.map_cons, List.cons_append, definesFrom_entry, ih, List.mem_cons]
      have e : (String.ofList s = String.ofList name ∧ String.ofList k = String.ofList o.1 ∧
          String.ofList v = String.ofList o.2) ↔ (name = s ∧ (k, v) = o) := by
        constructor
        · rintro ⟨h1, h2, h3⟩
          exact ⟨(String.ofList_injective h1).symm, Prod.ext (String.ofList_injective h2)
            (String.ofList_injective h3)⟩
        · rintro ⟨rfl, rfl⟩
          exact ⟨rfl, rfl, rfl⟩
      tauto
  intro secs
  induction secs with
  | nil => intro cur; simpa using definesFrom_nil _ _ _ _
  | cons sec secs ih =>
    intro cur
    rw [List.flatMap_cons, IniSection.tokens, List.cons_append, definesFrom_header, entries, ih]
    simp

/-- **C123** A configuration file in any layout (comments, empty lines, white space around names and values, `=` or `:`,
capital letters in the names of options) can be read; then every option that it sets has the value that is written, and
every other option the value it had before. -/
theorem C123_read (f : IniFile) (hf : f.Ok) (st : CfgState) :
    ∃ st', setConfigText (some f.text) st = .ok st' ∧
      (∀ s k v, f.Sets s k v → st'.values (String.ofList s) (String.ofList k) = some (String.ofList v)) ∧
      ∀ s k, (∀ v, ¬ f.Sets s k v) →
        st'.values (String.ofList s) (String.ofList k) = st.values (String.ofList s) (String.ofList k) := by
  obtain ⟨c, hc⟩ := cfgRead_sections f.sections hf.2.2.1 hf.2.2.2 none [] [] st.values (by simp) (by simp)
  have h1 : cfgSetFile (some (f.sections.flatMap IniSection.tokens)) st = .ok ⟨c, true⟩ := by
    simp [cfgSetFile, cfgReadFile, hc]
  have hdef : ∀ s k v : List Char, Spec.Defines (f.sections.flatMap IniSection.tokens) (String.ofList s)
      (String.ofList k) (String.ofList v) ↔ f.Sets s k v := fun s k v => by
    rw [← definesFrom_none, definesFrom_sections]; rfl
  refine ⟨⟨c, true⟩, ?_, ?_, ?_⟩
  · rw [setConfigText, iniLines_text f hf]
    exact h1
  · intro s k v h
    exact (C59_override h1 _ _).1 _ ((hdef s k v).2 h)
  · intro s k h
    refine (C59_override h1 _ _).2 fun v hv => h v.toList ((hdef s k v.toList).1 ?_)
    rwa [String.ofList_toList]

/-- **C123** What the program gets for an option that the file sets, whatever was read before; the name may be
written with other capital letters. -/
theorem C123_get (f : IniFile) (hf : f.Ok) (st : CfgState) (sect opt : String) (v : List Char)
    (h : f.Sets sect.toList (opt.toList.map Char.toLower) v) :
    ∃ st', setConfigText (some f.text) st = .ok st' ∧ configGet st' sect opt = .ok (String.ofList v) := by
  obtain ⟨st', h1, h2, -⟩ := C123_read f hf st
  refine ⟨st', h1, ?_⟩
  have := h2 _ _ _ h
  rw [String.ofList_toList] at this
  simp only [configGet, this]

/-- **C123** The buffer width is the number in the file. -/
theorem C123_upwind (f : IniFile) (hf : f.Ok) (st : CfgState) (v : List Char) (q : ℚ)
    (h : f.Sets "inputValues".toList "upwind_length".toList v) (hv : IsNumber v q) :
    ∃ st', setConfigText (some f.text) st = .ok st' ∧ configUpwind st' = .ok q := by
  obtain ⟨st', h1, h2⟩ := C123_get f hf st "inputValues" "upwind_length" v (by
    have e : "upwind_length".toList.map Char.toLower = "upwind_length".toList := by decide
    rw [e]; exact h)
  refine ⟨st', h1, ?_⟩
  rw [configUpwind, h2]
  simp [bind, Except.bind, readNumber_of hv]

/-! ### The configuration in the repository -/

/-- `/repo/multiplier_conf.cfg`, piece by piece. -/
def shippedConf : IniFile where
  before := []
  sections := [
    ⟨"Preprocessing".toList, "".toList, [
      .option "settlement_data".toList " ".toList false " ".toList
        "/workspaces/Wind_multipliers/testing/input/SettlementTypes_20210413.shp".toList "".toList,
      .option "settlement_cat".toList " ".toList false " ".toList
        "SETTLEMENT".toList "".toList,
      .option "land_use_data".toList " ".toList false " ".toList
        "/workspaces/Wind_multipliers/testing/input/NEXIS_INPUT_MB2016_QLD.shp".toList "".toList,
      .option "land_use_cat".toList " ".toList false " ".toList
        "MB_CAT16".toList "".toList,
      .skip "#crop mask can be None".toList,
      .option "crop_mask".toList " ".toList false " ".toList
        "/workspaces/Wind_multipliers/testing/input/box_sub.shp".toList "   ".toList,
      .skip "# Mapping into topographic file".toList,
      .skip "# if True takes inputValues.dem_data, can be a filename too. ".toList,
      .option "input_topo".toList " ".toList false " ".toList
        "True".toList "".toList,
      .option "topo_crop".toList " ".toList false " ".toList
        "True".toList "".toList,
      .skip "".toList,
      .skip "".toList,
      .option "output_shapefile".toList " ".toList false " ".toList
        "/workspaces/Wind_multipliers/testing/intermediate/meshblobcks.shp".toList "".toList,
      .option "output_rasterized".toList " ".toList false " ".toList
        "/workspaces/Wind_multipliers/testing/intermediate/meshblobcks.tiff".toList "".toList,
      .skip "".toList]⟩,
    ⟨"inputValues".toList, "".toList, [
      .option "root".toList " ".toList false " ".toList
        "/short/w85/nfm547/Wind_multipliers".toList "".toList,
      .option "upwind_length".toList " ".toList false " ".toList
        "0.01".toList "".toList,
      .option "terrain_data".toList " ".toList false " ".toList
        "/short/w85/nfm547/Wind_multipliers/input/Cairns/cairns_tr_int.tif".toList "".toList,
      .option "terrain_table".toList " ".toList false " ".toList
        "/short/w85/nfm547/Wind_multipliers/input/Cairns/terrain_classification_cairns.csv".toList "".toList,
      .option "dem_data".toList " ".toList false " ".toList
        "/short/w85/nfm547/Wind_multipliers/input/Cairns/Cairns.tif".toList "".toList,
      .skip "".toList]⟩,
    ⟨"Output".toList, "".toList, [
      .option "output_dir".toList " ".toList false " ".toList
        "/short/w85/nfm547/Wind_multipliers/output/CairnsWM".toList "".toList,
      .skip "".toList]⟩,
    ⟨"Logging".toList, " ".toList, [
      .option "LogFile".toList " ".toList false " ".toList
        "/short/w85/nfm547/Wind_multipliers/Cairns/log/multipliers.log".toList "".toList,
      .option "LogLevel".toList " ".toList false " ".toList
        "DEBUG".toList " ".toList,
      .option "Verbose".toList " ".toList false " ".toList
        "False".toList " ".toList,
      .skip "".toList]⟩]

/-- The lines of `/repo/multiplier_conf.cfg`. -/
def shippedConfLines : List String := [
  "[Preprocessing]",
  "settlement_data = /workspaces/Wind_multipliers/testing/input/SettlementTypes_20210413.shp",
  "settlement_cat = SETTLEMENT",
  "land_use_data = /workspaces/Wind_multipliers/testing/input/NEXIS_INPUT_MB2016_QLD.shp",
  "land_use_cat = MB_CAT16",
  "#crop mask can be None",
  "crop_mask = /workspaces/Wind_multipliers/testing/input/box_sub.shp   ",
  "# Mapping into topographic file",
  "# if True takes inputValues.dem_data, can be a filename too. ",
  "input_topo = True",
  "topo_crop = True",
  "",
  "",
  "output_shapefile = /workspaces/Wind_multipliers/testing/intermediate/meshblobcks.shp",
  "output_rasterized = /workspaces/Wind_multipliers/testing/intermediate/meshblobcks.tiff",
  "",
  "[inputValues]",
  "root = /short/w85/nfm547/Wind_multipliers",
  "upwind_length = 0.01",
  "terrain_data = /short/w85/nfm547/Wind_multipliers/input/Cairns/cairns_tr_int.tif",
  "terrain_table = /short/w85/nfm547/Wind_multipliers/input/Cairns/terrain_classification_cairns.csv",
  "dem_data = /short/w85/nfm547/Wind_multipliers/input/Cairns/Cairns.tif",
  "",
  "[Output]",
  "output_dir = /short/w85/nfm547/Wind_multipliers/output/CairnsWM",
  "",
  "[Logging] ",
  "LogFile = /short/w85/nfm547/Wind_multipliers/Cairns/log/multipliers.log",
  "LogLevel = DEBUG ",
  "Verbose = False ",
  ""]

/-- The pieces make up the file. -/
theorem shippedConf_lines :
    shippedConf.before ++ shippedConf.sections.flatMap IniSection.lines = shippedConfLines.map String.toList := by
  decide +kernel

instance (s : List Char) : Decidable (Blanks s) := by unfold Blanks; infer_instance

instance (s : List Char) : Decidable (Trimmed s) := by unfold Trimmed; infer_instance

/-- Entries whose comments begin at the margin. -/
def IniItem.Simple : IniItem → Prop
  | .skip s => Blanks s ∨ ((s.head? = some '#' ∨ s.head? = some ';') ∧ '\n' ∉ s)
  | .option name sp _ sp' value trail => name ≠ [] ∧ Trimmed name ∧ (∀ c ∈ name, c ≠ '=' ∧ c ≠ ':') ∧
      (∀ c ∈ name.head?, c ≠ '#' ∧ c ≠ ';' ∧ c ≠ '[') ∧ Blanks sp ∧ Blanks sp' ∧ Trimmed value ∧ Blanks trail

instance (i : IniItem) : Decidable i.Simple := by cases i <;> unfold IniItem.Simple <;> infer_instance

theorem IniItem.Simple.ok {i : IniItem} (h : i.Simple) : i.Ok := by
  cases i with
  | option => exact h
  | skip s =>
    rcases h with h | ⟨h, hn⟩
    · exact .inl h
    · refine .inr ?_
      cases s with
      | nil => simp at h
      | cons c t =>
        refine ⟨[], c, t, by simp [Blanks], by simpa using h, rfl, fun hm => hn (List.mem_cons_of_mem _ hm)⟩

theorem ok_of_simple {f : IniFile} (h0 : f.before = []) (h1 : ∀ s ∈ f.sections, s.name ≠ [] ∧ '\n' ∉ s.name ∧
    ']' ∉ s.name ∧ s.name ≠ "DEFAULT".toList ∧ Blanks s.trail ∧ ∀ i ∈ s.body, i.Simple)
    (h2 : (f.sections.map IniSection.name).Nodup) (h3 : ∀ s ∈ f.sections, (s.options.map Prod.fst).Nodup) :
    f.Ok := by
  refine ⟨by simp [h0], fun s hs => ?_, h2, h3⟩
  obtain ⟨a, b, c, d, e', g⟩ := h1 s hs
  exact ⟨a, b, c, d, e', fun i hi => (g i hi).ok⟩

theorem shippedConf_ok : shippedConf.Ok :=
  ok_of_simple rfl (by decide +kernel) (by decide +kernel) (by decide +kernel)

/-- **C123** (the configuration of the repository) Whatever was read before, afterwards the buffer width is 0.01, and
blanks at the end of lines do not count. -/
theorem C123_shipped (st : CfgState) :
    ∃ st', setConfigText (some (['\n'].intercalate (shippedConfLines.map String.toList))) st = .ok st' ∧
      configUpwind st' = .ok (1 / 100) ∧ configGet st' "Logging" "LogLevel" = .ok "DEBUG" ∧
      configGet st' "Preprocessing" "crop_mask" = .ok "/workspaces/Wind_multipliers/testing/input/box_sub.shp" := by
  have ht : shippedConf.text = ['\n'].intercalate (shippedConfLines.map String.toList) := by
    rw [IniFile.text, shippedConf_lines]
  rw [← ht]
  obtain ⟨st', h1, h2⟩ := C123_upwind shippedConf shippedConf_ok st "0.01".toList (1 / 100)
    (by unfold IniFile.Sets; decide +kernel)
    ⟨⟨false, [0], some [0, 1], none⟩, .plain, 0, 0, by simp [Numeral.Ok], by decide +kernel, by decide⟩
  refine ⟨st', h1, h2, ?_, ?_⟩
  · obtain ⟨st'', h3, h4⟩ := C123_get shippedConf shippedConf_ok st "Logging" "LogLevel" "DEBUG".toList
      (by unfold IniFile.Sets; decide +kernel)
    cases h1.symm.trans h3
    rw [h4, String.ofList_toList]
  · obtain ⟨st'', h3, h4⟩ := C123_get shippedConf shippedConf_ok st "Preprocessing" "crop_mask"
      "/workspaces/Wind_multipliers/testing/input/box_sub.shp".toList (by unfold IniFile.Sets; decide +kernel)
    cases h1.symm.trans h3
    rw [h4, String.ofList_toList]

/-- Another layout: a comment with a semicolon, a colon, tabs, capital letters, a value with an equals sign, an empty
value. -/
def otherConf : IniFile where
  before := []
  sections := [⟨"inputValues".toList, "\t".toList, [.skip "; widths".toList, .skip " \r".toList,
    .option "Upwind_Length".toList " ".toList true "\t ".toList "1e-2".toList " ".toList,
    .option "note".toList [] false [] "a = b".toList [], .option "root".toList [] true [] [] []]⟩]

example (st : CfgState) : ∃ st', setConfigText (some otherConf.text) st = .ok st' ∧ configUpwind st' = .ok (1 / 100) :=
  C123_upwind otherConf (ok_of_simple rfl (by decide) (by decide) (by decide)) st "1e-2".toList (1 / 100)
    (by unfold IniFile.Sets; decide)
    ⟨⟨false, [1], none, some (true, [2])⟩, .plain, 0, 0, by simp [Numeral.Ok], by decide +kernel, by decide⟩

/-- A comment behind a value. -/
def inlineConf : IniFile where
  before := []
  sections := [⟨"inputValues".toList, [],
    [.option "upwind_length".toList " ".toList false " ".toList "0.01 # degrees".toList []]⟩]

/-- **C123** (limits) A comment behind a value belongs to the value; the buffer width is then no number. -/
theorem C123_inline_comment (st : CfgState) :
    ∃ st', setConfigText (some "[inputValues]\nupwind_length = 0.01 # degrees".toList) st = .ok st' ∧
      configUpwind st' = .error .valueError := by
  have ht : inlineConf.text = "[inputValues]\nupwind_length = 0.01 # degrees".toList := by decide
  rw [← ht]
  obtain ⟨st', h1, h2⟩ := C123_get inlineConf (ok_of_simple rfl (by decide) (by decide) (by decide)) st
    "inputValues" "upwind_length" "0.01 # degrees".toList (by unfold IniFile.Sets; decide)
  refine ⟨st', h1, ?_⟩
  have hn : readNumber (String.ofList "0.01 # degrees".toList).toList = none := by decide +kernel
  simp [configUpwind, h2, bind, Except.bind] at hn ⊢
  rw [hn]

/-- **C123** (limits) An option that is indented below another one belongs to the other one's value; the run goes on with
the buffer width that was set before (that of the default configuration). -/
theorem C123_indented (st : CfgState) :
    ∃ st', setConfigText (some "[inputValues]\nroot = /data\n  upwind_length = 0.01".toList) st = .ok st' ∧
      configUpwind st' = configUpwind st := by
  have ht : iniLines "[inputValues]\nroot = /data\n  upwind_length = 0.01".toList
      = .ok [.header "inputValues", .entry "root" "/data\nupwind_length = 0.01"] := by decide +kernel
  refine ⟨⟨fun s' k' => if s' = "inputValues" ∧ k' = "root" then some "/data\nupwind_length = 0.01"
    else st.values s' k', true⟩, ?_, ?_⟩
  · simp only [setConfigText, ht, bind, Except.bind]
    simp [cfgSetFile, cfgReadFile, cfgRead]
  · have hne : String.ofList ("upwind_length".toList.map Char.toLower) ≠ "root" := by decide
    have hg : configGet ⟨fun s' k' => if s' = "inputValues" ∧ k' = "root" then some "/data\nupwind_length = 0.01"
        else st.values s' k', true⟩ "inputValues" "upwind_length" = configGet st "inputValues" "upwind_length" := by
      simp only [configGet, hne, and_false, if_false]
    rw [configUpwind, configUpwind, hg]

end WindMult
