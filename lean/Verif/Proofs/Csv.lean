import Verif.Model.ClassTable
import Verif.Spec.ClassTable
import Mathlib.Tactic.Ring
import Mathlib.Tactic.Linarith

/-!
# The records of a text are those that were written
-/

set_option autoImplicit false

namespace WindMult

/-- Reading goes on. -/
abbrev Csv.run (a : Csv) (s : List Char) : Csv := s.foldl Csv.step a

theorem run_plain {s : List Char} (hs : ∀ c ∈ s, c ≠ ',' ∧ c ≠ '#' ∧ c ≠ '\n' ∧ c ≠ '\r') :
    ∀ (L : List (List (List Char))) F fd, (Csv.mk .inField L F fd).run s = ⟨.inField, L, F, s.reverse ++ fd⟩ := by
  induction s with
  | nil => intros; rfl
  | cons c s ih =>
    intro L F fd
    obtain ⟨h1, h2, h3, h4⟩ := hs c (by simp)
    have : (Csv.mk .inField L F fd).step c = ⟨.inField, L, F, c :: fd⟩ := by
      simp [Csv.step, h1, h2, h3, h4, Csv.push]
    rw [Csv.run, List.foldl_cons, this]
    exact (ih (fun x hx => hs x (by simp [hx])) L F (c :: fd)).trans (by simp)

theorem run_quoted (s : List Char) : ∀ (L : List (List (List Char))) F fd,
    (Csv.mk .inQuoted L F fd).run (s.flatMap fun c => if c = '"' then ['"', '"'] else [c])
      = ⟨.inQuoted, L, F, s.reverse ++ fd⟩ := by
  induction s with
  | nil => intros; rfl
  | cons c s ih =>
    intro L F fd
    rw [List.flatMap_cons, Csv.run, List.foldl_append]
    have : List.foldl Csv.step (Csv.mk .inQuoted L F fd) (if c = '"' then ['"', '"'] else [c])
        = ⟨.inQuoted, L, F, c :: fd⟩ := by
      by_cases h : c = '"'
      · subst h; simp [Csv.step]
      · simp [Csv.step, h]
    rw [this]
    exact (ih L F (c :: fd)).trans (by simp)

/-- Behind a field: it has been read and may be ended. -/
def Behind (L : List (List (List Char))) (F : List (List Char)) (f : FieldText) (a : Csv) : Prop :=
  a.lines = L ∧ a.fields = F ∧ a.field = f.value.reverse ∧
    (a.st = .startField ∨ a.st = .inField ∨ ¬ f.IsPlain ∧ a.st = .quoteInQuoted)

theorem run_field (f : FieldText) (hf : f.Ok) (L : List (List (List Char))) (F : List (List Char)) :
    Behind L F f ((Csv.mk .startField L F []).run f.text) := by
  cases f with
  | plain s =>
    cases s with
    | nil => exact ⟨rfl, rfl, rfl, .inl rfl⟩
    | cons c s =>
      obtain ⟨hs, hq⟩ := hf
      obtain ⟨h1, h2, h3, h4⟩ := hs c (by simp)
      have hq' : c ≠ '"' := fun h => hq (by simp [h])
      have : (Csv.mk .startField L F []).step c = ⟨.inField, L, F, [c]⟩ := by
        simp [Csv.step, Csv.atField, h1, h2, h3, h4, hq', Csv.push]
      rw [FieldText.text, Csv.run, List.foldl_cons, this]
      have := run_plain (s := s) (fun x hx => hs x (by simp [hx])) L F [c]
      rw [Csv.run] at this
      rw [this]
      exact ⟨rfl, rfl, by simp [FieldText.value], .inr (.inl rfl)⟩
  | quoted s =>
    rw [FieldText.text, Csv.run, List.foldl_cons]
    have : (Csv.mk .startField L F []).step '"' = ⟨.inQuoted, L, F, []⟩ := by
      simp [Csv.step, Csv.atField]
    rw [this, List.foldl_append]
    have := run_quoted s L F []
    rw [Csv.run] at this
    rw [this]
    refine ⟨rfl, rfl, ?_, .inr (.inr ⟨id, rfl⟩)⟩
    simp [Csv.step, FieldText.value]

theorem Behind.comma {L F f a} (h : Behind L F f a) : a.step ',' = ⟨.startField, L, f.value :: F, []⟩ := by
  obtain ⟨st, l, fs, fd⟩ := a
  obtain ⟨h1, h2, h3, h4⟩ := h
  simp only at h1 h2 h3 h4
  subst h1 h2 h3
  rcases h4 with h4 | h4 | ⟨-, h4⟩ <;> subst h4 <;> simp [Csv.step, Csv.atField, Csv.endField]

theorem Behind.newline {L F f a} (h : Behind L F f a) :
    a.step '\n' = ⟨.startRecord, (f.value :: F).reverse :: L, [], []⟩ := by
  obtain ⟨st, l, fs, fd⟩ := a
  obtain ⟨h1, h2, h3, h4⟩ := h
  simp only at h1 h2 h3 h4
  subst h1 h2 h3
  rcases h4 with h4 | h4 | ⟨-, h4⟩ <;> subst h4 <;> simp [Csv.step, Csv.atField, Csv.endField, Csv.endLine]

theorem Behind.crlf {L F f a} (h : Behind L F f a) :
    (a.step '\r').step '\n' = ⟨.startRecord, (f.value :: F).reverse :: L, [], []⟩ := by
  obtain ⟨st, l, fs, fd⟩ := a
  obtain ⟨h1, h2, h3, h4⟩ := h
  simp only at h1 h2 h3 h4
  subst h1 h2 h3
  rcases h4 with h4 | h4 | ⟨-, h4⟩ <;> subst h4 <;> simp [Csv.step, Csv.atField, Csv.endField, Csv.endLine]

theorem Behind.finish {L F f a} (h : Behind L F f a) : a.finish = .ok ((f.value :: F).reverse :: L).reverse := by
  obtain ⟨st, l, fs, fd⟩ := a
  obtain ⟨h1, h2, h3, h4⟩ := h
  simp only at h1 h2 h3 h4
  subst h1 h2 h3
  rcases h4 with h4 | h4 | ⟨-, h4⟩ <;> subst h4 <;> simp [Csv.finish, Csv.endField, Csv.endLine]

theorem Behind.hash {L F f a} (h : Behind L F f a) (hp : f.IsPlain) :
    a.step '#' = ⟨.eatComment, L, f.value :: F, []⟩ := by
  obtain ⟨st, l, fs, fd⟩ := a
  obtain ⟨h1, h2, h3, h4⟩ := h
  simp only at h1 h2 h3 h4
  subst h1 h2 h3
  rcases h4 with h4 | h4 | ⟨h, h4⟩
  · subst h4; simp [Csv.step, Csv.atField, Csv.endField]
  · subst h4; simp [Csv.step, Csv.endField]
  · exact absurd hp h

/-- The fields of a record but the last have been read. -/
theorem run_fields (fs : List FieldText) (f : FieldText) (hfs : ∀ x ∈ fs, x.Ok) (hf : f.Ok)
    (L : List (List (List Char))) : ∀ F : List (List Char),
    Behind L ((fs.map FieldText.value).reverse ++ F) f
      ((Csv.mk .startField L F []).run ([','].intercalate ((fs ++ [f]).map FieldText.text))) := by
  induction fs with
  | nil => intro F; simpa [List.intercalate] using run_field f hf L F
  | cons g fs ih =>
    intro F
    have e : [','].intercalate (((g :: fs) ++ [f]).map FieldText.text)
        = g.text ++ ',' :: [','].intercalate ((fs ++ [f]).map FieldText.text) := by
      cases fs <;> simp [List.intercalate]
    rw [e, Csv.run, List.foldl_append, List.foldl_cons, (run_field g (hfs g (by simp)) L F).comma]
    simpa using ih (fun x hx => hfs x (by simp [hx])) (g.value :: F)

/-- A record that does not begin with a blank is read like fields. -/
theorem run_startRecord (L : List (List (List Char))) (c : Char) (s : List Char) (h1 : c ≠ '\n') (h2 : c ≠ '\r')
    (h3 : c ≠ '#') (h4 : c ≠ ' ') (h5 : c ≠ '\t') :
    (Csv.mk .startRecord L [] []).run (c :: s) = (Csv.mk .startField L [] []).run (c :: s) := by
  rw [Csv.run, Csv.run, List.foldl_cons, List.foldl_cons]
  congr 1
  simp [Csv.step, Csv.atRecord, Csv.atField, h1, h2, h3, h4, h5, Csv.endField, Csv.push]

theorem run_record {fs : List FieldText} {cm} (hok : (LineText.record fs cm).Ok) (L : List (List (List Char))) :
    ∃ gs f, fs = gs ++ [f] ∧ Behind L ((gs.map FieldText.value).reverse) f
      ((Csv.mk .startRecord L [] []).run ([','].intercalate (fs.map FieldText.text))) := by
  obtain ⟨hlen, hall, hhead, -⟩ := hok
  obtain ⟨gs, f, rfl⟩ : ∃ gs f, fs = gs ++ [f] := by
    refine ⟨fs.dropLast, fs.getLast (by rintro rfl; simp at hlen), ?_⟩
    rw [List.dropLast_append_getLast]
  refine ⟨gs, f, rfl, ?_⟩
  have key := run_fields gs f (fun x hx => hall x (by simp [hx])) (hall f (by simp)) L []
  rw [List.append_nil] at key
  cases gs with
  | nil => simp at hlen
  | cons g gs =>
    have e : [','].intercalate (((g :: gs) ++ [f]).map FieldText.text)
        = g.text ++ ',' :: [','].intercalate ((gs ++ [f]).map FieldText.text) := by
      cases gs <;> simp [List.intercalate]
    have hg := hall g (by simp)
    obtain ⟨hb1, hb2⟩ := hhead g (by simp)
    rw [e] at key ⊢
    cases g with
    | quoted s =>
      rw [FieldText.text, List.cons_append] at key ⊢
      rw [run_startRecord] <;> first | exact key | decide
    | plain s =>
      cases s with
      | nil =>
        rw [FieldText.text, List.nil_append] at key ⊢
        rw [run_startRecord] <;> first | exact key | decide
      | cons c s =>
        obtain ⟨hs, -⟩ := hg
        obtain ⟨h1, h2, h3, h4⟩ := hs c (by simp)
        rw [FieldText.text, List.cons_append] at key ⊢
        rw [run_startRecord L c _ h3 h4 h2 (fun h => hb1 (by simp [FieldText.text, h]))
          (fun h => hb2 (by simp [FieldText.text, h]))]
        exact key

theorem run_eatComment {s : List Char} (hs : InLine s) (L : List (List (List Char))) (F : List (List Char)) :
    (Csv.mk .eatComment L F []).run s = ⟨.eatComment, L, F, []⟩ := by
  induction s with
  | nil => rfl
  | cons c s ih =>
    obtain ⟨h1, h2⟩ := hs c (by simp)
    have : (Csv.mk .eatComment L F []).step c = ⟨.eatComment, L, F, []⟩ := by simp [Csv.step, h1, h2]
    rw [Csv.run, List.foldl_cons, this]
    exact ih fun x hx => hs x (by simp [hx])

theorem run_eatLine {s : List Char} (hs : InLine s) (L : List (List (List Char))) :
    (Csv.mk .eatLineComment L [] []).run s = ⟨.eatLineComment, L, [], []⟩ := by
  induction s with
  | nil => rfl
  | cons c s ih =>
    obtain ⟨h1, h2⟩ := hs c (by simp)
    have : (Csv.mk .eatLineComment L [] []).step c = ⟨.eatLineComment, L, [], []⟩ := by simp [Csv.step, h1, h2]
    rw [Csv.run, List.foldl_cons, this]
    exact ih fun x hx => hs x (by simp [hx])

theorem run_blank {s : List Char} (hs : ∀ c ∈ s, c = ' ' ∨ c = '\t') (L : List (List (List Char))) :
    (Csv.mk .blankLine L [] []).run s = ⟨.blankLine, L, [], []⟩ := by
  induction s with
  | nil => rfl
  | cons c s ih =>
    have : (Csv.mk .blankLine L [] []).step c = ⟨.blankLine, L, [], []⟩ := by
      rcases hs c (by simp) with h | h <;> subst h <;> simp [Csv.step]
    rw [Csv.run, List.foldl_cons, this]
    exact ih fun x hx => hs x (by simp [hx])

/-- One line with its end. -/
theorem run_line (l : LineText) (hl : l.Ok) (crlf : Bool) (L : List (List (List Char))) :
    (Csv.mk .startRecord L [] []).run (l.text ++ (if crlf then ['\r', '\n'] else ['\n']))
      = ⟨.startRecord, (recordValues [l]).reverse ++ L, [], []⟩ := by
  rw [Csv.run, List.foldl_append]
  cases l with
  | record fs cm =>
    obtain ⟨gs, f, hfs, hB⟩ := run_record hl L
    have hv : (f.value :: (gs.map FieldText.value).reverse).reverse = fs.map FieldText.value := by
      rw [hfs]; simp
    cases cm with
    | none =>
      rw [LineText.text]
      cases crlf
      · exact hB.newline.trans (by rw [hv]; rfl)
      · exact hB.crlf.trans (by rw [hv]; rfl)
    | some s =>
      obtain ⟨hin, hp⟩ := hl.2.2.2 s rfl
      have hp' : f.IsPlain := hp f (by rw [hfs]; simp)
      rw [LineText.text, List.foldl_append, List.foldl_cons, hB.hash hp']
      have := run_eatComment hin L (f.value :: (gs.map FieldText.value).reverse)
      rw [Csv.run] at this
      rw [this]
      cases crlf
      · simp only [Bool.false_eq_true, if_false, List.foldl_cons, List.foldl_nil, Csv.step, if_true, Csv.endLine, hv]
        rfl
      · have h1 : ∀ F, (Csv.mk .eatComment L F []).step '\r' = ⟨.eatCrnl, L, F, []⟩ := fun F => by
          simp [Csv.step]
        have h2 : ∀ F, (Csv.mk .eatCrnl L F []).step '\n' = ⟨.startRecord, F.reverse :: L, [], []⟩ := fun F => by
          simp [Csv.step, Csv.endLine]
        simp only [if_true, List.foldl_cons, List.foldl_nil, h1, h2, hv]
        rfl
  | comment s =>
    rw [LineText.text, List.foldl_cons]
    have : (Csv.mk .startRecord L [] []).step '#' = ⟨.eatLineComment, L, [], []⟩ := by
      simp [Csv.step, Csv.atRecord]
    have h2 := run_eatLine hl L
    rw [Csv.run] at h2
    rw [this, h2]
    cases crlf <;> rfl
  | blank s =>
    rw [LineText.text]
    cases s with
    | nil => cases crlf <;> rfl
    | cons c s =>
      have : (Csv.mk .startRecord L [] []).step c = ⟨.blankLine, L, [], []⟩ := by
        rcases hl c (by simp) with h | h <;> subst h <;> simp [Csv.step, Csv.atRecord]
      have h2 := run_blank (fun x hx => hl x (by simp [hx])) L (s := s)
      rw [Csv.run] at h2
      rw [List.foldl_cons, this, h2]
      cases crlf <;> rfl

/-- The last line, if it has no end. -/
theorem run_last (l : LineText) (hl : l.Ok) (L : List (List (List Char))) :
    ((Csv.mk .startRecord L [] []).run l.text).finish = .ok ((recordValues [l]).reverse ++ L).reverse := by
  cases l with
  | record fs cm =>
    obtain ⟨gs, f, hfs, hB⟩ := run_record hl L
    have hv : (f.value :: (gs.map FieldText.value).reverse).reverse = fs.map FieldText.value := by
      rw [hfs]; simp
    cases cm with
    | none =>
      rw [LineText.text]
      exact hB.finish.trans (by rw [hv]; rfl)
    | some s =>
      obtain ⟨hin, hp⟩ := hl.2.2.2 s rfl
      have hp' : f.IsPlain := hp f (by rw [hfs]; simp)
      rw [LineText.text, Csv.run, List.foldl_append, List.foldl_cons, hB.hash hp']
      have := run_eatComment hin L (f.value :: (gs.map FieldText.value).reverse)
      rw [Csv.run] at this
      rw [this]
      simp only [Csv.finish, Csv.endLine, hv]
      rfl
  | comment s =>
    rw [LineText.text, Csv.run, List.foldl_cons]
    have : (Csv.mk .startRecord L [] []).step '#' = ⟨.eatLineComment, L, [], []⟩ := by
      simp [Csv.step, Csv.atRecord]
    have h2 := run_eatLine hl L
    rw [Csv.run] at h2
    rw [this, h2]
    rfl
  | blank s =>
    rw [LineText.text]
    cases s with
    | nil => rfl
    | cons c s =>
      have : (Csv.mk .startRecord L [] []).step c = ⟨.blankLine, L, [], []⟩ := by
        rcases hl c (by simp) with h | h <;> subst h <;> simp [Csv.step, Csv.atRecord]
      have h2 := run_blank (fun x hx => hl x (by simp [hx])) L (s := s)
      rw [Csv.run] at h2
      rw [Csv.run, List.foldl_cons, this, h2]
      rfl

theorem run_lines (ls : List (LineText × Bool)) (hls : ∀ l ∈ ls, l.1.Ok) : ∀ L : List (List (List Char)),
    (Csv.mk .startRecord L [] []).run
        (ls.flatMap fun l => l.1.text ++ (if l.2 then ['\r', '\n'] else ['\n']))
      = ⟨.startRecord, (recordValues (ls.map Prod.fst)).reverse ++ L, [], []⟩ := by
  induction ls with
  | nil => intro L; rfl
  | cons l ls ih =>
    intro L
    rw [List.flatMap_cons, Csv.run, List.foldl_append]
    have := run_line l.1 (hls l (by simp)) l.2 L
    rw [Csv.run] at this
    rw [this]
    refine (ih (fun x hx => hls x (by simp [hx])) _).trans ?_
    have e : recordValues ((l :: ls).map Prod.fst) = recordValues [l.1] ++ recordValues (ls.map Prod.fst) := by
      rw [List.map_cons, recordValues, recordValues, recordValues, ← List.filterMap_append]
      rfl
    rw [e, List.reverse_append, List.append_assoc]

/-- The records that are read are those that were written. -/
theorem csvLines_text (f : FileText) (hf : ∀ l ∈ f.allLines, l.Ok) :
    csvLines f.text = .ok (recordValues f.allLines) := by
  have h := run_lines f.lines (fun l hl => hf l.1 (by
    simp only [FileText.allLines, List.mem_append, List.mem_map]; exact .inl ⟨l, hl, rfl⟩)) []
  rw [Csv.run, List.append_nil] at h
  rw [csvLines, FileText.text, Csv.start, List.foldl_append, h]
  cases hlast : f.last with
  | none => simp [FileText.allLines, hlast, Csv.finish]
  | some l =>
    have := run_last l (hf l (by simp [FileText.allLines, hlast])) (recordValues (f.lines.map Prod.fst)).reverse
    rw [Csv.run] at this
    rw [Option.elim, this, FileText.allLines, hlast]
    have e : recordValues (f.lines.map Prod.fst ++ (some l).toList)
        = recordValues (f.lines.map Prod.fst) ++ recordValues [l] := by
      rw [recordValues, recordValues, recordValues, ← List.filterMap_append]
      rfl
    rw [e]
    simp

end WindMult
