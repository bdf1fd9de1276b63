import Verif.Proofs.SaveText
import Mathlib.Data.List.TakeWhile

/-!
# C133: arrays that are saved as text are loaded again
-/

set_option autoImplicit false

namespace WindMult

/-! ### Fields -/

theorem digitVal_mem {c : Char} (h : (digitVal c).isSome) : c ∈ notDelimiters := by
  unfold digitVal at h
  split_ifs at h with hc
  · obtain ⟨h1, h2⟩ := hc
    have h1' : 48 ≤ c.toNat := h1
    have h2' : c.toNat ≤ 57 := h2
    have e : c = Char.ofNat c.toNat := (Char.ofNat_toNat c).symm
    rw [e]
    generalize c.toNat = k at *
    interval_cases k <;> decide
  · cases h

theorem numeralChar_mem {c : Char} (h : isNumeralChar c = true) : c ∈ notDelimiters ∧ c ≠ '%' ∧ c ≠ '\n' ∧ c ≠ '\r' ∧
    c ≠ ' ' := by
  refine ⟨?_, ?_, ?_, ?_, ?_⟩
  · unfold isNumeralChar at h
    simp only [Bool.or_eq_true, beq_iff_eq] at h
    rcases h with ((((h | rfl) | rfl) | rfl) | rfl) | rfl
    · exact digitVal_mem h
    all_goals decide
  all_goals
    rintro rfl
    revert h
    decide

/-- The texts of floats: not empty, and without the characters that have a meaning in the file. -/
theorem floatText_chars (v : FloatVal) : v.text ≠ [] ∧ ∀ c ∈ v.text, c ∈ notDelimiters ∧ c ≠ '%' ∧ c ≠ '\n' ∧ c ≠ '\r' ∧
    c ≠ ' ' := by
  cases v with
  | nan => decide
  | inf neg => cases neg <;> decide
  | num q =>
    obtain ⟨y, ⟨n, p, a, b, hn, -, hs⟩, -⟩ := sciText_number q
    refine ⟨?_, ?_⟩
    · simp [FloatVal.text, sciText]
    · intro c hc
      have hblank : ∀ c ∈ sciText q, isNumeralChar c = true := by
        intro c hc
        have hdig : ∀ k m, ∀ c ∈ fixedDigits k m, isNumeralChar c = true := by
          intro k m
          rw [← fixedFin_text]
          exact digits_numeral _
        simp only [sciText, List.mem_append, List.mem_cons] at hc
        rcases hc with ((hc | hc) | hc | hc) | rfl | rfl | hc
        · split_ifs at hc
          · cases List.mem_singleton.mp hc
            decide
          · cases hc
        · exact hdig _ _ _ hc
        · subst hc
          decide
        · exact hdig _ _ _ hc
        · decide
        · split_ifs <;> decide
        · exact hdig _ _ _ hc
      exact numeralChar_mem (hblank c hc)

/-- **C133** (number) A double written with 19 significant digits is read as the same double, likewise NaN and the
infinities. -/
theorem C133_number (v : FloatVal) (hv : v.Ok) : floatOf v.text = v := by
  cases v with
  | nan => decide +kernel
  | inf neg => cases neg <;> decide +kernel
  | num q =>
    obtain ⟨y, hy, hc⟩ := sciText_number q
    have hr := readNumber_of hy
    have hs : stripBlanks (sciText q) = sciText q := by
      have h1 := floatText_chars (.num q)
      have : ∀ c ∈ sciText q, isNumeralChar c = true := by
        obtain ⟨n, p, a, b, hn, -, hs⟩ := hy
        intro c hc
        have h3 := h1.2 c hc
        rw [hs] at hc
        simp only [List.mem_append, List.mem_replicate] at hc
        rcases hc with (⟨-, hc⟩ | hc) | ⟨-, hc⟩
        · exact absurd hc h3.2.2.2.2
        · exact text_numeral n p c hc
        · exact absurd hc h3.2.2.2.2
      simpa using stripBlanks_replicate (sciText q) this h1.1 0 0
    have hword : ∃ (d : ℕ) (t : List Char), d < 10 ∧ (takeSign (stripBlanks (sciText q))).2 = Nat.digitChar d :: t := by
      rw [hs]
      refine ⟨(sciParts q).1 / 10 ^ 18 % 10, '.' :: fixedDigits 18 ((sciParts q).1 % 10 ^ 18) ++
        'e' :: (if (sciParts q).2 < 0 then '-' else '+') ::
        fixedDigits (max 2 (Nat.digits 10 (sciParts q).2.natAbs).length) (sciParts q).2.natAbs,
        Nat.mod_lt _ (by norm_num), ?_⟩
      have := takeSign_text (decide (q < 0)) false (fixedDigits 1 ((sciParts q).1 / 10 ^ 18) ++
        ('.' :: fixedDigits 18 ((sciParts q).1 % 10 ^ 18) ++
        'e' :: (if (sciParts q).2 < 0 then '-' else '+') ::
        fixedDigits (max 2 (Nat.digits 10 (sciParts q).2.natAbs).length) (sciParts q).2.natAbs)) (by
          rw [← fixedFin_text]
          exact noSign_digits _ (by simp [fixedFin]) _)
      have e : sciText q = signText (decide (q < 0)) false ++ (fixedDigits 1 ((sciParts q).1 / 10 ^ 18) ++
        ('.' :: fixedDigits 18 ((sciParts q).1 % 10 ^ 18) ++
        'e' :: (if (sciParts q).2 < 0 then '-' else '+') ::
        fixedDigits (max 2 (Nat.digits 10 (sciParts q).2.natAbs).length) (sciParts q).2.natAbs)) := by
        simp only [sciText, signText]
        by_cases h : q < 0 <;> simp [h]
      rw [e, this]
      rfl
    obtain ⟨d, t, hd, ht⟩ := hword
    have hne : (Nat.digitChar d).toLower ≠ 'n' ∧ (Nat.digitChar d).toLower ≠ 'i' := by
      interval_cases d <;> decide
    have h1 : (takeSign (stripBlanks (FloatVal.num q).text)).2.map Char.toLower ≠ ['n', 'a', 'n'] := by
      change (takeSign (stripBlanks (sciText q))).2.map Char.toLower ≠ _
      rw [ht]
      intro h
      exact hne.1 (List.cons.inj h).1
    have h2 : ¬ ((takeSign (stripBlanks (FloatVal.num q).text)).2.map Char.toLower = ['i', 'n', 'f'] ∨
        (takeSign (stripBlanks (FloatVal.num q).text)).2.map Char.toLower = ['i', 'n', 'f', 'i', 'n', 'i', 't', 'y']) := by
      change ¬ ((takeSign (stripBlanks (sciText q))).2.map Char.toLower = _ ∨
        (takeSign (stripBlanks (sciText q))).2.map Char.toLower = _)
      rw [ht]
      rintro (h | h) <;> exact hne.2 (List.cons.inj h).1
    unfold floatOf
    simp only [if_neg h1, if_neg h2]
    rw [show (FloatVal.num q).text = sciText q from rfl, hr]
    exact nearest_of_close hv hc

/-! ### Lines -/

theorem stripLine_of {s : List Char} (h : ∀ c, s.head? = some c ∨ s.getLast? = some c → c ≠ ' ' ∧ c ≠ '\r' ∧ c ≠ '\n') :
    stripLine s = s := by
  unfold stripLine
  have drop : ∀ t : List Char, (∀ c, t.head? = some c → c ≠ ' ' ∧ c ≠ '\r' ∧ c ≠ '\n') →
      t.dropWhile (fun c : Char => c == ' ' || c == '\r' || c == '\n') = t := by
    intro t ht
    cases t with
    | nil => rfl
    | cons c t =>
      obtain ⟨h1, h2, h3⟩ := ht c rfl
      simp [h1, h2, h3]
  simp only
  rw [drop s fun c hc => h c (.inl hc), drop s.reverse fun c hc => h c (.inr (by simpa using hc)), List.reverse_reverse]

theorem mem_intercalate {d c : Char} : ∀ {ls : List (List Char)}, c ∈ [d].intercalate ls →
    c = d ∨ ∃ l ∈ ls, c ∈ l
  | [], h => by simp at h
  | [l], h => .inr ⟨l, by simp, by simpa using h⟩
  | l :: m :: ls, h => by
    rw [List.intercalate_cons_cons] at h
    simp only [List.mem_append, List.mem_singleton] at h
    rcases h with (h | h) | h
    · exact .inr ⟨l, by simp, h⟩
    · exact .inl h
    · rcases mem_intercalate h with h | ⟨x, hx, hc⟩
      · exact .inl h
      · exact .inr ⟨x, List.mem_cons_of_mem _ hx, hc⟩

theorem head_intercalate {d : Char} {l : List Char} (hl : l ≠ []) (ls : List (List Char)) :
    ([d].intercalate (l :: ls)).head? = l.head? := by
  cases l with
  | nil => exact absurd rfl hl
  | cons c l =>
    cases ls with
    | nil => simp
    | cons m ls => rw [List.intercalate_cons_cons]; simp

theorem last_intercalate {d c : Char} : ∀ {ls : List (List Char)}, (∀ l ∈ ls, l ≠ []) →
    ([d].intercalate ls).getLast? = some c → ∃ l ∈ ls, c ∈ l
  | [], _, h => by simp at h
  | [l], _, h => ⟨l, by simp, List.mem_of_getLast? (by simpa using h)⟩
  | l :: m :: ls, hl, h => by
    rw [List.intercalate_cons_cons, List.getLast?_append] at h
    cases hg : ([d].intercalate (m :: ls)).getLast? with
    | none =>
      rw [List.getLast?_eq_none_iff] at hg
      have := head_intercalate (d := d) (hl m (by simp)) ls
      rw [hg] at this
      exact absurd (List.head?_eq_none_iff.mp this.symm) (hl m (by simp))
    | some c' =>
      rw [hg] at h
      obtain ⟨x, hx, hc⟩ := last_intercalate (fun l h => hl l (List.mem_cons_of_mem _ h)) hg
      cases h
      exact ⟨x, List.mem_cons_of_mem _ hx, hc⟩

/-- The line of a row: the fields are found again. -/
theorem row_fields {d : Char} (hd : d ∉ notDelimiters) (r : List FloatVal) (hr : r ≠ []) :
    lineFields d ([d].intercalate (r.map FloatVal.text)) = r.map FloatVal.text := by
  have hch : ∀ l ∈ r.map FloatVal.text, l ≠ [] ∧ ∀ c ∈ l, c ∈ notDelimiters ∧ c ≠ '%' ∧ c ≠ '\n' ∧ c ≠ '\r' ∧ c ≠ ' ' := by
    intro l hl
    obtain ⟨v, -, rfl⟩ := List.mem_map.mp hl
    exact floatText_chars v
  have hne : r.map FloatVal.text ≠ [] := by simpa using hr
  have hpct : d ≠ '%' := by
    rintro rfl
    exact hd (by decide)
  unfold lineFields
  rw [List.takeWhile_eq_self_iff.mpr]
  · have hs : stripLine ([d].intercalate (r.map FloatVal.text)) = [d].intercalate (r.map FloatVal.text) := by
      apply stripLine_of
      rintro c (h | h)
      · obtain ⟨l, ls, e⟩ := List.exists_cons_of_ne_nil hne
        rw [e] at h
        have hl := hch l (by simp [e])
        rw [head_intercalate hl.1] at h
        have := hl.2 c (List.mem_of_head? h)
        exact ⟨this.2.2.2.2, this.2.2.2.1, this.2.2.1⟩
      · obtain ⟨l, hl, hc⟩ := last_intercalate (fun l h => (hch l h).1) h
        have := (hch l hl).2 c hc
        exact ⟨this.2.2.2.2, this.2.2.2.1, this.2.2.1⟩
    simp only [hs]
    rw [if_neg, List.splitOn_intercalate d (fun l hl hc => hd ((hch l hl).2 d hc).1) hne]
    intro h
    obtain ⟨l, ls, e⟩ := List.exists_cons_of_ne_nil hne
    have hl := hch l (by simp [e])
    have := head_intercalate (d := d) hl.1 ls
    rw [← e, h] at this
    exact hl.1 (List.head?_eq_none_iff.mp this.symm)
  · intro c hc
    rcases mem_intercalate hc with rfl | ⟨l, hl, hcl⟩
    · simpa using hpct
    · simpa using ((hch l hl).2 c hcl).2.1

/-- The lines of a file. -/
theorem fileLines_of (ls : List (List Char)) (h : ∀ l ∈ ls, '\n' ∉ l ∧ '\r' ∉ l) :
    fileLines (ls.flatMap fun l => l ++ ['\n']) = ls := by
  have hr : '\r' ∉ ls.flatMap fun l => l ++ ['\n'] := by
    intro hm
    obtain ⟨l, hl, hc⟩ := List.mem_flatMap.mp hm
    simp only [List.mem_append, List.mem_singleton] at hc
    rcases hc with hc | hc
    · exact (h l hl).2 hc
    · cases hc
  have key : ∀ s : List Char, '\r' ∉ s → toNewlines false s = s := by
    intro s
    induction s with
    | nil => intro _; rfl
    | cons c s ih =>
      intro hs
      simp only [List.mem_cons, not_or] at hs
      rw [toNewlines, if_neg (Ne.symm hs.1), if_neg (by simp), ih hs.2]
  have e : ∀ ls : List (List Char), (ls.flatMap fun l => l ++ ['\n']) = ['\n'].intercalate (ls ++ [[]]) := by
    intro ls
    induction ls with
    | nil => rfl
    | cons l ls ih =>
      obtain ⟨m, ms, em⟩ := List.exists_cons_of_ne_nil (l := ls ++ [[]]) (by simp)
      rw [List.flatMap_cons, ih, List.cons_append, em, List.intercalate_cons_cons, List.append_assoc]
  unfold fileLines
  rw [key _ hr, e, List.splitOn_intercalate '\n']
  · simp
  · intro l hl
    simp only [List.mem_append, List.mem_singleton] at hl
    rcases hl with hl | rfl
    · exact (h l hl).1
    · simp
  · simp

/-- The header is written in lines that are comments. -/
theorem header_lines (header : List Char) (hr : '\r' ∉ header) : ∀ p : List Char, '\n' ∉ p → '\r' ∉ p →
    p.head? = some '%' → ∃ ls : List (List Char), ls.length = header.count '\n' + 1 ∧
      (∀ l ∈ ls, '\n' ∉ l ∧ '\r' ∉ l ∧ l.head? = some '%') ∧
      p ++ (header.flatMap fun c => if c = '\n' then ['\n', '%'] else [c]) ++ ['\n'] =
        ls.flatMap fun l => l ++ ['\n'] := by
  induction header with
  | nil =>
    intro p h1 h2 h3
    exact ⟨[p], by simp, by simpa using ⟨h1, h2, h3⟩, by simp⟩
  | cons c header ih =>
    intro p h1 h2 h3
    simp only [List.mem_cons, not_or] at hr
    by_cases hc : c = '\n'
    · subst hc
      obtain ⟨ls, e1, e2, e3⟩ := ih hr.2 ['%'] (by decide) (by decide) rfl
      refine ⟨p :: ls, by simp [e1], ?_, ?_⟩
      · intro l hl
        rcases List.mem_cons.mp hl with rfl | hl
        · exact ⟨h1, h2, h3⟩
        · exact e2 l hl
      · rw [List.flatMap_cons, List.flatMap_cons, ← e3]
        simp
    · obtain ⟨ls, e1, e2, e3⟩ := ih hr.2 (p ++ [c]) (by simp [h1, Ne.symm hc]) (by simp [h2, hr.1]) (by
        cases p with
        | nil => cases h3
        | cons a p => exact h3)
      refine ⟨ls, by simp [e1, hc], e2, ?_⟩
      rw [← e3, List.flatMap_cons, if_neg hc]
      simp

/-! ### Rows -/

theorem chunks_flatten (data : List FloatVal) (m : ℕ) : ∀ n,
    ((List.range n).map fun i => (data.drop (i * m)).take m).flatten = data.take (n * m) := by
  intro n
  induction n with
  | zero => simp
  | succ n ih =>
    rw [List.range_succ, List.map_append, List.flatten_append, ih, Nat.succ_mul, List.take_add]
    simp

/-- The rows that are written: as many as the first axis is long, all as long as the second, together the entries. -/
theorem rows_of (a : NpArray) (hs : a.shape.length = 1 ∨ a.shape.length = 2) (hl : a.data.length = a.shape.prod)
    (hne : a.data ≠ []) : ∃ rows m, a.rows = .ok rows ∧ 0 < m ∧ rows ≠ [] ∧ (∀ r ∈ rows, r.length = m) ∧
      rows.flatten = a.data ∧ [rows.length, m].filter (· ≠ 1) = a.shape.filter (· ≠ 1) := by
  obtain ⟨shape, data⟩ := a
  simp only at *
  rcases hs with hs | hs
  · obtain ⟨n, rfl⟩ := List.length_eq_one_iff.mp hs
    refine ⟨data.map fun v => [v], 1, rfl, by norm_num, by simpa using hne, ?_, ?_, ?_⟩
    · intro r hr
      obtain ⟨v, -, rfl⟩ := List.mem_map.mp hr
      rfl
    · clear hl hne
      induction data with
      | nil => rfl
      | cons v d ih => rw [List.map_cons, List.flatten_cons, ih]; rfl
    · simp only [List.prod_cons, List.prod_nil, mul_one] at hl
      rw [List.length_map, hl]
      by_cases h : n = 1 <;> simp [h]
  · obtain ⟨n, m, rfl⟩ := List.length_eq_two.mp hs
    simp only [List.prod_cons, List.prod_nil, mul_one] at hl
    have hpos : 0 < n * m := by
      rw [← hl]
      exact List.length_pos_iff.mpr hne
    have hn : 0 < n := Nat.pos_of_mul_pos_right hpos
    have hm : 0 < m := Nat.pos_of_mul_pos_left hpos
    refine ⟨_, m, rfl, hm, ?_, ?_, ?_, ?_⟩
    · intro h
      have := congrArg List.length h
      simp at this
      omega
    · intro r hr
      obtain ⟨i, hi, rfl⟩ := List.mem_map.mp hr
      rw [List.mem_range] at hi
      rw [List.length_take, List.length_drop, hl]
      have : (i + 1) * m ≤ n * m := Nat.mul_le_mul_right _ hi
      rw [Nat.succ_mul] at this
      omega
    · rw [chunks_flatten, ← hl, List.take_length]
    · simp

theorem dirname_ne {p : List Char} (h : '/' ∈ p) : dirname p ≠ [] := by
  have hh : dirHead p ≠ [] := by
    unfold dirHead
    intro e
    rw [List.reverse_eq_nil_iff, List.dropWhile_eq_nil_iff] at e
    have := e '/' (by simpa using h)
    simp at this
  unfold dirname
  split_ifs with ha
  · exact hh
  · intro e
    rw [List.reverse_eq_nil_iff, List.dropWhile_eq_nil_iff] at e
    apply ha
    rw [List.all_eq_true]
    intro c hc
    exact e c (by simpa using hc)

/-- **C133** Arrays that `fl_save_file` saves come back from `fl_load_file`: for every array of doubles, NaN and infinities
with one or two axes and at least one entry, every header without carriage returns, every delimiter that does not occur in
numbers, and every name with a directory, all entries are the same bit by bit (up to the sign of zero), in the same
places; only axes of length one are removed.  Lines of the header may be skipped or not. -/
theorem C133_save_load (isDir : List Char → Bool) (filename : List Char) (hfile : '/' ∈ filename) (a : NpArray)
    (hs : a.shape.length = 1 ∨ a.shape.length = 2) (hl : a.data.length = a.shape.prod) (hne : a.data ≠ [])
    (hd : ∀ v ∈ a.data, v.Ok) (header : List Char) (hh : '\r' ∉ header) (d : Char) (hdel : d ∉ notDelimiters)
    (skip : ℕ) (hskip : skip ≤ headerLines header) :
    ∃ text, flSaveFile isDir filename a header d = .ok text ∧
      flLoadFile text d skip = .ok ⟨a.shape.filter (· ≠ 1), a.data⟩ := by
  obtain ⟨rows, m, hrows, hm, hrne, hlen, hflat, hshape⟩ := rows_of a hs hl hne
  obtain ⟨hls, e1, e2, e3⟩ : ∃ ls : List (List Char), ls.length = headerLines header ∧
      (∀ l ∈ ls, '\n' ∉ l ∧ '\r' ∉ l ∧ l.head? = some '%') ∧
      (if header = [] then [] else '%' :: (header.flatMap fun c => if c = '\n' then ['\n', '%'] else [c]) ++ ['\n']) =
        ls.flatMap fun l => l ++ ['\n'] := by
    by_cases h0 : header = []
    · exact ⟨[], by simp [headerLines, h0], by simp, by simp [h0]⟩
    · obtain ⟨ls, e1, e2, e3⟩ := header_lines header hh ['%'] (by decide) (by decide) rfl
      refine ⟨ls, by rw [e1, headerLines, if_neg h0], e2, ?_⟩
      rw [if_neg h0, ← e3]
      rfl
  refine ⟨(hls ++ rows.map fun r => [d].intercalate (r.map FloatVal.text)).flatMap fun l => l ++ ['\n'], ?_, ?_⟩
  · unfold flSaveFile
    simp only
    rw [if_neg (fun h => dirname_ne hfile h.2)]
    unfold savetxt
    rw [hrows]
    simp only [bind, Except.bind, pure, Except.pure]
    rw [e3, List.flatMap_append, List.flatMap_map]
  · have hdn : d ≠ '\n' ∧ d ≠ '\r' := by
      constructor
      · rintro rfl
        exact hdel (by decide)
      · rintro rfl
        exact hdel (by decide)
    have hlines : ∀ l ∈ hls ++ rows.map fun r => [d].intercalate (r.map FloatVal.text), '\n' ∉ l ∧ '\r' ∉ l := by
      intro l hl'
      rcases List.mem_append.mp hl' with h | h
      · exact ⟨(e2 l h).1, (e2 l h).2.1⟩
      · obtain ⟨r, -, rfl⟩ := List.mem_map.mp h
        constructor
        all_goals
          intro hc
          rcases mem_intercalate hc with hc | ⟨t, ht, hc⟩
          · first
              | exact hdn.1 hc.symm
              | exact hdn.2 hc.symm
          · obtain ⟨v, -, rfl⟩ := List.mem_map.mp ht
            have := (floatText_chars v).2 _ hc
            first
              | exact this.2.2.1 rfl
              | exact this.2.2.2.1 rfl
    have hfields : ((((hls ++ rows.map fun r => [d].intercalate (r.map FloatVal.text)).drop skip).map
        (lineFields d)).filter (· ≠ [])) = rows.map fun r => r.map FloatVal.text := by
      rw [List.drop_append_of_le_length (by omega), List.map_append, List.filter_append]
      have h1 : ((hls.drop skip).map (lineFields d)).filter (· ≠ []) = [] := by
        rw [List.filter_eq_nil_iff]
        intro x hx
        obtain ⟨l, hl', rfl⟩ := List.mem_map.mp hx
        have h3 := (e2 l (List.mem_of_mem_drop hl')).2.2
        cases l with
        | nil => cases h3
        | cons c l =>
          cases h3
          simp [lineFields, stripLine]
      have h2 : (rows.map fun r => [d].intercalate (r.map FloatVal.text)).map (lineFields d) =
          rows.map fun r => r.map FloatVal.text := by
        rw [List.map_map]
        apply List.map_congr_left
        intro r hr
        exact row_fields hdel r (by
          intro h
          have := hlen r hr
          rw [h] at this
          simp at this
          omega)
      rw [h1, h2, List.nil_append, List.filter_eq_self]
      intro x hx
      obtain ⟨r, hr, rfl⟩ := List.mem_map.mp hx
      have := hlen r hr
      simp only [ne_eq, List.map_eq_nil_iff, decide_not, Bool.not_eq_true', decide_eq_false_iff_not]
      intro h
      rw [h] at this
      simp at this
      omega
    unfold flLoadFile
    rw [fileLines_of _ hlines, hfields]
    obtain ⟨r, rest, er⟩ := List.exists_cons_of_ne_nil hrne
    have hr : r.length = m := hlen r (by simp [er])
    rw [er, List.map_cons]
    simp only
    rw [if_neg]
    · rw [er] at hshape hflat
      simp only [List.length_cons] at hshape
      simp only [List.length_map, hr, hshape]
      congr 2
      have e : (r.map FloatVal.text :: rest.map fun r => r.map FloatVal.text).flatten = a.data.map FloatVal.text := by
        rw [← hflat, List.map_flatten]
        rfl
      rw [e, List.map_map]
      conv_rhs => rw [← List.map_id a.data]
      apply List.map_congr_left
      intro v hv
      exact C133_number v (hd v hv)
    · rw [List.any_eq_true]
      rintro ⟨x, hx, hne'⟩
      obtain ⟨r', hr', rfl⟩ := List.mem_map.mp hx
      have := hlen r' (by simp [er, hr'])
      simp [this, hr] at hne'

/-! ### What does not come back -/

/-- **C133** (file names) A name without a directory cannot be saved: the directory is the empty name, which does not
exist and cannot be made. -/
theorem C133_bare_name (isDir : List Char → Bool) (hempty : isDir [] = false) (filename : List Char)
    (hfile : '/' ∉ filename) (a : NpArray) (header : List Char) (d : Char) :
    flSaveFile isDir filename a header d = .error .osError := by
  have h : dirHead filename = [] := by
    unfold dirHead
    rw [List.reverse_eq_nil_iff, List.dropWhile_eq_nil_iff]
    intro c hc
    simp only [ne_eq, decide_not, Bool.not_eq_true', decide_eq_false_iff_not]
    rintro rfl
    exact hfile (by simpa using hc)
  have h' : dirname filename = [] := by simp [dirname, h]
  unfold flSaveFile
  simp only
  rw [h', if_pos ⟨by simp [hempty], rfl⟩]

/-- **C133** (shape) The shape is lost where an axis has length one: a single row comes back as an array with one axis. -/
theorem C133_shape_lost : ∃ (a : NpArray) (text : List Char), a.shape = [1, 2] ∧
    flSaveFile (fun _ => true) "out/x.csv".toList a [] ',' = .ok text ∧
    ∃ b, flLoadFile text ',' 0 = .ok b ∧ b.data = a.data ∧ b.shape = [2] := by
  obtain ⟨text, h1, h2⟩ := C133_save_load (fun _ => true) "out/x.csv".toList (by decide)
    ⟨[1, 2], [.num 1, .nan]⟩ (.inr rfl) rfl (by simp) (by
      intro v hv
      simp only [List.mem_cons, List.not_mem_nil, or_false] at hv
      rcases hv with rfl | rfl
      · exact ⟨1, 0, by norm_num, by norm_num, by norm_num, by norm_num⟩
      · trivial) [] (by simp) ',' (by decide) 0 (by simp)
  exact ⟨_, text, rfl, h1, _, h2, rfl, rfl⟩

/-- **C133** (carriage return) With a carriage return in the header the rest of its line is taken for a row: the file cannot
be loaded. -/
theorem C133_carriage_return : ∃ text,
    flSaveFile (fun _ => true) "out/x.csv".toList ⟨[2, 2], [.inf true, .nan, .nan, .inf false]⟩ "lon\rlat".toList ','
      = .ok text ∧ flLoadFile text ',' 0 = .error .valueError :=
  ⟨"%lon\rlat\n-inf,nan\nnan,inf\n".toList, by decide +kernel, by decide +kernel⟩

/-! ### The hypotheses can be met -/

/-- One tenth in double precision, the largest double, and the smallest subnormal one, under a header of two lines, of which
the first is skipped. -/
example : ∃ text, flSaveFile (fun _ => false) "out/x.csv".toList
      ⟨[3], [.num (3602879701896397 / 2 ^ 55), .num (9007199254740991 * 2 ^ (971 : ℤ)), .num (-1 * 2 ^ (-1074 : ℤ))]⟩
      "x\ny".toList ';' = .ok text ∧
    flLoadFile text ';' 1 = .ok ⟨[3], [.num (3602879701896397 / 2 ^ 55), .num (9007199254740991 * 2 ^ (971 : ℤ)),
      .num (-1 * 2 ^ (-1074 : ℤ))]⟩ :=
  C133_save_load _ _ (by decide) _ (.inl rfl) rfl (by simp) (by
    intro v hv
    simp only [List.mem_cons, List.not_mem_nil, or_false] at hv
    rcases hv with rfl | rfl | rfl
    · exact ⟨3602879701896397, -55, by norm_num, by norm_num, by norm_num, by norm_num [zpow_neg]⟩
    · exact ⟨9007199254740991, 971, by norm_num, by norm_num, by norm_num, by rw [Int.cast_ofNat]⟩
    · exact ⟨-1, -1074, by norm_num, by norm_num, by norm_num, by rw [Int.cast_neg, Int.cast_one]⟩) _ (by decide) _ (by decide) _ (by decide)

example : (FloatVal.num (3602879701896397 / 2 ^ 55)).text = "1.000000000000000056e-01".toList := by decide +kernel

end WindMult
