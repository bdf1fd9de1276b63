import Verif.Model.TempFiles
import Verif.Proofs.FileNames

/-!
# Lemmas about file operations of interleaved tiles
-/

set_option autoImplicit false

namespace WindMult

/-- The operation concerns only paths in `F`, or removes paths in `X` only. -/
def FileOp.Within (F X : List Char → Prop) : FileOp → Prop
  | .create p => F p
  | .remove p => F p
  | .removeIfThere p => F p
  | .expect p => F p
  | .removeXml dir => ∀ p, isXmlIn dir p = true → X p

/-- An operation within `F` behaves the same on states that agree on `F`, and leaves everything
outside `F` and `X` alone. -/
theorem FileOp.run_within {F X : List Char → Prop} (hd : ∀ p, F p → ¬ X p) {a : FileOp}
    (ha : a.Within F X) {fs fs1 : FileSys} (hag : ∀ p, F p → fs1 p = fs p) {g : FileSys}
    (h : a.run fs = .ok g) :
    ∃ g1, a.run fs1 = .ok g1 ∧ (∀ p, F p → g1 p = g p) ∧ (∀ p, ¬ F p → ¬ X p → g1 p = fs1 p) := by
  cases a with
  | create q =>
    cases h
    refine ⟨_, rfl, ?_, ?_⟩
    · intro p hp
      show (if p = q then _ else _) = (if p = q then _ else _)
      rw [hag p hp]
    · intro p hp _
      exact if_neg (by rintro rfl; exact hp ha)
  | remove q =>
    have hq : fs1 q = fs q := hag q ha
    simp only [FileOp.run] at h ⊢
    split_ifs at h with hc
    cases h
    rw [hq, if_pos hc]
    refine ⟨_, rfl, ?_, ?_⟩
    · intro p hp
      show (if p = q then _ else _) = (if p = q then _ else _)
      rw [hag p hp]
    · intro p hp _
      exact if_neg (by rintro rfl; exact hp ha)
  | removeIfThere q =>
    cases h
    refine ⟨_, rfl, ?_, ?_⟩
    · intro p hp
      show (if p = q then _ else _) = (if p = q then _ else _)
      rw [hag p hp]
    · intro p hp _
      exact if_neg (by rintro rfl; exact hp ha)
  | expect q =>
    have hq : fs1 q = fs q := hag q ha
    simp only [FileOp.run] at h ⊢
    split_ifs at h with hc
    cases h
    rw [hq, if_pos hc]
    exact ⟨fs1, rfl, hag, fun _ _ _ => rfl⟩
  | removeXml dir =>
    cases h
    refine ⟨_, rfl, ?_, ?_⟩
    · intro p hp
      have : isXmlIn dir p = false := by
        by_contra hx
        exact hd p hp (ha p (by simpa using hx))
      simp [this, hag p hp]
    · intro p _ hp
      have : isXmlIn dir p = false := by
        by_contra hx
        exact hp (ha p (by simpa using hx))
      simp [this]

theorem runOps_within {F X : List Char → Prop} (hd : ∀ p, F p → ¬ X p) :
    ∀ {as : List FileOp}, (∀ a ∈ as, a.Within F X) → ∀ {fs fs1 : FileSys},
      (∀ p, F p → fs1 p = fs p) → ∀ {g : FileSys}, runOps fs as = .ok g →
      ∃ g1, runOps fs1 as = .ok g1 ∧ ∀ p, F p → g1 p = g p
  | [], _, fs, fs1, hag, g, h => by
    cases h
    exact ⟨fs1, rfl, hag⟩
  | a :: as, ha, fs, fs1, hag, g, h => by
    simp only [runOps] at h ⊢
    match hr : a.run fs with
    | .error e => rw [hr] at h; cases h
    | .ok f =>
      rw [hr] at h
      obtain ⟨f1, e1, e2, -⟩ := FileOp.run_within hd (ha a (by simp)) hag hr
      rw [e1]
      exact runOps_within hd (fun b hb => ha b (by simp [hb])) e2 h

/-- The operations of tile `k` in a trace of (tile, operation) pairs. -/
def opsOf (k : List Char) (trace : List (List Char × FileOp)) : List FileOp :=
  (trace.filter fun e => e.1 = k).map Prod.snd

/-- Interleaved sequences that use disjoint sets of paths do together what each does alone. -/
theorem run_interleaved {F : List Char → List Char → Prop} {X : List Char → Prop}
    (hX : ∀ k p, F k p → ¬ X p) (hF : ∀ k k' p, F k p → F k' p → k = k') :
    ∀ (trace : List (List Char × FileOp)), (∀ e ∈ trace, e.2.Within (F e.1) X) →
      ∀ (fs : FileSys) (g : List Char → FileSys), (∀ k, runOps fs (opsOf k trace) = .ok (g k)) →
      ∃ fs', runOps fs (trace.map Prod.snd) = .ok fs' ∧ (∀ k p, F k p → fs' p = g k p) ∧
        ∀ p, (∀ k, ¬ F k p) → ¬ X p → fs' p = fs p
  | [], _, fs, g, h => by
    refine ⟨fs, rfl, ?_, fun _ _ _ => rfl⟩
    intro k p _
    have := h k
    simp only [opsOf, List.filter_nil, List.map_nil, runOps, Except.ok.injEq] at this
    rw [this]
  | (k, a) :: trace, hw, fs, g, h => by
    have hk := h k
    have e : opsOf k ((k, a) :: trace) = a :: opsOf k trace := by simp [opsOf]
    have ne : ∀ k', k' ≠ k → opsOf k' ((k, a) :: trace) = opsOf k' trace := by
      intro k' hk'
      simp only [opsOf]
      rw [List.filter_cons_of_neg (by simpa using fun h => hk' h.symm)]
    rw [e] at hk
    simp only [runOps] at hk
    match hr : a.run fs with
    | .error e => rw [hr] at hk; cases hk
    | .ok f =>
      rw [hr] at hk
      obtain ⟨f1, hf1, -, hout⟩ := FileOp.run_within (hX k) (hw (k, a) (by simp))
        (fs1 := fs) (fun _ _ => rfl) hr
      rw [hr] at hf1
      cases hf1
      have wi : ∀ k', ∀ b ∈ opsOf k' trace, b.Within (F k') X := by
        intro k' b hb
        simp only [opsOf, List.mem_map, List.mem_filter, decide_eq_true_eq] at hb
        obtain ⟨⟨k2, b'⟩, ⟨hm, rfl⟩, rfl⟩ := hb
        exact hw (k2, b') (by simp [hm])
      have others : ∀ k', ∃ g1, runOps f (opsOf k' trace) = .ok g1 ∧
          ∀ p, F k' p → g1 p = g k' p := by
        intro k'
        by_cases hkk : k' = k
        · subst hkk; exact ⟨g k', hk, fun _ _ => rfl⟩
        · have h' := h k'
          rw [ne k' hkk] at h'
          refine runOps_within (hX k') (wi k') ?_ h'
          intro p hp
          exact hout p (fun hp' => hkk (hF _ _ p hp hp')) (hX _ _ hp)
      choose g1 hg1 hg2 using others
      obtain ⟨fs', e1, e2, e3⟩ := run_interleaved hX hF trace (fun b hb => hw b (by simp [hb])) f g1 hg1
      refine ⟨fs', ?_, ?_, ?_⟩
      · simp only [List.map_cons, runOps, hr, e1]
      · intro k' p hp
        rw [e2 k' p hp, hg2 k' p hp]
      · intro p hp hxp
        rw [e3 p hp hxp, hout p (hp k) hxp]

theorem runOps_append (fs : FileSys) (as bs : List FileOp) {f : FileSys} (h : runOps fs as = .ok f) :
    runOps fs (as ++ bs) = runOps f bs := by
  induction as generalizing fs with
  | nil => cases h; rfl
  | cons a as ih =>
    simp only [runOps, List.cons_append] at h ⊢
    match hr : a.run fs with
    | .error e => rw [hr] at h; cases h
    | .ok f' =>
      rw [hr] at h
      exact ih f' h

theorem runOps_creates {α : Type} (f : α → List Char) (l : List α) (fs : FileSys) :
    runOps fs (l.map fun d => .create (f d)) = .ok (fun p => decide (p ∈ l.map f) || fs p) := by
  induction l generalizing fs with
  | nil => simp [runOps]
  | cons d l ih =>
    simp only [List.map_cons, runOps, FileOp.run, ih, Except.ok.injEq]
    funext p
    by_cases h1 : p = f d <;> by_cases h2 : p ∈ l.map f <;> simp_all

/-! ### Paths relative to the output directory -/

theorem demTemp_eq {out t : List Char} (ht : '/' ∉ t) :
    demTemp out t = withSlash out ++ (t ++ ['_', 'd', 'e', 'm', '.', 'i', 'm', 'g']) :=
  pjoin_eq (notMem_append ht (by decide))

theorem landTemp_eq {out t : List Char} (ht : '/' ∉ t) :
    landTemp out t = withSlash out ++ (t ++ ['.', 'i', 'm', 'g']) :=
  pjoin_eq (notMem_append ht (by decide))

theorem openedName_noSlash {t : List Char} (ht : '/' ∉ t) (d : Dir) (m : Mult) :
    '/' ∉ openedName t d m :=
  notMem_append (notMem_append (notMem_append (notMem_append (notMem_append ht (by decide))
    (by cases m <;> decide)) (by decide)) (slash_notMem_letters d)) (by decide)

theorem savedNc_rel {out t : List Char} (ho : ¬ ['/', '/'] <:+ out) (ht : TileName t) (d : Dir)
    (m : Mult) :
    savedNc out t d m = withSlash out ++ (m.folder ++ '/' :: openedName t d m) := by
  rw [savedNc_eq_openedNc ho ht, openedNc, pjoin_eq (openedName_noSlash ht.1 d m),
    withSlash_folder _ _ (by cases m <;> decide) (by cases m <;> decide),
    pjoin_eq (by cases m <;> decide)]
  simp

theorem shieldTemp_rel {out t : List Char} (ho : ¬ ['/', '/'] <:+ out) (ht : TileName t) :
    shieldTemp (landTemp out t) = withSlash out ++ (['s', 'h', 'i', 'e', 'l', 'd', 'i', 'n', 'g'] ++ '/' :: (t ++ ['_', 'm', 's', '.', 'i', 'm', 'g'])) := by
  have hl : '/' ∉ t ++ ['.', 'i', 'm', 'g'] := notMem_append ht.1 (by decide)
  have hm : '/' ∉ t ++ ['_', 'm', 's', '.', 'i', 'm', 'g'] := notMem_append ht.1 (by decide)
  have hroot : splitextRoot (t ++ ['.', 'i', 'm', 'g']) = t := by
    have h := ht.split [] (by simp)
    rw [List.append_nil] at h
    exact splitextRoot_eq (by decide) (by decide) h
  unfold shieldTemp landTemp
  rw [pjoin_eq hl, basename_withSlash hl, hroot, pjoin_eq hm,
    withSlash_folder _ _ (by simp) (by decide), pjoin_eq (by decide), dirname_withSlash hl ho]
  simp

/-- The paths that belong to a tile. -/
def Owned (out t p : List Char) : Prop :=
  TileName t ∧ (p = demTemp out t ∨ p = landTemp out t ∨ p = shieldTemp (landTemp out t) ∨
    ∃ d m, p = savedNc out t d m)

/-- The tile name of a path: the last component up to the first underscore or `.img`. -/
theorem owned_rel {out t p : List Char} (ho : ¬ ['/', '/'] <:+ out) (h : Owned out t p) :
    (∃ q, p = withSlash out ++ q ∧ '/' ∉ q ∧ (q = t ++ ['_', 'd', 'e', 'm', '.', 'i', 'm', 'g'] ∨ q = t ++ ['.', 'i', 'm', 'g'])) ∨
    (∃ f q, p = withSlash out ++ (f ++ '/' :: q) ∧ '/' ∉ q ∧
      (q = t ++ ['_', 'm', 's', '.', 'i', 'm', 'g'] ∨ ∃ d m, q = openedName t d m)) := by
  obtain ⟨ht, h | h | h | ⟨d, m, h⟩⟩ := h
  · exact .inl ⟨_, h.trans (demTemp_eq ht.1), notMem_append ht.1 (by decide), .inl rfl⟩
  · exact .inl ⟨_, h.trans (landTemp_eq ht.1), notMem_append ht.1 (by decide), .inr rfl⟩
  · exact .inr ⟨_, _, h.trans (shieldTemp_rel ho ht), notMem_append ht.1 (by decide), .inl rfl⟩
  · exact .inr ⟨_, _, h.trans (savedNc_rel ho ht d m), openedName_noSlash ht.1 d m, .inr ⟨d, m, rfl⟩⟩

theorem split_first {a b c d : List Char} {x : Char} (h : a ++ x :: b = c ++ x :: d) (ha : x ∉ a)
    (hc : x ∉ c) : a = c := by
  induction a generalizing c with
  | nil =>
    cases c with
    | nil => rfl
    | cons y c => simp at h hc; exact absurd h.1 hc.1
  | cons y a ih =>
    cases c with
    | nil => simp at h ha; exact absurd h.1.symm ha.1
    | cons z c =>
      simp only [List.cons_append, List.cons.injEq] at h
      simp only [List.mem_cons, not_or] at ha hc
      rw [h.1, ih h.2 ha.2 hc.2]

theorem openedName_first (t : List Char) (d : Dir) (m : Mult) :
    ∃ r, openedName t d m = t ++ '_' :: r := ⟨m.unit ++ ['_'] ++ d.letters ++ ['.', 'n', 'c'], by simp [openedName]⟩

theorem owned_unique {out : List Char} (ho : ¬ ['/', '/'] <:+ out) {t t' p : List Char}
    (h : Owned out t p) (h' : Owned out t' p) : t = t' := by
  have ht := h.1.2.1
  have ht' := h'.1.2.1
  have und : ∀ {s s' : List Char}, '_' ∉ s → '_' ∉ s' → ∀ {r r' : List Char},
      s ++ '_' :: r = s' ++ '_' :: r' → s = s' := fun h1 h2 _ _ e => split_first e h1 h2
  have img : ∀ {s s' r : List Char}, '_' ∉ s' → s ++ '_' :: r ≠ s' ++ ['.', 'i', 'm', 'g'] := by
    intro s s' r h1 e
    have : '_' ∈ s' ++ ['.', 'i', 'm', 'g'] := by rw [← e]; simp
    simp [h1] at this
  rcases owned_rel ho h with ⟨q, e, hq, hc⟩ | ⟨f, q, e, hq, hc⟩ <;>
    rcases owned_rel ho h' with ⟨q', e', hq', hc'⟩ | ⟨f', q', e', hq', hc'⟩
  · have eq : q = q' := List.append_cancel_left (e.symm.trans e')
    subst eq
    rcases hc with hc | hc <;> rcases hc' with hc' | hc'
    · exact List.append_cancel_right (hc.symm.trans hc')
    · exact absurd (hc.symm.trans hc') (img ht')
    · exact absurd (hc'.symm.trans hc) (img ht)
    · exact List.append_cancel_right (hc.symm.trans hc')
  · have eq : q = f' ++ '/' :: q' := List.append_cancel_left (e.symm.trans e')
    exact absurd (by rw [eq]; simp) hq
  · have eq : q' = f ++ '/' :: q := List.append_cancel_left (e'.symm.trans e)
    exact absurd (by rw [eq]; simp) hq'
  · have eq : f ++ '/' :: q = f' ++ '/' :: q' := List.append_cancel_left (e.symm.trans e')
    have eqq : q = q' := by
      have := congrArg List.reverse eq
      simp only [List.reverse_append, List.reverse_cons, List.append_assoc, List.singleton_append]
        at this
      have := split_first this (by simpa using hq) (by simpa using hq')
      exact List.reverse_injective this
    subst eqq
    have first : ∀ s : List Char, (q = s ++ ['_', 'm', 's', '.', 'i', 'm', 'g'] ∨ ∃ d m, q = openedName s d m) →
        ∃ r, q = s ++ '_' :: r := by
      rintro s (hc | ⟨d, m, hc⟩)
      · exact ⟨_, hc⟩
      · obtain ⟨r, hr⟩ := openedName_first s d m
        exact ⟨r, hc.trans hr⟩
    obtain ⟨r, hr⟩ := first t hc
    obtain ⟨r', hr'⟩ := first t' hc'
    exact und ht ht' (hr.symm.trans hr')

/-- No path of a tile is an `.xml` file. -/
theorem owned_not_xml {out : List Char} (ho : ¬ ['/', '/'] <:+ out) {t p : List Char}
    (h : Owned out t p) (dir : List Char) : isXmlIn dir p = false := by
  have key : ∀ (a : List Char) (c : Char), c ≠ 'l' → isXmlIn dir (a ++ [c]) = false := by
    intro a c hc
    unfold isXmlIn
    rw [Bool.and_eq_false_iff]
    right
    by_contra hx
    have hx : ['.', 'x', 'm', 'l'] <:+ a ++ [c] := by simpa using hx
    obtain ⟨y, hy⟩ := hx
    have := congrArg List.getLast? hy
    simp at this
    exact hc this.symm
  obtain ⟨ht, h | h | h | ⟨d, m, h⟩⟩ := h
  · rw [h, demTemp_eq ht.1]
    have := key (withSlash out ++ (t ++ ['_', 'd', 'e', 'm', '.', 'i', 'm'])) 'g' (by decide)
    simpa using this
  · rw [h, landTemp_eq ht.1]
    have := key (withSlash out ++ (t ++ ['.', 'i', 'm'])) 'g' (by decide)
    simpa using this
  · rw [h, shieldTemp_rel ho ht]
    have := key (withSlash out ++ (['s', 'h', 'i', 'e', 'l', 'd', 'i', 'n', 'g'] ++ '/' :: (t ++ ['_', 'm', 's', '.', 'i', 'm']))) 'g' (by decide)
    simpa using this
  · rw [h, savedNc_rel ho ht]
    have := key (withSlash out ++ (m.folder ++ '/' ::
      (t ++ ['_'] ++ m.unit ++ ['_'] ++ d.letters ++ ['.', 'n']))) 'c' (by decide)
    simpa [openedName] using this

theorem temps_distinct {out t : List Char} (ho : ¬ ['/', '/'] <:+ out) (ht : TileName t) :
    demTemp out t ≠ landTemp out t ∧ demTemp out t ≠ shieldTemp (landTemp out t) ∧
      landTemp out t ≠ shieldTemp (landTemp out t) ∧
      ∀ d m, savedNc out t d m ≠ demTemp out t ∧ savedNc out t d m ≠ landTemp out t ∧
        savedNc out t d m ≠ shieldTemp (landTemp out t) := by
  have hl : '/' ∉ t ++ ['.', 'i', 'm', 'g'] := notMem_append ht.1 (by decide)
  have hd : '/' ∉ t ++ ['_', 'd', 'e', 'm', '.', 'i', 'm', 'g'] := notMem_append ht.1 (by decide)
  have nos : ∀ {q f r : List Char}, '/' ∉ q → withSlash out ++ q ≠ withSlash out ++ (f ++ '/' :: r) := by
    intro q f r hq e
    have := List.append_cancel_left e
    exact hq (by rw [this]; simp)
  rw [demTemp_eq ht.1, landTemp_eq ht.1, ← landTemp_eq (out := out) ht.1, shieldTemp_rel ho ht]
  refine ⟨?_, nos hd, ?_, ?_⟩
  · rw [landTemp_eq ht.1]
    intro e
    have := List.append_cancel_left (List.append_cancel_left e)
    simp at this
  · rw [landTemp_eq ht.1]; exact nos hl
  · intro d m
    rw [savedNc_rel ho ht, landTemp_eq ht.1]
    refine ⟨(nos hd).symm, (nos hl).symm, ?_⟩
    intro e
    have e1 : withSlash out ++ (m.folder ++ '/' :: openedName t d m) =
        (withSlash out ++ (m.folder ++ '/' :: (t ++ ['_'] ++ m.unit ++ ['_'] ++ d.letters ++
          ['.', 'n']))) ++ ['c'] := by simp [openedName]
    have e2 : withSlash out ++ (['s', 'h', 'i', 'e', 'l', 'd', 'i', 'n', 'g'] ++
        '/' :: (t ++ ['_', 'm', 's', '.', 'i', 'm', 'g'])) =
        (withSlash out ++ (['s', 'h', 'i', 'e', 'l', 'd', 'i', 'n', 'g'] ++
        '/' :: (t ++ ['_', 'm', 's', '.', 'i', 'm']))) ++ ['g'] := by simp
    rw [e1, e2] at e
    have := congrArg List.getLast? e
    rw [List.getLast?_concat, List.getLast?_concat] at this
    exact absurd this (by decide)

end WindMult
