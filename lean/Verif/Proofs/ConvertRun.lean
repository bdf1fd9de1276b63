import Verif.Spec.ConvertRun
import Verif.Proofs.Run

/-!
# The converter run on its own: the invariant
-/

set_option autoImplicit false
set_option linter.unusedSectionVars false

namespace WindMult
open Function
variable {K T : Type} [Zero K] [One K] [Mul K] [Max K]

/-! ### Paths -/

namespace ConvCfg

theorem m3_eq (c : ConvCfg) (t : List Char) :
    c.m3 t = withSlash c.out ++ (['M', '3', '/'] ++ t ++ ['.', 't', 'i', 'f']) := by
  rw [ConvCfg.m3, pjoin_head (by simp [m3File])]; rfl

theorem m3Max_eq (c : ConvCfg) (t : List Char) :
    c.m3Max t = withSlash c.out ++ (['M', '3', '_', 'm', 'a', 'x', '/'] ++ t ++ ['.', 't', 'i', 'f']) := by
  rw [ConvCfg.m3Max, pjoin_head (by simp [m3MaxFile])]; rfl

theorem vrt_eq (c : ConvCfg) : c.vrt = withSlash c.out ++ (['M', '3', '/'] ++ vrtName) := by
  rw [ConvCfg.vrt, pjoin_eq (by decide), withSlash_folder _ _ (by decide) (by decide),
    pjoin_eq (by decide)]
  simp

theorem vrtMax_eq (c : ConvCfg) :
    c.vrtMax = withSlash c.out ++ (['M', '3', '_', 'm', 'a', 'x', '/'] ++ vrtName) := by
  rw [ConvCfg.vrtMax, pjoin_eq (by decide), withSlash_folder _ _ (by decide) (by decide),
    pjoin_eq (by decide)]
  simp

theorem shieldFile_eq (c : ConvCfg) {f : List Char} (hf : '/' ∉ f) :
    pjoin c.shieldDir f = withSlash c.out ++ (Mult.ms.folder ++ '/' :: f) := by
  rw [ConvCfg.shieldDir, pjoin_eq hf, withSlash_folder _ _ (by decide) (by decide),
    pjoin_eq (by decide)]
  simp

theorem opened_eq (c : ConvCfg) {t : List Char} (ht : '/' ∉ t) (m : Mult) (d : Dir) :
    openedNc c.out t d m = withSlash c.out ++
      (m.folder ++ '/' :: (t ++ '_' :: (m.unit ++ '_' :: (d.letters ++ ['.', 'n', 'c'])))) := by
  have h1 : '/' ∉ openedName t d m := by
    unfold openedName
    refine notMem_append (notMem_append (notMem_append (notMem_append (notMem_append ht ?_) ?_) ?_) ?_) ?_
    · decide
    · cases m <;> decide
    · decide
    · cases d <;> decide
    · decide
  have h2 : '/' ∉ m.folder := by cases m <;> decide
  have h3 : m.folder ≠ [] := by cases m <;> decide
  rw [openedNc, pjoin_eq h1, withSlash_folder _ _ h3 h2, pjoin_eq h2]
  simp [openedName]

theorem m3_inj (c : ConvCfg) {t t' : List Char} (h : c.m3 t = c.m3 t') : t = t' := by
  rw [m3_eq, m3_eq] at h
  simpa using List.append_cancel_left h

theorem m3Max_inj (c : ConvCfg) {t t' : List Char} (h : c.m3Max t = c.m3Max t') : t = t' := by
  rw [m3Max_eq, m3Max_eq] at h
  simpa using List.append_cancel_left h

theorem m3_ne_m3Max (c : ConvCfg) (t t' : List Char) : c.m3 t ≠ c.m3Max t' := by
  rw [m3_eq, m3Max_eq]
  intro h
  simpa using List.append_cancel_left h

theorem m3_ne_vrt (c : ConvCfg) (t : List Char) : c.m3 t ≠ c.vrt := by
  rw [m3_eq, vrt_eq]
  intro h
  have h := List.append_cancel_left h
  rw [List.append_assoc] at h
  exact tif_ne_vrtName t (List.append_cancel_left h)

theorem m3_ne_vrtMax (c : ConvCfg) (t : List Char) : c.m3 t ≠ c.vrtMax := by
  rw [m3_eq, vrtMax_eq]
  intro h
  simpa using List.append_cancel_left h

theorem m3Max_ne_vrt (c : ConvCfg) (t : List Char) : c.m3Max t ≠ c.vrt := by
  rw [m3Max_eq, vrt_eq]
  intro h
  simpa using List.append_cancel_left h

theorem m3Max_ne_vrtMax (c : ConvCfg) (t : List Char) : c.m3Max t ≠ c.vrtMax := by
  rw [m3Max_eq, vrtMax_eq]
  intro h
  have h := List.append_cancel_left h
  rw [List.append_assoc] at h
  exact tif_ne_vrtName t (List.append_cancel_left h)

theorem vrt_ne_vrtMax (c : ConvCfg) : c.vrt ≠ c.vrtMax := by
  rw [vrt_eq, vrtMax_eq]
  intro h
  simpa using List.append_cancel_left h

/-- The converter writes to no file of a multiplier folder. -/
theorem written_M (c : ConvCfg) {p : List Char} (m : Mult) (q : List Char)
    (hp : p = withSlash c.out ++ (m.folder ++ q)) :
    (∀ t, p ≠ c.m3 t ∧ p ≠ c.m3Max t) ∧ p ≠ c.vrt ∧ p ≠ c.vrtMax := by
  subst hp
  refine ⟨fun t => ⟨?_, ?_⟩, ?_, ?_⟩
  · rw [m3_eq]; intro h; have h := List.append_cancel_left h
    cases m <;> simp [Mult.folder] at h
  · rw [m3Max_eq]; intro h; have h := List.append_cancel_left h
    cases m <;> simp [Mult.folder] at h
  · rw [vrt_eq]; intro h; have h := List.append_cancel_left h
    cases m <;> simp [Mult.folder] at h
  · rw [vrtMax_eq]; intro h; have h := List.append_cancel_left h
    cases m <;> simp [Mult.folder] at h

/-- What is listed. -/
theorem listed (c : ConvCfg) (st : Store K T) (t : List Char) :
    (∃ f, f ≠ [] ∧ '/' ∉ f ∧ st (pjoin c.shieldDir f) ≠ none ∧ tileOfFile f = t) ↔ c.Named st t := by
  constructor
  · rintro ⟨f, h0, hf, hst, rfl⟩
    rw [c.shieldFile_eq hf] at hst
    have e : tileOfFile f ++ f.dropWhile (· ≠ '_') = f := List.takeWhile_append_dropWhile
    have hsl : '/' ∉ tileOfFile f := fun h => hf (e ▸ List.mem_append_left _ h)
    have hall : ∀ l : List Char, '_' ∉ tileOfFile l := by
      intro l
      induction l with
      | nil => simp [tileOfFile]
      | cons a l ih =>
        unfold tileOfFile at ih ⊢
        rw [List.takeWhile_cons]
        split_ifs with ha
        · simp only [List.mem_cons, not_or]
          exact ⟨fun e => by simp [← e] at ha, ih⟩
        · simp
    refine ⟨hall f, hsl, ?_⟩
    cases hd : f.dropWhile (· ≠ '_') with
    | nil =>
      rw [hd, List.append_nil] at e
      rw [e]
      exact .inl ⟨h0, hst⟩
    | cons a u =>
      have ha : a = '_' := by
        have h := List.head_dropWhile_not (· ≠ '_') (w := by rw [hd]; simp) (l := f)
        simp only [hd, List.head_cons] at h
        simpa using h
      subst ha
      rw [hd] at e
      refine .inr ⟨u, fun h => hf (e ▸ List.mem_append_right _ (List.mem_cons_of_mem _ h)), ?_⟩
      rw [e]; exact hst
  · rintro ⟨h1, h2, ⟨h0, hst⟩ | ⟨u, hu, hst⟩⟩
    · refine ⟨t, h0, h2, by rw [c.shieldFile_eq h2]; exact hst, ?_⟩
      have e : ∀ x ∈ t, decide (x ≠ '_') = true := by
        intro x hx
        simp only [decide_eq_true_eq]
        rintro rfl
        exact h1 hx
      have := List.takeWhile_append_of_pos (l₂ := []) e
      simpa [tileOfFile] using this
    · have hs : '/' ∉ t ++ '_' :: u := notMem_append h2 (by simp [hu])
      refine ⟨t ++ '_' :: u, by simp, hs, by rw [c.shieldFile_eq hs]; exact hst, ?_⟩
      unfold tileOfFile
      rw [List.takeWhile_append_of_pos]
      · simp
      · intro x hx
        simp only [decide_eq_true_eq]
        rintro rfl
        exact h1 hx

theorem found_eq (c : ConvCfg) (st : Store K T) {t : List Char} (ht : '/' ∉ t) (m : Mult) (d : Dir) :
    readMult st (openedNc c.out t d m) = c.found st t m d := by
  rw [readMult, found, c.opened_eq ht]
  rfl

end ConvCfg

/-! ### The invariant -/

/-- The tiles handed out, in rank order. -/
def ConvState.handed (c : ConvCfg) (s : ConvState K T) : List (List Char) :=
  (List.range (c.nW + 1)).flatMap s.share

structure AloneInv (c : ConvCfg) (st0 : Store K T) (s : ConvState K T) : Prop where
  nodup : (s.handed c).Nodup
  mem : ∀ t, t ∈ s.handed c ↔ c.Named st0 t
  suf : ∀ r, r ≤ c.nW → s.todo r <:+ s.share r
  fin : ∀ t, c.Named st0 t → (∀ r, r ≤ c.nW → t ∉ s.todo r) →
    ∃ x mx, c.Makes st0 t x mx ∧ s.store (c.m3 t) = some (.tif x) ∧
      s.store (c.m3Max t) = some (.maxTif mx)
  half : ∀ r, r ≤ c.nW → s.half r = true → ∃ t ts x, s.todo r = t :: ts ∧
    processTile (c.found st0 t) = .ok x ∧ s.store (c.m3 t) = some (.tif x)
  vrt : 2 ≤ s.pos 0 → s.store c.vrt = some (.vrt ((s.handed c).map c.m3)) ∧
    s.store c.vrtMax = some (.vrt ((s.handed c).map c.m3Max))
  over : ∀ r, r ≤ c.nW → 2 ≤ s.pos r → s.todo r = []
  rest : ∀ p, (∀ t, c.Named st0 t → p ≠ c.m3 t ∧ p ≠ c.m3Max t) → p ≠ c.vrt → p ≠ c.vrtMax →
    s.store p = st0 p

/-- Before the tiles are listed, nothing has happened. -/
structure FreshInv (st0 : Store K T) (s : ConvState K T) : Prop where
  pos : ∀ r, s.pos r = 0
  half : ∀ r, s.half r = false
  todo : ∀ r, s.todo r = []
  share : ∀ r, s.share r = []
  store : s.store = st0

theorem aloneInv_list {c : ConvCfg} {st0 : Store K T} {s : ConvState K T} (h : FreshInv st0 s)
    (l : List (List Char)) (hnd : l.Nodup) (hl : ∀ t, t ∈ l ↔ c.Named st0 t) :
    AloneInv c st0 { s with
        pos := update s.pos 0 1
        share := fun r => (rankSlices l (c.nW + 1))[r]?.getD []
        todo := fun r => (rankSlices l (c.nW + 1))[r]?.getD [] } := by
  have hperm := rankSlices_flatten_perm l (c.nW + 1) (by omega)
  rw [← share_flatMap] at hperm
  refine ⟨hperm.nodup_iff.mpr hnd, fun t => ?_, fun r _ => List.suffix_refl _, fun t h1 h3 => ?_, ?_, ?_,
    ?_, ?_⟩
  · rw [← hl]; exact hperm.mem_iff
  · obtain ⟨r, hr, hm⟩ := List.mem_flatMap.mp (hperm.mem_iff.mpr ((hl t).mpr h1))
    exact absurd hm (h3 r (by have := List.mem_range.mp hr; omega))
  · intro r _ hh
    rw [show s.half r = false from h.half r] at hh
    cases hh
  · intro h'; simp at h'
  · intro r hr h'
    have h' : 2 ≤ update s.pos 0 1 r := h'
    rw [update_apply, h.pos r] at h'
    split_ifs at h'
    all_goals omega
  · intro p _ _ _
    exact congrFun h.store p

theorem AloneInv.named {c : ConvCfg} {st0 : Store K T} {s : ConvState K T} (h : AloneInv c st0 s)
    {r : ℕ} (hr : r ≤ c.nW) {t : List Char} {ts : List (List Char)} (ht : s.todo r = t :: ts) :
    c.Named st0 t := by
  rw [← h.mem]
  refine List.mem_flatMap.mpr ⟨r, List.mem_range.mpr (by omega), ?_⟩
  exact (h.suf r hr).subset (by rw [ht]; simp)

theorem AloneInv.reads {c : ConvCfg} {st0 : Store K T} {s : ConvState K T} (h : AloneInv c st0 s)
    {t : List Char} (ht : '/' ∉ t) :
    (fun m d => readMult s.store (openedNc c.out t d m)) = c.found st0 t := by
  funext m d
  rw [← c.found_eq st0 ht, readMult, readMult]
  obtain ⟨h1, h2, h3⟩ := c.written_M m _ (c.opened_eq ht m d)
  rw [h.rest _ (fun t' _ => h1 t') h2 h3]

/-- Tiles of different ranks, or at different places, are different. -/
theorem AloneInv.apart {c : ConvCfg} {st0 : Store K T} {s : ConvState K T} (h : AloneInv c st0 s)
    {r : ℕ} (hr : r ≤ c.nW) {t : List Char} {ts : List (List Char)} (ht : s.todo r = t :: ts) :
    t ∉ ts ∧ ∀ r', r' ≤ c.nW → r' ≠ r → t ∉ s.todo r' := by
  have hn := List.nodup_flatMap.mp h.nodup
  have hsub : ∀ r', r' ≤ c.nW → ∀ u ∈ s.todo r', u ∈ s.share r' := fun r' hr' u hu =>
    (h.suf r' hr').subset hu
  constructor
  · have := (hn.1 r (List.mem_range.mpr (by omega))).sublist (h.suf r hr).sublist
    rw [ht] at this
    exact (List.nodup_cons.mp this).1
  · intro r' hr' hne hm
    have hp := List.pairwise_iff_getElem.mp hn.2
    have hd : List.Disjoint (s.share r) (s.share r') := by
      rcases Nat.lt_or_gt_of_ne hne with hlt | hlt
      · have := hp r' r (by simp; omega) (by simp; omega) hlt
        simp only [List.getElem_range] at this
        exact this.symm
      · have := hp r r' (by simp; omega) (by simp; omega) hlt
        simpa only [List.getElem_range] using this
    exact hd (hsub r hr t (by rw [ht]; simp)) (hsub r' hr' t hm)

theorem aloneInv_step {c : ConvCfg} {st0 : Store K T} {s s' : ConvState K T}
    (h0 : s.pos 0 = 0 → FreshInv st0 s) (h : 1 ≤ s.pos 0 → AloneInv c st0 s) (hs : ConvStep c s s') :
    1 ≤ s'.pos 0 ∧ AloneInv c st0 s' := by
  have live : ∀ r, s.pos r ≠ 0 → 1 ≤ s.pos 0 := fun r hr => by
    by_contra h'
    exact hr ((h0 (by omega)).pos r)
  cases hs with
  | list l h00 hnd hl =>
    have hf := h0 h00
    refine ⟨by simp, aloneInv_list hf l hnd fun t => ?_⟩
    rw [hl t, hf.store]; exact c.listed st0 t
  | receive r h1 hr hp h01 =>
    have h := h h01
    have e : update s.pos r 1 0 = s.pos 0 := update_of_ne (by omega) _ _
    refine ⟨by show 1 ≤ update s.pos r 1 0; omega, h.nodup, h.mem, h.suf, h.fin, h.half,
      fun h2 => h.vrt (by rw [← e]; exact h2), ?_, h.rest⟩
    intro r' hr' h2
    have h2 : 2 ≤ update s.pos r 1 r' := h2
    rw [update_apply] at h2
    split_ifs at h2
    · omega
    · exact h.over r' hr' h2
  | convert r t ts x hr hp htodo hhalf hx =>
    have h01 := live r (by omega)
    have h := h h01
    have hnm := h.named hr htodo
    rw [h.reads hnm.2.1] at hx
    have hap := h.apart hr htodo
    refine ⟨h01, h.nodup, h.mem, h.suf, ?_, ?_, ?_, h.over, ?_⟩
    · intro t' h1 h3
      have hne : t' ≠ t := by
        rintro rfl
        exact h3 r hr (by show t' ∈ s.todo r; rw [htodo]; simp)
      obtain ⟨y, my, e1, e3, e4⟩ := h.fin t' h1 h3
      refine ⟨y, my, e1, ?_, ?_⟩
      · show update _ _ _ _ = _
        rw [update_of_ne (fun e => hne (c.m3_inj e))]; exact e3
      · show update _ _ _ _ = _
        rw [update_of_ne (c.m3_ne_m3Max t t').symm]; exact e4
    · intro r' hr' hh
      by_cases e : r' = r
      · subst e
        exact ⟨t, ts, x, htodo, hx, by show update _ _ _ _ = _; rw [update_self]⟩
      · have hh : update s.half r true r' = true := hh
        rw [update_of_ne e] at hh
        obtain ⟨t', ts', y, e1, e2, e3⟩ := h.half r' hr' hh
        have et : t' ≠ t := by
          rintro rfl
          exact hap.2 r' hr' e (by rw [e1]; simp)
        refine ⟨t', ts', y, e1, e2, ?_⟩
        show update _ _ _ _ = _
        rw [update_of_ne (fun e => et (c.m3_inj e))]; exact e3
    · intro h2
      obtain ⟨e1, e2⟩ := h.vrt h2
      constructor
      · show update _ _ _ _ = _
        rw [update_of_ne (c.m3_ne_vrt t).symm]; exact e1
      · show update _ _ _ _ = _
        rw [update_of_ne (c.m3_ne_vrtMax t).symm]; exact e2
    · intro p h1 h2 h3
      show update _ _ _ _ = _
      rw [update_of_ne (h1 t hnm).1]
      exact h.rest p h1 h2 h3
  | convertMax r t ts x mx hr hp htodo hhalf hfile hmx =>
    have h01 := live r (by omega)
    have h := h h01
    have hnm := h.named hr htodo
    have hap := h.apart hr htodo
    have hx : processTile (c.found st0 t) = .ok x := by
      obtain ⟨t', ts', y, e1, e2, e3⟩ := h.half r hr hhalf
      rw [htodo] at e1
      cases e1
      rw [hfile] at e3
      cases e3
      exact e2
    have hst : ∀ t', update s.store (c.m3Max t) (some (.maxTif mx)) (c.m3 t') = s.store (c.m3 t') :=
      fun t' => update_of_ne (c.m3_ne_m3Max t' t) _ _
    refine ⟨h01, h.nodup, h.mem, ?_, ?_, ?_, ?_, ?_, ?_⟩
    · intro r' hr'
      show update s.todo r ts r' <:+ s.share r'
      rw [update_apply]
      split_ifs with e
      · subst e
        exact (List.suffix_cons t ts).trans (htodo ▸ h.suf r' hr')
      · exact h.suf r' hr'
    · intro t' h1 h3
      by_cases et : t' = t
      · subst et
        exact ⟨x, mx, ⟨hx, hmx⟩, (hst t').trans hfile, by show update _ _ _ _ = _; rw [update_self]⟩
      · obtain ⟨y, my, e1, e3, e4⟩ := h.fin t' h1 (by
          intro r' hr' hm
          refine h3 r' hr' ?_
          show t' ∈ update s.todo r ts r'
          rw [update_apply]
          split_ifs with e
          · subst e
            rw [htodo] at hm
            exact (List.mem_cons.mp hm).resolve_left et
          · exact hm)
        refine ⟨y, my, e1, (hst t').trans e3, ?_⟩
        show update _ _ _ _ = _
        rw [update_of_ne (fun e => et (c.m3Max_inj e))]; exact e4
    · intro r' hr' hh
      have hh : update s.half r false r' = true := hh
      have e : r' ≠ r := by rintro rfl; rw [update_self] at hh; cases hh
      rw [update_of_ne e] at hh
      obtain ⟨t', ts', y, e1, e2, e3⟩ := h.half r' hr' hh
      refine ⟨t', ts', y, ?_, e2, (hst t').trans e3⟩
      show update s.todo r ts r' = _
      rw [update_of_ne e]; exact e1
    · intro h2
      obtain ⟨e1, e2⟩ := h.vrt h2
      constructor
      · show update _ _ _ _ = _
        rw [update_of_ne (c.m3Max_ne_vrt t).symm]; exact e1
      · show update _ _ _ _ = _
        rw [update_of_ne (c.m3Max_ne_vrtMax t).symm]; exact e2
    · intro r' hr' h2
      have := h.over r' hr' h2
      show update s.todo r ts r' = []
      rw [update_of_ne (by rintro rfl; rw [htodo] at this; cases this)]
      exact this
    · intro p h1 h2 h3
      show update _ _ _ _ = _
      rw [update_of_ne (h1 t hnm).2]
      exact h.rest p h1 h2 h3
  | send r h1 hr hp htodo =>
    have h01 := live r (by omega)
    have h := h h01
    have e : update s.pos r 2 0 = s.pos 0 := update_of_ne (by omega) _ _
    refine ⟨by show 1 ≤ update s.pos r 2 0; omega, h.nodup, h.mem, h.suf, h.fin, h.half,
      fun h2 => h.vrt (by rw [← e]; exact h2), ?_, h.rest⟩
    intro r' hr' h2
    have h2 : 2 ≤ update s.pos r 2 r' := h2
    rw [update_apply] at h2
    split_ifs at h2 with e
    · subst e; exact htodo
    · exact h.over r' hr' h2
  | gather hp htodo hall =>
    have h := h (by omega)
    have hne : ∀ p, p ≠ c.vrt → p ≠ c.vrtMax → ∀ a b : Option (Content K T),
        update (update s.store c.vrt a) c.vrtMax b p = s.store p := by
      intro p h1 h2 a b
      rw [update_of_ne h2, update_of_ne h1]
    refine ⟨by simp, h.nodup, h.mem, h.suf, ?_, ?_, ?_, ?_, ?_⟩
    · intro t h1 h3
      obtain ⟨x, mx, e1, e2, e3⟩ := h.fin t h1 h3
      exact ⟨x, mx, e1, (hne _ (c.m3_ne_vrt t) (c.m3_ne_vrtMax t) _ _).trans e2,
        (hne _ (c.m3Max_ne_vrt t) (c.m3Max_ne_vrtMax t) _ _).trans e3⟩
    · intro r hr hh
      obtain ⟨t, ts, x, e1, e2, e3⟩ := h.half r hr hh
      exact ⟨t, ts, x, e1, e2, (hne _ (c.m3_ne_vrt t) (c.m3_ne_vrtMax t) _ _).trans e3⟩
    · intro _
      constructor
      · show update _ _ _ _ = _
        rw [update_of_ne c.vrt_ne_vrtMax, update_self]; rfl
      · show update _ _ _ _ = _
        rw [update_self]; rfl
    · intro r hr h2
      have h2 : 2 ≤ update s.pos 0 2 r := h2
      rw [update_apply] at h2
      split_ifs at h2 with e
      · subst e; exact htodo
      · exact h.over r hr h2
    · intro p h1 h2 h3
      exact (hne p h2 h3 _ _).trans (h.rest p h1 h2 h3)

theorem aloneInv {c : ConvCfg} {st0 : Store K T} {k : ℕ} {s s0 : ConvState K T}
    (e0 : s0 = ConvState.start st0) (hrun : ConvSteps c k s0 s) :
    (s.pos 0 = 0 → FreshInv st0 s) ∧ (1 ≤ s.pos 0 → AloneInv c st0 s) := by
  induction hrun with
  | refl =>
    subst e0
    exact ⟨fun _ => ⟨fun _ => rfl, fun _ => rfl, fun _ => rfl, fun _ => rfl, rfl⟩, fun h => by
      simp [ConvState.start] at h⟩
  | step _ hs ih =>
    obtain ⟨h1, h2⟩ := aloneInv_step (ih e0).1 (ih e0).2 hs
    exact ⟨fun h => by omega, fun _ => h2⟩

/-! ### The number of steps -/

/-- The steps a rank has taken. -/
def ConvState.taken (s : ConvState K T) (r : ℕ) : ℕ :=
  s.pos r + 2 * ((s.share r).length - (s.todo r).length) + (s.half r).toNat

/-- The steps taken altogether. -/
def ConvState.total (c : ConvCfg) (s : ConvState K T) : ℕ :=
  ((List.range (c.nW + 1)).map s.taken).sum

theorem sum_update_succ {f g : ℕ → ℕ} {n r : ℕ} (hr : r < n) (hg : g r = f r + 1)
    (ho : ∀ q, q < n → q ≠ r → g q = f q) :
    ((List.range n).map g).sum = ((List.range n).map f).sum + 1 := by
  induction n with
  | zero => omega
  | succ n ih =>
    rw [List.range_succ, List.map_append, List.map_append, List.sum_append, List.sum_append]
    simp only [List.map_cons, List.map_nil, List.sum_cons, List.sum_nil, Nat.add_zero]
    by_cases e : r = n
    · subst e
      have : (List.range r).map g = (List.range r).map f := List.map_congr_left fun q hq => by
        have := List.mem_range.mp hq
        exact ho q (by omega) (by omega)
      rw [this, hg]; omega
    · rw [ih (by omega) (fun q hq => ho q (by omega)), ho n (by omega) (by omega)]; omega

theorem total_step {c : ConvCfg} {st0 : Store K T} {s s' : ConvState K T}
    (h0 : s.pos 0 = 0 → FreshInv st0 s) (h : 1 ≤ s.pos 0 → AloneInv c st0 s) (hs : ConvStep c s s') :
    s'.total c = s.total c + 1 := by
  have live : ∀ r, s.pos r ≠ 0 → 1 ≤ s.pos 0 := fun r hr => by
    by_contra h'
    exact hr ((h0 (by omega)).pos r)
  cases hs with
  | list l h00 hnd hl =>
    have hf := h0 h00
    refine sum_update_succ (r := 0) (by omega) ?_ fun q _ hq => ?_
    · simp [ConvState.taken, hf.pos, hf.share, hf.todo]; omega
    · simp [ConvState.taken, hf.share, hf.todo, update_of_ne hq]
  | receive r h1 hr hp h01 =>
    refine sum_update_succ (r := r) (by omega) ?_ fun q _ hq => ?_
    · simp [ConvState.taken, hp]; omega
    · simp [ConvState.taken, update_of_ne hq]
  | convert r t ts x hr hp htodo hhalf hx =>
    refine sum_update_succ (r := r) (by omega) ?_ fun q _ hq => ?_
    · simp [ConvState.taken, hhalf]
    · simp [ConvState.taken, update_of_ne hq]
  | convertMax r t ts x mx hr hp htodo hhalf hfile hmx =>
    have hl := ((h (live r (by omega))).suf r hr).length_le
    rw [htodo, List.length_cons] at hl
    refine sum_update_succ (r := r) (by omega) ?_ fun q _ hq => ?_
    · simp [ConvState.taken, hhalf, htodo]; omega
    · simp [ConvState.taken, update_of_ne hq]
  | send r h1 hr hp htodo =>
    refine sum_update_succ (r := r) (by omega) ?_ fun q _ hq => ?_
    · simp [ConvState.taken, hp]; omega
    · simp [ConvState.taken, update_of_ne hq]
  | gather hp htodo hall =>
    refine sum_update_succ (r := 0) (by omega) ?_ fun q _ hq => ?_
    · simp [ConvState.taken, hp]; omega
    · simp [ConvState.taken, update_of_ne hq]

theorem total_run {c : ConvCfg} {st0 : Store K T} {k : ℕ} {s s0 : ConvState K T}
    (e0 : s0 = ConvState.start st0) (hrun : ConvSteps c k s0 s) : s.total c = k := by
  induction hrun with
  | refl =>
    subst e0
    unfold ConvState.total
    rw [List.sum_eq_zero]
    intro x hx
    obtain ⟨r, -, rfl⟩ := List.mem_map.mp hx
    simp [ConvState.taken, ConvState.start]
  | step hr hs ih =>
    obtain ⟨h1, h2⟩ := aloneInv e0 hr
    rw [total_step h1 h2 hs, ih e0]

theorem pos_le {c : ConvCfg} {st0 : Store K T} {k : ℕ} {s s0 : ConvState K T}
    (e0 : s0 = ConvState.start st0) (hrun : ConvSteps c k s0 s) (r : ℕ) : s.pos r ≤ 2 := by
  induction hrun with
  | refl => subst e0; simp [ConvState.start]
  | step _ hs ih =>
    have ih := ih e0
    cases hs <;> (try exact ih) <;> (simp only [update_apply]; split_ifs <;> omega)

theorem half_todo {c : ConvCfg} {st0 : Store K T} {k : ℕ} {s s0 : ConvState K T}
    (e0 : s0 = ConvState.start st0) (hrun : ConvSteps c k s0 s) {r : ℕ} (hr : r ≤ c.nW) :
    (s.half r).toNat ≤ 2 * (s.todo r).length := by
  obtain ⟨h1, h2⟩ := aloneInv e0 hrun
  cases hh : s.half r
  · simp
  · by_cases h : s.pos 0 = 0
    · rw [(h1 h).half] at hh; cases hh
    · obtain ⟨t, ts, x, e, -⟩ := (h2 (by omega)).half r hr hh
      rw [e]; simp; omega

theorem sum_map_le {f g : ℕ → ℕ} {n : ℕ} (h : ∀ r, r < n → f r ≤ g r) :
    ((List.range n).map f).sum ≤ ((List.range n).map g).sum := by
  induction n with
  | zero => simp
  | succ n ih =>
    rw [List.range_succ, List.map_append, List.map_append, List.sum_append, List.sum_append]
    simp only [List.map_cons, List.map_nil, List.sum_cons, List.sum_nil, Nat.add_zero]
    have := ih fun r hr => h r (by omega)
    have := h n (by omega)
    omega

theorem total_le {c : ConvCfg} {st0 : Store K T} {k : ℕ} {s : ConvState K T}
    (hrun : ConvSteps c k (ConvState.start st0) s) :
    k ≤ 2 * (c.nW + 1) + 2 * (s.handed c).length := by
  rw [← total_run rfl hrun]
  have h : s.total c ≤ ((List.range (c.nW + 1)).map fun r => 2 + 2 * (s.share r).length).sum := by
    refine sum_map_le fun r hr => ?_
    have h1 := pos_le rfl hrun r
    have h2 := half_todo rfl hrun (r := r) (by omega)
    obtain ⟨h3, h4⟩ := aloneInv rfl hrun
    have h5 : (s.todo r).length ≤ (s.share r).length := by
      by_cases h : s.pos 0 = 0
      · rw [(h3 h).todo]; simp
      · exact ((h4 (by omega)).suf r (by omega)).length_le
    unfold ConvState.taken
    omega
  refine h.trans (le_of_eq ?_)
  unfold ConvState.handed
  rw [List.length_flatMap]
  generalize c.nW + 1 = n
  induction n with
  | zero => rfl
  | succ n ih =>
    rw [List.range_succ, List.map_append, List.map_append, List.sum_append, List.sum_append, ih]
    simp only [List.map_cons, List.map_nil, List.sum_cons, List.sum_nil, Nat.add_zero]
    omega

end WindMult
