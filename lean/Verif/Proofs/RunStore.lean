import Verif.Spec.Run
import Verif.Props.TempFiles

/-!
# The files of a whole run: lemmas about stores and paths
-/

set_option autoImplicit false
set_option linter.unusedSectionVars false

namespace WindMult
variable {K T : Type}

/-! ### Paths below the output folder -/

theorem pjoin_head {a b : List Char} (hb : b.head? ≠ some '/') : pjoin a b = withSlash a ++ b := by
  unfold pjoin withSlash
  rw [if_neg hb]
  split_ifs <;> simp

theorem below_eq (c : RunCfg K T) : c.below = withSlash c.out := by
  rw [RunCfg.below, pjoin_head (by simp), List.append_nil]

theorem m3_eq (c : RunCfg K T) (t : List Char) :
    c.m3 t = withSlash c.out ++ (['M', '3', '/'] ++ t ++ ['.', 't', 'i', 'f']) := by
  rw [RunCfg.m3, pjoin_head (by simp [m3File])]; rfl

theorem m3Max_eq (c : RunCfg K T) (t : List Char) :
    c.m3Max t = withSlash c.out ++ (['M', '3', '_', 'm', 'a', 'x', '/'] ++ t ++ ['.', 't', 'i', 'f']) := by
  rw [RunCfg.m3Max, pjoin_head (by simp [m3MaxFile])]; rfl

theorem vrt_eq (c : RunCfg K T) : c.vrt = withSlash c.out ++ (['M', '3', '/'] ++ vrtName) := by
  rw [RunCfg.vrt, pjoin_eq (by decide), withSlash_folder _ _ (by decide) (by decide),
    pjoin_eq (by decide)]
  simp

theorem vrtMax_eq (c : RunCfg K T) :
    c.vrtMax = withSlash c.out ++ (['M', '3', '_', 'm', 'a', 'x', '/'] ++ vrtName) := by
  rw [RunCfg.vrtMax, pjoin_eq (by decide), withSlash_folder _ _ (by decide) (by decide),
    pjoin_eq (by decide)]
  simp

theorem shieldFile_eq (c : RunCfg K T) {f : List Char} (hf : '/' ∉ f) :
    pjoin c.shieldDir f = withSlash c.out ++ (Mult.ms.folder ++ '/' :: f) := by
  rw [RunCfg.shieldDir, pjoin_eq hf, withSlash_folder _ _ (by decide) (by decide),
    pjoin_eq (by decide)]
  simp

/-- The path of a tile below the output folder: it does not start with `M`, unless there is no slash
in it. -/
theorem owned_below {out t p : List Char} (ho : ¬ ['/', '/'] <:+ out) (h : Owned out t p) :
    ∃ q, p = withSlash out ++ q ∧ ('/' ∉ q ∨ q.head? = some 's' ∨ q.head? = some 't') := by
  obtain ⟨ht, h | h | h | ⟨d, m, h⟩⟩ := h
  · exact ⟨_, h.trans (demTemp_eq ht.1), .inl (notMem_append ht.1 (by decide))⟩
  · exact ⟨_, h.trans (landTemp_eq ht.1), .inl (notMem_append ht.1 (by decide))⟩
  · exact ⟨_, h.trans (shieldTemp_rel ho ht), .inr (.inl (by simp))⟩
  · refine ⟨_, h.trans (savedNc_rel ho ht d m), .inr ?_⟩
    cases m <;> simp [Mult.folder]

theorem owned_prefix {out t p : List Char} (ho : ¬ ['/', '/'] <:+ out) (h : Owned out t p) :
    withSlash out <+: p := by
  obtain ⟨q, rfl, -⟩ := owned_below ho h
  exact List.prefix_append _ _

theorem not_owned_of_M {out t q : List Char} (ho : ¬ ['/', '/'] <:+ out) (hs : '/' ∈ q)
    (hM : q.head? = some 'M') : ¬ Owned out t (withSlash out ++ q) := by
  intro h
  obtain ⟨q', e, h⟩ := owned_below ho h
  have e := List.append_cancel_left e
  subst e
  rcases h with h | h | h
  · exact h hs
  · rw [hM] at h; simp at h
  · rw [hM] at h; simp at h

theorem m3_not_owned (c : RunCfg K T) (ho : ¬ ['/', '/'] <:+ c.out) (t t' : List Char) :
    ¬ Owned c.out t' (c.m3 t) := by
  rw [m3_eq]; exact not_owned_of_M ho (by simp) (by simp)

theorem m3Max_not_owned (c : RunCfg K T) (ho : ¬ ['/', '/'] <:+ c.out) (t t' : List Char) :
    ¬ Owned c.out t' (c.m3Max t) := by
  rw [m3Max_eq]; exact not_owned_of_M ho (by simp) (by simp)

theorem vrt_not_owned (c : RunCfg K T) (ho : ¬ ['/', '/'] <:+ c.out) (t' : List Char) :
    ¬ Owned c.out t' c.vrt := by
  rw [vrt_eq]; exact not_owned_of_M ho (by simp) (by simp)

theorem vrtMax_not_owned (c : RunCfg K T) (ho : ¬ ['/', '/'] <:+ c.out) (t' : List Char) :
    ¬ Owned c.out t' c.vrtMax := by
  rw [vrtMax_eq]; exact not_owned_of_M ho (by simp) (by simp)

theorem m3_inj (c : RunCfg K T) {t t' : List Char} (h : c.m3 t = c.m3 t') : t = t' := by
  rw [m3_eq, m3_eq] at h
  have h := List.append_cancel_left h
  simpa using h

theorem m3Max_inj (c : RunCfg K T) {t t' : List Char} (h : c.m3Max t = c.m3Max t') : t = t' := by
  rw [m3Max_eq, m3Max_eq] at h
  have h := List.append_cancel_left h
  simpa using h

theorem m3_ne_m3Max (c : RunCfg K T) (t t' : List Char) : c.m3 t ≠ c.m3Max t' := by
  rw [m3_eq, m3Max_eq]
  intro h
  have h := List.append_cancel_left h
  simp at h

theorem tif_ne_vrtName (t : List Char) : t ++ ['.', 't', 'i', 'f'] ≠ vrtName := by
  intro h
  have := congrArg List.getLast? h
  have e : t ++ ['.', 't', 'i', 'f'] = (t ++ ['.', 't', 'i']) ++ ['f'] := by simp
  rw [e, List.getLast?_concat] at this
  exact absurd this (by decide)

theorem m3_ne_vrt (c : RunCfg K T) (t : List Char) : c.m3 t ≠ c.vrt ∧ c.m3 t ≠ c.vrtMax := by
  rw [m3_eq, vrt_eq, vrtMax_eq]
  constructor
  · intro h
    have h := List.append_cancel_left h
    rw [List.append_assoc] at h
    exact tif_ne_vrtName t (List.append_cancel_left h)
  · intro h
    have h := List.append_cancel_left h
    simp at h

theorem m3Max_ne_vrt (c : RunCfg K T) (t : List Char) :
    c.m3Max t ≠ c.vrt ∧ c.m3Max t ≠ c.vrtMax := by
  rw [m3Max_eq, vrt_eq, vrtMax_eq]
  constructor
  · intro h
    have h := List.append_cancel_left h
    simp at h
  · intro h
    have h := List.append_cancel_left h
    rw [List.append_assoc] at h
    exact tif_ne_vrtName t (List.append_cancel_left h)

theorem vrt_ne_vrtMax (c : RunCfg K T) : c.vrt ≠ c.vrtMax := by
  rw [vrt_eq, vrtMax_eq]
  intro h
  have h := List.append_cancel_left h
  simp at h

theorem savedNc_inj {out t : List Char} (ho : ¬ ['/', '/'] <:+ out) (ht : TileName t) {d d' : Dir}
    {m m' : Mult} (e : savedNc out t d m = savedNc out t d' m') : d = d' ∧ m = m' := by
  have hmd : metaDirection (savedNc out t d m) = metaDirection (savedNc out t d' m') := by rw [e]
  rw [savedNc_rel ho ht, savedNc_rel ho ht] at e
  have e := List.append_cancel_left e
  rw [savedNc_eq_openedNc ho ht, savedNc_eq_openedNc ho ht, metaDirection_opened ht,
    metaDirection_opened ht] at hmd
  constructor
  · revert hmd; cases d <;> cases d' <;> decide
  · cases m <;> cases m' <;> first | rfl | simp [Mult.folder] at e

theorem written_saved (c : RunCfg K T) (ho : ¬ ['/', '/'] <:+ c.out) {t : List Char}
    (ht : TileName t) (d : Dir) (m : Mult) :
    c.written t (savedNc c.out t d m) = .mult (c.files t m d) := by
  unfold RunCfg.written
  split
  · rename_i m' d' h
    have := List.find?_some h
    obtain ⟨rfl, rfl⟩ := savedNc_inj ho ht (of_decide_eq_true this)
    rfl
  · rename_i h
    rw [List.find?_eq_none] at h
    refine absurd (decide_eq_true rfl) (h (m, d) ?_)
    clear h
    cases m <;> cases d <;> decide

/-! ### Operations with and without contents -/

/-- The paths that are files. -/
def Store.there (st : Store K T) : FileSys := fun p => (st p).isSome

theorem exec_there (w : List Char → Content K T) (st : Store K T) (a : FileOp) :
    a.run st.there = (a.exec w st).map Store.there := by
  cases a with
  | create p =>
    simp only [FileOp.run, FileOp.exec, Except.map, Except.ok.injEq]
    funext q
    simp only [Store.there, Function.update_apply]
    split_ifs <;> rfl
  | remove p =>
    by_cases h : (st p).isSome = true
    · have h' : st.there p = true := h
      simp only [FileOp.run, FileOp.exec, if_pos h, if_pos h', Except.map, Except.ok.injEq]
      funext q
      simp only [Store.there, Function.update_apply]
      split_ifs <;> rfl
    · have h' : ¬ st.there p = true := h
      simp only [FileOp.run, FileOp.exec, if_neg h, if_neg h', Except.map]
  | removeIfThere p =>
    simp only [FileOp.run, FileOp.exec, Except.map, Except.ok.injEq]
    funext q
    simp only [Store.there, Function.update_apply]
    split_ifs <;> rfl
  | expect p =>
    by_cases h : (st p).isSome = true
    · have h' : st.there p = true := h
      simp only [FileOp.run, FileOp.exec, if_pos h, if_pos h', Except.map]
    · have h' : ¬ st.there p = true := h
      simp only [FileOp.run, FileOp.exec, if_neg h, if_neg h', Except.map]
  | removeXml dir =>
    simp only [FileOp.run, FileOp.exec, Except.map, Except.ok.injEq]
    funext q
    simp only [Store.there]
    split_ifs <;> rfl

/-- A sequence of operations. -/
def execAll (w : List Char → Content K T) : Store K T → List FileOp → Except PyErr (Store K T)
  | st, [] => .ok st
  | st, a :: as =>
    match a.exec w st with
    | .error e => .error e
    | .ok st' => execAll w st' as

theorem execAll_there (w : List Char → Content K T) (st : Store K T) (as : List FileOp) :
    runOps st.there as = (execAll w st as).map Store.there := by
  induction as generalizing st with
  | nil => rfl
  | cons a as ih =>
    simp only [runOps, execAll]
    rw [exec_there w st a]
    match a.exec w st with
    | .error e => rfl
    | .ok st' => exact ih st'

theorem execAll_append (w : List Char → Content K T) (st : Store K T) (as bs : List FileOp) :
    execAll w st (as ++ bs) = match execAll w st as with
      | .error e => .error e
      | .ok g => execAll w g bs := by
  induction as generalizing st with
  | nil => rfl
  | cons a as ih =>
    simp only [List.cons_append, execAll]
    match a.exec w st with
    | .error e => rfl
    | .ok st' => exact ih st'

theorem exec_content {w : List Char → Content K T} {st st' : Store K T} {a : FileOp}
    (h : a.exec w st = .ok st') (p : List Char) :
    st' p = none ∨ st' p = st p ∨ st' p = some (w p) := by
  cases a with
  | create q =>
    cases h
    simp only [Function.update_apply]
    split_ifs with e
    · subst e; simp
    · simp
  | remove q =>
    simp only [FileOp.exec] at h
    split_ifs at h
    cases h
    simp only [Function.update_apply]
    split_ifs <;> simp
  | removeIfThere q =>
    cases h
    simp only [Function.update_apply]
    split_ifs <;> simp
  | expect q =>
    simp only [FileOp.exec] at h
    split_ifs at h
    cases h
    simp
  | removeXml dir =>
    cases h
    dsimp only
    split_ifs <;> simp

theorem execAll_content {w : List Char → Content K T} {as : List FileOp} :
    ∀ {st st' : Store K T}, execAll w st as = .ok st' → ∀ p,
      st' p = none ∨ st' p = st p ∨ st' p = some (w p) := by
  induction as with
  | nil => intro st st' h p; cases h; simp
  | cons a as ih =>
    intro st st' h p
    simp only [execAll] at h
    match hr : a.exec w st with
    | .error e => rw [hr] at h; cases h
    | .ok f =>
      rw [hr] at h
      rcases ih h p with h1 | h1 | h1
      · exact .inl h1
      · rw [h1]; exact exec_content hr p
      · exact .inr (.inr h1)

/-! ### The operations of one tile -/

open Classical in
/-- What a tile leaves at the paths that belong to it. -/
noncomputable def RunCfg.left (c : RunCfg K T) (t p : List Char) : Option (Content K T) :=
  if ∃ d m, p = savedNc c.out t d m ∧ Leaves (c.empty t) (c.noLand t) m then some (c.written t p)
  else none

theorem left_saved (c : RunCfg K T) (ho : ¬ ['/', '/'] <:+ c.out) {t : List Char}
    (ht : TileName t) (d : Dir) (m : Mult) :
    c.left t (savedNc c.out t d m) = (c.seen t m d).map .mult := by
  unfold RunCfg.left RunCfg.seen
  by_cases h : Leaves (c.empty t) (c.noLand t) m
  · rw [if_pos ⟨d, m, rfl, h⟩, written_saved c ho ht, if_pos (show _ ∧ _ from h)]; rfl
  · rw [if_neg, if_neg (show ¬ (_ ∧ _) from h)]
    · rfl
    · rintro ⟨d', m', e, h'⟩
      obtain ⟨rfl, rfl⟩ := savedNc_inj ho ht e
      exact h h'

theorem ops_alone (c : RunCfg K T) (ho : ¬ ['/', '/'] <:+ c.out) {t : List Char} (ht : TileName t)
    {st : Store K T} (hfresh : ∀ p, Owned c.out t p → st p = none) :
    ∃ g, execAll (c.written t) st (c.ops t) = .ok g ∧ ∀ p, Owned c.out t p → g p = c.left t p := by
  obtain ⟨f, h1, h2⟩ := tileOps_alone ho ht (c.empty t) (c.noLand t) st.there
    (fun p hp => by rw [Store.there, hfresh p hp]; rfl)
  rw [show tileOps c.out t (c.empty t) (c.noLand t) = c.ops t from rfl,
    execAll_there (c.written t)] at h1
  match hr : execAll (c.written t) st (c.ops t) with
  | .error e => rw [hr] at h1; cases h1
  | .ok g =>
    rw [hr] at h1
    simp only [Except.map, Except.ok.injEq] at h1
    subst h1
    refine ⟨g, rfl, ?_⟩
    intro p hp
    have h2 := h2 p hp
    unfold RunCfg.left
    split_ifs with hc
    · have h3 := h2.mpr hc
      simp only [Store.there] at h3
      rcases execAll_content hr p with h | h | h
      · rw [h] at h3; cases h3
      · rw [h, hfresh p hp] at h3; cases h3
      · exact h
    · have h3 : g.there p ≠ true := fun h => hc (h2.mp h)
      simpa [Store.there] using h3

/-- The operation concerns a path of the tile, or removes the `.xml` files of the shielding folder. -/
def OpOk (out t : List Char) : FileOp → Prop
  | .create p => Owned out t p
  | .remove p => Owned out t p
  | .removeIfThere p => Owned out t p
  | .expect p => Owned out t p
  | .removeXml dir => dir = dirname (shieldTemp (landTemp out t))

theorem ops_ok {out t : List Char} (ht : TileName t) (empty noLand : Bool) :
    ∀ a ∈ tileOps out t empty noLand, OpOk out t a := by
  have odem : Owned out t (demTemp out t) := ⟨ht, .inl rfl⟩
  have oland : Owned out t (landTemp out t) := ⟨ht, .inr (.inl rfl)⟩
  have ost : Owned out t (shieldTemp (landTemp out t)) := ⟨ht, .inr (.inr (.inl rfl))⟩
  have onc : ∀ d m, Owned out t (savedNc out t d m) := fun d m =>
    ⟨ht, .inr (.inr (.inr ⟨d, m, rfl⟩))⟩
  have omap : ∀ (l : List Dir) (m : Mult), ∀ a ∈ l.map (fun d => FileOp.create (savedNc out t d m)),
      OpOk out t a := by
    intro l m a ha
    obtain ⟨d, -, rfl⟩ := List.mem_map.mp ha
    exact onc d m
  intro a ha
  simp only [tileOps, List.mem_cons] at ha
  rcases ha with rfl | rfl | ha
  · exact odem
  · exact odem
  · cases empty with
    | true =>
      simp only [↓reduceIte, List.mem_singleton] at ha
      subst ha
      exact odem
    | false =>
      simp only [Bool.false_eq_true, ↓reduceIte, List.mem_append, List.mem_cons,
        List.not_mem_nil, or_false] at ha
      rcases ha with ((((((rfl | rfl) | ha) | (rfl | rfl | rfl | rfl)) | ha) | (rfl | rfl | rfl)) |
        ha) | (rfl | rfl)
      · exact oland
      · exact oland
      · cases noLand with
        | true => simp at ha
        | false =>
          simp only [Bool.false_eq_true, ↓reduceIte] at ha
          exact omap _ _ a ha
      · exact odem
      · exact oland
      · exact ost
      · exact ost
      · exact omap _ _ a ha
      · exact ost
      · exact rfl
      · exact odem
      · exact omap _ _ a ha
      · exact odem
      · exact oland

/-- The `.xml` files a tile removes lie below the output folder. -/
theorem xml_below {out t p : List Char} (ho : ¬ ['/', '/'] <:+ out) (ht : TileName t)
    (h : isXmlIn (dirname (shieldTemp (landTemp out t))) p = true) : withSlash out <+: p := by
  have hn : '/' ∉ t ++ ['_', 'm', 's', '.', 'i', 'm', 'g'] := notMem_append ht.1 (by decide)
  have e : shieldTemp (landTemp out t) = withSlash (withSlash out ++ ['s', 'h', 'i', 'e', 'l', 'd', 'i', 'n', 'g']) ++
      (t ++ ['_', 'm', 's', '.', 'i', 'm', 'g']) := by
    rw [shieldTemp_rel ho ht, ← pjoin_eq (a := out) (b := ['s', 'h', 'i', 'e', 'l', 'd', 'i', 'n', 'g']) (by decide),
      withSlash_folder _ _ (by simp) (by decide), pjoin_eq (by decide)]
    simp
  have hs : ¬ ['/', '/'] <:+ withSlash out ++ ['s', 'h', 'i', 'e', 'l', 'd', 'i', 'n', 'g'] := by
    rintro ⟨y, hy⟩
    have := congrArg List.getLast? hy
    simp at this
  have hd := dirname_withSlash hn hs
  rw [← e] at hd
  have e2 : withSlash (withSlash out ++ ['s', 'h', 'i', 'e', 'l', 'd', 'i', 'n', 'g']) =
      withSlash out ++ ['s', 'h', 'i', 'e', 'l', 'd', 'i', 'n', 'g', '/'] := by
    rw [withSlash, if_neg (by simp)]; simp
  rw [e2] at hd
  have hpre : withSlash out <+: dirname (shieldTemp (landTemp out t)) ++ ['/'] := by
    generalize dirname (shieldTemp (landTemp out t)) = x at hd
    generalize withSlash out = y at hd
    unfold withSlash at hd
    split_ifs at hd with hx
    · rw [hd, List.append_assoc]; exact List.prefix_append _ _
    · rw [hd]; exact List.prefix_append _ _
  simp only [isXmlIn, Bool.and_eq_true, List.isPrefixOf_iff_prefix] at h
  exact hpre.trans h.1

/-- An operation of a tile behaves the same on stores that agree on the paths of the tile. -/
theorem exec_local {out t : List Char} (ho : ¬ ['/', '/'] <:+ out) {w : List Char → Content K T}
    {a : FileOp} (ha : OpOk out t a) {st g st' : Store K T}
    (hag : ∀ p, Owned out t p → st p = g p) (h : a.exec w st = .ok st') :
    ∃ g', a.exec w g = .ok g' ∧ ∀ p, Owned out t p → st' p = g' p := by
  cases a with
  | create q =>
    cases h
    refine ⟨_, rfl, fun p hp => ?_⟩
    simp only [Function.update_apply, hag p hp]
  | remove q =>
    simp only [FileOp.exec] at h ⊢
    split_ifs at h with hc
    cases h
    rw [hag q ha] at hc
    rw [if_pos hc]
    refine ⟨_, rfl, fun p hp => ?_⟩
    simp only [Function.update_apply, hag p hp]
  | removeIfThere q =>
    cases h
    refine ⟨_, rfl, fun p hp => ?_⟩
    simp only [Function.update_apply, hag p hp]
  | expect q =>
    simp only [FileOp.exec] at h ⊢
    split_ifs at h with hc
    cases h
    rw [hag q ha] at hc
    rw [if_pos hc]
    exact ⟨g, rfl, hag⟩
  | removeXml dir =>
    cases h
    refine ⟨_, rfl, fun p hp => ?_⟩
    simp only [owned_not_xml ho hp dir, hag p hp]

/-- An operation of a tile leaves other paths alone, apart from `.xml` files below the output
folder. -/
theorem exec_other {out t : List Char} (ho : ¬ ['/', '/'] <:+ out) (ht : TileName t)
    {w : List Char → Content K T} {a : FileOp} (ha : OpOk out t a) {st st' : Store K T}
    (h : a.exec w st = .ok st') {p : List Char} (hp : ¬ Owned out t p) :
    st' p = st p ∨ (st' p = none ∧ withSlash out <+: p ∧ isXmlIn (dirname (shieldTemp (landTemp out t))) p = true) := by
  cases a with
  | create q =>
    cases h
    left
    simp only [Function.update_apply]
    exact if_neg (by rintro rfl; exact hp ha)
  | remove q =>
    simp only [FileOp.exec] at h
    split_ifs at h with hc
    cases h
    left
    simp only [Function.update_apply]
    exact if_neg (by rintro rfl; exact hp ha)
  | removeIfThere q =>
    cases h
    left
    simp only [Function.update_apply]
    exact if_neg (by rintro rfl; exact hp ha)
  | expect q =>
    simp only [FileOp.exec] at h
    split_ifs at h with hc
    cases h
    exact .inl rfl
  | removeXml dir =>
    cases h
    dsimp only
    split_ifs with hx
    · have hd : dir = dirname (shieldTemp (landTemp out t)) := ha
      subst hd
      exact .inr ⟨rfl, xml_below ho ht hx, hx⟩
    · exact .inl rfl

/-! ### All tiles -/

/-- The store while the tiles are processed: each tile's paths are as if it was processed alone, up
to the operations still to be done; everything else is as in the beginning. -/
structure TileStore (c : RunCfg K T) (st1 : Store K T) (rem : List Char → List FileOp)
    (st : Store K T) : Prop where
  own : ∀ t ∈ c.tiles, ∃ done g, done ++ rem t = c.ops t ∧
    execAll (c.written t) st1 done = .ok g ∧ ∀ p, Owned c.out t p → st p = g p
  rest : ∀ p, (∀ t ∈ c.tiles, ¬ Owned c.out t p) → st p = st1 p

theorem tileStore_start (c : RunCfg K T) (st1 : Store K T) : TileStore c st1 c.ops st1 :=
  ⟨fun _ _ => ⟨[], st1, rfl, rfl, fun _ _ => rfl⟩, fun _ _ => rfl⟩

theorem tileStore_step {c : RunCfg K T} (hc : c.Good) {st1 : Store K T}
    (h1 : ∀ p, withSlash c.out <+: p → st1 p = none) {rem : List Char → List FileOp}
    {st st' : Store K T} (h : TileStore c st1 rem st) {t : List Char} (ht : t ∈ c.tiles) {o : FileOp}
    {os : List FileOp} (hrem : rem t = o :: os) (hex : o.exec (c.written t) st = .ok st') :
    TileStore c st1 (Function.update rem t os) st' := by
  have hname := hc.names t ht
  have hok : OpOk c.out t o := by
    obtain ⟨done, -, hd, -⟩ := h.own t ht
    refine ops_ok hname (c.empty t) (c.noLand t) o ?_
    show o ∈ c.ops t
    rw [← hd, hrem]; simp
  constructor
  · intro t' ht'
    by_cases e : t' = t
    · subst e
      obtain ⟨done, g, hd, hg, hag⟩ := h.own t' ht'
      obtain ⟨g', hg', hag'⟩ := exec_local hc.out hok hag hex
      refine ⟨done ++ [o], g', ?_, ?_, hag'⟩
      · rw [Function.update_self, List.append_assoc, ← hd, hrem]; rfl
      · rw [execAll_append, hg]
        simp only [execAll, hg']
    · obtain ⟨done, g, hd, hg, hag⟩ := h.own t' ht'
      refine ⟨done, g, by rw [Function.update_of_ne e]; exact hd, hg, ?_⟩
      intro p hp
      have hnp : ¬ Owned c.out t p := fun hp' => e (owned_unique hc.out hp hp')
      rcases exec_other hc.out hname hok hex hnp with h2 | ⟨-, -, h2⟩
      · rw [h2, hag p hp]
      · rw [owned_not_xml hc.out hp] at h2; cases h2
  · intro p hp
    rcases exec_other hc.out hname hok hex (hp t ht) with h2 | ⟨h2, h3, -⟩
    · rw [h2, h.rest p hp]
    · rw [h2, h1 p h3]

theorem tileStore_progress {c : RunCfg K T} (hc : c.Good) {st1 : Store K T}
    (h1 : ∀ p, withSlash c.out <+: p → st1 p = none) {rem : List Char → List FileOp}
    {st : Store K T} (h : TileStore c st1 rem st) {t : List Char} (ht : t ∈ c.tiles) {o : FileOp}
    {os : List FileOp} (hrem : rem t = o :: os) : ∃ st', o.exec (c.written t) st = .ok st' := by
  have hname := hc.names t ht
  obtain ⟨done, g, hd, hg, hag⟩ := h.own t ht
  have hok : OpOk c.out t o := by
    refine ops_ok hname (c.empty t) (c.noLand t) o ?_
    show o ∈ c.ops t
    rw [← hd, hrem]; simp
  obtain ⟨f, hf, -⟩ := ops_alone c hc.out hname (st := st1)
    (fun p hp => h1 p (owned_prefix hc.out hp))
  rw [← hd, hrem, execAll_append, hg] at hf
  simp only [execAll] at hf
  match hr : o.exec (c.written t) g with
  | .error e => rw [hr] at hf; cases hf
  | .ok g' =>
    obtain ⟨st', hst', -⟩ := exec_local hc.out hok (fun p hp => (hag p hp).symm) hr
    exact ⟨st', hst'⟩

theorem tileStore_end {c : RunCfg K T} (hc : c.Good) {st1 : Store K T}
    (h1 : ∀ p, withSlash c.out <+: p → st1 p = none) {rem : List Char → List FileOp}
    {st : Store K T} (h : TileStore c st1 rem st) {t : List Char} (ht : t ∈ c.tiles)
    (hrem : rem t = []) : ∀ p, Owned c.out t p → st p = c.left t p := by
  have hname := hc.names t ht
  obtain ⟨done, g, hd, hg, hag⟩ := h.own t ht
  obtain ⟨f, hf, hf'⟩ := ops_alone c hc.out hname (st := st1)
    (fun p hp => h1 p (owned_prefix hc.out hp))
  rw [hrem, List.append_nil] at hd
  subst hd
  rw [hg] at hf
  cases hf
  intro p hp
  rw [hag p hp, hf' p hp]

/-- The tiles listed for conversion are the non-empty ones. -/
theorem listed_iff {c : RunCfg K T} (hc : c.Good) {st : Store K T}
    (hown : ∀ t ∈ c.tiles, ∀ p, Owned c.out t p → st p = c.left t p)
    (hrest : ∀ p, (∀ t ∈ c.tiles, ¬ Owned c.out t p) → withSlash c.out <+: p → st p = none)
    (t : List Char) :
    (∃ f, f ≠ [] ∧ '/' ∉ f ∧ st (pjoin c.shieldDir f) ≠ none ∧ tileOfFile f = t) ↔
      t ∈ c.tiles ∧ c.empty t = false := by
  constructor
  · rintro ⟨f, -, hf, hst, rfl⟩
    rw [shieldFile_eq c hf] at hst
    by_cases ho : ∃ t' ∈ c.tiles, Owned c.out t' (withSlash c.out ++ (Mult.ms.folder ++ '/' :: f))
    · obtain ⟨t', ht', ho⟩ := ho
      rw [hown t' ht' _ ho] at hst
      unfold RunCfg.left at hst
      split_ifs at hst with h
      · obtain ⟨d, m, e, hl⟩ := h
        rw [savedNc_rel hc.out (hc.names t' ht')] at e
        have e := List.append_cancel_left e
        have hm : m = .ms := by
          cases m <;> first | rfl | simp [Mult.folder] at e
        subst hm
        have e := List.append_cancel_left e
        simp only [List.cons.injEq, true_and] at e
        subst e
        rw [tileOfFile_opened (hc.names t' ht').2.1]
        exact ⟨ht', hl.1⟩
      · exact absurd rfl hst
    · push Not at ho
      exact absurd (hrest _ ho (List.prefix_append _ _)) hst
  · rintro ⟨ht, he⟩
    have hn := hc.names t ht
    refine ⟨openedName t .n .ms, ?_, openedName_noSlash hn.1 _ _, ?_, tileOfFile_opened hn.2.1 _ _⟩
    · simp [openedName]
    · rw [shieldFile_eq c (openedName_noSlash hn.1 _ _), ← savedNc_rel hc.out hn,
        hown t ht _ ⟨hn, .inr (.inr (.inr ⟨_, _, rfl⟩))⟩, left_saved c hc.out hn]
      simp [RunCfg.seen, he]

/-- What the converter reads. -/
theorem readMult_left {c : RunCfg K T} (hc : c.Good) {st : Store K T} {t : List Char}
    (ht : t ∈ c.tiles) (hown : ∀ p, Owned c.out t p → st p = c.left t p) (m : Mult) (d : Dir) :
    readMult st (openedNc c.out t d m) = c.seen t m d := by
  have hn := hc.names t ht
  rw [readMult, ← savedNc_eq_openedNc hc.out hn, hown _ ⟨hn, .inr (.inr (.inr ⟨_, _, rfl⟩))⟩,
    left_saved c hc.out hn]
  cases c.seen t m d <;> rfl

end WindMult
