import Verif.Model.Cwd
import Verif.Props.TempFiles

/-!
# C76: the working directory and the output directory
-/

set_option autoImplicit false

namespace WindMult

theorem slashed_eq (a : List Char) : slashed a = withSlash a := rfl

theorem runCwd_append (dirs : List Char → Bool) (s : CwdState) (as bs : List CwdOp) :
    runCwd dirs s (as ++ bs) =
      match runCwd dirs s as with
      | .error e => .error e
      | .ok s' => runCwd dirs s' bs := by
  induction as generalizing s with
  | nil => rfl
  | cons a as ih =>
    simp only [List.cons_append, runCwd]
    cases a.run dirs s with
    | error e => rfl
    | ok s' => exact ih s'

/-! ### Absolute output directory -/

theorem pjoin_abs {cwd p : List Char} (h : p.head? = some '/') : pjoin cwd p = p := by
  unfold pjoin; rw [if_pos h]

/-- All paths of the operation are absolute, and it creates files in existing directories only. -/
def FileOp.Abs (dirs : List Char → Bool) : FileOp → Prop
  | .create p => p.head? = some '/' ∧ dirs (dirHead p) = true
  | .remove p => p.head? = some '/'
  | .removeIfThere p => p.head? = some '/'
  | .expect p => p.head? = some '/'
  | .removeXml d => d.head? = some '/' ∧ dirs (slashed d) = true

theorem runCwd_abs (dirs : List Char → Bool) (as : List FileOp) (h : ∀ a ∈ as, a.Abs dirs)
    (s : CwdState) :
    (∀ e, runOps s.files as = .error e → runCwd dirs s (as.flatMap FileOp.toCwd) = .error e) ∧
    ∀ g, runOps s.files as = .ok g →
      ∃ c, runCwd dirs s (as.flatMap FileOp.toCwd) = .ok ⟨c, g⟩ := by
  induction as generalizing s with
  | nil =>
    refine ⟨fun e he => ?_, fun g hg => ?_⟩
    · simp [runOps] at he
    · simp only [runOps, Except.ok.injEq] at hg
      exact ⟨s.cwd, by rw [← hg]; rfl⟩
  | cons a as ih =>
    have iht := fun s => ih (fun b hb => h b (List.mem_cons_of_mem _ hb)) s
    have ha := h a (by simp)
    have step : ∀ (b : FileOp), b.at s.cwd = b → b.newIn.any (fun d => !dirs d) = false →
        b.toCwd = [.file b] →
        (∀ e, runOps s.files (b :: as) = .error e →
          runCwd dirs s ((b :: as).flatMap FileOp.toCwd) = .error e) ∧
        ∀ g, runOps s.files (b :: as) = .ok g →
          ∃ c, runCwd dirs s ((b :: as).flatMap FileOp.toCwd) = .ok ⟨c, g⟩ := by
      intro b h1 h2 h3
      simp only [List.flatMap_cons, h3, List.singleton_append, runCwd, CwdOp.run, h1, h2, runOps,
        Bool.false_eq_true, ↓reduceIte]
      cases b.run s.files with
      | error e =>
        refine ⟨fun e' he => ?_, fun g hg => by cases hg⟩
        cases he
        rfl
      | ok f => exact iht ⟨s.cwd, f⟩
    cases a with
    | create p =>
      refine step _ ?_ ?_ rfl
      · simp only [FileOp.at, pjoin_abs ha.1]
      · simp [FileOp.newIn, ha.2]
    | remove p => exact step _ (by simp only [FileOp.at, pjoin_abs ha]) rfl rfl
    | removeIfThere p => exact step _ (by simp only [FileOp.at, pjoin_abs ha]) rfl rfl
    | expect p => exact step _ (by simp only [FileOp.at, pjoin_abs ha]) rfl rfl
    | removeXml d =>
      simp only [List.flatMap_cons, FileOp.toCwd, List.cons_append, List.nil_append, runCwd,
        CwdOp.run, pjoin_abs ha.1, ha.2, runOps, FileOp.run, ↓reduceIte]
      exact iht ⟨d, _⟩

theorem dirHead_cons {a b : List Char} (hb : '/' ∉ b) : dirHead (a ++ '/' :: b) = a ++ ['/'] := by
  have : a ++ '/' :: b = withSlash (a ++ ['/']) ++ b := by
    have : withSlash (a ++ ['/']) = a ++ ['/'] := by unfold withSlash; rw [if_pos]; simp
    rw [this]; simp
  rw [this, dirHead_withSlash hb]
  unfold withSlash; rw [if_pos]; simp

/-- The directories prepared for a run (C68): the output directory and its result folders. -/
def Prepared (dirs : List Char → Bool) (out : List Char) : Prop :=
  dirs (slashed out) = true ∧ ∀ m : Mult, dirs (slashed out ++ m.folder ++ ['/']) = true

theorem head_withSlash_append {out q : List Char} (h : out.head? = some '/') :
    (withSlash out ++ q).head? = some '/' := by
  cases out with
  | nil => cases h
  | cons c cs =>
    unfold withSlash
    split_ifs <;> simpa using h

theorem shield_dir {out t : List Char} (ho : ¬ ['/', '/'] <:+ out) (ht : TileName t) :
    withSlash (dirname (shieldTemp (landTemp out t))) =
      withSlash out ++ Mult.ms.folder ++ ['/'] := by
  have hm : '/' ∉ t ++ ['_', 'm', 's', '.', 'i', 'm', 'g'] := notMem_append ht.1 (by decide)
  have hw : withSlash (pjoin out Mult.ms.folder) = withSlash out ++ Mult.ms.folder ++ ['/'] := by
    rw [withSlash_folder _ _ (by decide) (by decide), pjoin_eq (by decide)]
  have e : shieldTemp (landTemp out t) =
      withSlash (pjoin out Mult.ms.folder) ++ (t ++ ['_', 'm', 's', '.', 'i', 'm', 'g']) := by
    rw [shieldTemp_rel ho ht, hw]
    simp [Mult.folder]
  rw [e, dirname_withSlash hm (not_two_slashes_folder _ _ (by decide) (by decide)), hw]

theorem tileOps_abs {dirs : List Char → Bool} {out : List Char} (ho : ¬ ['/', '/'] <:+ out)
    (habs : out.head? = some '/') (hp : Prepared dirs out) {t : List Char} (ht : TileName t)
    (empty noLand : Bool) : ∀ a ∈ tileOps out t empty noLand, a.Abs dirs := by
  have hdem : '/' ∉ t ++ ['_', 'd', 'e', 'm', '.', 'i', 'm', 'g'] := notMem_append ht.1 (by decide)
  have hland : '/' ∉ t ++ ['.', 'i', 'm', 'g'] := notMem_append ht.1 (by decide)
  have hst : '/' ∉ t ++ ['_', 'm', 's', '.', 'i', 'm', 'g'] := notMem_append ht.1 (by decide)
  have adem : (demTemp out t).head? = some '/' := by
    rw [demTemp_eq ht.1]; exact head_withSlash_append habs
  have aland : (landTemp out t).head? = some '/' := by
    rw [landTemp_eq ht.1]; exact head_withSlash_append habs
  have ast : (shieldTemp (landTemp out t)).head? = some '/' := by
    rw [shieldTemp_rel ho ht]; exact head_withSlash_append habs
  have ddem : dirs (dirHead (demTemp out t)) = true := by
    rw [demTemp_eq ht.1, dirHead_withSlash hdem]; exact hp.1
  have dland : dirs (dirHead (landTemp out t)) = true := by
    rw [landTemp_eq ht.1, dirHead_withSlash hland]; exact hp.1
  have dst : dirs (dirHead (shieldTemp (landTemp out t))) = true := by
    have := hp.2 .ms
    rw [shieldTemp_rel ho ht, ← List.append_assoc, dirHead_cons hst]
    exact this
  have anc : ∀ (l : List Dir) (m : Mult),
      ∀ a ∈ l.map (fun d => FileOp.create (savedNc out t d m)), a.Abs dirs := by
    intro l m a ha
    obtain ⟨d, -, rfl⟩ := List.mem_map.mp ha
    have := hp.2 m
    constructor
    · rw [savedNc_rel ho ht]; exact head_withSlash_append habs
    · rw [savedNc_rel ho ht, ← List.append_assoc, dirHead_cons (openedName_noSlash ht.1 d m)]
      exact this
  have hx : (FileOp.removeXml (dirname (shieldTemp (landTemp out t)))).Abs dirs := by
    have e := shield_dir ho ht
    constructor
    · have h1 : (withSlash (dirname (shieldTemp (landTemp out t)))).head? = some '/' := by
        rw [e, List.append_assoc]; exact head_withSlash_append habs
      generalize dirname (shieldTemp (landTemp out t)) = z at h1
      unfold withSlash at h1
      split_ifs at h1 with hc
      · exact h1
      · cases z with
        | nil => simp at hc
        | cons c z => simpa using h1
    · rw [slashed_eq, e]; exact hp.2 .ms
  intro a ha
  simp only [tileOps, List.mem_cons] at ha
  rcases ha with rfl | rfl | ha
  · exact ⟨adem, ddem⟩
  · exact adem
  · cases empty with
    | true =>
      simp only [↓reduceIte, List.mem_singleton] at ha
      subst ha
      exact adem
    | false =>
      simp only [Bool.false_eq_true, ↓reduceIte, List.mem_append, List.mem_cons,
        List.not_mem_nil, or_false] at ha
      rcases ha with ((((((rfl | rfl) | ha) | (rfl | rfl | rfl | rfl)) | ha) | (rfl | rfl | rfl)) |
        ha) | (rfl | rfl)
      · exact ⟨aland, dland⟩
      · exact aland
      · cases noLand with
        | true => simp at ha
        | false =>
          simp only [Bool.false_eq_true, ↓reduceIte] at ha
          exact anc _ _ a ha
      · exact adem
      · exact aland
      · exact ⟨ast, dst⟩
      · exact ast
      · exact anc _ _ a ha
      · exact ast
      · exact hx
      · exact adem
      · exact anc _ _ a ha
      · exact adem
      · exact aland

/-- C76 for an absolute output directory.  The serial run succeeds whatever the directory it is
started in, and leaves the same files.  (The full claim, for relative output directories too, is
false: `C76_relative_fails`.) -/
theorem C76_absolute_partial (dirs : List Char → Bool) (out : List Char)
    (habs : out.head? = some '/') (ho : ¬ ['/', '/'] <:+ out) (hp : Prepared dirs out)
    (tiles : List (List Char)) (hnd : tiles.Nodup) (hnames : ∀ t ∈ tiles, TileName t)
    (empty noLand : List Char → Bool) (fs : FileSys)
    (hfresh : ∀ t ∈ tiles, ∀ p, Owned out t p → fs p = false) :
    ∃ fs', (∀ cwd, ∃ cwd', runCwd dirs ⟨cwd, fs⟩ (serialCwdOps out tiles empty noLand) =
        .ok ⟨cwd', fs'⟩) ∧
      (∀ t ∈ tiles, fs' (demTemp out t) = false ∧ fs' (landTemp out t) = false ∧
        fs' (shieldTemp (landTemp out t)) = false) ∧
      ∀ t ∈ tiles, ∀ d m, fs' (savedNc out t d m) = true ↔ Leaves (empty t) (noLand t) m := by
  obtain ⟨fs', h1, h2, h3⟩ := C12_serial out ho tiles hnd hnames empty noLand fs hfresh
  refine ⟨fs', fun cwd => ?_, h2, h3⟩
  have e : serialCwdOps out tiles empty noLand =
      (tiles.flatMap fun t => tileOps out t (empty t) (noLand t)).flatMap FileOp.toCwd := by
    simp only [serialCwdOps, tileCwdOps, List.flatMap_assoc]
  rw [e]
  refine (runCwd_abs dirs _ ?_ ⟨cwd, fs⟩).2 fs' h1
  intro a ha
  obtain ⟨t, ht, ha⟩ := List.mem_flatMap.mp ha
  exact tileOps_abs ho habs hp (hnames t ht) _ _ a ha

/-! ### Relative output directory -/

theorem pjoin_rel {a p : List Char} (h : p.head? ≠ some '/') : pjoin a p = withSlash a ++ p := by
  unfold pjoin withSlash
  rw [if_neg h]
  split_ifs <;> simp

theorem withSlash_append (a : List Char) {b : List Char} (h : b ≠ []) :
    withSlash (a ++ b) = a ++ withSlash b := by
  obtain ⟨b', c, rfl⟩ := List.eq_nil_or_concat b |>.resolve_left h
  unfold withSlash
  by_cases hc : c = '/'
  · subst hc; rw [if_pos, if_pos] <;> simp
  · rw [if_neg, if_neg] <;> simp [hc]

/-- While the working directory is the one the run was started in, there are only plain files in
the shielding folder. -/
def CwdInv (cwd out : List Char) (s : CwdState) : Prop :=
  s.cwd = cwd ∧ ∀ q, s.files (withSlash cwd ++ withSlash out ++ Mult.ms.folder ++ '/' :: q) = true →
    '/' ∉ q

/-- The operation keeps the invariant. -/
def FileOp.Keeps (cwd out : List Char) : FileOp → Prop
  | .create p => ∀ q, pjoin cwd p = withSlash cwd ++ withSlash out ++ Mult.ms.folder ++ '/' :: q →
      '/' ∉ q
  | .removeXml _ => False
  | _ => True

theorem CwdInv.run {cwd out : List Char} {dirs : List Char → Bool} {as : List FileOp}
    (has : ∀ a ∈ as, a.Keeps cwd out) {s s' : CwdState} (hs : CwdInv cwd out s)
    (h : runCwd dirs s (as.flatMap FileOp.toCwd) = .ok s') : CwdInv cwd out s' := by
  induction as generalizing s with
  | nil =>
    simp only [List.flatMap_nil, runCwd, Except.ok.injEq] at h
    exact h ▸ hs
  | cons a as ih =>
    have ha := has a (by simp)
    have iht := fun {s} hs h => ih (s := s) (fun b hb => has b (List.mem_cons_of_mem _ hb)) hs h
    obtain ⟨hc, hf⟩ := hs
    cases a with
    | create p =>
      simp only [List.flatMap_cons, FileOp.toCwd, List.singleton_append, runCwd, CwdOp.run,
        FileOp.at, FileOp.run, Except.map, hc] at h
      split_ifs at h with hd
      refine iht ⟨rfl, fun q hq => ?_⟩ h
      have hq : (if withSlash cwd ++ withSlash out ++ Mult.ms.folder ++ '/' :: q = pjoin cwd p
        then true else s.files _) = true := hq
      split_ifs at hq with hqp
      · exact ha q hqp.symm
      · exact hf q hq
    | remove p =>
      simp only [List.flatMap_cons, FileOp.toCwd, List.singleton_append, runCwd, CwdOp.run,
        FileOp.at, FileOp.newIn, FileOp.run, hc, Option.any_none, Bool.false_eq_true,
        ↓reduceIte] at h
      split_ifs at h with hd
      · refine iht ⟨rfl, fun q hq => hf q ?_⟩ h
        have hq : (if withSlash cwd ++ withSlash out ++ Mult.ms.folder ++ '/' :: q = pjoin cwd p
          then false else s.files _) = true := hq
        split_ifs at hq with hqp
        exact hq
      · cases h
    | removeIfThere p =>
      simp only [List.flatMap_cons, FileOp.toCwd, List.singleton_append, runCwd, CwdOp.run,
        FileOp.at, FileOp.newIn, FileOp.run, hc, Option.any_none, Bool.false_eq_true,
        ↓reduceIte] at h
      refine iht ⟨rfl, fun q hq => hf q ?_⟩ h
      have hq : (if withSlash cwd ++ withSlash out ++ Mult.ms.folder ++ '/' :: q = pjoin cwd p
        then false else s.files _) = true := hq
      split_ifs at hq with hqp
      exact hq
    | expect p =>
      simp only [List.flatMap_cons, FileOp.toCwd, List.singleton_append, runCwd, CwdOp.run,
        FileOp.at, FileOp.newIn, FileOp.run, hc, Option.any_none, Bool.false_eq_true,
        ↓reduceIte] at h
      split_ifs at h with hd
      · exact iht (s := ⟨cwd, s.files⟩) ⟨rfl, hf⟩ h
      · cases h
    | removeXml d => exact ha.elim

theorem head_withSlash_ne {out q : List Char} (h0 : out ≠ []) (h : out.head? ≠ some '/') :
    (withSlash out ++ q).head? ≠ some '/' := by
  cases out with
  | nil => exact absurd rfl h0
  | cons c cs =>
    unfold withSlash
    split_ifs <;> simpa using h

/-- The operations of a non-empty tile before the shielding step changes the directory. -/
def opsBefore (out tile : List Char) (noLand : Bool) : List FileOp :=
  .create (demTemp out tile) :: .expect (demTemp out tile) ::
    ([.create (landTemp out tile), .expect (landTemp out tile)] ++
    (if noLand then [] else Dir.terrainOrder.map fun d => .create (savedNc out tile d .mz)) ++
    [.expect (demTemp out tile), .expect (landTemp out tile),
      .create (shieldTemp (landTemp out tile)), .expect (shieldTemp (landTemp out tile))] ++
    (Dir.shieldOrder.map fun d => .create (savedNc out tile d .ms)) ++
    [.removeIfThere (shieldTemp (landTemp out tile))])

theorem tileOps_split (out tile : List Char) (noLand : Bool) :
    ∃ rest, tileOps out tile false noLand = opsBefore out tile noLand ++
      (.removeXml (dirname (shieldTemp (landTemp out tile))) ::
        .expect (demTemp out tile) :: rest) := by
  refine ⟨(Dir.topoOrder.map fun d => .create (savedNc out tile d .mt)) ++
    [.remove (demTemp out tile), .remove (landTemp out tile)], ?_⟩
  simp only [tileOps, opsBefore, Bool.false_eq_true, ↓reduceIte, List.append_assoc, List.cons_append,
    List.nil_append]

theorem creates_keep {cwd out t : List Char} (ho : ¬ ['/', '/'] <:+ out) (h0 : out ≠ [])
    (hrel : out.head? ≠ some '/') (ht : TileName t) :
    (FileOp.create (demTemp out t)).Keeps cwd out ∧ (FileOp.create (landTemp out t)).Keeps cwd out ∧
    (FileOp.create (shieldTemp (landTemp out t))).Keeps cwd out ∧
    ∀ d m, (FileOp.create (savedNc out t d m)).Keeps cwd out := by
  have hdem : '/' ∉ t ++ ['_', 'd', 'e', 'm', '.', 'i', 'm', 'g'] := notMem_append ht.1 (by decide)
  have hland : '/' ∉ t ++ ['.', 'i', 'm', 'g'] := notMem_append ht.1 (by decide)
  have hst : '/' ∉ t ++ ['_', 'm', 's', '.', 'i', 'm', 'g'] := notMem_append ht.1 (by decide)
  have plain : ∀ n : List Char, '/' ∉ n →
      (FileOp.create (withSlash out ++ n)).Keeps cwd out := by
    intro n hn q e
    rw [pjoin_rel (head_withSlash_ne h0 hrel), List.append_assoc, List.append_assoc] at e
    have e := List.append_cancel_left (List.append_cancel_left e)
    exact absurd (by rw [e]; simp) hn
  have folder : ∀ (m : Mult) (n : List Char), '/' ∉ n →
      (FileOp.create (withSlash out ++ (m.folder ++ '/' :: n))).Keeps cwd out := by
    intro m n hn q e
    rw [pjoin_rel (head_withSlash_ne h0 hrel), List.append_assoc, List.append_assoc] at e
    have e := List.append_cancel_left (List.append_cancel_left e)
    have h1 : m.folder = Mult.ms.folder :=
      split_first e (by cases m <;> decide) (by decide)
    rw [h1] at e
    have e := List.append_cancel_left e
    simp only [List.cons.injEq, true_and] at e
    exact e ▸ hn
  refine ⟨?_, ?_, ?_, ?_⟩
  · rw [demTemp_eq ht.1]; exact plain _ hdem
  · rw [landTemp_eq ht.1]; exact plain _ hland
  · rw [shieldTemp_rel ho ht]; exact folder .ms _ hst
  · intro d m
    rw [savedNc_rel ho ht]
    exact folder m _ (openedName_noSlash ht.1 d m)

theorem opsBefore_keep {cwd out t : List Char} (ho : ¬ ['/', '/'] <:+ out) (h0 : out ≠ [])
    (hrel : out.head? ≠ some '/') (ht : TileName t) (noLand : Bool) :
    ∀ a ∈ opsBefore out t noLand, a.Keeps cwd out := by
  obtain ⟨k1, k2, k3, k4⟩ := creates_keep (cwd := cwd) ho h0 hrel ht
  have omap : ∀ (l : List Dir) (m : Mult), ∀ a ∈ l.map (fun d => FileOp.create (savedNc out t d m)),
      a.Keeps cwd out := by
    intro l m a ha
    obtain ⟨d, -, rfl⟩ := List.mem_map.mp ha
    exact k4 d m
  intro a ha
  simp only [opsBefore, List.mem_append, List.mem_cons, List.not_mem_nil, or_false] at ha
  rcases ha with rfl | rfl | ((((rfl | rfl) | ha) | (rfl | rfl | rfl | rfl)) | ha) | rfl
  · exact k1
  · trivial
  · exact k2
  · trivial
  · cases noLand with
    | true => simp at ha
    | false =>
      simp only [Bool.false_eq_true, ↓reduceIte] at ha
      exact omap _ _ a ha
  · trivial
  · trivial
  · exact k3
  · trivial
  · exact omap _ _ a ha
  · trivial

/-- C76 is false for a relative output directory: as soon as one tile is not empty, the run ends
with an exception, whatever the directory it is started in and whatever directories exist (the
shielding folder is assumed to contain no directories with files, as is the case after the
preparation of the output directory, C68). -/
theorem C76_relative_fails (dirs : List Char → Bool) (cwd out : List Char) (h0 : out ≠ [])
    (hrel : out.head? ≠ some '/') (ho : ¬ ['/', '/'] <:+ out)
    (tiles : List (List Char)) (hnames : ∀ t ∈ tiles, TileName t) (empty noLand : List Char → Bool)
    (hne : ∃ t ∈ tiles, empty t = false) (fs : FileSys)
    (hfresh : ∀ q, '/' ∈ q →
      fs (slashed cwd ++ slashed out ++ Mult.ms.folder ++ '/' :: q) = false) :
    ∃ e, runCwd dirs ⟨cwd, fs⟩ (serialCwdOps out tiles empty noLand) = .error e := by
  have main : ∀ (tiles : List (List Char)), (∀ t ∈ tiles, TileName t) →
      (∃ t ∈ tiles, empty t = false) → ∀ s, CwdInv cwd out s →
      ∃ e, runCwd dirs s (serialCwdOps out tiles empty noLand) = .error e := by
    intro tiles
    induction tiles with
    | nil => rintro - ⟨t, ht, -⟩; cases ht
    | cons t ts ih =>
      intro hn hne s hs
      have ht := hn t (by simp)
      have hser : serialCwdOps out (t :: ts) empty noLand =
          tileCwdOps out t (empty t) (noLand t) ++ serialCwdOps out ts empty noLand := rfl
      rw [hser, runCwd_append]
      cases he : empty t with
      | true =>
        cases hr : runCwd dirs s (tileCwdOps out t true (noLand t)) with
        | error e => exact ⟨e, rfl⟩
        | ok s' =>
          refine ih (fun t' h => hn t' (by simp [h])) ?_ s' ?_
          · obtain ⟨t', h1, h2⟩ := hne
            rcases List.mem_cons.mp h1 with rfl | h1
            · rw [he] at h2; cases h2
            · exact ⟨t', h1, h2⟩
          · refine CwdInv.run ?_ hs hr
            intro a ha
            simp only [tileOps, ↓reduceIte, List.mem_cons, List.not_mem_nil, or_false] at ha
            rcases ha with rfl | rfl | rfl
            · exact (creates_keep ho h0 hrel ht).1
            · trivial
            · trivial
      | false =>
        obtain ⟨rest, hrest⟩ := tileOps_split out t (noLand t)
        suffices h : ∃ e, runCwd dirs s (tileCwdOps out t false (noLand t)) = .error e by
          obtain ⟨e, h⟩ := h
          exact ⟨e, by rw [h]⟩
        rw [tileCwdOps, hrest, List.flatMap_append, runCwd_append]
        cases hr : runCwd dirs s ((opsBefore out t (noLand t)).flatMap FileOp.toCwd) with
        | error e => exact ⟨e, rfl⟩
        | ok s1 =>
          obtain ⟨hc, hf⟩ := CwdInv.run (opsBefore_keep ho h0 hrel ht _) hs hr
          set ms := dirname (shieldTemp (landTemp out t)) with hms
          have hsd : withSlash ms = withSlash out ++ Mult.ms.folder ++ ['/'] := shield_dir ho ht
          have hms0 : ms ≠ [] := by
            rintro h
            rw [h] at hsd
            simp [withSlash] at hsd
          have hmsrel : ms.head? ≠ some '/' := by
            intro h
            have h1 : (withSlash ms ++ []).head? = some '/' := head_withSlash_append h
            rw [hsd, List.append_nil, List.append_assoc] at h1
            exact head_withSlash_ne h0 hrel h1
          have hpath : pjoin (pjoin cwd ms) (demTemp out t) = withSlash cwd ++ withSlash out ++
              Mult.ms.folder ++ '/' :: demTemp out t := by
            have hd : (demTemp out t).head? ≠ some '/' := by
              rw [demTemp_eq ht.1]; exact head_withSlash_ne h0 hrel
            rw [pjoin_rel hd, pjoin_rel hmsrel, withSlash_append _ hms0, hsd]
            simp
          have hslash : '/' ∈ demTemp out t := by
            rw [demTemp_eq ht.1]
            have : '/' ∈ withSlash out := by
              unfold withSlash
              split_ifs with h
              · rcases h with h | h
                · exact absurd h h0
                · exact List.mem_of_getLast? h
              · simp
            simp [this]
          have hno : s1.files (pjoin (pjoin cwd ms) (demTemp out t)) = false := by
            rw [hpath, ← Bool.not_eq_true]
            exact fun h => hf _ h hslash
          simp only [List.flatMap_cons, FileOp.toCwd, List.cons_append, List.nil_append, runCwd,
            CwdOp.run, hc]
          split_ifs with hd
          · simp only [FileOp.at, FileOp.newIn, FileOp.run, Option.any_none, Bool.false_eq_true,
              ↓reduceIte, hno, ite_self, Except.map]
            exact ⟨_, rfl⟩
          · exact ⟨_, rfl⟩
  refine main tiles hnames hne ⟨cwd, fs⟩ ⟨rfl, fun q hq hs => ?_⟩
  rw [slashed_eq, slashed_eq] at hfresh
  exact Bool.false_ne_true ((hfresh q hs).symm.trans hq)

/-- Started in `/w`, one tile: with output directory `/w/o` the tile is computed; with `o`, which is
the same directory, the run fails. -/
example :
    (∃ fs', (∀ cwd, ∃ cwd', runCwd (fun _ => true) ⟨cwd, fun _ => false⟩
        (serialCwdOps ['/', 'w', '/', 'o'] [['a']] (fun _ => false) (fun _ => false)) =
          .ok ⟨cwd', fs'⟩) ∧ fs' (savedNc ['/', 'w', '/', 'o'] ['a'] .n .mt) = true) ∧
    ∃ e, runCwd (fun _ => true) ⟨['/', 'w'], fun _ => false⟩
      (serialCwdOps ['o'] [['a']] (fun _ => false) (fun _ => false)) = .error e := by
  have hn : ∀ t ∈ [['a']], TileName t := by
    intro t ht
    simp only [List.mem_singleton] at ht
    subst ht
    exact ⟨by decide, by decide, 'a', by decide, by decide⟩
  constructor
  · obtain ⟨fs', h1, -, h3⟩ := C76_absolute_partial (fun _ => true) ['/', 'w', '/', 'o'] rfl
      (by rw [← List.isSuffixOf_iff_suffix]; decide) ⟨rfl, fun _ => rfl⟩ [['a']] (by decide) hn
      (fun _ => false) (fun _ => false) (fun _ => false) (fun _ _ _ _ => rfl)
    exact ⟨fs', h1, (h3 _ (by simp) .n .mt).mpr ⟨rfl, by simp⟩⟩
  · exact C76_relative_fails _ _ _ (by decide) (by decide)
      (by rw [← List.isSuffixOf_iff_suffix]; decide) _ hn _ _ ⟨['a'], by simp, rfl⟩ _
      (fun _ _ => rfl)

end WindMult
