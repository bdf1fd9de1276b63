import Verif.Proofs.TempFiles

/-!
# C12: temporary rasters are removed and outputs survive
-/

set_option autoImplicit false

namespace WindMult

/-- The multiplier files a tile is to leave behind: none for an empty tile; all shielding and
topographic files otherwise, and the terrain files if there is land cover. -/
def Leaves (empty noLand : Bool) (m : Mult) : Prop :=
  empty = false ∧ (m = .mz → noLand = false)

theorem tileOps_alone {out t : List Char} (ho : ¬ ['/', '/'] <:+ out) (ht : TileName t)
    (empty noLand : Bool) (fs : FileSys) (hfresh : ∀ p, Owned out t p → fs p = false) :
    ∃ g, runOps fs (tileOps out t empty noLand) = .ok g ∧
      ∀ p, Owned out t p →
        (g p = true ↔ ∃ d m, p = savedNc out t d m ∧ Leaves empty noLand m) := by
  obtain ⟨n1, n2, n3, n4⟩ := temps_distinct ho ht
  cases empty with
  | true =>
    refine ⟨_, by simp [tileOps, runOps, FileOp.run]; rfl, ?_⟩
    intro p hp
    simp only [Leaves]
    constructor
    · intro h
      rw [hfresh p hp] at h
      simp at h
    · rintro ⟨d, m, -, h, -⟩
      cases h
  | false =>
    set dem := demTemp out t with hdem
    set land := landTemp out t with hland
    set st := shieldTemp land with hst
    have xml : ∀ p, Owned out t p → isXmlIn (dirname st) p = false := fun p hp =>
      owned_not_xml ho hp _
    have odem : Owned out t dem := ⟨ht, .inl rfl⟩
    have oland : Owned out t land := ⟨ht, .inr (.inl rfl)⟩
    let f0 : FileSys := fun q => if q = dem then true else fs q
    let f1 : FileSys := fun q => if q = land then true else f0 q
    let f2 : FileSys := if noLand then f1 else
      fun p => decide (p ∈ Dir.terrainOrder.map fun d => savedNc out t d .mz) || f1 p
    let f3 : FileSys := fun q => if q = st then true else f2 q
    let f4 : FileSys := fun p => decide (p ∈ Dir.shieldOrder.map fun d => savedNc out t d .ms) || f3 p
    let f5 : FileSys := fun q => if q = st then false else f4 q
    let f6 : FileSys := fun q => if isXmlIn (dirname st) q then false else f5 q
    let f7 : FileSys := fun p => decide (p ∈ Dir.topoOrder.map fun d => savedNc out t d .mt) || f6 p
    let f8 : FileSys := fun q => if q = dem then false else f7 q
    let f9 : FileSys := fun q => if q = land then false else f8 q
    have h7dem : f7 dem = true := by
      have x := xml dem odem
      have : f6 dem = true := by
        simp only [f6, x, f5, f4, f3, f2, f1, f0, if_neg n2]
        cases noLand <;> simp
      simp only [f7, this, Bool.or_true]
    have h8land : f8 land = true := by
      have x := xml land oland
      have : f6 land = true := by
        simp only [f6, x, f5, f4, f3, f2, f1, if_neg n3]
        cases noLand <;> simp
      simp only [f8, if_neg n1.symm, f7, this, Bool.or_true]
    refine ⟨f9, ?_, ?_⟩
    · simp only [tileOps, Bool.false_eq_true, ↓reduceIte]
      rw [← hdem, ← hland, ← hst]
      have e0 : ∀ rest, runOps fs (.create dem :: .expect dem :: rest) = runOps f0 rest := by
        intro rest
        simp [runOps, FileOp.run, f0]
      rw [e0]
      simp only [List.append_assoc]
      rw [runOps_append f0 [.create land, .expect land] _ (f := f1) (by
        simp [runOps, FileOp.run, f1])]
      have e2 : runOps f1 (if noLand = true then [] else
          Dir.terrainOrder.map fun d => .create (savedNc out t d .mz)) = .ok f2 := by
        cases noLand with
        | true => rfl
        | false =>
          simp only [Bool.false_eq_true, ↓reduceIte]
          rw [runOps_creates]; rfl
      have h2dem : f2 dem = true := by
        simp only [f2, f1, f0]
        cases noLand <;> simp
      have h2land : f2 land = true := by
        simp only [f2, f1]
        cases noLand <;> simp
      have h6dem : f6 dem = true := by
        simp only [f6, xml dem odem, f5, f4, f3, if_neg n2, h2dem]
        simp
      rw [runOps_append f1 _ _ e2,
        runOps_append f2 [.expect dem, .expect land, .create st, .expect st] _ (f := f3) (by
          simp [runOps, FileOp.run, h2dem, h2land, f3]),
        runOps_append f3 _ _ (f := f4) (by rw [runOps_creates])]
      rw [runOps_append f4 [.removeIfThere st, .removeXml (dirname st), .expect dem] _ (f := f6) (by
          have : (if isXmlIn (dirname st) dem = true then false
            else if dem = st then false else f4 dem) = true := h6dem
          simp only [runOps, FileOp.run, this, ↓reduceIte]
          rfl),
        runOps_append f6 _ _ (f := f7) (by rw [runOps_creates])]
      have h8 : (if land = dem then false else f7 land) = true := h8land
      simp only [runOps, FileOp.run, h7dem, h8, ↓reduceIte]
      rfl
    · intro p hp
      have x := xml p hp
      have hall : ∀ (l : List Dir) (m : Mult), (∀ d, d ∈ l) →
          (p ∈ l.map (fun d => savedNc out t d m) ↔ ∃ d, p = savedNc out t d m) := by
        intro l m hl
        simp only [List.mem_map]
        exact ⟨fun ⟨d, _, e⟩ => ⟨d, e.symm⟩, fun ⟨d, e⟩ => ⟨d, hl d, e.symm⟩⟩
      have o1 : ∀ d, d ∈ Dir.terrainOrder := by intro d; cases d <;> decide
      have o2 : ∀ d, d ∈ Dir.shieldOrder := by intro d; cases d <;> decide
      have o3 : ∀ d, d ∈ Dir.topoOrder := by intro d; cases d <;> decide
      by_cases p1 : p = land
      · have h9 : f9 p = false := if_pos p1
        rw [h9]
        simp only [Bool.false_eq_true, false_iff]
        rintro ⟨d, m, e, -⟩
        exact (n4 d m).2.1 (e.symm.trans p1)
      by_cases p2 : p = dem
      · have h9 : f9 p = false := by simp only [f9, if_neg p1, f8, if_pos p2]
        rw [h9]
        simp only [Bool.false_eq_true, false_iff]
        rintro ⟨d, m, e, -⟩
        exact (n4 d m).1 (e.symm.trans p2)
      by_cases p3 : p = st
      · have nm : p ∉ Dir.topoOrder.map fun d => savedNc out t d .mt := by
          rw [hall _ _ o3]
          rintro ⟨d, e⟩
          exact (n4 d _).2.2 (e.symm.trans p3)
        have h9 : f9 p = false := by
          simp only [f9, if_neg p1, f8, if_neg p2, f7, f6, x, f5, if_pos p3]
          simpa using nm
        rw [h9]
        simp only [Bool.false_eq_true, false_iff]
        rintro ⟨d, m, e, -⟩
        exact (n4 d m).2.2 (e.symm.trans p3)
      have h9 : f9 p = (decide (p ∈ Dir.topoOrder.map fun d => savedNc out t d .mt) ||
          (decide (p ∈ Dir.shieldOrder.map fun d => savedNc out t d .ms) || f2 p)) := by
        simp only [f9, if_neg p1, f8, if_neg p2, f7, f6, x, f5, if_neg p3, f4, f3,
          Bool.false_eq_true, ↓reduceIte]
      have hf1 : f1 p = false := by
        simp only [f1, if_neg p1, f0, if_neg p2, hfresh p hp]
      have hf2 : f2 p = true ↔ (noLand = false ∧ ∃ d, p = savedNc out t d .mz) := by
        simp only [f2]
        cases noLand with
        | true => simp [hf1]
        | false =>
          simp only [Bool.false_eq_true, ↓reduceIte, hf1, Bool.or_false, decide_eq_true_eq,
            hall _ _ o1, true_and]
      rw [h9, Bool.or_eq_true, Bool.or_eq_true, decide_eq_true_eq, decide_eq_true_eq,
        hall _ _ o3, hall _ _ o2, hf2]
      constructor
      · rintro (⟨d, e⟩ | ⟨d, e⟩ | ⟨hn, d, e⟩)
        · exact ⟨d, .mt, e, rfl, by simp⟩
        · exact ⟨d, .ms, e, rfl, by simp⟩
        · exact ⟨d, .mz, e, rfl, fun _ => hn⟩
      · rintro ⟨d, m, e, -, hm⟩
        cases m with
        | mt => exact .inl ⟨d, e⟩
        | ms => exact .inr (.inl ⟨d, e⟩)
        | mz => exact .inr (.inr ⟨hm rfl, d, e⟩)

theorem tileOps_within {out t : List Char} (ht : TileName t)
    (empty noLand : Bool) : ∀ a ∈ tileOps out t empty noLand,
      a.Within (Owned out t) (fun p => ∃ dir, isXmlIn dir p = true) := by
  have odem : Owned out t (demTemp out t) := ⟨ht, .inl rfl⟩
  have oland : Owned out t (landTemp out t) := ⟨ht, .inr (.inl rfl)⟩
  have ost : Owned out t (shieldTemp (landTemp out t)) := ⟨ht, .inr (.inr (.inl rfl))⟩
  have onc : ∀ d m, Owned out t (savedNc out t d m) := fun d m =>
    ⟨ht, .inr (.inr (.inr ⟨d, m, rfl⟩))⟩
  have omap : ∀ (l : List Dir) (m : Mult), ∀ a ∈ l.map (fun d => FileOp.create (savedNc out t d m)),
      a.Within (Owned out t) (fun p => ∃ dir, isXmlIn dir p = true) := by
    intro l m a ha
    obtain ⟨d, -, rfl⟩ := List.mem_map.mp ha
    exact onc d m
  intro a ha
  simp only [tileOps, List.mem_cons] at ha
  rcases ha with rfl | rfl | ha
  · exact odem
  · exact odem
  · cases empty with
    | true =>
      simp only [↓reduceIte, List.mem_singleton] at ha
      subst ha
      exact odem
    | false =>
      simp only [Bool.false_eq_true, ↓reduceIte, List.mem_append, List.mem_cons,
        List.not_mem_nil, or_false] at ha
      rcases ha with ((((((rfl | rfl) | ha) | (rfl | rfl | rfl | rfl)) | ha) | (rfl | rfl | rfl)) |
        ha) | (rfl | rfl)
      · exact oland
      · exact oland
      · cases noLand with
        | true => simp at ha
        | false =>
          simp only [Bool.false_eq_true, ↓reduceIte] at ha
          exact omap _ _ a ha
      · exact odem
      · exact oland
      · exact ost
      · exact ost
      · exact omap _ _ a ha
      · exact ost
      · exact fun p hp => ⟨_, hp⟩
      · exact odem
      · exact omap _ _ a ha
      · exact odem
      · exact oland

/-- C12: let the file operations of the tiles `tiles` be interleaved in any way (several workers),
`trace` being the resulting sequence of operations with the tile each belongs to.  Starting
from an output directory without files of these tiles, no operation fails, and afterwards

* no temporary raster (DEM, land cover, initial shielding) of any tile is left;
* every multiplier file of every non-empty tile is there (terrain files: if the tile has known
  land cover);
* other files, except `.xml` files, are as before. -/
theorem C12_interleaved (out : List Char) (ho : ¬ ['/', '/'] <:+ out) (tiles : List (List Char))
    (hnames : ∀ t ∈ tiles, TileName t) (empty noLand : List Char → Bool)
    (trace : List (List Char × FileOp)) (hall : ∀ e ∈ trace, e.1 ∈ tiles)
    (hops : ∀ t ∈ tiles, opsOf t trace = tileOps out t (empty t) (noLand t))
    (fs : FileSys) (hfresh : ∀ t ∈ tiles, ∀ p, Owned out t p → fs p = false) :
    ∃ fs', runOps fs (trace.map Prod.snd) = .ok fs' ∧
      (∀ t ∈ tiles, fs' (demTemp out t) = false ∧ fs' (landTemp out t) = false ∧
        fs' (shieldTemp (landTemp out t)) = false) ∧
      (∀ t ∈ tiles, ∀ d m, fs' (savedNc out t d m) = true ↔ Leaves (empty t) (noLand t) m) ∧
      (∀ p, (∀ t ∈ tiles, ¬ Owned out t p) → ¬ (['.', 'x', 'm', 'l'] <:+ p) → fs' p = fs p) := by
  classical
  let F : List Char → List Char → Prop := fun t p => t ∈ tiles ∧ Owned out t p
  let X : List Char → Prop := fun p => ∃ dir, isXmlIn dir p = true
  have hX : ∀ k p, F k p → ¬ X p := by
    rintro k p ⟨-, hp⟩ ⟨dir, hx⟩
    rw [owned_not_xml ho hp dir] at hx
    cases hx
  have hF : ∀ k k' p, F k p → F k' p → k = k' := fun k k' p h h' => owned_unique ho h.2 h'.2
  have hw : ∀ e ∈ trace, e.2.Within (F e.1) X := by
    intro e he
    have ht := hall e he
    have hm : e.2 ∈ opsOf e.1 trace := by
      simp only [opsOf, List.mem_map, List.mem_filter, decide_eq_true_eq]
      exact ⟨e, ⟨he, rfl⟩, rfl⟩
    rw [hops e.1 ht] at hm
    have := tileOps_within (hnames _ ht) (empty e.1) (noLand e.1) e.2 hm
    revert this
    cases e.2 <;> intro this
    · exact ⟨ht, this⟩
    · exact ⟨ht, this⟩
    · exact ⟨ht, this⟩
    · exact ⟨ht, this⟩
    · exact this
  have hg : ∀ k, ∃ g, runOps fs (opsOf k trace) = .ok g ∧ (k ∈ tiles → ∀ p, Owned out k p →
      (g p = true ↔ ∃ d m, p = savedNc out k d m ∧ Leaves (empty k) (noLand k) m)) := by
    intro k
    by_cases hk : k ∈ tiles
    · obtain ⟨g, h1, h2⟩ := tileOps_alone ho (hnames k hk) (empty k) (noLand k) fs (hfresh k hk)
      exact ⟨g, by rw [hops k hk, h1], fun _ => h2⟩
    · have : opsOf k trace = [] := by
        simp only [opsOf, List.map_eq_nil_iff, List.filter_eq_nil_iff, decide_eq_true_eq]
        rintro e he rfl
        exact hk (hall e he)
      exact ⟨fs, by rw [this]; rfl, fun h => absurd h hk⟩
  choose g hg1 hg2 using hg
  obtain ⟨fs', e1, e2, e3⟩ := run_interleaved hX hF trace hw fs g hg1
  have val : ∀ t ∈ tiles, ∀ p, Owned out t p →
      (fs' p = true ↔ ∃ d m, p = savedNc out t d m ∧ Leaves (empty t) (noLand t) m) := by
    intro t ht p hp
    rw [e2 t p ⟨ht, hp⟩]
    exact hg2 t ht p hp
  refine ⟨fs', e1, ?_, ?_, ?_⟩
  · intro t ht
    have hn := hnames t ht
    obtain ⟨-, -, -, n4⟩ := temps_distinct ho hn
    have no : ∀ p, Owned out t p → (∀ d m, savedNc out t d m ≠ p) → fs' p = false := by
      intro p hp h
      rw [← Bool.not_eq_true, val t ht p hp]
      rintro ⟨d, m, e, -⟩
      exact h d m e.symm
    exact ⟨no _ ⟨hn, .inl rfl⟩ fun d m => (n4 d m).1,
      no _ ⟨hn, .inr (.inl rfl)⟩ fun d m => (n4 d m).2.1,
      no _ ⟨hn, .inr (.inr (.inl rfl))⟩ fun d m => (n4 d m).2.2⟩
  · intro t ht d m
    have hn := hnames t ht
    rw [val t ht _ ⟨hn, .inr (.inr (.inr ⟨d, m, rfl⟩))⟩]
    constructor
    · rintro ⟨d', m', e, hl⟩
      have h2 : m = m' := by
        have hmd : metaDirection (savedNc out t d m) = metaDirection (savedNc out t d' m') := by rw [e]
        rw [savedNc_rel ho hn, savedNc_rel ho hn] at e
        have e := List.append_cancel_left e
        rw [savedNc_eq_openedNc ho hn, savedNc_eq_openedNc ho hn, metaDirection_opened hn,
          metaDirection_opened hn] at hmd
        cases m <;> cases m' <;> first | rfl | simp [Mult.folder] at e
      rw [h2]; exact hl
    · intro hl
      exact ⟨d, m, rfl, hl⟩
  · intro p hp hx
    refine e3 p (fun k hk => hp k hk.1 hk.2) ?_
    rintro ⟨dir, hd⟩
    simp only [isXmlIn, Bool.and_eq_true] at hd
    exact hx (List.isSuffixOf_iff_suffix.mp hd.2)

theorem opsOf_append (k : List Char) (a b : List (List Char × FileOp)) :
    opsOf k (a ++ b) = opsOf k a ++ opsOf k b := by simp [opsOf]

theorem opsOf_tagged (k t : List Char) (ops : List FileOp) :
    opsOf k (ops.map fun o => (t, o)) = if t = k then ops else [] := by
  split_ifs with h
  · subst h
    induction ops with
    | nil => rfl
    | cons o ops ih =>
      simp only [opsOf, List.map_cons, decide_true, List.filter_cons_of_pos] at ih ⊢
      rw [ih]
  · simp [opsOf, h]

theorem opsOf_serial (ops : List Char → List FileOp) (tiles : List (List Char)) (hnd : tiles.Nodup)
    (k : List Char) :
    opsOf k (tiles.flatMap fun t => (ops t).map fun o => (t, o)) = if k ∈ tiles then ops k else [] := by
  induction tiles with
  | nil => rfl
  | cons t ts ih =>
    rw [List.flatMap_cons, opsOf_append, ih (List.nodup_cons.mp hnd).2, opsOf_tagged]
    have hn := (List.nodup_cons.mp hnd).1
    by_cases h : t = k
    · subst h; simp [hn]
    · have h' : ¬ k = t := fun e => h e.symm
      simp [h, h']

/-- C12 for the serial run: tiles with distinct names, one after the other in any order. -/
theorem C12_serial (out : List Char) (ho : ¬ ['/', '/'] <:+ out) (tiles : List (List Char))
    (hnd : tiles.Nodup) (hnames : ∀ t ∈ tiles, TileName t) (empty noLand : List Char → Bool)
    (fs : FileSys) (hfresh : ∀ t ∈ tiles, ∀ p, Owned out t p → fs p = false) :
    ∃ fs', runOps fs (tiles.flatMap fun t => tileOps out t (empty t) (noLand t)) = .ok fs' ∧
      (∀ t ∈ tiles, fs' (demTemp out t) = false ∧ fs' (landTemp out t) = false ∧
        fs' (shieldTemp (landTemp out t)) = false) ∧
      (∀ t ∈ tiles, ∀ d m, fs' (savedNc out t d m) = true ↔ Leaves (empty t) (noLand t) m) := by
  obtain ⟨fs', h1, h2, h3, -⟩ := C12_interleaved out ho tiles hnames empty noLand
    (tiles.flatMap fun t => (tileOps out t (empty t) (noLand t)).map fun o => (t, o))
    (by
      intro e he
      obtain ⟨t, ht, he⟩ := List.mem_flatMap.mp he
      obtain ⟨o, -, rfl⟩ := List.mem_map.mp he
      exact ht)
    (by
      intro t ht
      rw [opsOf_serial _ _ hnd, if_pos ht]) fs hfresh
  refine ⟨fs', ?_, h2, h3⟩
  rw [← h1, List.map_flatMap]
  simp [Function.comp_def]

/-- Two tiles, the second empty, on an empty file system. -/
example : ∃ fs', runOps (fun _ => false) ([['a'], ['b']].flatMap fun t =>
      tileOps ['/', 'o'] t (t = ['b']) false) = .ok fs' ∧
      (∀ t ∈ [['a'], ['b']], fs' (demTemp ['/', 'o'] t) = false ∧ fs' (landTemp ['/', 'o'] t) = false ∧
        fs' (shieldTemp (landTemp ['/', 'o'] t)) = false) ∧
      (∀ t ∈ [['a'], ['b']], ∀ d m, fs' (savedNc ['/', 'o'] t d m) = true ↔
        Leaves (t = ['b']) false m) := by
  refine C12_serial ['/', 'o'] ?_ _ (by decide) ?_ (fun t => decide (t = ['b'])) (fun _ => false) _
    (fun _ _ _ _ => rfl)
  · rw [← List.isSuffixOf_iff_suffix]; decide
  · intro t ht
    simp only [List.mem_cons, List.not_mem_nil, or_false] at ht
    rcases ht with rfl | rfl
    · exact ⟨by decide, by decide, 'a', by decide, by decide⟩
    · exact ⟨by decide, by decide, 'b', by decide, by decide⟩

end WindMult
