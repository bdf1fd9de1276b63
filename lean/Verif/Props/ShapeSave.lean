import Verif.Spec.ShapeSave
import Verif.Props.PreProcess

/-!
# C155: the file of the land use with its codes
-/

set_option autoImplicit false

namespace WindMult

theorem mem_put {V : Type} (d : NamedValues V) (name n : String) (w v : V) :
    (n, v) ∈ d.put name w ↔ (n = name ∧ v = w) ∨ (n ≠ name ∧ (n, v) ∈ d) := by
  unfold NamedValues.put
  split
  · next h =>
    rw [List.mem_map]
    constructor
    · rintro ⟨⟨a, b⟩, hx, he⟩
      by_cases ha : a = name
      · simp only [ha, if_true, Prod.mk.injEq] at he
        exact Or.inl ⟨he.1.symm, he.2.symm⟩
      · simp only [ha, if_false, Prod.mk.injEq] at he
        obtain ⟨rfl, rfl⟩ := he
        exact Or.inr ⟨ha, hx⟩
    · rintro (⟨rfl, rfl⟩ | ⟨h1, h2⟩)
      · obtain ⟨x, hx, he⟩ := List.mem_map.mp h
        exact ⟨x, hx, by rw [if_pos he]⟩
      · exact ⟨(n, v), h2, by simp [h1]⟩
  · next h =>
    rw [List.mem_append, List.mem_singleton, Prod.mk.injEq]
    constructor
    · rintro (hx | hx)
      · refine Or.inr ⟨?_, hx⟩
        rintro rfl
        exact h (List.mem_map.mpr ⟨_, hx, rfl⟩)
      · exact Or.inl hx
    · rintro (hx | ⟨-, hx⟩)
      · exact Or.inr hx
      · exact Or.inl hx

theorem single_put {V : Type} (d : NamedValues V) (name : String) (w : V) (h : SingleValued d) :
    SingleValued (d.put name w) := by
  intro n a b ha hb
  rw [mem_put] at ha hb
  rcases ha with ⟨h1, h2⟩ | ⟨h1, h2⟩ <;> rcases hb with ⟨h3, h4⟩ | ⟨h3, h4⟩
  · rw [h2, h4]
  · exact absurd h1 h3
  · exact absurd h3 h1
  · exact h n a b h2 h4

theorem lookup_single {V : Type} (d : NamedValues V) (h : SingleValued d) (n : String) (v : V) (hv : (n, v) ∈ d) :
    d.lookup n = some v := by
  cases e : d.lookup n with
  | none =>
    rw [List.lookup_eq_none_iff] at e
    exact absurd (e _ hv) (by simp)
  | some w =>
    rw [List.lookup_eq_some_iff] at e
    obtain ⟨l1, l2, rfl, -⟩ := e
    exact congrArg some (h n w v (by simp) hv)

theorem asText_key (v : AttrVal) : v.key = v.asText := by cases v <;> rfl

/-- The attributes with the code. -/
theorem tagRecord_ok (sc lc : String) (f : UseFeature) (u : AttrVal) (h : SingleValued f.record)
    (hu : (lc, u) ∈ f.record.put sc f.joined) :
    ∃ r, tagRecord sc lc f.joined f.record = .ok r ∧ CodedRecord sc f u r := by
  have h1 := single_put f.record sc f.joined h
  have hs : (f.record.put sc f.joined).lookup sc = some f.joined :=
    lookup_single _ h1 _ _ ((mem_put _ _ _ _ _).mpr (Or.inl ⟨rfl, rfl⟩))
  have hl := lookup_single _ h1 _ _ hu
  refine ⟨(f.record.put sc f.joined).put "CAT" (.int (catCode f.joined.key u.key)), ?_, ?_, ?_, ?_, ?_⟩
  · unfold tagRecord
    simp only [hs, hl]
  · exact single_put _ _ _ h1
  · rw [mem_put]
    refine Or.inl ⟨rfl, ?_⟩
    rw [catCode, settlementClass_code, landUseClass_code, asText_key, asText_key, Nat.mul_comm]
  · intro hne
    rw [mem_put, mem_put]
    exact Or.inr ⟨hne, Or.inl ⟨rfl, rfl⟩⟩
  · intro n v h2 h3
    rw [mem_put, mem_put]
    simp [h2, h3]

theorem tagRecord_names (sc lc : String) (j : AttrVal) (r r' : NamedValues AttrVal) (schema : NamedValues String)
    (h : ∀ n, (∃ v, (n, v) ∈ r) ↔ ∃ t, (n, t) ∈ schema) (e : tagRecord sc lc j r = .ok r') (n : String) :
    n ∈ r'.map Prod.fst ↔ n ∈ (tagSchema sc schema).map Prod.fst := by
  have key : ∀ {V : Type} (d : NamedValues V), n ∈ d.map Prod.fst ↔ ∃ v, (n, v) ∈ d := by
    intro V d
    simp
  rw [key, key]
  unfold tagRecord at e
  simp only at e
  split at e
  · cases e
    unfold tagSchema
    simp only [mem_put]
    by_cases h1 : n = "CAT"
    · simp [h1]
    · by_cases h2 : n = sc
      · subst h2
        simp [h1]
      · simpa [h1, h2] using h n
  · cases e

theorem polygonal_iff (g : Region) (hc : IsClosed g) : g = closure (interior g) ↔ Polygonal g := by
  constructor
  · intro h p hp U hU hpU
    rw [h] at hp
    obtain ⟨q, hq⟩ := mem_closure_iff.mp hp U hU hpU
    exact ⟨U ∩ interior g, hU.inter isOpen_interior, ⟨q, hq⟩, Set.inter_subset_left,
      fun x hx => interior_subset hx.2⟩
  · intro h
    apply Set.Subset.antisymm
    · intro p hp
      rw [mem_closure_iff]
      intro U hU hpU
      obtain ⟨V, hV, ⟨q, hq⟩, hVU, hVg⟩ := h p hp U hU hpU
      exact ⟨q, hVU hq, (interior_maximal hVg hV) hq⟩
    · exact closure_minimal interior_subset hc

theorem shpSave_ok (schema : NamedValues String) (l : List (NamedValues AttrVal × Region))
    (h : ∀ f ∈ l, takesRecord schema f = true) : shpSave schema l = (l, .ok ()) := by
  induction l with
  | nil => rfl
  | cons f l ih =>
    rw [shpSave, if_pos (h f List.mem_cons_self), ih fun g hg => h g (List.mem_cons_of_mem _ hg)]

theorem shpSave_bad (schema : NamedValues String) (l l' : List (NamedValues AttrVal × Region))
    (b : NamedValues AttrVal × Region)
    (h : ∀ f ∈ l, takesRecord schema f = true) (hb : takesRecord schema b = false) :
    shpSave schema (l ++ b :: l') = (l, .error .valueError) := by
  induction l with
  | nil => simp [shpSave, hb]
  | cons f l ih =>
    rw [List.cons_append, shpSave, if_pos (h f List.mem_cons_self), ih fun g hg => h g (List.mem_cons_of_mem _ hg)]

theorem shpSave_subset (schema : NamedValues String) (l : List (NamedValues AttrVal × Region)) :
    (shpSave schema l).1 ⊆ l := by
  induction l with
  | nil => exact fun _ h => h
  | cons f l ih =>
    rw [shpSave]
    split
    · exact List.cons_subset_cons _ ih
    · exact List.nil_subset _

theorem takesRecord_iff (sc lc : String) (f : UseFeature) (r : NamedValues AttrVal) (schema : NamedValues String)
    (h : ReadWith schema f) (e : tagRecord sc lc f.joined f.record = .ok r) (hc : IsClosed f.geom) :
    takesRecord (tagSchema sc schema) (r, f.geom) = true ↔ Polygonal f.geom := by
  classical
  unfold takesRecord
  rw [decide_eq_true_iff, ← polygonal_iff _ hc]
  exact ⟨fun x => x.2, fun x => ⟨tagRecord_names sc lc _ _ _ _ h.2 e, x⟩⟩

/-- The land use from which the code is made: that of the feature, or the settlement if the two attributes have the
same name. -/
theorem use_mem (sc lc : String) (f : UseFeature) (schema : NamedValues String) (h : ReadWith schema f)
    (hl : lc = sc ∨ ∃ t, (lc, t) ∈ schema) :
    ∃ u, (lc, u) ∈ f.record.put sc f.joined ∧
      ((lc ≠ sc → (lc, u) ∈ f.record) ∧ (lc = sc → u = f.joined)) := by
  by_cases e : lc = sc
  · exact ⟨f.joined, (mem_put _ _ _ _ _).mpr (Or.inl ⟨e, rfl⟩), fun h => absurd e h, fun _ => rfl⟩
  · obtain ⟨u, hu⟩ := (h.2 lc).mpr (hl.resolve_left e)
    exact ⟨u, (mem_put _ _ _ _ _).mpr (Or.inr ⟨e, hu⟩), fun _ => hu, fun h => absurd h e⟩

theorem tagAll (sc lc : String) (schema : NamedValues String) (l : List UseFeature)
    (hr : ∀ f ∈ l, ReadWith schema f) (hl : lc = sc ∨ ∃ t, (lc, t) ∈ schema) :
    ∃ rs, (l.mapM fun f => tagRecord sc lc f.joined f.record) = .ok rs ∧
      List.Forall₂ (fun f r => tagRecord sc lc f.joined f.record = .ok r ∧ SavedAs sc lc f (r, f.geom)) l rs := by
  induction l with
  | nil => exact ⟨[], rfl, .nil⟩
  | cons f l ih =>
    obtain ⟨rs, e, hf⟩ := ih fun g hg => hr g (List.mem_cons_of_mem _ hg)
    have h := hr f List.mem_cons_self
    obtain ⟨u, hu, hu'⟩ := use_mem sc lc f schema h hl
    obtain ⟨r, er, hc⟩ := tagRecord_ok sc lc f u h.1 hu
    refine ⟨r :: rs, ?_, .cons ⟨er, rfl, u, hu'.1, hu'.2, hc⟩ hf⟩
    rw [List.mapM_cons, er, e]
    rfl

theorem zip_forall (sc lc : String) (l : List UseFeature) (rs : List (NamedValues AttrVal))
    (h : List.Forall₂ (fun f r => tagRecord sc lc f.joined f.record = .ok r ∧ SavedAs sc lc f (r, f.geom)) l rs) :
    List.Forall₂ (fun f x => tagRecord sc lc f.joined f.record = .ok x.1 ∧ SavedAs sc lc f x) l
      (rs.zip (l.map UseFeature.geom)) := by
  induction h with
  | nil => exact .nil
  | cons h _ ih => exact .cons h ih

theorem forall₂_right {A B : Type} {R : A → B → Prop} {l : List A} {m : List B} (h : List.Forall₂ R l m) (x : B)
    (hx : x ∈ m) : ∃ a ∈ l, R a x := by
  induction h with
  | nil => cases hx
  | cons h _ ih =>
    rcases List.mem_cons.mp hx with rfl | hx
    · exact ⟨_, List.mem_cons_self, h⟩
    · obtain ⟨a, ha, hr⟩ := ih hx
      exact ⟨a, List.mem_cons_of_mem _ ha, hr⟩

theorem forall₂_split {A B : Type} {R : A → B → Prop} (l l' : List A) (m : List B) (h : List.Forall₂ R (l ++ l') m) :
    ∃ m1 m2, m = m1 ++ m2 ∧ List.Forall₂ R l m1 ∧ List.Forall₂ R l' m2 := by
  induction l generalizing m with
  | nil => exact ⟨[], m, rfl, .nil, h⟩
  | cons a l ih =>
    cases h with
    | cons h1 h2 =>
      obtain ⟨m1, m2, rfl, h3, h4⟩ := ih _ h2
      exact ⟨_ :: m1, m2, rfl, .cons h1 h3, h4⟩

/-- C155, as far as it holds: if all geometries are polygons, all features are saved, in their order, with the geometry,
the code, the settlement found and all other attributes.  The whole claim is this without `hp`.  Missing: geometries
that are not polygons, which cropping can make (`C155_cropping`). -/
theorem C155_save_partial (sc lc : String) (schema : List (String × String)) (l : List UseFeature)
    (hr : ∀ f ∈ l, ReadWith schema f) (hl : lc = sc ∨ ∃ t, (lc, t) ∈ schema)
    (hc : ∀ f ∈ l, IsClosed f.geom) (hp : ∀ f ∈ l, Polygonal f.geom) :
    ∃ out, saveUses sc lc schema l = (out, .ok ()) ∧ List.Forall₂ (SavedAs sc lc) l out := by
  obtain ⟨rs, e, h⟩ := tagAll sc lc schema l hr hl
  have hz := zip_forall sc lc l rs h
  refine ⟨rs.zip (l.map UseFeature.geom), ?_, hz.imp fun _ _ x => x.2⟩
  unfold saveUses
  simp only [e]
  apply shpSave_ok
  intro x hx
  obtain ⟨f, hf, ht, hg, -⟩ := forall₂_right hz x hx
  have := (takesRecord_iff sc lc f x.1 schema (hr f hf) ht (hc f hf)).mpr (hp f hf)
  rwa [← hg] at this

/-- C155: at the first geometry that is not a polygon the program stops; those before it are in the file, the others are
not. -/
theorem C155_stops (sc lc : String) (schema : List (String × String)) (l l' : List UseFeature) (b : UseFeature)
    (hr : ∀ f ∈ l ++ b :: l', ReadWith schema f) (hl : lc = sc ∨ ∃ t, (lc, t) ∈ schema)
    (hc : ∀ f ∈ l ++ b :: l', IsClosed f.geom) (hp : ∀ f ∈ l, Polygonal f.geom) (hb : ¬ Polygonal b.geom) :
    ∃ out, saveUses sc lc schema (l ++ b :: l') = (out, .error .valueError) ∧ List.Forall₂ (SavedAs sc lc) l out := by
  obtain ⟨rs, e, h⟩ := tagAll sc lc schema _ hr hl
  have hz := zip_forall sc lc _ rs h
  obtain ⟨o1, o2, he, h1, h2⟩ := forall₂_split l (b :: l') _ hz
  cases h2 with
  | @cons _ x _ o3 h2 h3 =>
    refine ⟨o1, ?_, h1.imp fun _ _ x => x.2⟩
    unfold saveUses
    simp only [e, he]
    have hmem : b ∈ l ++ b :: l' := by simp
    apply shpSave_bad
    · intro x hx
      obtain ⟨f, hf, ht, hg, -⟩ := forall₂_right h1 x hx
      have := (takesRecord_iff sc lc f x.1 schema (hr f (by simp [hf])) ht (hc f (by simp [hf]))).mpr (hp f hf)
      rwa [← hg] at this
    · obtain ⟨ht, hg, -⟩ := h2
      rw [← Bool.not_eq_true]
      intro hx
      apply hb
      apply (takesRecord_iff sc lc b x.1 schema (hr b hmem) ht (hc b hmem)).mp
      rwa [← hg]

theorem tagRecord_cases (sc lc : String) (j : AttrVal) (r : NamedValues AttrVal) :
    (∃ r', tagRecord sc lc j r = .ok r') ∨ tagRecord sc lc j r = .error .keyError := by
  unfold tagRecord
  dsimp only
  split
  · exact Or.inl ⟨_, rfl⟩
  · exact Or.inr rfl

/-- C155: if a feature has no attribute of land use, the program stops before anything is saved. -/
theorem C155_no_use (sc lc : String) (schema : List (String × String)) (l : List UseFeature) (f : UseFeature)
    (hf : f ∈ l) (hne : lc ≠ sc) (hno : ∀ v, (lc, v) ∉ f.record) :
    saveUses sc lc schema l = ([], .error .keyError) := by
  have key : (l.mapM fun f => tagRecord sc lc f.joined f.record) = .error .keyError := by
    induction l with
    | nil => cases hf
    | cons g l ih =>
      rw [List.mapM_cons]
      rcases tagRecord_cases sc lc g.joined g.record with ⟨r, e⟩ | e
      · rcases List.mem_cons.mp hf with rfl | hf
        · exfalso
          unfold tagRecord at e
          have hn : (f.record.put sc f.joined).lookup lc = none := by
            rw [List.lookup_eq_none_iff]
            rintro ⟨a, b⟩ hab
            rw [mem_put] at hab
            rw [bne_iff_ne]
            rintro rfl
            rcases hab with ⟨h, -⟩ | ⟨-, h⟩
            · exact hne h
            · exact hno b h
          simp only [hn] at e
          split at e
          · next h => cases h
          · cases e
        · rw [e, ih hf]
          rfl
      · rw [e]
        rfl
  unfold saveUses
  simp only [key]

/-- C155: if the attributes of settlement and land use have the same name, the land use is lost, and the last two
digits of all codes are 0. -/
theorem C155_same_name (sc : String) (schema : List (String × String)) (l : List UseFeature)
    (hr : ∀ f ∈ l, ReadWith schema f)
    (hj : ∀ f ∈ l, f.joined = .null ∨ ∃ s ∈ settlementCodes.map Prod.fst, f.joined = .text s)
    (out : List (List (String × AttrVal) × Region)) (hs : saveUses sc sc schema l = (out, .ok ())) :
    ∀ x ∈ out, ∃ n, ("CAT", AttrVal.int (100 * n)) ∈ x.1 := by
  obtain ⟨rs, e, h⟩ := tagAll sc sc schema l hr (Or.inl rfl)
  have hz := zip_forall sc sc l rs h
  unfold saveUses at hs
  simp only [e] at hs
  intro x hx
  have hsub := shpSave_subset (tagSchema sc schema) (rs.zip (l.map UseFeature.geom))
  rw [hs] at hsub
  obtain ⟨f, hf, -, -, u, -, hu, hcr⟩ := forall₂_right hz x (hsub hx)
  have hc := hcr.code
  rw [hu rfl] at hc
  have h0 : codeIn landUseCodes f.joined.asText = 0 := by
    rcases hj f hf with h | ⟨s, hs, h⟩
    · rw [h]; rfl
    · rw [h]
      have : ∀ s ∈ settlementCodes.map Prod.fst, codeIn landUseCodes (some s) = 0 := by decide
      exact this s hs
  rw [h0, Nat.add_zero] at hc
  exact ⟨_, hc⟩

theorem polygonal_rect (a b c d : ℝ) (h1 : a < b) (h2 : c < d) : Polygonal (Set.Icc a b ×ˢ Set.Icc c d) := by
  rw [← polygonal_iff _ (isClosed_Icc.prod isClosed_Icc), interior_prod_eq, closure_prod_eq,
    closure_interior_Icc h1.ne, closure_interior_Icc h2.ne]

theorem polygonal_union (g g' : Region) (h : Polygonal g) (h' : Polygonal g') : Polygonal (g ∪ g') := by
  rintro p (hp | hp) U hU hpU
  · obtain ⟨V, a, b, c, d⟩ := h p hp U hU hpU
    exact ⟨V, a, b, c, d.trans Set.subset_union_left⟩
  · obtain ⟨V, a, b, c, d⟩ := h' p hp U hU hpU
    exact ⟨V, a, b, c, d.trans Set.subset_union_right⟩

/-- A polygon with a step. -/
def stepRegion : Region := Set.Icc 1 2 ×ˢ Set.Icc 0 1 ∪ Set.Icc 2 3 ×ˢ Set.Icc 0 2

/-- A square. -/
def squareRegion : Region := Set.Icc 0 2 ×ˢ Set.Icc 0 2

theorem box_square : Region.box squareRegion = squareRegion := by
  ext ⟨x, y⟩
  simp only [Region.box, squareRegion, Set.mem_ofPred_eq, Set.mem_prod, Set.mem_Icc, Prod.exists]
  constructor
  · rintro ⟨⟨a1, b1, h1, k1⟩, ⟨a2, b2, h2, k2⟩, ⟨a3, b3, h3, k3⟩, ⟨a4, b4, h4, k4⟩⟩
    refine ⟨⟨?_, ?_⟩, ?_, ?_⟩ <;> linarith [h1.1.1, h2.1.2, h3.2.1, h4.2.2]
  · intro h
    exact ⟨⟨x, y, h, le_refl _⟩, ⟨x, y, h, le_refl _⟩, ⟨x, y, h, le_refl _⟩, ⟨x, y, h, le_refl _⟩⟩

theorem cropped_not_polygonal : ¬ Polygonal (squareRegion ∩ stepRegion) := by
  intro h
  obtain ⟨V, hV, hne, hVU, hVg⟩ := h (2, 3 / 2)
    ⟨by constructor <;> constructor <;> norm_num, Or.inr (by constructor <;> constructor <;> norm_num)⟩
    {q | 1 < q.2} (isOpen_lt continuous_const continuous_snd) (by norm_num)
  have himg : Prod.fst '' V = {(2 : ℝ)} := by
    apply Set.Nonempty.subset_singleton_iff (hne.image _) |>.mp
    rintro _ ⟨q, hq, rfl⟩
    have h1 : 1 < q.2 := hVU hq
    obtain ⟨⟨⟨-, h2⟩, -⟩, ⟨-, -, h3⟩ | ⟨⟨h4, -⟩, -⟩⟩ := hVg hq
    · exact absurd h3 (not_le.mpr h1)
    · exact le_antisymm h2 h4
  exact not_isOpen_singleton (2 : ℝ) (himg ▸ isOpenMap_fst V hV)

theorem area_cropped : Region.area (squareRegion ∩ stepRegion) ≠ 0 := by
  have hs : (Set.Icc 1 2 ×ˢ Set.Icc 0 1 : Region) ⊆ squareRegion ∩ stepRegion := by
    rintro ⟨x, y⟩ ⟨⟨h1, h2⟩, h3, h4⟩
    simp only at h1 h2 h3 h4
    exact ⟨⟨⟨by simp only; linarith, h2⟩, h3, by simp only; linarith⟩, Or.inl ⟨⟨h1, h2⟩, h3, h4⟩⟩
  have hf : MeasureTheory.volume (squareRegion ∩ stepRegion) ≠ ⊤ :=
    ne_top_of_le_ne_top (volume_rect 0 2 0 2) (MeasureTheory.measure_mono Set.inter_subset_left)
  have := area_mono hs hf
  rw [area_rect _ _ _ _ (by norm_num) (by norm_num)] at this
  linarith

/-- The schema of the examples. -/
def useSchema : List (String × String) := [("ID", "int"), ("USE", "str:50")]

/-- A residential feature of the examples, in an urban area. -/
def useFeature (n : ℕ) (g : Region) : UseFeature := ⟨[("ID", .int n), ("USE", .text "Residential")], g, .text "Urban"⟩

theorem useFeature_read (n : ℕ) (g : Region) : ReadWith useSchema (useFeature n g) := by
  constructor
  · intro m v w hv hw
    simp only [useFeature, List.mem_cons, Prod.mk.injEq, List.not_mem_nil, or_false] at hv hw
    rcases hv with ⟨rfl, rfl⟩ | ⟨rfl, rfl⟩
    · rcases hw with ⟨-, rfl⟩ | ⟨h, -⟩
      · rfl
      · exact absurd h (by decide)
    · rcases hw with ⟨h, -⟩ | ⟨-, rfl⟩
      · exact absurd h (by decide)
      · rfl
  · intro m
    simp [useFeature, useSchema, exists_or]

theorem isClosed_rect (a b c d : ℝ) : IsClosed (Set.Icc a b ×ˢ Set.Icc c d : Region) := isClosed_Icc.prod isClosed_Icc

theorem isClosed_square : IsClosed squareRegion := isClosed_rect _ _ _ _

theorem polygonal_square : Polygonal squareRegion := polygonal_rect _ _ _ _ (by norm_num) (by norm_num)

theorem isClosed_step : IsClosed stepRegion := (isClosed_rect _ _ _ _).union (isClosed_rect _ _ _ _)

theorem polygonal_step : Polygonal stepRegion :=
  polygonal_union _ _ (polygonal_rect _ _ _ _ (by norm_num) (by norm_num))
    (polygonal_rect _ _ _ _ (by norm_num) (by norm_num))

/-- C155, where it is false: mask and land use are polygons, and without the mask the feature is saved; but what is left
of it inside the mask has an area and a line besides.  Cropping keeps it, and saving stops with an error and an empty
file. -/
theorem C155_cropping : ∃ (mask g g' : Region) (sc lc : String) (schema : List (String × String))
    (r : List (String × AttrVal)) (j : AttrVal),
    Polygonal mask ∧ Polygonal g ∧ IsClosed mask ∧ IsClosed g ∧ ReadWith schema ⟨r, g, j⟩ ∧
    (∃ x, saveUses sc lc schema [⟨r, g, j⟩] = ([x], .ok ()) ∧ SavedAs sc lc ⟨r, g, j⟩ x) ∧
    crop Region.box (· ∩ ·) Region.area mask [g] [r] = .ok ([g'], [r]) ∧
    saveUses sc lc schema [⟨r, g', j⟩] = ([], .error .valueError) := by
  refine ⟨squareRegion, stepRegion, squareRegion ∩ stepRegion, "SOS", "USE", useSchema,
    (useFeature 1 stepRegion).record, .text "Urban", polygonal_rect _ _ _ _ (by norm_num) (by norm_num),
    polygonal_step, isClosed_rect _ _ _ _, isClosed_step, useFeature_read 1 stepRegion, ?_, ?_, ?_⟩
  · obtain ⟨out, h1, h2⟩ := C155_save_partial "SOS" "USE" useSchema [useFeature 1 stepRegion]
      (by simpa using useFeature_read 1 stepRegion) (Or.inr ⟨"str:50", by simp [useSchema]⟩)
      (by simp [useFeature, isClosed_step]) (by simp [useFeature, polygonal_step])
    cases h2 with
    | cons h3 h4 =>
      cases h4
      exact ⟨_, h1, h3⟩
  · unfold crop
    rw [box_square]
    simp [cropLoop, area_cropped]
  · obtain ⟨out, h1, h2⟩ := C155_stops "SOS" "USE" useSchema [] [] (useFeature 1 (squareRegion ∩ stepRegion))
      (by simpa using useFeature_read 1 _) (Or.inr ⟨"str:50", by simp [useSchema]⟩)
      (by simp [useFeature, isClosed_square.inter isClosed_step]) (by simp) cropped_not_polygonal
    cases h2
    exact h1

/-! ### Examples -/

/-- Two features: both are saved. -/
example : ∃ out, saveUses "SOS" "USE" useSchema [useFeature 1 stepRegion, useFeature 2 squareRegion] = (out, .ok ()) ∧
    List.Forall₂ (SavedAs "SOS" "USE") [useFeature 1 stepRegion, useFeature 2 squareRegion] out :=
  C155_save_partial _ _ _ _ (by simp [useFeature_read]) (Or.inr ⟨"str:50", by simp [useSchema]⟩)
    (by simp [useFeature, isClosed_step, isClosed_square]) (by simp [useFeature, polygonal_step, polygonal_square])

/-- The first of three is saved, the second is not a polygon. -/
example : ∃ out, saveUses "SOS" "USE" useSchema ([useFeature 1 stepRegion] ++
    useFeature 2 (squareRegion ∩ stepRegion) :: [useFeature 3 squareRegion]) = (out, .error .valueError) ∧
    List.Forall₂ (SavedAs "SOS" "USE") [useFeature 1 stepRegion] out :=
  C155_stops _ _ _ _ _ _ (by simp [useFeature_read]) (Or.inr ⟨"str:50", by simp [useSchema]⟩)
    (by simp [useFeature, isClosed_step, isClosed_square, isClosed_square.inter isClosed_step])
    (by simp [useFeature, polygonal_step]) cropped_not_polygonal

/-- The code of the residential feature in an urban area. -/
example : tagRecord "SOS" "USE" (.text "Urban") (useFeature 1 stepRegion).record =
    .ok [("ID", .int 1), ("USE", .text "Residential"), ("SOS", .text "Urban"), ("CAT", .int 305)] := by
  simp only [useFeature]
  decide

/-- With the attribute `USE` for both: 300 instead of 305. -/
example : tagRecord "USE" "USE" (.text "Urban") (useFeature 1 stepRegion).record =
    .ok [("ID", .int 1), ("USE", .text "Urban"), ("CAT", .int 300)] := by
  simp only [useFeature]
  decide

/-- The second feature has no land use: the first is not saved either. -/
example : saveUses "SOS" "USE" useSchema [useFeature 1 stepRegion, ⟨[("ID", .int 2)], squareRegion, .null⟩] =
    ([], .error .keyError) :=
  C155_no_use _ _ _ _ ⟨[("ID", .int 2)], squareRegion, .null⟩ (by simp) (by decide) (by simp)

/-- `C155_same_name` for a feature that is saved. -/
example : ∃ out, saveUses "USE" "USE" useSchema [useFeature 1 stepRegion] = (out, .ok ()) ∧
    ∀ x ∈ out, ∃ n, ("CAT", AttrVal.int (100 * n)) ∈ x.1 := by
  have hr : ∀ f ∈ [useFeature 1 stepRegion], ReadWith useSchema f := by simp [useFeature_read]
  obtain ⟨out, h, -⟩ := C155_save_partial "USE" "USE" useSchema _ hr (Or.inl rfl)
    (by simp [useFeature, isClosed_step]) (by simp [useFeature, polygonal_step])
  exact ⟨out, h, C155_same_name _ _ _ hr (by simp [useFeature, settlementCodes]) _ h⟩

end WindMult
