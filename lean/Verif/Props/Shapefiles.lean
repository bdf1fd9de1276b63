import Verif.Model.Shapefiles
import Verif.Spec.Shapefiles
import Mathlib.Data.Rat.Floor
import Mathlib.Data.Finset.Prod
import Mathlib.Data.Finset.Max
import Mathlib.Order.Interval.Finset.Defs
import Mathlib.Data.Int.Interval
import Mathlib.Algebra.Order.Ring.Rat
import Mathlib.Tactic.Linarith

/-!
# C64–C67: category codes, dissolve, spatial join, crop
-/

set_option linter.unusedSectionVars false

set_option autoImplicit false

namespace WindMult

/-! ### C64 -/

theorem settlementClass_le (s : Option String) : settlementClass s ≤ 5 := by
  unfold settlementClass; split <;> (try split_ifs) <;> omega

theorem landUseClass_le (s : Option String) : landUseClass s ≤ 11 := by
  unfold landUseClass; split <;> (try split_ifs) <;> omega

/-- C64: the code is below 1000 and determines both classes. -/
theorem C64_decode (s l : Option String) : catCode s l < 1000 ∧
    catCode s l / 100 = settlementClass s ∧ catCode s l % 100 = landUseClass l := by
  have h1 := settlementClass_le s
  have h2 := landUseClass_le l
  unfold catCode
  omega

/-- C64: the class is zero exactly for names outside the two lists. -/
theorem C64_unknown (s l : Option String) :
    (settlementClass s = 0 ↔ ∀ n ∈ ["Major CBD", "City", "Urban", "Large Town", "Small Town"],
      s ≠ some n) ∧
    (landUseClass l = 0 ↔ ∀ n ∈ ["Parkland", "Primary Production", "Education", "Residential",
      "Water", "Other", "Commercial", "Industrial", "Hospital/Medical", "Transport"],
      l ≠ some n) := by
  constructor
  · unfold settlementClass
    cases s with
    | none => simp
    | some s => simp only; split_ifs <;> simp_all
  · unfold landUseClass
    cases l with
    | none => simp
    | some l => simp only; split_ifs <;> simp_all

theorem settlement_name {s : String} (h : settlementClass (some s) ≠ 0) :
    s = ["", "Major CBD", "City", "Urban", "Large Town", "Small Town"].getD
      (settlementClass (some s)) "" := by
  unfold settlementClass at h ⊢
  simp only at h ⊢
  split_ifs at h ⊢ <;> simp_all

theorem landUse_name {s : String} (h : landUseClass (some s) ≠ 0) :
    s = ["", "Parkland", "Primary Production", "", "Education", "Residential", "Water", "Other",
      "Commercial", "Industrial", "Hospital/Medical", "Transport"].getD
      (landUseClass (some s)) "" := by
  unfold landUseClass at h ⊢
  simp only at h ⊢
  split_ifs at h ⊢ <;> simp_all

/-- C64: among known names equal codes mean equal names. -/
theorem C64_injective {s s' l l' : String} (hs : settlementClass (some s) ≠ 0)
    (hl : landUseClass (some l) ≠ 0) (h : catCode (some s) (some l) = catCode (some s') (some l')) :
    s = s' ∧ l = l' := by
  have a := C64_decode (some s) (some l)
  have b := C64_decode (some s') (some l')
  rw [h] at a
  have h1 : settlementClass (some s) = settlementClass (some s') := by omega
  have h2 : landUseClass (some l) = landUseClass (some l') := by omega
  clear a b h
  constructor
  · have e := settlement_name hs
    rw [h1] at e
    exact e.trans (settlement_name (s := s') (h1 ▸ hs)).symm
  · have e := landUse_name hl
    rw [h2] at e
    exact e.trans (landUse_name (s := l') (h2 ▸ hl)).symm

/-- C64: the names kept by the settlement filter are exactly those with a class of their own. -/
theorem C64_authorised (v : Option String) :
    settlementClass (authorise v) = settlementClass v ∧
      (authorise v = none ↔ settlementClass v = 0) := by
  unfold authorise
  cases v with
  | none => simp [settlementClass]
  | some s =>
    simp only
    split_ifs with h
    · refine ⟨rfl, ?_⟩
      simp only [false_iff]
      simp only [List.mem_cons, List.not_mem_nil, or_false] at h
      rcases h with rfl | rfl | rfl | rfl | rfl <;> decide +kernel
    · have h0 : settlementClass (some s) = 0 := by
        rw [(C64_unknown (some s) none).1]
        simp only [List.mem_cons, List.not_mem_nil, or_false, not_or] at h
        simp [h]
      exact ⟨h0.symm, by simp [h0]⟩

example : catCode (some "Urban") (some "Water") = 306 ∧ catCode none (some "Farm") = 0 ∧
    catCode (some "City") (some "Transport") = 211 := by decide +kernel

/-! ### C65 -/

theorem dissolveKey_eq (name : String) (a : ShpAttr) :
    dissolveKey name a = Spec.normalised (a name) := by
  unfold dissolveKey Spec.normalised
  cases h : a name with
  | none => simp
  | some v =>
    by_cases hv : v = ""
    · simp [hv]
    · simp [hv]

section
variable {α : Type} (key : α → String)

theorem groupRuns_flatten (l : List α) : (groupRuns key l).flatten = l := by
  induction l with
  | nil => rfl
  | cons x rest ih =>
    rw [groupRuns]
    split
    · rename_i h; rw [h] at ih; simp only [List.flatten_nil] at ih; simp [← ih]
    · rename_i gs h; rw [h] at ih; simp only [List.flatten_cons, List.nil_append] at ih; simp [ih]
    · rename_i y g gs h
      rw [h] at ih
      simp only [List.flatten_cons] at ih
      split_ifs
      · simp only [List.flatten_cons, List.cons_append] at ih ⊢; rw [ih]
      · simp only [List.flatten_cons, List.cons_append, List.nil_append] at ih ⊢; rw [ih]

theorem groupRuns_const (l : List α) :
    ∀ g ∈ groupRuns key l, ∃ x t, g = x :: t ∧ ∀ y ∈ t, key y = key x := by
  induction l with
  | nil => intro g hg; simp [groupRuns] at hg
  | cons x rest ih =>
    intro g hg
    rw [groupRuns] at hg
    split at hg
    · simp only [List.mem_singleton] at hg
      exact ⟨x, [], hg, by simp⟩
    · rename_i gs h
      obtain ⟨x', t, he, -⟩ := ih [] (by rw [h]; exact List.mem_cons_self)
      cases he
    · rename_i y g' gs h
      have hmem : ∀ g ∈ (y :: g') :: gs, ∃ x t, g = x :: t ∧ ∀ z ∈ t, key z = key x := by
        rw [← h]; exact ih
      split_ifs at hg with hk
      · rcases List.mem_cons.mp hg with rfl | hg
        · obtain ⟨x', t, he, ht⟩ := hmem (y :: g') List.mem_cons_self
          simp only [List.cons.injEq] at he
          obtain ⟨rfl, rfl⟩ := he
          refine ⟨x, y :: g', rfl, ?_⟩
          intro z hz
          rcases List.mem_cons.mp hz with rfl | hz
          · exact hk.symm
          · rw [ht z hz, hk]
        · exact hmem g (List.mem_cons_of_mem _ hg)
      · rcases List.mem_cons.mp hg with rfl | hg
        · exact ⟨x, [], rfl, by simp⟩
        · exact hmem g hg

theorem groupRuns_pairwise (l : List α) (hl : l.Pairwise (fun a b => key a ≤ key b)) :
    (groupRuns key l).Pairwise (fun g h => ∀ x ∈ g, ∀ y ∈ h, key x < key y) := by
  induction l with
  | nil => simp [groupRuns]
  | cons x rest ih =>
    rw [List.pairwise_cons] at hl
    obtain ⟨hx, hrest⟩ := hl
    have ih := ih hrest
    have hfl := groupRuns_flatten key rest
    have hc := groupRuns_const key rest
    rw [groupRuns]
    split
    · simp
    · rename_i gs h
      obtain ⟨x', t, he, -⟩ := hc [] (by rw [h]; exact List.mem_cons_self)
      cases he
    · rename_i y g' gs h
      rw [h] at ih hfl hc
      rw [List.pairwise_cons] at ih
      have hy : y ∈ rest := by rw [← hfl]; simp
      obtain ⟨x', t, he, ht⟩ := hc (y :: g') List.mem_cons_self
      simp only [List.cons.injEq] at he
      obtain ⟨rfl, rfl⟩ := he
      split_ifs with hk
      · rw [List.pairwise_cons]
        refine ⟨?_, ih.2⟩
        intro g hg a ha b hb
        rcases List.mem_cons.mp ha with rfl | ha
        · rw [hk]; exact ih.1 g hg y List.mem_cons_self b hb
        · exact ih.1 g hg a ha b hb
      · have hlt : key x < key y := lt_of_le_of_ne (hx y hy) hk
        rw [List.pairwise_cons]
        refine ⟨?_, List.pairwise_cons.mpr ih⟩
        intro g hg a ha b hb
        rw [List.mem_singleton] at ha
        subst ha
        rcases List.mem_cons.mp hg with rfl | hg
        · rcases List.mem_cons.mp hb with rfl | hb
          · exact hlt
          · rw [ht b hb]; exact hlt
        · exact hlt.trans (ih.1 g hg y List.mem_cons_self b hb)

theorem groupRuns_filter (l : List α) (hl : l.Pairwise (fun a b => key a ≤ key b)) :
    ∀ g ∈ groupRuns key l, ∀ x ∈ g, l.filter (fun a => key a = key x) = g := by
  intro g hg x hx
  have hfl := groupRuns_flatten key l
  have hp := groupRuns_pairwise key l hl
  obtain ⟨x', t, he, ht⟩ := groupRuns_const key l g hg
  have hall : ∀ a ∈ g, key a = key x := by
    have h0 : ∀ a ∈ g, key a = key x' := by
      intro a ha
      rw [he] at ha
      rcases List.mem_cons.mp ha with rfl | ha
      · rfl
      · exact ht a ha
    intro a ha
    rw [h0 a ha, h0 x hx]
  obtain ⟨pre, post, hsplit⟩ := List.append_of_mem hg
  rw [hsplit] at hp hfl
  rw [List.pairwise_append, List.pairwise_cons] at hp
  obtain ⟨-, ⟨hpost, -⟩, hpre⟩ := hp
  have e1 : pre.flatten.filter (fun a => key a = key x) = [] := by
    rw [List.filter_eq_nil_iff]
    intro a ha
    obtain ⟨g1, hg1, ha1⟩ := List.mem_flatten.mp ha
    have := hpre g1 hg1 g List.mem_cons_self a ha1 x hx
    simpa using this.ne
  have e2 : post.flatten.filter (fun a => key a = key x) = [] := by
    rw [List.filter_eq_nil_iff]
    intro a ha
    obtain ⟨g1, hg1, ha1⟩ := List.mem_flatten.mp ha
    have := hpost g1 hg1 x hx a ha1
    simpa using this.ne'
  have e3 : g.filter (fun a => key a = key x) = g := by
    rw [List.filter_eq_self]
    intro a ha
    simpa using hall a ha
  rw [← hfl, List.flatten_append, List.flatten_cons, List.filter_append, List.filter_append, e1, e2,
    e3]
  simp

/-- Stability of the sort. -/
theorem insertionSort_filter (l : List α) (k : String) :
    (l.insertionSort (fun a b => key a ≤ key b)).filter (fun a => key a = k) =
      l.filter (fun a => key a = k) := by
  have : Std.Total (fun a b : α => key a ≤ key b) := ⟨fun a b => le_total _ _⟩
  have : IsTrans α (fun a b : α => key a ≤ key b) := ⟨fun a b c h h' => le_trans h h'⟩
  have hpw : (l.filter (fun a => key a = k)).Pairwise (fun a b => key a ≤ key b) := by
    refine List.Pairwise.imp_of_mem (R := fun _ _ => True) ?_ (List.pairwise_of_forall (by simp))
    intro a b ha hb _
    rw [List.mem_filter] at ha hb
    have h1 : key a = k := by simpa using ha.2
    have h2 : key b = k := by simpa using hb.2
    rw [h1, h2]
  have hsub := List.sublist_insertionSort (r := fun a b => key a ≤ key b) hpw
    (List.filter_sublist (l := l))
  have h2 := hsub.filter (fun a => key a = k)
  rw [List.filter_filter] at h2
  simp only [Bool.and_self] at h2
  refine (h2.eq_of_length ?_).symm
  exact ((List.perm_insertionSort (fun a b => key a ≤ key b) l).filter _).length_eq.symm

end

/-- Equal codes of known classes: the names can be told. -/
example (s l : String) (h : catCode (some "Urban") (some "Water") = catCode (some s) (some l)) :
    s = "Urban" ∧ l = "Water" := by
  obtain ⟨h1, h2⟩ := C64_injective (by decide +kernel) (by decide +kernel) h
  exact ⟨h1.symm, h2.symm⟩

/-- C65: the features after dissolving have pairwise different (strictly increasing) normalised
values; the values are those that occurred before; and each feature is the union of exactly the
geometries with its value, in their order, with the attributes of the first of them. -/
theorem C65_dissolve {G : Type} (union : List G → G) (name : String)
    (features : List (ShpAttr × G)) :
    ((dissolve union name features).map (fun f => Spec.normalised (f.1 name))).Pairwise (· < ·) ∧
    (∀ k, k ∈ (dissolve union name features).map (fun f => Spec.normalised (f.1 name)) ↔
      ∃ f ∈ features, Spec.normalised (f.1 name) = k) ∧
    (∀ f ∈ dissolve union name features,
      f.2 = union ((features.filter
        (fun g => Spec.normalised (g.1 name) = Spec.normalised (f.1 name))).map Prod.snd) ∧
      ∃ geom rest, features.filter
        (fun g => Spec.normalised (g.1 name) = Spec.normalised (f.1 name)) = (f.1, geom) :: rest) := by
  simp only [← dissolveKey_eq]
  have : Std.Total (fun a b : ShpAttr × G => dissolveKey name a.1 ≤ dissolveKey name b.1) :=
    ⟨fun a b => le_total _ _⟩
  have : IsTrans (ShpAttr × G) (fun a b => dissolveKey name a.1 ≤ dissolveKey name b.1) :=
    ⟨fun a b c h h' => le_trans h h'⟩
  have hsort := List.pairwise_insertionSort
    (fun a b : ShpAttr × G => dissolveKey name a.1 ≤ dissolveKey name b.1) features
  have hstab := insertionSort_filter (fun f : ShpAttr × G => dissolveKey name f.1) features
  have hmem : ∀ f, f ∈ features.insertionSort
      (fun a b : ShpAttr × G => dissolveKey name a.1 ≤ dissolveKey name b.1) ↔ f ∈ features :=
    fun f => List.mem_insertionSort _
  unfold dissolve
  simp only
  generalize features.insertionSort
    (fun a b : ShpAttr × G => dissolveKey name a.1 ≤ dissolveKey name b.1) = sorted at *
  have hfl := groupRuns_flatten (fun f : ShpAttr × G => dissolveKey name f.1) sorted
  have hc := groupRuns_const (fun f : ShpAttr × G => dissolveKey name f.1) sorted
  have hp := groupRuns_pairwise (fun f : ShpAttr × G => dissolveKey name f.1) sorted hsort
  have hf := groupRuns_filter (fun f : ShpAttr × G => dissolveKey name f.1) sorted hsort
  generalize groupRuns (fun f : ShpAttr × G => dissolveKey name f.1) sorted = gs at *
  refine ⟨?_, ?_, ?_⟩
  · rw [List.map_map, List.pairwise_map]
    refine hp.imp_of_mem ?_
    intro g h hg hh hgh
    obtain ⟨x, t, rfl, -⟩ := hc g hg
    obtain ⟨y, u, rfl, -⟩ := hc h hh
    exact hgh x List.mem_cons_self y List.mem_cons_self
  · intro k
    rw [List.map_map]
    constructor
    · intro hk
      obtain ⟨g, hg, rfl⟩ := List.mem_map.mp hk
      obtain ⟨x, t, rfl, -⟩ := hc g hg
      refine ⟨x, (hmem x).mp ?_, rfl⟩
      rw [← hfl]
      exact List.mem_flatten.mpr ⟨_, hg, List.mem_cons_self⟩
    · rintro ⟨f, hff, rfl⟩
      have := (hmem f).mpr hff
      rw [← hfl] at this
      obtain ⟨g, hg, hfg⟩ := List.mem_flatten.mp this
      refine List.mem_map.mpr ⟨g, hg, ?_⟩
      obtain ⟨x, t, rfl, ht⟩ := hc g hg
      simp only [Function.comp_apply, List.head?_cons, Option.map_some, Option.getD_some]
      rcases List.mem_cons.mp hfg with rfl | h
      · rfl
      · exact (ht f h).symm
  · intro f hf'
    obtain ⟨g, hg, rfl⟩ := List.mem_map.mp hf'
    obtain ⟨x, t, rfl, -⟩ := hc g hg
    have := hf (x :: t) hg x List.mem_cons_self
    change union _ = union ((features.filter
        (fun g => dissolveKey name g.1 = dissolveKey name x.1)).map Prod.snd) ∧
      ∃ geom rest, features.filter (fun g => dissolveKey name g.1 = dissolveKey name x.1) =
        (x.1, geom) :: rest
    rw [← hstab, this]
    exact ⟨rfl, x.2, t, rfl⟩

example : (dissolve (fun l : List (List ℕ) => l.flatten) "S"
      [((fun _ => some "Urban"), [1]), ((fun _ => none), [2]), ((fun _ => some "City"), [3]),
       ((fun _ => some "Urban"), [4]), ((fun _ => some ""), [5])]).map (fun f => (f.1 "S", f.2)) =
    [(some "City", [3]), (none, [2, 5]), (some "Urban", [1, 4])] := by decide +kernel

/-! ### C66 -/

section
variable {K : Type} [Field K] [LinearOrder K] [IsStrictOrderedRing K]

theorem argmaxFirst_spec : ∀ (l : List K), l ≠ [] →
    ∃ h : argmaxFirst l < l.length, ∀ y ∈ l, y ≤ l[argmaxFirst l] := by
  intro l
  induction l with
  | nil => intro h; exact absurd rfl h
  | cons x rest ih =>
    intro _
    by_cases hx : ∀ y ∈ rest, y ≤ x
    · have e : argmaxFirst (x :: rest) = 0 := by rw [argmaxFirst, if_pos hx]
      refine ⟨by rw [e]; simp, ?_⟩
      intro y hy
      simp only [e, List.getElem_cons_zero]
      rcases List.mem_cons.mp hy with rfl | hy
      · exact le_rfl
      · exact hx y hy
    · have e : argmaxFirst (x :: rest) = argmaxFirst rest + 1 := by rw [argmaxFirst, if_neg hx]
      have hne : rest ≠ [] := by rintro rfl; simp at hx
      obtain ⟨h1, h2⟩ := ih hne
      refine ⟨by rw [e]; simpa using h1, ?_⟩
      intro y hy
      simp only [e, List.getElem_cons_succ]
      rcases List.mem_cons.mp hy with rfl | hy
      · push Not at hx
        obtain ⟨z, hz, hlt⟩ := hx
        exact hlt.le.trans (h2 z hz)
      · exact h2 y hy

/-- C66: whatever the order in which the search tree returns its candidates, as long as all
intersecting features `< m` are among them: null if none intersects, otherwise an intersecting
feature whose overlap is at least that of every other one. -/
theorem C66_largest (m : ℕ) (candidates : List ℕ) (touches : ℕ → Bool) (overlap : ℕ → K) (area : K)
    (hcand : ∀ i, i < m → touches i = true → i ∈ candidates) (hm : ∀ i ∈ candidates, i < m)
    (harea : 0 < area) :
    ((∀ i < m, touches i = false) ∧ joinOne candidates touches overlap area = .ok none) ∨
    ∃ i < m, touches i = true ∧ joinOne candidates touches overlap area = .ok (some i) ∧
      ∀ j < m, touches j = true → overlap j ≤ overlap i := by
  have hmem : ∀ i, i ∈ candidates.filter touches ↔ i < m ∧ touches i = true := by
    intro i
    rw [List.mem_filter]
    exact ⟨fun h => ⟨hm i h.1, h.2⟩, fun h => ⟨hcand i h.1 h.2, h.2⟩⟩
  unfold joinOne
  simp only
  generalize candidates.filter touches = fids at *
  match hf : fids with
  | [] =>
    left
    refine ⟨?_, rfl⟩
    intro i hi
    by_contra hc
    have : i ∈ ([] : List ℕ) := (hmem i).mpr ⟨hi, by simpa using hc⟩
    simp at this
  | [i] =>
    right
    obtain ⟨h1, h2⟩ := (hmem i).mp List.mem_cons_self
    refine ⟨i, h1, h2, rfl, ?_⟩
    intro j hj htj
    have := (hmem j).mpr ⟨hj, htj⟩
    rw [List.mem_singleton] at this
    rw [this]
  | a :: b :: rest =>
    right
    obtain ⟨h1, h2⟩ := argmaxFirst_spec ((a :: b :: rest).map fun i => overlap i / area) (by simp)
    have h1' : argmaxFirst ((a :: b :: rest).map fun i => overlap i / area) <
        (a :: b :: rest).length := by simpa using h1
    have hin := List.getElem_mem h1'
    refine ⟨(a :: b :: rest)[argmaxFirst ((a :: b :: rest).map fun i => overlap i / area)],
      ((hmem _).mp hin).1, ((hmem _).mp hin).2, ?_, ?_⟩
    · simp only
      rw [if_neg harea.ne', List.getElem?_eq_getElem h1']
    · intro j hj htj
      have := h2 (overlap j / area) (List.mem_map.mpr ⟨j, (hmem j).mpr ⟨hj, htj⟩, rfl⟩)
      rw [List.getElem_map] at this
      exact (div_le_div_iff_of_pos_right harea).mp this

/-- C66 needs a positive area: a feature without area that meets two others is an error. -/
theorem C66_no_area : joinOne [0, 1] (fun _ => true) (fun _ => (0 : ℚ)) 0 =
    .error .zeroDivisionError := by decide +kernel

end

theorem poolMap_eq {β : Type} (n : ℕ) (finish : List ℕ) (f : ℕ → β)
    (h : ∀ i < n, i ∈ finish) : poolMap n finish f = (List.range n).map (fun i => some (f i)) := by
  unfold poolMap
  simp only
  apply List.map_congr_left
  intro i hi
  have key : ∀ (l : List ℕ) (s : ℕ → Option β), (i ∈ l ∨ s i = some (f i)) →
      l.foldl (fun (s : ℕ → Option β) i => fun j => if j = i then some (f i) else s j) s i =
        some (f i) := by
    intro l
    induction l with
    | nil => rintro s (h | h); · simp at h
             · exact h
    | cons a l ih =>
      intro s hs
      rw [List.foldl_cons]
      apply ih
      rcases hs with hs | hs
      · rcases List.mem_cons.mp hs with rfl | hs
        · right; simp
        · exact Or.inl hs
      · right
        by_cases hia : i = a
        · subst hia; simp
        · simp [hia, hs]
  exact key finish _ (Or.inl (h i (List.mem_range.mp hi)))

theorem mapM_ok {α β : Type} (f : α → Except PyErr β) (g : α → β) : ∀ (l : List α),
    (∀ a ∈ l, f a = .ok (g a)) → l.mapM f = .ok (l.map g) := by
  intro l
  induction l with
  | nil => intro _; rfl
  | cons a l ih =>
    intro h
    rw [List.mapM_cons, h a List.mem_cons_self, ih (fun b hb => h b (List.mem_cons_of_mem _ hb))]
    rfl

/-- C66: whatever order the thread pool finishes in, the join keeps the number and order of the
features, changes only the one attribute, and sets it to the value of the feature found, or null. -/
theorem C66_order (var : String) (found : ℕ → Option ℕ) (finish : List ℕ)
    (self other : List ShpAttr) (hfin : finish.Perm (List.range self.length))
    (hfound : ∀ i < self.length, ∀ j, found i = some j → j < other.length) :
    ∃ out, spatialJoin var (fun i => .ok (found i)) finish self other = .ok out ∧
      out.length = self.length ∧ ∀ i (hi : i < self.length) (ho : i < out.length),
        (∀ k, k ≠ var → out[i] k = self[i] k) ∧
        out[i] var = (found i).bind (fun j => other[j]?.bind (fun b => b var)) := by
  unfold spatialJoin
  rw [poolMap_eq _ _ _ (fun i hi => hfin.mem_iff.mpr (List.mem_range.mpr hi))]
  rw [mapM_ok _ (fun r : Option (Except PyErr (Option ℕ)) =>
    match r with | some (.ok x) => x | _ => none) _ (by
      intro a ha
      obtain ⟨i, -, rfl⟩ := List.mem_map.mp ha
      rfl)]
  rw [List.map_map]
  simp only
  rw [mapM_ok _ (fun p : Option ℕ × ShpAttr =>
    fun k => if k = var then p.1.bind (fun j => other[j]?.bind (fun b => b var)) else p.2 k)]
  · refine ⟨_, rfl, by simp, ?_⟩
    intro i hi ho
    simp only [List.getElem_map, List.getElem_zip, List.getElem_range, Function.comp_apply]
    exact ⟨fun k hk => by rw [if_neg hk], by simp⟩
  · rintro ⟨r, a⟩ hp
    unfold joinUpdate
    simp only
    cases r with
    | none => rfl
    | some j =>
      have hr := (List.of_mem_zip hp).1
      obtain ⟨i, hi, he⟩ := List.mem_map.mp hr
      have hlt := hfound i (List.mem_range.mp hi) j he
      simp only [Option.bind_some, List.getElem?_eq_getElem hlt]

/-- Two suburbs, finished in the other order, of which the second lies in the only settlement. -/
example : ∃ out, spatialJoin "S" (fun i => .ok (if i = 1 then some 0 else none)) [1, 0]
    [fun k => if k = "N" then some "a" else none, fun k => if k = "N" then some "b" else none]
    [fun k => if k = "S" then some "City" else none] = .ok out ∧
    out.map (fun f => (f "N", f "S")) = [(some "a", none), (some "b", some "City")] := by
  obtain ⟨out, h1, h2, h3⟩ := C66_order "S" (fun i => if i = 1 then some 0 else none) [1, 0]
    [fun k => if k = "N" then some "a" else none, fun k => if k = "N" then some "b" else none]
    [fun k => if k = "S" then some "City" else none] (by decide)
    (by intro i _ j h; split_ifs at h; cases h; decide)
  refine ⟨out, h1, ?_⟩
  match out, h2 with
  | [x, y], _ =>
    have a := h3 0 (by decide) (by simp)
    have b := h3 1 (by decide) (by simp)
    simp only [List.getElem_cons_zero, List.getElem_cons_succ] at a b
    simp [a.1 "N" (by decide), a.2, b.1 "N" (by decide), b.2]

example : joinOne [2, 0, 1] (fun i => i ≠ 1) (fun i => if i = 0 then (3 : ℚ) else 5) 10 =
    .ok (some 2) := by decide +kernel

/-! ### C67 -/

section
variable {K : Type} [Field K] [LinearOrder K] [IsStrictOrderedRing K]

theorem cropLoop_eq {G A : Type} (clip : G → G) (area : G → K) (attr : List A) :
    ∀ (geom : List G) (idx : ℕ), idx + geom.length = attr.length →
      cropLoop clip area attr idx geom = .ok
        (((geom.zip (attr.drop idx)).filter (fun p => area (clip p.1) ≠ 0)).map
            (fun p => clip p.1),
          ((geom.zip (attr.drop idx)).filter (fun p => area (clip p.1) ≠ 0)).map Prod.snd) := by
  intro geom
  induction geom with
  | nil => intro idx _; simp [cropLoop]
  | cons poly rest ih =>
    intro idx h
    simp only [List.length_cons] at h
    have hlt : idx < attr.length := by omega
    rw [cropLoop, ih (idx + 1) (by omega), List.drop_eq_getElem_cons hlt, List.zip_cons_cons]
    by_cases h0 : area (clip poly) = 0
    · rw [if_neg (by simpa using h0), List.filter_cons_of_neg (by simpa using h0)]
    · rw [if_pos h0, List.getElem?_eq_getElem hlt, List.filter_cons_of_pos (by simpa using h0)]
      rfl

/-- C67: if there are as many attributes as geometries and areas are not negative, cropping succeeds
and leaves exactly the features with positive overlap with the bounding box of the mask, clipped to
it, in their order and each with its own attributes. -/
theorem C67_crop {G A : Type} (box : G → G) (inter : G → G → G) (area : G → K)
    (hpos : ∀ g, 0 ≤ area g) (mask : G) (geom : List G) (attr : List A)
    (hlen : geom.length = attr.length) :
    ∃ gs as, crop box inter area mask geom attr = .ok (gs, as) ∧ gs.length = as.length ∧
      gs.zip as = ((geom.zip attr).filter (fun p => 0 < area (inter (box mask) p.1))).map
        (fun p => (inter (box mask) p.1, p.2)) := by
  have h := cropLoop_eq (inter (box mask)) area attr geom 0 (by omega)
  refine ⟨_, _, h, by simp, ?_⟩
  rw [List.zip_map', List.drop_zero]
  congr 1
  apply List.filter_congr
  intro p _
  have := hpos (inter (box mask) p.1)
  rw [decide_eq_decide, lt_iff_le_and_ne]
  exact ⟨fun h => ⟨this, fun h' => h h'.symm⟩, fun h h' => h.2 h'.symm⟩

end

/-! Geometries as finite sets of unit squares. -/

/-- The bounding box of a set of unit squares. -/
def boxOfCells (g : Finset (ℤ × ℤ)) : Finset (ℤ × ℤ) :=
  if h : g.Nonempty then
    Finset.Icc ((g.image Prod.fst).min' (h.image _)) ((g.image Prod.fst).max' (h.image _)) ×ˢ
      Finset.Icc ((g.image Prod.snd).min' (h.image _)) ((g.image Prod.snd).max' (h.image _))
  else ∅

/-- C67: cropping is to the bounding box, not to the mask: a feature that lies in the bounding box of
an L-shaped mask but has no point in common with the mask itself is kept whole. -/
theorem C67_not_mask : ∃ (mask feature : Finset (ℤ × ℤ)), mask ∩ feature = ∅ ∧
    crop boxOfCells (· ∩ ·) (fun g => (g.card : ℚ)) mask [feature] ["a"] =
      .ok ([feature], ["a"]) :=
  ⟨{(0, 0), (0, 1), (1, 0)}, {(1, 1)}, by decide, by decide +kernel⟩

example : crop boxOfCells (· ∩ ·) (fun g => (g.card : ℚ)) {(0, 0), (1, 1)}
    [{(5, 5)}, {(1, 0), (2, 0)}] ["far", "near"] = .ok ([{(1, 0)}], ["near"]) := by decide +kernel

end WindMult
