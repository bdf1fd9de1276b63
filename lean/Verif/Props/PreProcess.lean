import Verif.Spec.PreProcess
import Verif.Props.Shapefiles
import Verif.Props.PixelSize

/-!
# C100: from the shape files to the land-cover raster
-/

set_option autoImplicit false
set_option linter.unusedSectionVars false

namespace WindMult
open MeasureTheory

/-! ### Codes and types -/

theorem settlementClass_code (v : Option String) : settlementClass v = codeIn settlementCodes v := by
  cases v with
  | none => rfl
  | some s =>
    simp only [settlementClass, codeIn, settlementCodes, Option.bind_some, List.lookup_cons,
      List.lookup_nil]
    by_cases h1 : s = "Major CBD"
    · subst h1; rfl
    by_cases h2 : s = "City"
    · subst h2; rfl
    by_cases h3 : s = "Urban"
    · subst h3; rfl
    by_cases h4 : s = "Large Town"
    · subst h4; rfl
    by_cases h5 : s = "Small Town"
    · subst h5; rfl
    simp only [if_neg h1, if_neg h2, if_neg h3, if_neg h4, if_neg h5, beq_eq_false_iff_ne.mpr h1,
      beq_eq_false_iff_ne.mpr h2, beq_eq_false_iff_ne.mpr h3, beq_eq_false_iff_ne.mpr h4,
      beq_eq_false_iff_ne.mpr h5]
    rfl

theorem landUseClass_code (v : Option String) : landUseClass v = codeIn landUseCodes v := by
  cases v with
  | none => rfl
  | some s =>
    simp only [landUseClass, codeIn, landUseCodes, Option.bind_some, List.lookup_cons,
      List.lookup_nil]
    by_cases h1 : s = "Parkland"
    · subst h1; rfl
    by_cases h2 : s = "Primary Production"
    · subst h2; rfl
    by_cases h3 : s = "Education"
    · subst h3; rfl
    by_cases h4 : s = "Residential"
    · subst h4; rfl
    by_cases h5 : s = "Water"
    · subst h5; rfl
    by_cases h6 : s = "Other"
    · subst h6; rfl
    by_cases h7 : s = "Commercial"
    · subst h7; rfl
    by_cases h8 : s = "Industrial"
    · subst h8; rfl
    by_cases h9 : s = "Hospital/Medical"
    · subst h9; rfl
    by_cases h10 : s = "Transport"
    · subst h10; rfl
    simp only [if_neg h1, if_neg h2, if_neg h3, if_neg h4, if_neg h5, if_neg h6, if_neg h7,
      if_neg h8, if_neg h9, if_neg h10, beq_eq_false_iff_ne.mpr h1,
      beq_eq_false_iff_ne.mpr h2, beq_eq_false_iff_ne.mpr h3, beq_eq_false_iff_ne.mpr h4,
      beq_eq_false_iff_ne.mpr h5, beq_eq_false_iff_ne.mpr h6, beq_eq_false_iff_ne.mpr h7,
      beq_eq_false_iff_ne.mpr h8, beq_eq_false_iff_ne.mpr h9, beq_eq_false_iff_ne.mpr h10]
    rfl

theorem authorise_filter (v : Option String) :
    authorise v = v.filter (fun s => s ∈ settlementCodes.map Prod.fst) := by
  cases v with
  | none => rfl
  | some s =>
    simp only [authorise, Option.filter_some, settlementCodes, List.map_cons, List.map_nil]
    by_cases h : s ∈ ["City", "Large Town", "Major CBD", "Small Town", "Urban"]
    · rw [if_pos h, if_pos]
      simp only [List.mem_cons, List.not_mem_nil, or_false] at h
      simp only [List.mem_cons, List.not_mem_nil, or_false, decide_eq_true_eq]
      tauto
    · rw [if_neg h, if_neg]
      simp only [List.mem_cons, List.not_mem_nil, or_false] at h
      simp only [List.mem_cons, List.not_mem_nil, or_false, decide_eq_true_eq]
      tauto

theorem authorise_cases (v : Option String) : authorise v = none ∨
    ∃ s ∈ ["City", "Large Town", "Major CBD", "Small Town", "Urban"], authorise v = some s := by
  cases v with
  | none => exact .inl rfl
  | some s =>
    simp only [authorise]
    by_cases h : s ∈ ["City", "Large Town", "Major CBD", "Small Town", "Urban"]
    · rw [if_pos h]
      exact .inr ⟨s, h, rfl⟩
    · rw [if_neg h]
      exact .inl rfl

/-- The key by which settlements are dissolved tells the types apart. -/
theorem normalised_authorise (v w : Option String) :
    Spec.normalised (authorise v) = Spec.normalised (authorise w) ↔ authorise v = authorise w := by
  constructor
  · intro h
    rcases authorise_cases v with hv | ⟨s, hs, hv⟩ <;> rcases authorise_cases w with hw | ⟨t, ht, hw⟩
    · rw [hv, hw]
    · rw [hv, hw] at h
      exfalso
      simp only [List.mem_cons, List.not_mem_nil, or_false] at ht
      rcases ht with rfl | rfl | rfl | rfl | rfl <;> revert h <;> decide
    · rw [hv, hw] at h
      exfalso
      simp only [List.mem_cons, List.not_mem_nil, or_false] at hs
      rcases hs with rfl | rfl | rfl | rfl | rfl <;> revert h <;> decide
    · rw [hv, hw] at h ⊢
      have hn : ∀ u ∈ ["City", "Large Town", "Major CBD", "Small Town", "Urban"],
          Spec.normalised (some u) = u := by
        intro u hu
        simp only [List.mem_cons, List.not_mem_nil, or_false] at hu
        rcases hu with rfl | rfl | rfl | rfl | rfl <;> decide
      rw [hn s hs, hn t ht] at h
      rw [h]
  · intro h
    rw [h]

/-! ### The settlements -/

theorem ofType_mem (c : PreCfg) (v : Option String) (p : ℝ × ℝ) :
    p ∈ c.ofType v ↔ ∃ f ∈ c.settlement, p ∈ f.2 ∧ authorise (f.1 c.settlementCat) = v := by
  unfold PreCfg.ofType
  rw [Set.mem_ofPred_eq]
  simp only [authorise_filter]

theorem settled_mem (c : PreCfg) : ∀ f ∈ c.settled, f.2 = c.ofType (f.1 c.settlementCat) ∧
    ∃ q ∈ c.settlement, f.1 c.settlementCat = authorise (q.1 c.settlementCat) := by
  intro f hf
  obtain ⟨-, -, h⟩ := C65_dissolve Region.unionAll c.settlementCat (c.settlement.map fun f =>
    ((fun k => if k = c.settlementCat then authorise (f.1 k) else f.1 k : ShpAttr), f.2))
  obtain ⟨h1, geom, rest, h2⟩ := h f hf
  have hmem : (f.1, geom) ∈ (c.settlement.map fun f =>
      ((fun k => if k = c.settlementCat then authorise (f.1 k) else f.1 k : ShpAttr), f.2)) := by
    have : (f.1, geom) ∈ (f.1, geom) :: rest := List.mem_cons_self
    rw [← h2] at this
    exact (List.mem_filter.mp this).1
  obtain ⟨f0, hq0, hf0⟩ := List.mem_map.mp hmem
  have hval : f.1 c.settlementCat = authorise (f0.1 c.settlementCat) := by
    rw [← (Prod.ext_iff.mp hf0).1]
    simp
  refine ⟨?_, f0, hq0, hval⟩
  rw [h1]
  ext p
  rw [ofType_mem]
  simp only [Region.unionAll, Set.mem_ofPred_eq, List.mem_map, List.mem_filter]
  constructor
  · rintro ⟨g, ⟨⟨a, g'⟩, ⟨⟨q, hq, e⟩, hk⟩, rfl⟩, hp⟩
    cases e
    refine ⟨q, hq, hp, ?_⟩
    rw [hval] at hk ⊢
    simp only [if_true, decide_eq_true_eq] at hk
    exact (normalised_authorise _ _).mp hk
  · rintro ⟨q, hq, hp, hk⟩
    refine ⟨q.2, ⟨_, ⟨⟨q, hq, rfl⟩, ?_⟩, rfl⟩, hp⟩
    simp only [if_true, decide_eq_true_eq]
    rw [hk]

theorem settled_type (c : PreCfg) (v : Option String) (h : (c.ofType v).Nonempty) :
    ∃ f ∈ c.settled, f.1 c.settlementCat = v := by
  obtain ⟨p, hp⟩ := h
  obtain ⟨q, hq, -, hv⟩ := (ofType_mem c v p).mp hp
  obtain ⟨-, h2, -⟩ := C65_dissolve Region.unionAll c.settlementCat (c.settlement.map fun f =>
    ((fun k => if k = c.settlementCat then authorise (f.1 k) else f.1 k : ShpAttr), f.2))
  obtain ⟨f, hf, he⟩ := List.mem_map.mp ((h2 (Spec.normalised v)).mpr
    ⟨_, List.mem_map.mpr ⟨q, hq, rfl⟩, by simp [hv]⟩)
  refine ⟨f, hf, ?_⟩
  obtain ⟨-, f0, -, hval⟩ := settled_mem c f hf
  rw [hval] at he ⊢
  rw [← hv] at he ⊢
  exact (normalised_authorise _ _).mp he

theorem getD_getElem {α : Type} {l : List α} {d : α} {i : ℕ} (h : i < l.length) :
    l.getD i d = l[i] := by simp [h]

/-! ### Areas -/

theorem area_nonneg (g : Region) : 0 ≤ g.area := ENNReal.toReal_nonneg

theorem area_mono {g h : Region} (hs : g ⊆ h) (hf : volume h ≠ ⊤) : g.area ≤ h.area :=
  ENNReal.toReal_mono hf (measure_mono hs)

theorem area_empty : Region.area ∅ = 0 := by simp [Region.area]

theorem volume_unionAll (l : List Region) (h : ∀ g ∈ l, volume g ≠ ⊤) :
    volume (Region.unionAll l) ≠ ⊤ := by
  induction l with
  | nil =>
    have : Region.unionAll [] = ∅ := by ext p; simp [Region.unionAll]
    simp [this]
  | cons a l ih =>
    have : Region.unionAll (a :: l) = a ∪ Region.unionAll l := by
      ext p; simp [Region.unionAll]
    rw [this]
    exact measure_union_ne_top (h a List.mem_cons_self)
      (ih fun g hg => h g (List.mem_cons_of_mem _ hg))

theorem volume_ofType (c : PreCfg) (hf : ∀ f ∈ c.settlement, volume f.2 ≠ ⊤) (v : Option String) :
    volume (c.ofType v) ≠ ⊤ := by
  refine measure_ne_top_of_subset (?_ : c.ofType v ⊆ Region.unionAll (c.settlement.map Prod.snd)) ?_
  · intro p hp
    obtain ⟨q, hq, hpq, -⟩ := (ofType_mem c v p).mp hp
    exact ⟨q.2, List.mem_map.mpr ⟨q, hq, rfl⟩, hpq⟩
  · apply volume_unionAll
    intro g hg
    obtain ⟨q, hq, rfl⟩ := List.mem_map.mp hg
    exact hf q hq

/-! ### Cropping -/

theorem box_domain (c : PreCfg) (m : Region) (rest : List Region) (h : c.mask = some (m :: rest)) :
    Region.box m = c.domain := by
  unfold PreCfg.domain Region.box
  rw [h]
  ext p
  simp

/-- Both layers after cropping. -/
theorem cropped_eq (c : PreCfg) (hg : c.Good) : ∃ sG sA lG lA,
    c.cropped = .ok ((sG, sA), (lG, lA)) ∧ sG.length = sA.length ∧ lG.length = lA.length ∧
    (∀ p ∈ sG.zip sA, p.1 = c.domain ∩ c.ofType (p.2 c.settlementCat)) ∧
    (∀ w, 0 < Region.area (c.domain ∩ c.ofType w) → ∃ p ∈ sG.zip sA, p.2 c.settlementCat = w) ∧
    lG.zip lA = c.inside.map (fun f => (c.domain ∩ f.2, f.1)) := by
  have hzs : (c.settled.map Prod.snd).zip (c.settled.map Prod.fst) =
      c.settled.map (fun f => (f.2, f.1)) := by rw [List.zip_map']
  have hzl : (c.landUse.map Prod.snd).zip (c.landUse.map Prod.fst) =
      c.landUse.map (fun f => (f.2, f.1)) := by rw [List.zip_map']
  have hne : ∀ w, 0 < Region.area (c.domain ∩ c.ofType w) → (c.ofType w).Nonempty := by
    intro w hw
    rw [Set.nonempty_iff_ne_empty]
    intro h0
    rw [h0, Set.inter_empty, area_empty] at hw
    exact lt_irrefl _ hw
  unfold PreCfg.cropped
  match hm : c.mask with
  | some [] => exact absurd hm hg.maskFile
  | none =>
    have hd : c.domain = Set.univ := by unfold PreCfg.domain; rw [hm]
    refine ⟨_, _, _, _, rfl, by simp, by simp, ?_, ?_, ?_⟩
    · rw [hzs]
      rintro p hp
      obtain ⟨f, hf, rfl⟩ := List.mem_map.mp hp
      rw [hd, Set.univ_inter]
      exact (settled_mem c f hf).1
    · intro w hw
      obtain ⟨f, hf, hv⟩ := settled_type c w (hne w hw)
      rw [hzs]
      exact ⟨_, List.mem_map.mpr ⟨f, hf, rfl⟩, hv⟩
    · rw [hzl]
      unfold PreCfg.inside
      rw [hd, List.filter_eq_self.mpr]
      · simp
      · intro f hf
        rw [Set.inter_univ]
        exact decide_eq_true (hg.positive hm f hf)
  | some (m :: rest) =>
    have hd := box_domain c m rest hm
    obtain ⟨sG, sA, hs1, hs2, hs3⟩ := C67_crop Region.box (· ∩ ·) Region.area area_nonneg m
      (c.settled.map Prod.snd) (c.settled.map Prod.fst) (by simp)
    obtain ⟨lG, lA, hl1, hl2, hl3⟩ := C67_crop Region.box (· ∩ ·) Region.area area_nonneg m
      (c.landUse.map Prod.snd) (c.landUse.map Prod.fst) (by simp)
    refine ⟨sG, sA, lG, lA, ?_, hs2, hl2, ?_, ?_, ?_⟩
    · simp only [hs1, hl1]
      rfl
    · rw [hs3, hzs, hd]
      intro p hp
      obtain ⟨q, hq, rfl⟩ := List.mem_map.mp hp
      obtain ⟨f, hf, rfl⟩ := List.mem_map.mp (List.mem_filter.mp hq).1
      simp only
      rw [(settled_mem c f hf).1]
    · intro w hw
      obtain ⟨f, hf, hv⟩ := settled_type c w (hne w hw)
      rw [hs3, hzs, hd]
      refine ⟨_, List.mem_map.mpr ⟨(f.2, f.1), List.mem_filter.mpr ⟨List.mem_map.mpr ⟨f, hf, rfl⟩, ?_⟩,
        rfl⟩, hv⟩
      simp only [decide_eq_true_eq]
      rw [(settled_mem c f hf).1, hv]
      exact hw
    · rw [hl3, hzl, hd, List.filter_map, List.map_map]
      unfold PreCfg.inside
      congr 1
      apply List.filter_congr
      intro f _
      simp only [Function.comp_apply, Set.inter_comm]

/-! ### The join -/

theorem spatialJoin_congr (var : String) (f g : ℕ → Except PyErr (Option ℕ)) (finish : List ℕ)
    (self other : List ShpAttr) (hfin : finish.Perm (List.range self.length))
    (h : ∀ i < self.length, f i = g i) :
    spatialJoin var f finish self other = spatialJoin var g finish self other := by
  unfold spatialJoin
  have hm : ∀ i < self.length, i ∈ finish := fun i hi => hfin.mem_iff.mpr (List.mem_range.mpr hi)
  rw [poolMap_eq _ _ _ hm, poolMap_eq _ _ _ hm]
  have : (List.range self.length).map (fun i => some (f i)) =
      (List.range self.length).map (fun i => some (g i)) :=
    List.map_congr_left fun i hi => by rw [h i (List.mem_range.mp hi)]
  rw [this]

open Classical in
/-- The settlement found for a polygon is one of the largest type. -/
theorem join_dominates (c : PreCfg) (hg : c.Good) (sG : List Region) (sA : List ShpAttr)
    (hlen : sG.length = sA.length)
    (h1 : ∀ p ∈ sG.zip sA, p.1 = c.domain ∩ c.ofType (p.2 c.settlementCat))
    (h2 : ∀ w, 0 < Region.area (c.domain ∩ c.ofType w) → ∃ p ∈ sG.zip sA, p.2 c.settlementCat = w)
    (P : Region) (hP : P ⊆ c.domain) (hpos : 0 < P.area) :
    ∃ r, joinOne (c.query sG P) (fun j => decide (P ∩ sG.getD j ∅).Nonempty)
        (fun j => Region.area (P ∩ sG.getD j ∅)) P.area = .ok r ∧
      (∀ j, r = some j → j < sA.length) ∧
      c.Dominates P (r.bind fun j => sA[j]?.bind fun b => b c.settlementCat) := by
  have hget : ∀ j (hj : j < sA.length), sG.getD j ∅ = c.domain ∩ c.ofType (sA[j] c.settlementCat) := by
    intro j hj
    have hj' : j < sG.length := by omega
    have hz : (sG[j], sA[j]) ∈ sG.zip sA := by
      rw [List.mem_iff_getElem]
      exact ⟨j, by simp; omega, by simp⟩
    have := h1 _ hz
    rw [getD_getElem hj']
    exact this
  have hov : ∀ j (hj : j < sA.length), P ∩ sG.getD j ∅ = P ∩ c.ofType (sA[j] c.settlementCat) := by
    intro j hj
    rw [hget j hj, ← Set.inter_assoc, Set.inter_eq_left.mpr hP]
  have hzero : ∀ w, (∀ j (hj : j < sA.length), sA[j] c.settlementCat ≠ w) →
      Region.area (P ∩ c.ofType w) = 0 := by
    intro w hw
    apply le_antisymm _ (area_nonneg _)
    have hle : Region.area (P ∩ c.ofType w) ≤ Region.area (c.domain ∩ c.ofType w) :=
      area_mono (Set.inter_subset_inter_left _ hP)
        (measure_ne_top_of_subset Set.inter_subset_right (volume_ofType c hg.finiteS w))
    by_contra hc
    obtain ⟨p, hp, hv⟩ := h2 w (lt_of_lt_of_le (not_le.mp hc) hle)
    obtain ⟨j, hj, rfl⟩ := List.mem_iff_getElem.mp hp
    have hj' : j < sA.length := by
      rw [List.length_zip] at hj
      omega
    apply hw j hj'
    rw [List.getElem_zip] at hv
    exact hv
  rcases C66_largest sG.length (c.query sG P) (fun j => decide (P ∩ sG.getD j ∅).Nonempty)
      (fun j => Region.area (P ∩ sG.getD j ∅)) P.area
      (by
        intro i hi ht
        apply hg.found sG P i hi
        rw [getD_getElem hi] at ht
        exact of_decide_eq_true ht)
      (fun i hi => hg.valid sG P i hi) hpos with ⟨hn, hr⟩ | ⟨i, hi, ht, hr, hmax⟩
  · refine ⟨none, hr, by simp, ?_, .inl rfl⟩
    intro w
    have : Region.area (P ∩ c.ofType w) = 0 := by
      by_cases hw : ∃ j, ∃ hj : j < sA.length, sA[j] c.settlementCat = w
      · obtain ⟨j, hj, rfl⟩ := hw
        rw [← hov j hj]
        have := of_decide_eq_false (hn j (by omega))
        rw [Set.not_nonempty_iff_eq_empty.mp this, area_empty]
      · exact hzero w fun j hj e => hw ⟨j, hj, e⟩
    rw [this]
    exact area_nonneg _
  · have hi' : i < sA.length := by omega
    refine ⟨some i, hr, by rintro j ⟨⟩; exact hi', ?_⟩
    rw [Option.bind_some, List.getElem?_eq_getElem hi', Option.bind_some]
    refine ⟨?_, .inr ?_⟩
    · intro w
      rw [← hov i hi']
      by_cases hw : ∃ j, ∃ hj : j < sA.length, sA[j] c.settlementCat = w
      · obtain ⟨j, hj, rfl⟩ := hw
        rw [← hov j hj]
        by_cases hne : (P ∩ sG.getD j ∅).Nonempty
        · exact hmax j (by omega) (decide_eq_true hne)
        · rw [Set.not_nonempty_iff_eq_empty.mp hne, area_empty]
          exact area_nonneg _
      · rw [hzero w fun j hj e => hw ⟨j, hj, e⟩]
        exact area_nonneg _
    · rw [← hov i hi']
      exact of_decide_eq_true ht

/-! ### C100 -/

/-- C100: the features written out are the land-use features inside the domain, clipped to it and in
their order; each has the code of its own land use and of a settlement type that covers most of it. -/
theorem C100_features (c : PreCfg) (hg : c.Good) : ∃ out, preProcess c = .ok out ∧
    List.Forall₂ (fun f o => o.1 = f.2 ∩ c.domain ∧ ∃ v, c.Dominates o.1 v ∧
      o.2 = 100 * codeIn settlementCodes v + codeIn landUseCodes (f.1 c.landUseCat)) c.inside out := by
  obtain ⟨sG, sA, lG, lA, hc, hsl, hll, h1, h2, h3⟩ := cropped_eq c hg
  unfold preProcess
  rw [hc]
  have hlen : c.inside.length = lA.length := by
    have := congrArg List.length h3
    simp only [List.length_zip, List.length_map] at this
    omega
  have hG : ∀ i (hi : i < c.inside.length), lG.getD i ∅ = c.domain ∩ (c.inside[i]).2 := by
    intro i hi
    have hi' : i < (lG.zip lA).length := by simp; omega
    have := List.getElem_of_eq h3 hi'
    rw [List.getElem_zip, List.getElem_map] at this
    rw [getD_getElem (by omega)]
    exact (Prod.ext_iff.mp this).1
  have hA : ∀ i (hi : i < c.inside.length) (hi' : i < lA.length), lA[i] = (c.inside[i]).1 := by
    intro i hi hi2
    have hi' : i < (lG.zip lA).length := by simp; omega
    have := List.getElem_of_eq h3 hi'
    rw [List.getElem_zip, List.getElem_map] at this
    exact (Prod.ext_iff.mp this).2
  have hj : ∀ i, ∃ r, i < lA.length → joinOne (c.query sG (lG.getD i ∅))
        (fun j => @decide _ (Classical.propDecidable (lG.getD i ∅ ∩ sG.getD j ∅).Nonempty))
        (fun j => Region.area (lG.getD i ∅ ∩ sG.getD j ∅)) (Region.area (lG.getD i ∅)) = .ok r ∧
      (∀ j, r = some j → j < sA.length) ∧
      c.Dominates (lG.getD i ∅) (r.bind fun j => sA[j]?.bind fun b => b c.settlementCat) := by
    intro i
    by_cases hi : i < lA.length
    · have hi' : i < c.inside.length := by omega
      obtain ⟨r, hr⟩ := join_dominates c hg sG sA hsl h1 h2 (lG.getD i ∅)
        (by rw [hG i hi']; exact Set.inter_subset_left)
        (by
          rw [hG i hi', Set.inter_comm]
          have := List.getElem_mem hi'
          exact of_decide_eq_true (List.mem_filter.mp this).2)
      exact ⟨r, fun _ => hr⟩
    · exact ⟨none, fun h => absurd h hi⟩
  choose r hr using hj
  obtain ⟨attrs, ha1, ha2, ha3⟩ := C66_order c.settlementCat r (c.finish lA.length) lA sA
    (hg.finishes _) (fun i hi j e => (hr i hi).2.1 j e)
  have hs := spatialJoin_congr c.settlementCat _ (fun i => .ok (r i)) (c.finish lA.length) lA sA
    (hg.finishes _) (fun i hi => (hr i hi).1)
  refine ⟨(lG.zip attrs).map fun f : Region × ShpAttr =>
    (f.1, catCode (f.2 c.settlementCat) (f.2 c.landUseCat)), ?_, ?_⟩
  · have hdo : ∀ x : Except PyErr (List ShpAttr), x = .ok attrs → (do
        let attrs ← x
        .ok ((lG.zip attrs).map fun f : Region × ShpAttr =>
          (f.1, catCode (f.2 c.settlementCat) (f.2 c.landUseCat))) : Except PyErr _) =
        .ok ((lG.zip attrs).map fun f : Region × ShpAttr =>
          (f.1, catCode (f.2 c.settlementCat) (f.2 c.landUseCat))) := by
      rintro _ rfl
      rfl
    exact hdo _ (hs.trans ha1)
  · rw [List.forall₂_iff_get]
    refine ⟨by simp; omega, ?_⟩
    intro i hi hi2
    have hiA : i < lA.length := by omega
    simp only [List.get_eq_getElem, List.getElem_map, List.getElem_zip]
    have hgd : lG.getD i ∅ = lG[i]'(by omega) := getD_getElem (by omega)
    obtain ⟨hk, hv⟩ := ha3 i hiA (by omega)
    refine ⟨?_, (r i).bind fun j => sA[j]?.bind fun b => b c.settlementCat, ?_, ?_⟩
    · rw [← hgd, hG i hi, Set.inter_comm]
    · rw [← hgd]
      exact (hr i hiA).2.2
    · rw [hv, hk _ hg.names.symm, hA i hi hiA]
      unfold catCode
      rw [settlementClass_code, landUseClass_code, Nat.mul_comm]

theorem burn_out {r : RasterInfo ℝ} {g : Grid ℕ} {f : Region × ℕ} {px py : ℕ}
    (h : (r.lonCentre px, r.latCentre py) ∉ f.1) : (burn r g f).val py px = g.val py px := by
  simp only [RasterInfo.lonCentre, RasterInfo.latCentre, Int.cast_natCast] at h
  exact if_neg h

theorem burn_in {r : RasterInfo ℝ} {g : Grid ℕ} {f : Region × ℕ} {px py : ℕ}
    (h : (r.lonCentre px, r.latCentre py) ∈ f.1) : (burn r g f).val py px = f.2 := by
  simp only [RasterInfo.lonCentre, RasterInfo.latCentre, Int.cast_natCast] at h
  exact if_pos h

theorem rasterize_spec (r : RasterInfo ℝ) (c : PreCfg) (Q : ShpAttr × Region → Region × ℕ → Prop)
    (hQ : ∀ f o, Q f o → o.1 = f.2 ∩ c.domain) :
    ∀ (l : List (ShpAttr × Region)) (out : List (Region × ℕ)), List.Forall₂ Q l out → ∀ g0 : Grid ℕ,
    let g := out.foldl (burn r) g0
    g.rows = g0.rows ∧ g.cols = g0.cols ∧ ∀ px py : ℕ,
      ((∀ f ∈ l, (r.lonCentre px, r.latCentre py) ∉ f.2 ∩ c.domain) → g.val py px = g0.val py px) ∧
      (∀ before f after, l = before ++ f :: after →
        (r.lonCentre px, r.latCentre py) ∈ f.2 ∩ c.domain →
        (∀ g ∈ after, (r.lonCentre px, r.latCentre py) ∉ g.2 ∩ c.domain) →
        ∃ o, Q f o ∧ g.val py px = o.2) := by
  intro l out h
  induction h with
  | nil =>
    intro g0
    refine ⟨rfl, rfl, fun px py => ⟨fun _ => rfl, ?_⟩⟩
    intro before f after h
    simp at h
  | @cons a b l out hab hl ih =>
    intro g0
    obtain ⟨h1, h2, h3⟩ := ih (burn r g0 b)
    refine ⟨h1, h2, fun px py => ⟨?_, ?_⟩⟩
    · intro hn
      rw [List.foldl_cons, (h3 px py).1 fun f hf => hn f (List.mem_cons_of_mem _ hf)]
      have := hn a List.mem_cons_self
      rw [← hQ a b hab] at this
      exact burn_out this
    · intro before f after he hin hafter
      cases before with
      | nil =>
        cases he
        refine ⟨b, hab, ?_⟩
        rw [List.foldl_cons, (h3 px py).1 hafter]
        rw [← hQ a b hab] at hin
        exact burn_in hin
      | cons x before =>
        rw [List.cons_append, List.cons.injEq] at he
        exact (h3 px py).2 before f after he.2 hin hafter

/-- C100: the raster written has, at every pixel, the code of the last feature under its centre. -/
theorem C100_raster (c : PreCfg) (hg : c.Good) (r : RasterInfo ℝ) :
    ∃ out, preProcess c = .ok out ∧ c.IsCover r (rasterize r out) := by
  obtain ⟨out, h1, h2⟩ := C100_features c hg
  obtain ⟨q1, q2, q3⟩ := rasterize_spec r c _ (fun f o h => h.1) c.inside out h2
    ⟨r.yDim, r.xDim, fun _ _ => 0⟩
  refine ⟨out, h1, q1, q2, fun px py _ _ => ⟨(q3 px py).1, ?_⟩⟩
  intro before f after he hin hafter
  obtain ⟨o, ⟨ho, v, hv, hcode⟩, hval⟩ := (q3 px py).2 before f after he hin hafter
  exact ⟨v, ho ▸ hv, hval.trans hcode⟩

/-- C100: a run whose land-cover file is that raster, made for its DEM (0 is read back as no data),
works with the land cover of the shape files: `cat` is what all statements about runs refer to. -/
theorem C100_landcover (c : PreCfg) (hg : c.Good) (d : Inputs) (hlr : d.lr = d.r) (hpw : 0 < d.r.gt1)
    (hph : d.r.gt5 < 0) (out : List (Region × ℕ)) (hout : preProcess c = .ok out)
    (hlcv : ∀ i j, d.lcv.val i j = if (rasterize d.r out).val i j = 0 then none
      else some ((rasterize d.r out).val i j : ℤ)) :
    ∃ cat : Grid ℕ, c.IsCover d.r cat ∧
      IsLandcover d ⟨cat.rows, cat.cols, fun i j => (cat.val i j : ℤ)⟩ := by
  obtain ⟨out', h1, h2⟩ := C100_raster c hg d.r
  obtain rfl : out' = out := Except.ok.inj (h1.symm.trans hout)
  refine ⟨_, h2, ?_⟩
  have := isLandcover_same d hlr hpw hph
  rw [h2.1, h2.2.1]
  convert this using 2
  funext i j
  rw [hlcv]
  by_cases h : (rasterize d.r out').val i j = 0
  · rw [if_pos h, h]
    rfl
  · rw [if_neg h]
    rfl

/-- C100: where one settlement type covers more of every feature than any other, the outcome does not
depend on the search tree or on the order in which the calls finish. -/
theorem C100_determined (c c' : PreCfg) (hg : c.Good) (hg' : c'.Good)
    (h : c' = { c with query := c'.query, finish := c'.finish })
    (hstrict : ∀ f ∈ c.inside, ∃ v, (v = none ∨ ((f.2 ∩ c.domain) ∩ c.ofType v).Nonempty) ∧
      ∀ w, w ≠ v → (w = none ∨ ((f.2 ∩ c.domain) ∩ c.ofType w).Nonempty) →
        Region.area ((f.2 ∩ c.domain) ∩ c.ofType w) < Region.area ((f.2 ∩ c.domain) ∩ c.ofType v)) :
    preProcess c' = preProcess c := by
  obtain ⟨out, h1, h2⟩ := C100_features c hg
  obtain ⟨out', h1', h2'⟩ := C100_features c' hg'
  have hin : c'.inside = c.inside := by rw [h]; rfl
  have hdom : c'.domain = c.domain := by rw [h]; rfl
  have hD : ∀ P v, c'.Dominates P v ↔ c.Dominates P v := by
    intro P v
    rw [h]
    exact Iff.rfl
  have hcat : c'.landUseCat = c.landUseCat := by rw [h]
  rw [hin, hdom, hcat] at h2'
  rw [h1, h1']
  congr 1
  have huniq : ∀ f ∈ c.inside, ∀ v w, c.Dominates (f.2 ∩ c.domain) v → c.Dominates (f.2 ∩ c.domain) w →
      v = w := by
    intro f hf v w hv hw
    obtain ⟨u, -, hu⟩ := hstrict f hf
    have key : ∀ x, c.Dominates (f.2 ∩ c.domain) x → x = u := by
      intro x hx
      by_contra hne
      exact absurd (hx.1 u) (not_le.mpr (hu x hne hx.2))
    rw [key v hv, key w hw]
  clear h1 h1' hstrict hin
  generalize c.inside = l at *
  induction h2 generalizing out' with
  | nil =>
    cases h2'
    rfl
  | @cons f o l out hfo hl ih =>
    cases h2' with
    | cons hfo' hl' =>
      congr 1
      · obtain ⟨e1, v, d1, c1⟩ := hfo
        obtain ⟨e2, w, d2, c2⟩ := hfo'
        rw [hD, e2] at d2
        rw [e1] at d1
        have := huniq f List.mem_cons_self v w d1 d2
        subst this
        exact Prod.ext (e2.trans e1.symm) (c2.trans c1.symm)
      · exact ih _ hl' fun g hg => huniq g (List.mem_cons_of_mem _ hg)

/-! ### Examples -/

theorem area_rect (a b x y : ℝ) (h1 : a ≤ b) (h2 : x ≤ y) :
    Region.area (Set.Icc a b ×ˢ Set.Icc x y) = (b - a) * (y - x) := by
  unfold Region.area
  rw [Measure.volume_eq_prod, Measure.prod_prod, Real.volume_Icc, Real.volume_Icc,
    ENNReal.toReal_mul, ENNReal.toReal_ofReal (by linarith), ENNReal.toReal_ofReal (by linarith)]

theorem volume_rect (a b x y : ℝ) : volume (Set.Icc a b ×ˢ Set.Icc x y : Region) ≠ ⊤ := by
  rw [Measure.volume_eq_prod, Measure.prod_prod, Real.volume_Icc, Real.volume_Icc]
  exact ENNReal.mul_ne_top ENNReal.ofReal_ne_top ENNReal.ofReal_ne_top

/-- An urban area and a city side by side, and a residential feature that reaches into both, two units
into the first and three into the second. -/
noncomputable def preExample : PreCfg where
  settlement := [(fun _ => some "Urban", Set.Icc 0 2 ×ˢ Set.Icc 0 1),
    (fun _ => some "City", Set.Icc 3 7 ×ˢ Set.Icc 0 1)]
  settlementCat := "SOS"
  landUse := [(fun _ => some "Residential", Set.Icc 0 6 ×ˢ Set.Icc 0 1)]
  landUseCat := "USE"
  mask := none
  query := fun gs _ => List.range gs.length
  finish := List.range

theorem preExample_good : preExample.Good where
  names := by decide
  maskFile := by simp [preExample]
  finiteS := by
    simp only [preExample, List.mem_cons, List.not_mem_nil, or_false, forall_eq_or_imp, forall_eq]
    exact ⟨volume_rect _ _ _ _, volume_rect _ _ _ _⟩
  finiteL := by
    simp only [preExample, List.mem_cons, List.not_mem_nil, or_false, forall_eq]
    exact volume_rect _ _ _ _
  positive := by
    intro _
    simp only [preExample, List.mem_cons, List.not_mem_nil, or_false, forall_eq]
    rw [area_rect _ _ _ _ (by norm_num) (by norm_num)]
    norm_num
  found := by
    intro gs P i h _
    exact List.mem_range.mpr h
  valid := by
    intro gs P i h
    exact List.mem_range.mp h
  finishes := fun n => List.Perm.refl _

theorem preExample_ofType (v : Option String) : preExample.ofType v =
    if v = some "Urban" then Set.Icc 0 2 ×ˢ Set.Icc 0 1 else
    if v = some "City" then Set.Icc 3 7 ×ˢ Set.Icc 0 1 else ∅ := by
  ext p
  rw [ofType_mem]
  simp only [preExample, List.mem_cons, List.not_mem_nil, or_false, exists_eq_or_imp, exists_eq_left]
  have e1 : authorise (some "Urban") = some "Urban" := by decide
  have e2 : authorise (some "City") = some "City" := by decide
  rw [e1, e2]
  by_cases h1 : v = some "Urban"
  · subst h1
    simp
  · rw [if_neg h1]
    by_cases h2 : v = some "City"
    · subst h2
      simp
    · rw [if_neg h2]
      simp only [Set.mem_empty_iff_false, iff_false]
      rintro (⟨-, h⟩ | ⟨-, h⟩)
      · exact h1 h.symm
      · exact h2 h.symm

theorem preExample_inside : preExample.domain = Set.univ ∧
    preExample.inside = [(fun _ => some "Residential", Set.Icc 0 6 ×ˢ Set.Icc 0 1)] := by
  have hd : preExample.domain = Set.univ := rfl
  refine ⟨hd, ?_⟩
  unfold PreCfg.inside
  rw [hd, List.filter_eq_self.mpr]
  · rfl
  · intro f hf
    rw [Set.inter_univ]
    exact decide_eq_true (preExample_good.positive rfl f hf)

theorem preExample_area (v : Option String) :
    Region.area ((Set.Icc 0 6 ×ˢ Set.Icc 0 1) ∩ preExample.ofType v) =
      if v = some "Urban" then 2 else if v = some "City" then 3 else 0 := by
  rw [preExample_ofType]
  by_cases h1 : v = some "Urban"
  · have i2 : ((Set.Icc 0 6 ×ˢ Set.Icc 0 1 : Region) ∩ (Set.Icc 0 2 ×ˢ Set.Icc 0 1)) =
        Set.Icc 0 2 ×ˢ Set.Icc 0 1 := by
      rw [Set.prod_inter_prod, Set.Icc_inter_Icc, Set.inter_self]
      norm_num
    rw [if_pos h1, if_pos h1, i2, area_rect _ _ _ _ (by norm_num) (by norm_num)]
    norm_num
  rw [if_neg h1, if_neg h1]
  by_cases h2 : v = some "City"
  · have i1 : ((Set.Icc 0 6 ×ˢ Set.Icc 0 1 : Region) ∩ (Set.Icc 3 7 ×ˢ Set.Icc 0 1)) =
        Set.Icc 3 6 ×ˢ Set.Icc 0 1 := by
      rw [Set.prod_inter_prod, Set.Icc_inter_Icc, Set.inter_self]
      norm_num
    rw [if_pos h2, if_pos h2, i1, area_rect _ _ _ _ (by norm_num) (by norm_num)]
    norm_num
  · rw [if_neg h2, if_neg h2, Set.inter_empty, area_empty]

/-- The feature of the example is residential land in a city: 205. -/
theorem preExample_out : preProcess preExample = .ok [(Set.Icc 0 6 ×ˢ Set.Icc 0 1, 205)] := by
  obtain ⟨out, h1, h2⟩ := C100_features preExample preExample_good
  obtain ⟨hd, hin⟩ := preExample_inside
  rw [h1]
  rw [hin, hd] at h2
  cases h2 with
  | @cons _ o _ l h hl =>
    cases hl
    obtain ⟨e, v, ⟨hdom, -⟩, hc⟩ := h
    rw [Set.inter_univ] at e
    simp only at e
    have h6 := hdom (some "City")
    have hcity : v = some "City" := by
      rw [e, preExample_area, preExample_area, if_neg (by decide), if_pos rfl] at h6
      by_contra hne
      rw [if_neg hne] at h6
      by_cases hu : v = some "Urban"
      · rw [if_pos hu] at h6
        norm_num at h6
      · rw [if_neg hu] at h6
        norm_num at h6
    rw [hcity] at hc
    have hcode : 100 * codeIn settlementCodes (some "City") +
        codeIn landUseCodes (some "Residential") = 205 := by decide
    rw [hcode] at hc
    exact congrArg (fun o => Except.ok [o]) (Prod.ext e hc)

/-- The same input with the tree and the pool running backwards. -/
noncomputable def preExampleBack : PreCfg :=
  { preExample with query := fun gs _ => (List.range gs.length).reverse
                    finish := fun n => (List.range n).reverse }

example : preProcess preExampleBack = .ok [(Set.Icc 0 6 ×ˢ Set.Icc 0 1, 205)] := by
  rw [← preExample_out]
  apply C100_determined preExample preExampleBack preExample_good _ rfl
  · intro f hf
    obtain ⟨hd, hin⟩ := preExample_inside
    rw [hin, List.mem_singleton] at hf
    subst hf
    rw [hd]
    refine ⟨some "City", .inr ?_, ?_⟩
    · rw [preExample_ofType, if_neg (by decide), if_pos rfl, Set.inter_univ]
      exact ⟨(4, 0), ⟨⟨⟨by norm_num, by norm_num⟩, ⟨by norm_num, by norm_num⟩⟩,
        ⟨⟨by norm_num, by norm_num⟩, ⟨by norm_num, by norm_num⟩⟩⟩⟩
    · intro w hw _
      rw [Set.inter_univ, preExample_area, preExample_area, if_neg hw, if_neg (by decide : some "City" ≠ _),
        if_pos rfl]
      by_cases hu : w = some "Urban"
      · rw [if_pos hu]; norm_num
      · rw [if_neg hu]; norm_num
  · exact ⟨preExample_good.names, preExample_good.maskFile, preExample_good.finiteS,
      preExample_good.finiteL, preExample_good.positive,
      fun gs P i h _ => List.mem_reverse.mpr (List.mem_range.mpr h),
      fun gs P i h => List.mem_range.mp (List.mem_reverse.mp h), fun n => List.reverse_perm _⟩

/-- On a grid of unit pixels with its corner at `(-1, 1)`: the first pixel is outside the feature, the
third inside. -/
noncomputable def preRaster : RasterInfo ℝ := ⟨9, 1, -1, 1, 1, -1⟩

example : (rasterize preRaster [(Set.Icc 0 6 ×ˢ Set.Icc 0 1, 205)]).val 0 0 = 0 ∧
    (rasterize preRaster [(Set.Icc 0 6 ×ˢ Set.Icc 0 1, 205)]).val 0 2 = 205 := by
  constructor
  · exact if_neg (by norm_num [preRaster])
  · exact if_pos (by norm_num [preRaster])

example : ∃ d : Inputs, d.lr = d.r ∧ ∃ cat : Grid ℕ, preExample.IsCover d.r cat ∧
    IsLandcover d ⟨cat.rows, cat.cols, fun i j => (cat.val i j : ℤ)⟩ :=
  ⟨{ standardInputs with
      r := preRaster
      lr := preRaster
      lcv := ⟨1, 9, fun i j =>
        if (rasterize preRaster [(Set.Icc 0 6 ×ˢ Set.Icc 0 1, 205)]).val i j = 0 then none
        else some ((rasterize preRaster [(Set.Icc 0 6 ×ˢ Set.Icc 0 1, 205)]).val i j : ℤ)⟩ }, rfl,
    C100_landcover preExample preExample_good _ rfl (by norm_num [preRaster])
      (by norm_num [preRaster]) _ preExample_out (fun _ _ => rfl)⟩

/-- What the assumption on the names is for: with one name for both attributes the join overwrites the
land use, and water outside all settlements is coded 0 instead of 6. -/
theorem C100_same_name : ∃ c : PreCfg, c.settlementCat = c.landUseCat ∧
    ({ c with settlementCat := "SOS" } : PreCfg).Good ∧
    preProcess c = .ok [(Set.Icc 0 1 ×ˢ Set.Icc 0 1, 0)] ∧
    preProcess { c with settlementCat := "SOS" } = .ok [(Set.Icc 0 1 ×ˢ Set.Icc 0 1, 6)] := by
  refine ⟨⟨[], "USE", [(fun _ => some "Water", Set.Icc 0 1 ×ˢ Set.Icc 0 1)], "USE", none,
    fun gs _ => List.range gs.length, List.range⟩, rfl, ?_, ?_, ?_⟩
  · refine ⟨by decide, by simp, by simp, ?_, ?_, ?_, ?_, fun n => List.Perm.refl _⟩
    · simp only [List.mem_cons, List.not_mem_nil, or_false, forall_eq]
      exact volume_rect _ _ _ _
    · intro _
      simp only [List.mem_cons, List.not_mem_nil, or_false, forall_eq]
      rw [area_rect _ _ _ _ (by norm_num) (by norm_num)]
      norm_num
    · intro gs P i h _
      exact List.mem_range.mpr h
    · intro gs P i h
      exact List.mem_range.mp h
  · rfl
  · rfl

end WindMult
