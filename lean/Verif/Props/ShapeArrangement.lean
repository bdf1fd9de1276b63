import Verif.Spec.ShapeArrangement
import Verif.Props.CoverStorage
import Verif.Props.FromShapes

/-!
# C150: how the shape files are arranged
-/

set_option autoImplicit false
set_option linter.unusedSectionVars false

namespace WindMult
open Spec

/-! ### The raster -/

theorem dominates_same {p p' : PreCfg} (h : SaySame p p') (P : Region) (v : Option String) :
    p'.Dominates P v ↔ p.Dominates P v := by
  unfold PreCfg.Dominates
  simp only [h.settlements]

theorem inside_use {p : PreCfg} {f : ShpAttr × Region} (hf : f ∈ p.inside) :
    HasUse p f.2 (codeIn landUseCodes (f.1 p.landUseCat)) :=
  ⟨f, (List.mem_filter.mp hf).1, rfl, rfl⟩

theorem use_inside {p : PreCfg} {P : Region} {u : ℕ} (h : HasUse p P u) (hpos : 0 < Region.area (P ∩ p.domain)) :
    ∃ f ∈ p.inside, f.2 = P ∧ codeIn landUseCodes (f.1 p.landUseCat) = u := by
  obtain ⟨f, hf, e1, e2⟩ := h
  refine ⟨f, List.mem_filter.mpr ⟨hf, ?_⟩, e1, e2⟩
  rw [e1]
  exact decide_eq_true hpos

theorem inside_pos {p : PreCfg} {f : ShpAttr × Region} (hf : f ∈ p.inside) : 0 < Region.area (f.2 ∩ p.domain) :=
  of_decide_eq_true (List.mem_filter.mp hf).2

theorem saySame_symm {p p' : PreCfg} (h : SaySame p p') : SaySame p' p :=
  ⟨h.domain.symm, fun v => (h.settlements v).symm, fun P u => (h.uses P u).symm⟩

/-- A list with an element of some kind has a last one. -/
theorem exists_last {α : Type} (q : α → Prop) : ∀ l : List α, (∃ x ∈ l, q x) →
    ∃ before x after, l = before ++ x :: after ∧ q x ∧ ∀ y ∈ after, ¬ q y := by
  intro l
  induction l with
  | nil => rintro ⟨x, hx, -⟩; cases hx
  | cons a l ih =>
    rintro ⟨x, hx, hq⟩
    by_cases hl : ∃ x ∈ l, q x
    · obtain ⟨b, y, t, e, h1, h2⟩ := ih hl
      exact ⟨a :: b, y, t, by rw [e]; rfl, h1, h2⟩
    · rcases List.mem_cons.mp hx with rfl | hx
      · exact ⟨[], x, l, rfl, hq, fun y hy hqy => hl ⟨y, hy, hqy⟩⟩
      · exact absurd ⟨x, hx, hq⟩ hl

/-- The land cover of shape files that say the same is the same. -/
theorem isCover_same {p p' : PreCfg} (h : SaySame p p') (r : RasterInfo ℝ) (hapart : OneUse p r) (huneven : Uneven p)
    {cat cat' : Grid ℕ} (hc : p.IsCover r cat) (hc' : p'.IsCover r cat') (px py : ℕ) (hx : px < r.xDim)
    (hy : py < r.yDim) : cat'.val py px = cat.val py px := by
  obtain ⟨-, -, k⟩ := hc
  obtain ⟨-, -, k'⟩ := hc'
  obtain ⟨z, k⟩ := k px py hx hy
  obtain ⟨z', k'⟩ := k' px py hx hy
  -- a feature at the point in the one is a feature there in the other
  have over : ∀ f' ∈ p'.inside, ∃ f ∈ p.inside, f.2 = f'.2 ∧
      codeIn landUseCodes (f.1 p.landUseCat) = codeIn landUseCodes (f'.1 p'.landUseCat) := by
    intro f' hf'
    have hpos := inside_pos hf'
    rw [h.domain] at hpos
    exact use_inside ((h.uses _ _).mp (inside_use hf')) hpos
  have back : ∀ f ∈ p.inside, ∃ f' ∈ p'.inside, f'.2 = f.2 := by
    intro f hf
    have hpos := inside_pos hf
    rw [← h.domain] at hpos
    obtain ⟨f', a, b, -⟩ := use_inside ((h.uses _ _).mpr (inside_use hf)) hpos
    exact ⟨f', a, b⟩
  by_cases hex : ∃ f ∈ p.inside, (r.lonCentre px, r.latCentre py) ∈ f.2 ∩ p.domain
  · obtain ⟨b, f, t, e, hf, hlast⟩ := exists_last _ _ hex
    have hex' : ∃ f ∈ p'.inside, (r.lonCentre px, r.latCentre py) ∈ f.2 ∩ p'.domain := by
      obtain ⟨g, hg, hgp⟩ := hex
      obtain ⟨g', a, b⟩ := back g hg
      exact ⟨g', a, by rw [b, h.domain]; exact hgp⟩
    obtain ⟨b', f', t', e', hf', hlast'⟩ := exists_last _ _ hex'
    obtain ⟨v, hv, hval⟩ := k b f t e hf hlast
    obtain ⟨v', hv', hval'⟩ := k' b' f' t' e' hf' hlast'
    have hmem : f ∈ p.inside := by rw [e]; simp
    have hmem' : f' ∈ p'.inside := by rw [e']; simp
    obtain ⟨e1, e2⟩ := hapart px py f.2 f'.2 _ _ hx hy (inside_use hmem) ((h.uses _ _).mp (inside_use hmem')) hf.1 hf'.1
    rw [dominates_same h, h.domain, ← e1] at hv'
    obtain ⟨u, hu⟩ := huneven f hmem
    have key : ∀ x, p.Dominates (f.2 ∩ p.domain) x → x = u := by
      intro x hx
      by_contra hne
      exact absurd (hx.1 u) (not_le.mpr (hu x hne hx.2))
    rw [hval, hval', key v hv, key v' hv', e2]
  · rw [z fun f hf hin => hex ⟨f, hf, hin⟩, z' fun f' hf' hin => ?_]
    obtain ⟨f, a, b, -⟩ := over f' hf'
    exact hex ⟨f, a, by rw [b, ← h.domain]; exact hin⟩

/-- **C150** For the land-cover raster only what the shape files say matters, not how they are arranged: the order of
the features, the cutting of settlements into features, the names and other contents of the attribute tables, the order
of search and of the pool.  Provided that no pixel centre is in two different land-use features and no feature is
shared evenly by settlement types. -/
theorem C150_raster (p p' : PreCfg) (hp : p.Good) (hp' : p'.Good) (h : SaySame p p') (r : RasterInfo ℝ)
    (hapart : OneUse p r) (huneven : Uneven p) :
    ∃ out out', preProcess p = .ok out ∧ preProcess p' = .ok out' ∧
      ∀ px py : ℕ, px < r.xDim → py < r.yDim → (rasterize r out').val py px = (rasterize r out).val py px := by
  obtain ⟨out, h1, h2⟩ := C100_raster p hp r
  obtain ⟨out', h1', h2'⟩ := C100_raster p' hp' r
  exact ⟨out, out', h1, h1', fun px py hx hy => isCover_same h r hapart huneven h2 h2' px py hx hy⟩

/-! ### The run -/

variable {c : Inputs} {up : ℝ} {cat : Grid ℤ} {str : ℝ → List Char} {out out' : List Char}
  {tiles : List (List Char × Extent ℝ × Extent ℝ)}

theorem classAt_agree (r : RasterInfo ℝ) (lcv lcv' : Grid (Option ℤ))
    (h : ∀ px py : ℕ, px < r.xDim → py < r.yDim → lcv'.val py px = lcv.val py px) (x y : ℝ) (v : ℤ) :
    ClassAt r lcv' x y v ↔ ClassAt r lcv x y v := by
  constructor
  · rintro ⟨col, row, h1, h2, h3, h4, h5, h6, h7⟩
    exact ⟨col, row, h1, h2, h3, h4, h5, h6, (h col row h1 h2) ▸ h7⟩
  · rintro ⟨col, row, h1, h2, h3, h4, h5, h6, h7⟩
    exact ⟨col, row, h1, h2, h3, h4, h5, h6, (h col row h1 h2).symm ▸ h7⟩

/-- **C150** Completed runs on the land-cover rasters made from shape files that say the same leave, for every pixel,
both no GeoTIFF or the same values in all bands and in the maxima. -/
theorem C150_run (p p' : PreCfg) (hp : p.Good) (hp' : p'.Good) (hsay : SaySame p p') (hapart : OneUse p c.r)
    (huneven : Uneven p) (h : RunCase c up cat str out tiles) (hout : ¬ ['/', '/'] <:+ out') (hlr : c.lr = c.r)
    (feats feats' : List (Region × ℕ)) (hfeats : preProcess p = .ok feats) (hfeats' : preProcess p' = .ok feats')
    (hlcv : ∀ i j, c.lcv.val i j = if (rasterize c.r feats).val i j = 0 then none
      else some ((rasterize c.r feats).val i j : ℤ))
    (lcv' : Grid (Option ℤ))
    (hlcv' : ∀ i j, lcv'.val i j = if (rasterize c.r feats').val i j = 0 then none
      else some ((rasterize c.r feats').val i j : ℤ))
    (hcells : ∀ g g' : Grid ℝ, g.Same g' → c.checksum g = c.checksum g') (nW nW' : ℕ)
    (st0 st0' : Store (NanNum ℝ) (List ℝ × List ℝ)) (j j' : ℕ) (s s' : RunState (NanNum ℝ) (List ℝ × List ℝ))
    (hrun : RunSteps (c.runCfg out nW tiles) j ((c.runCfg out nW tiles).start st0) s)
    (hdone : (c.runCfg out nW tiles).Done s)
    (hrun' : RunSteps ((withCover c c.r lcv').runCfg out' nW' tiles) j'
      (((withCover c c.r lcv').runCfg out' nW' tiles).start st0') s')
    (hdone' : ((withCover c c.r lcv').runCfg out' nW' tiles).Done s') (px py : ℕ) (hx : px < c.r.xDim)
    (hy : py < c.r.yDim) :
    ∃ k L n, (TileGrid.init up c.r).getGridlimit k = .ok L ∧ L.Has px py ∧
      (TileGrid.init up c.r).getTilename str k = .ok n ∧
      ((s.store (pjoin out (m3File n)) = none ∧ s'.store (pjoin out' (m3File n)) = none ∧
          s.store (pjoin out (m3MaxFile n)) = none ∧ s'.store (pjoin out' (m3MaxFile n)) = none) ∨
        ∃ tif mx tif' mx', s.store (pjoin out (m3File n)) = some (.tif tif) ∧
          s'.store (pjoin out' (m3File n)) = some (.tif tif') ∧
          s.store (pjoin out (m3MaxFile n)) = some (.maxTif mx) ∧
          s'.store (pjoin out' (m3MaxFile n)) = some (.maxTif mx') ∧
          tif'.transform = tif.transform ∧ (∀ d, ∃ g g', (d, g) ∈ tif.bands ∧ (d, g') ∈ tif'.bands) ∧
          (∀ d g g', (d, g) ∈ tif.bands → (d, g') ∈ tif'.bands →
            g'.val (py - L.y1.toNat) (px - L.x1.toNat) = g.val (py - L.y1.toNat) (px - L.x1.toNat)) ∧
          mx'.band.val (py - L.y1.toNat) (px - L.x1.toNat) =
            mx.band.val (py - L.y1.toNat) (px - L.x1.toNat)) := by
  obtain ⟨o, o', e, e', hval⟩ := C150_raster p p' hp hp' hsay c.r hapart huneven
  obtain rfl : o = feats := Except.ok.inj (e.symm.trans hfeats)
  obtain rfl : o' = feats' := Except.ok.inj (e'.symm.trans hfeats')
  refine C149_centres h hout c.r lcv' h.pw h.ph (fun a b _ _ v _ => ?_) hcells nW nW' st0 st0' j j' s s' hrun hdone
    hrun' hdone' px py hx hy
  rw [hlr]
  refine classAt_agree c.r c.lcv lcv' (fun a b ha hb => ?_) _ _ v
  rw [hlcv, hlcv', hval a b ha hb]

/-! ### The hypotheses can be met -/

/-- The files of `preExample`, the city cut into two features, which come first, and other names. -/
noncomputable def preExampleCut : PreCfg :=
  { preExample with
    settlement := [(fun _ => some "City", Set.Icc 5 7 ×ˢ Set.Icc 0 1),
      (fun _ => some "City", Set.Icc 3 5 ×ˢ Set.Icc 0 1), (fun _ => some "Urban", Set.Icc 0 2 ×ˢ Set.Icc 0 1)]
    settlementCat := "TYPE"
    landUseCat := "CODE" }

theorem preExampleCut_good : preExampleCut.Good where
  names := by decide
  maskFile := preExample_good.maskFile
  finiteS := by
    simp only [preExampleCut, List.mem_cons, List.not_mem_nil, or_false, forall_eq_or_imp, forall_eq]
    exact ⟨volume_rect _ _ _ _, volume_rect _ _ _ _, volume_rect _ _ _ _⟩
  finiteL := preExample_good.finiteL
  positive := preExample_good.positive
  found := preExample_good.found
  valid := preExample_good.valid
  finishes := preExample_good.finishes

theorem preExampleCut_same : SaySame preExample preExampleCut where
  domain := rfl
  settlements := by
    intro v
    rw [preExample_ofType]
    ext q
    rw [ofType_mem]
    simp only [preExampleCut, List.mem_cons, List.not_mem_nil, or_false, exists_eq_or_imp, exists_eq_left]
    have e1 : authorise (some "Urban") = some "Urban" := by decide
    have e2 : authorise (some "City") = some "City" := by decide
    rw [e1, e2]
    by_cases h1 : v = some "Urban"
    · subst h1
      simp
    · rw [if_neg h1]
      have h1' : ¬ some "Urban" = v := fun e => h1 e.symm
      by_cases h2 : v = some "City"
      · subst h2
        simp only [if_true, Set.mem_prod, Set.mem_Icc, and_true, h1', and_false, or_false]
        constructor
        · rintro (⟨⟨a, b⟩, k⟩ | ⟨⟨a, b⟩, k⟩)
          · exact ⟨⟨by linarith, b⟩, k⟩
          · exact ⟨⟨a, by linarith⟩, k⟩
        · rintro ⟨⟨a, b⟩, k⟩
          rcases le_total 5 q.1 with h | h
          · exact .inl ⟨⟨h, b⟩, k⟩
          · exact .inr ⟨⟨a, h⟩, k⟩
      · rw [if_neg h2]
        have h2' : ¬ some "City" = v := fun e => h2 e.symm
        simp [h1', h2']
  uses := by
    intro P u
    simp [HasUse, preExampleCut, preExample]

theorem preExample_apart (r : RasterInfo ℝ) : OneUse preExample r := by
  rintro px py P Q u v - - ⟨f, hf, rfl, rfl⟩ ⟨g, hg, rfl, rfl⟩ - -
  simp only [preExample, List.mem_singleton] at hf hg
  subst hf hg
  exact ⟨rfl, rfl⟩

theorem preExample_uneven : Uneven preExample := by
  intro f hf
  obtain ⟨hd, hin⟩ := preExample_inside
  rw [hin, List.mem_singleton] at hf
  subst hf
  rw [hd]
  refine ⟨some "City", fun w hw _ => ?_⟩
  rw [Set.inter_univ, preExample_area, preExample_area, if_neg hw, if_neg (by decide : some "City" ≠ _), if_pos rfl]
  by_cases hu : w = some "Urban"
  · rw [if_pos hu]; norm_num
  · rw [if_neg hu]; norm_num

example (r : RasterInfo ℝ) : ∃ out out', preProcess preExample = .ok out ∧ preProcess preExampleCut = .ok out' ∧
    ∀ px py : ℕ, px < r.xDim → py < r.yDim → (rasterize r out').val py px = (rasterize r out).val py px :=
  C150_raster preExample preExampleCut preExample_good preExampleCut_good preExampleCut_same r (preExample_apart r)
    preExample_uneven

/-! ### A run for which the hypotheses are met -/

/-- The files of `townShapes`, the city cut into two features. -/
noncomputable def townShapesCut : PreCfg :=
  { townShapes with
    settlement := [(fun _ => some "City", Set.Icc 149 152 ×ˢ Set.Icc (-37) (-33)),
      (fun _ => some "City", Set.Icc 147 149 ×ˢ Set.Icc (-37) (-33))] }

theorem townShapesCut_good : townShapesCut.Good where
  names := townShapes_good.names
  maskFile := townShapes_good.maskFile
  finiteS := by
    simp only [townShapesCut, List.mem_cons, List.not_mem_nil, or_false, forall_eq_or_imp, forall_eq]
    exact ⟨volume_rect _ _ _ _, volume_rect _ _ _ _⟩
  finiteL := townShapes_good.finiteL
  positive := townShapes_good.positive
  found := townShapes_good.found
  valid := townShapes_good.valid
  finishes := townShapes_good.finishes

theorem townShapesCut_same : SaySame townShapes townShapesCut where
  domain := rfl
  settlements := by
    intro v
    rw [townShapes_ofType]
    ext q
    rw [ofType_mem]
    simp only [townShapesCut, List.mem_cons, List.not_mem_nil, or_false, exists_eq_or_imp, exists_eq_left]
    have e2 : authorise (some "City") = some "City" := by decide
    rw [e2]
    by_cases h2 : v = some "City"
    · subst h2
      simp only [if_true, Set.mem_prod, Set.mem_Icc, and_true]
      constructor
      · rintro (⟨⟨a, b⟩, k⟩ | ⟨⟨a, b⟩, k⟩)
        · exact ⟨⟨by linarith, b⟩, k⟩
        · exact ⟨⟨a, by linarith⟩, k⟩
      · rintro ⟨⟨a, b⟩, k⟩
        rcases le_total 149 q.1 with h | h
        · exact .inl ⟨⟨h, b⟩, k⟩
        · exact .inr ⟨⟨a, h⟩, k⟩
    · rw [if_neg h2]
      have h2' : ¬ some "City" = v := fun e => h2 e.symm
      simp [h2']
  uses := fun _ _ => Iff.rfl

theorem townShapes_apart (r : RasterInfo ℝ) : OneUse townShapes r := by
  rintro px py P Q u v - - ⟨f, hf, rfl, rfl⟩ ⟨g, hg, rfl, rfl⟩ - -
  simp only [townShapes, List.mem_singleton] at hf hg
  subst hf hg
  exact ⟨rfl, rfl⟩

theorem townShapes_uneven : Uneven townShapes := by
  intro f hf
  obtain ⟨hd, hin⟩ := townShapes_inside
  rw [hin, List.mem_singleton] at hf
  subst hf
  rw [hd]
  refine ⟨some "City", fun w hw _ => ?_⟩
  have i : ((Set.Icc 148 151 ×ˢ Set.Icc (-36) (-34) : Region) ∩ (Set.Icc 147 152 ×ˢ Set.Icc (-37) (-33))) =
      Set.Icc 148 151 ×ˢ Set.Icc (-36) (-34) := by
    rw [Set.prod_inter_prod, Set.Icc_inter_Icc, Set.Icc_inter_Icc]
    norm_num
  rw [Set.inter_univ, townShapes_ofType, townShapes_ofType, if_pos rfl, if_neg hw, i, Set.inter_empty, area_empty,
    area_rect _ _ _ _ (by norm_num) (by norm_num)]
  norm_num

/-- Completed runs on the rasters of the city and of the city cut in two, with the configuration of the repository. -/
example (st : CfgState) (str : ℝ → List Char) (hstr : RendersDecimal str) :
    ∃ (c : Inputs) (up : ℝ) (cat : Grid ℤ) (out : List Char) (tiles : _) (feats feats' : _) (lcv' : Grid (Option ℤ))
      (j j' : ℕ) (s s' : _), RunCase c up cat str out tiles ∧ c.lr = c.r ∧
      OneUse townShapes c.r ∧ preProcess townShapes = .ok feats ∧ preProcess townShapesCut = .ok feats' ∧
      (∀ i j, c.lcv.val i j = if (rasterize c.r feats).val i j = 0 then none
        else some ((rasterize c.r feats).val i j : ℤ)) ∧
      (∀ i j, lcv'.val i j = if (rasterize c.r feats').val i j = 0 then none
        else some ((rasterize c.r feats').val i j : ℤ)) ∧
      (∀ g g' : Grid ℝ, g.Same g' → c.checksum g = c.checksum g') ∧
      RunSteps (c.runCfg out 1 tiles) j ((c.runCfg out 1 tiles).start fun _ => none) s ∧
      (c.runCfg out 1 tiles).Done s ∧
      RunSteps ((withCover c c.r lcv').runCfg ['/', 'o'] 3 tiles) j'
        (((withCover c c.r lcv').runCfg ['/', 'o'] 3 tiles).start fun _ => none) s' ∧
      ((withCover c c.r lcv').runCfg ['/', 'o'] 3 tiles).Done s' := by
  have htab : townFiles (String.ofList
      "/short/w85/nfm547/Wind_multipliers/input/Cairns/terrain_classification_cairns.csv".toList)
      = some townFile.text := by
    rw [String.ofList_toList, townFiles, if_neg (by decide +kernel), if_pos rfl]
  have ho : ¬ ['/', '/'] <:+ "/short/w85/nfm547/Wind_multipliers/output/CairnsWM".toList := by decide
  obtain ⟨cat, hcat, S, tiles, h1, h2, -⟩ := C132_run townShapes townShapes_good townFiles "my.cfg" (by decide) false st
    shippedConf _ _ _ _ shippedConf_for rfl townFile _ _ htab townFile_describes.1 townFile_describes.2 townRough_ok
    townInputs townDem townShapes_from townLand str hstr ho
  obtain ⟨o, o', e, e', hval⟩ := C150_raster townShapes townShapesCut townShapes_good townShapesCut_good
    townShapesCut_same townInputs.r (townShapes_apart _) townShapes_uneven
  obtain rfl : o = townFeatures := Except.ok.inj (e.symm.trans townShapes_out.choose_spec)
  obtain ⟨j, s, h4, -, h5⟩ := C94_completes _ (h2.good 1) (h2.shapes 1) (fun _ => none) 0 _ (.refl _)
  have h3 := runCase_cover (out' := ['/', 'o']) (lr := townInputs.r)
    (lcv := ⟨100, 1300, fun i j => if (rasterize townInputs.r o').val i j = 0 then none
      else some ((rasterize townInputs.r o').val i j : ℤ)⟩) h2 (by decide) h2.pw h2.ph (fun a b _ _ v _ => by
      refine classAt_agree townInputs.r townInputs.lcv _ (fun x y hx hy => ?_) _ _ v
      show (if (rasterize townInputs.r o').val y x = 0 then none else _) = if (rasterize townInputs.r _).val y x = 0 then
        none else _
      rw [hval x y hx hy]
      rfl)
  obtain ⟨j', s', h4', -, h5'⟩ := C94_completes _ (h3.good 3) (h3.shapes 3) (fun _ => none) 0 _ (.refl _)
  exact ⟨_, _, _, _, tiles, _, o', _, j, j', s, s', h2, rfl, townShapes_apart _, townShapes_out.choose_spec, e',
    fun _ _ => rfl, fun _ _ => rfl, fun _ _ _ => rfl, h4, h5, h4', h5'⟩

/-! ### Cutting a land-use feature changes the cover -/

/-- The files of `preExample`, the land-use feature cut into two. -/
noncomputable def preExampleUses : PreCfg :=
  { preExample with
    landUse := [(fun _ => some "Residential", Set.Icc 0 (5 / 2) ×ˢ Set.Icc 0 1),
      (fun _ => some "Residential", Set.Icc (5 / 2) 6 ×ˢ Set.Icc 0 1)] }

theorem preExampleUses_good : preExampleUses.Good where
  names := by decide
  maskFile := preExample_good.maskFile
  finiteS := preExample_good.finiteS
  finiteL := by
    simp only [preExampleUses, List.mem_cons, List.not_mem_nil, or_false, forall_eq_or_imp, forall_eq]
    exact ⟨volume_rect _ _ _ _, volume_rect _ _ _ _⟩
  positive := by
    intro _
    simp only [preExampleUses, List.mem_cons, List.not_mem_nil, or_false, forall_eq_or_imp, forall_eq]
    rw [area_rect _ _ _ _ (by norm_num) (by norm_num), area_rect _ _ _ _ (by norm_num) (by norm_num)]
    norm_num
  found := preExample_good.found
  valid := preExample_good.valid
  finishes := preExample_good.finishes

/-- **C150** The land-use features themselves may not be cut: with the same land use at every point, the same
settlements and only the one feature cut in two, a pixel has another class (a feature has the settlement type that
covers most of it, and the parts may lie in other settlements than the whole). -/
theorem C150_uses_cut : ∃ (p p' : PreCfg) (r : RasterInfo ℝ) (out out' : List (Region × ℕ)), p.Good ∧ p'.Good ∧
    p'.domain = p.domain ∧ (∀ v, p'.ofType v = p.ofType v) ∧
    (∀ (q : ℝ × ℝ) (u : ℕ), (∃ P, HasUse p' P u ∧ q ∈ P) ↔ ∃ P, HasUse p P u ∧ q ∈ P) ∧
    preProcess p = .ok out ∧ preProcess p' = .ok out' ∧ 1 < r.xDim ∧ 0 < r.yDim ∧
    (rasterize r out).val 0 1 = 205 ∧ (rasterize r out').val 0 1 = 305 := by
  obtain ⟨out', h1, -, -, h2⟩ := C100_raster preExampleUses preExampleUses_good preRaster
  refine ⟨preExample, preExampleUses, preRaster, _, out', preExample_good, preExampleUses_good, rfl, fun _ => rfl, ?_,
    preExample_out, h1, by decide, by decide, ?_, ?_⟩
  · intro q u
    simp only [HasUse, preExampleUses, preExample, List.mem_cons, List.not_mem_nil, or_false, exists_eq_or_imp,
      exists_eq_left]
    constructor
    · rintro ⟨P, ⟨rfl, h⟩ | ⟨rfl, h⟩, hq⟩
      · exact ⟨_, ⟨rfl, h⟩, ⟨hq.1.1, hq.1.2.trans (by norm_num)⟩, hq.2⟩
      · exact ⟨_, ⟨rfl, h⟩, ⟨le_trans (by norm_num) hq.1.1, hq.1.2⟩, hq.2⟩
    · rintro ⟨P, ⟨rfl, h⟩, hq⟩
      rcases le_total q.1 (5 / 2) with k | k
      · exact ⟨_, .inl ⟨rfl, h⟩, ⟨hq.1.1, k⟩, hq.2⟩
      · exact ⟨_, .inr ⟨rfl, h⟩, ⟨k, hq.1.2⟩, hq.2⟩
  · exact if_pos (by norm_num [preRaster])
  · have hd : preExampleUses.domain = Set.univ := rfl
    have hin : preExampleUses.inside = [] ++ (fun _ => some "Residential", Set.Icc 0 (5 / 2) ×ˢ Set.Icc 0 1) ::
        [(fun _ => some "Residential", Set.Icc (5 / 2) 6 ×ˢ Set.Icc 0 1)] := by
      unfold PreCfg.inside
      rw [hd, List.filter_eq_self.mpr]
      · rfl
      · intro f hf
        rw [Set.inter_univ]
        exact decide_eq_true (preExampleUses_good.positive rfl f hf)
    obtain ⟨-, h3⟩ := h2 1 0 (by decide) (by decide)
    obtain ⟨v, ⟨hv, -⟩, e⟩ := h3 _ _ _ hin
      (by norm_num [preRaster, RasterInfo.lonCentre, RasterInfo.latCentre, hd])
      (by
        simp only [List.mem_singleton, forall_eq]
        norm_num [preRaster, RasterInfo.lonCentre, RasterInfo.latCentre, hd])
    rw [e]
    have hty : ∀ w, preExampleUses.ofType w = preExample.ofType w := fun _ => rfl
    have hu := hv (some "Urban")
    simp only [hty, hd, Set.inter_univ, preExample_ofType, if_true] at hu
    have i2 : ((Set.Icc 0 (5 / 2) ×ˢ Set.Icc 0 1 : Region) ∩ (Set.Icc 0 2 ×ˢ Set.Icc 0 1)) =
        Set.Icc 0 2 ×ˢ Set.Icc 0 1 := by
      rw [Set.prod_inter_prod, Set.Icc_inter_Icc, Set.inter_self]
      norm_num
    have i3 : ((Set.Icc 0 (5 / 2) ×ˢ Set.Icc 0 1 : Region) ∩ (Set.Icc 3 7 ×ˢ Set.Icc 0 1)) = ∅ := by
      rw [Set.prod_inter_prod, Set.Icc_inter_Icc, Set.Icc_eq_empty (by norm_num), Set.empty_prod]
    rw [i2, area_rect _ _ _ _ (by norm_num) (by norm_num)] at hu
    have : v = some "Urban" := by
      by_contra hne
      rw [if_neg hne] at hu
      split_ifs at hu
      · rw [i3, area_empty] at hu
        norm_num at hu
      · rw [Set.inter_empty, area_empty] at hu
        norm_num at hu
    rw [this]
    decide

end WindMult
