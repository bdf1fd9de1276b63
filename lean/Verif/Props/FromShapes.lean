import Verif.Props.PreProcess
import Verif.Props.RunTexts

/-!
# C132: from the shape files and the text files to the GeoTIFFs
-/

set_option autoImplicit false

namespace WindMult
open Spec

/-- A DEM for which a run completes: what `StandardRasters` says without the land cover. -/
structure StandardDem (c : Inputs) : Prop where
  sizes : ∃ fuel, 8 ≤ fuel ∧ c.pixelSizes = pixelSizes fuel
  fine : 1 / 1000000 ≤ c.r.gt1 ∧ c.r.gt1 ≤ 0.00085
  square : c.r.gt5 = -c.r.gt1
  extent : 0.01 ≤ c.r.xDim * c.r.gt1 ∧ 0.01 ≤ c.r.yDim * c.r.gt1
  east : 0.0001 ≤ c.r.gt0 ∧ c.r.gt0 + c.r.xDim * c.r.gt1 ≤ 180
  south : c.r.gt3 ≤ -0.0001 ∧ -43.9 ≤ c.r.gt3 + c.r.yDim * c.r.gt5
  disjoint : TilesDisjoint (TileGrid.init 0.01 c.r)

/-- The same categories as integers. -/
def Grid.ints (cat : Grid ℕ) : Grid ℤ := ⟨cat.rows, cat.cols, fun i j => (cat.val i j : ℤ)⟩

/-- The land cover of the run is the raster that the pre-processing of `p` makes on the grid of the DEM, with 0 as the
value for no data. -/
def FromShapes (p : PreCfg) (c : Inputs) : Prop :=
  c.lr = c.r ∧ ∃ out, preProcess p = .ok out ∧ ∀ i j, c.lcv.val i j =
    if (rasterize c.r out).val i j = 0 then none else some ((rasterize c.r out).val i j : ℤ)

/-- **C132** From the shape files to the GeoTIFFs: settlements and land use are pre-processed, burnt into a raster on the
grid of the DEM, and a run is started with that raster, any configuration file that sets the needed options and any table
of classes.  It never deadlocks or fails, and in the end every pixel of the DEM is in exactly one tile and has the
documented value for the land cover *that the shape files describe* - the code of the last feature under its centre and of
the settlement type that covers most of that feature - and for the roughness lengths and percentages that are written in
the table. -/
theorem C132_run (p : PreCfg) (hp0 : p.Good) (files : String → Option (List Char)) (name : String) (hname : name ≠ "")
    (verbose : Bool) (st : CfgState) (f : IniFile) (land dem out table : List Char)
    (hf : ConfFor f (1 / 100) land dem out table)
    (hfile : files name = some f.text) (tab : FileText) (rough pct : List (ℤ × ℚ))
    (htab : files (String.ofList table) = some tab.text)
    (hr : tab.Describes "ROUGHNESS_LENGTH_m".toList rough) (hp : tab.Describes "SHIELDING".toList pct)
    (hrough : ∀ x ∈ rough, 0 < x.2 ∧ 0 < 3.734 + 0.4554 * Real.log x.2)
    (c : Inputs) (hc : StandardDem c) (hshape : FromShapes p c)
    (hland : ∀ cat : Grid ℕ, p.IsCover c.r cat → LandIn c cat.ints fun κ => 0 < classMz (terrainRows rough) κ)
    (str : ℝ → List Char) (hstr : RendersDecimal str) (ho : ¬ ['/', '/'] <:+ out) :
    ∃ cat : Grid ℕ, p.IsCover c.r cat ∧ ∃ S tiles, startSettings files (some name) verbose st = .ok S ∧
      RunCase (c.withTables S) S.upwind cat.ints str S.out.toList tiles ∧
      ∀ nW st0 j s, RunSteps ((c.withTables S).runCfg S.out.toList nW tiles) j
          (((c.withTables S).runCfg S.out.toList nW tiles).start st0) s →
        (¬ ((c.withTables S).runCfg S.out.toList nW tiles).Done s →
          ∃ s', RunStep ((c.withTables S).runCfg S.out.toList nW tiles) s s') ∧
        (((c.withTables S).runCfg S.out.toList nW tiles).Done s → ∀ px py : ℕ, px < c.r.xDim → py < c.r.yDim →
          ∃ k L n, (TileGrid.init 0.01 c.r).getGridlimit k = .ok L ∧ L.Has px py ∧
            (∀ k' L', (TileGrid.init 0.01 c.r).getGridlimit k' = .ok L' → L'.Has px py → k' = k) ∧
            (TileGrid.init 0.01 c.r).getTilename str k = .ok n ∧
            ((∃ EB, (TileGrid.init 0.01 c.r).getTileExtentBuffer k = .ok EB ∧
                c.checksum (cutDem c.r c.dem EB 0) = 0 ∧ s.store (pjoin out (m3File n)) = none ∧
                s.store (pjoin out (m3MaxFile n)) = none) ∨
              ∃ B xm ym gw tif mx, s.store (pjoin out (m3File n)) = some (.tif tif) ∧
                IsM3 { c with terrainTable := terrainRows rough, shieldTable := shieldRows pct } L B xm ym gw cat.ints
                  tif ∧
                s.store (pjoin out (m3MaxFile n)) = some (.maxTif mx) ∧ IsM3Max L tif mx)) := by
  obtain ⟨hlr, feats, hfeats, hlcv⟩ := hshape
  have h1 : 0 < c.r.gt1 := by have := hc.fine.1; linarith
  have h2 : c.r.gt5 < 0 := by rw [hc.square]; linarith
  obtain ⟨cat, hcat, hcov⟩ := C100_landcover p hp0 c hlr h1 h2 feats hfeats hlcv
  exact ⟨cat, hcat, C124_run files name hname verbose st f land dem out table hf hfile tab rough pct htab hr hp hrough c
    cat.ints ⟨hc.sizes, hc.fine, hc.square, hc.extent, hc.east, hc.south, hlr ▸ ⟨h1, h2⟩, hc.disjoint, hcov⟩
    (hland cat hcat) str hstr ho⟩

/-! ### The table in the repository does not fit -/

/-- The only table of classes in the repository (`tests/test_data/terrain_classification.csv`, categories 1 to 13) has no
roughness length for any land in a settlement. -/
theorem C132_settled_codes_unknown (v : String) (hv : v ∈ settlementCodes.map Prod.fst) (u : Option String) :
    ∀ x ∈ shippedRoughness,
      x.1 ≠ ((100 * codeIn settlementCodes (some v) + codeIn landUseCodes u : ℕ) : ℤ) := by
  have h1 : 1 ≤ codeIn settlementCodes (some v) := by
    revert v
    decide
  have h2 : ∀ x ∈ shippedRoughness, x.1 ≤ 13 := by decide
  intro x hx h
  have := h2 x hx
  omega

/-- And it describes the codes of land outside settlements as something else: a park (1) as "City buildings" with a
roughness length of 2 m, water (6) as "Orchard, open forest", roads (11) as a desert. -/
theorem C132_unsettled_codes_misread :
    ((codeIn landUseCodes (some "Parkland") : ℤ), (2 : ℚ)) ∈ shippedRoughness ∧
      ((codeIn landUseCodes (some "Water") : ℤ), (0.08 : ℚ)) ∈ shippedRoughness ∧
      (shippedRows[0]?.map fun x => (x.1.value, x.2.1)) = some (1, "City buildings") ∧
      (shippedRows[5]?.map fun x => (x.1.value, x.2.1)) = some (6, "Orchard, open forest") := by
  refine ⟨by decide +kernel, by decide +kernel, by decide +kernel, by decide +kernel⟩

/-! ### The hypotheses can be met -/

/-- A city, and residential land in it. -/
noncomputable def townShapes : PreCfg where
  settlement := [(fun _ => some "City", Set.Icc 147 152 ×ˢ Set.Icc (-37) (-33))]
  settlementCat := "SOS"
  landUse := [(fun _ => some "Residential", Set.Icc 148 151 ×ˢ Set.Icc (-36) (-34))]
  landUseCat := "USE"
  mask := none
  query := fun gs _ => List.range gs.length
  finish := List.range

theorem townShapes_good : townShapes.Good where
  names := by decide
  maskFile := by simp [townShapes]
  finiteS := by
    simp only [townShapes, List.mem_cons, List.not_mem_nil, or_false, forall_eq]
    exact volume_rect _ _ _ _
  finiteL := by
    simp only [townShapes, List.mem_cons, List.not_mem_nil, or_false, forall_eq]
    exact volume_rect _ _ _ _
  positive := by
    intro _
    simp only [townShapes, List.mem_cons, List.not_mem_nil, or_false, forall_eq]
    rw [area_rect _ _ _ _ (by norm_num) (by norm_num)]
    norm_num
  found := fun gs P i h _ => List.mem_range.mpr h
  valid := fun gs P i h => List.mem_range.mp h
  finishes := fun n => List.Perm.refl _

theorem townShapes_ofType (v : Option String) : townShapes.ofType v =
    if v = some "City" then Set.Icc 147 152 ×ˢ Set.Icc (-37) (-33) else ∅ := by
  ext p
  rw [ofType_mem]
  simp only [townShapes, List.mem_cons, List.not_mem_nil, or_false, exists_eq_left]
  have e2 : authorise (some "City") = some "City" := by decide
  rw [e2]
  by_cases h2 : v = some "City"
  · subst h2
    simp
  · rw [if_neg h2]
    simp only [Set.mem_empty_iff_false, iff_false]
    rintro ⟨-, h⟩
    exact h2 h.symm

theorem townShapes_inside : townShapes.domain = Set.univ ∧
    townShapes.inside = [(fun _ => some "Residential", Set.Icc 148 151 ×ˢ Set.Icc (-36) (-34))] := by
  have hd : townShapes.domain = Set.univ := rfl
  refine ⟨hd, ?_⟩
  unfold PreCfg.inside
  rw [hd, List.filter_eq_self.mpr]
  · rfl
  · intro f hf
    rw [Set.inter_univ]
    exact decide_eq_true (townShapes_good.positive rfl f hf)

/-- Only the city dominates. -/
theorem townShapes_dominates (v : Option String)
    (h : townShapes.Dominates (Set.Icc 148 151 ×ˢ Set.Icc (-36) (-34)) v) : v = some "City" := by
  by_contra hv
  have h1 := h.1 (some "City")
  have i : ((Set.Icc 148 151 ×ˢ Set.Icc (-36) (-34) : Region) ∩ (Set.Icc 147 152 ×ˢ Set.Icc (-37) (-33))) =
      Set.Icc 148 151 ×ˢ Set.Icc (-36) (-34) := by
    rw [Set.prod_inter_prod, Set.Icc_inter_Icc, Set.Icc_inter_Icc]
    norm_num
  rw [townShapes_ofType, townShapes_ofType, if_pos rfl, if_neg hv, i, Set.inter_empty, area_empty,
    area_rect _ _ _ _ (by norm_num) (by norm_num)] at h1
  norm_num at h1

/-- What the pre-processing makes of it: residential land in a city, 205. -/
theorem townShapes_out : ∃ out, preProcess townShapes = .ok out := by
  obtain ⟨out, h, -⟩ := C100_features townShapes townShapes_good
  exact ⟨out, h⟩

/-- The features that the pre-processing makes. -/
noncomputable def townFeatures : List (Region × ℕ) := townShapes_out.choose

/-- A run on the land cover of that city. -/
noncomputable def townInputs : Inputs :=
  { standardInputs with
    dem := ⟨100, 1300, fun _ _ => some 120⟩
    lcv := ⟨100, 1300, fun i j => if (rasterize standardInputs.r townFeatures).val i j = 0 then none
      else some ((rasterize standardInputs.r townFeatures).val i j : ℤ)⟩ }

theorem townShapes_from : FromShapes townShapes townInputs :=
  ⟨rfl, townFeatures, townShapes_out.choose_spec, fun _ _ => rfl⟩

theorem townDem : StandardDem townInputs where
  sizes := ⟨20, by norm_num, rfl⟩
  fine := by norm_num [townInputs, standardInputs]
  square := rfl
  extent := by norm_num [townInputs, standardInputs]
  east := by norm_num [townInputs, standardInputs]
  south := by norm_num [townInputs, standardInputs]
  disjoint := standardDisjoint

/-- The rows of a table for the codes of the pre-processing. -/
def townRows : List (Numeral × Numeral × Numeral) :=
  [(⟨false, [2, 0, 5], none, none⟩, ⟨false, [0], some [2], none⟩, ⟨false, [9, 0], none, none⟩),
    (⟨false, [6], none, none⟩, ⟨false, [0], some [0, 2], none⟩, ⟨false, [1, 0, 0], none, none⟩)]

/-- A table for the codes of the pre-processing. -/
def townFile : FileText where
  lines :=
    (.record (["CATEGORY", "ROUGHNESS_LENGTH_m", "SHIELDING"].map fun s => .plain s.toList) none, false) ::
    townRows.map fun x => (.record [.plain x.1.text, .plain x.2.1.text, .plain x.2.2.text] none, false)
  last := none

example : townFile.text = "CATEGORY,ROUGHNESS_LENGTH_m,SHIELDING\n205,0.2,90\n6,0.02,100\n".toList := by
  decide +kernel

theorem townFile_describes : townFile.Describes "ROUGHNESS_LENGTH_m".toList [(205, 0.2), (6, 0.02)] ∧
    townFile.Describes "SHIELDING".toList [(205, 90), (6, 100)] := by
  have ok : ∀ l ∈ townFile.allLines, l.Ok := by decide +kernel
  have hrec : recordValues townFile.allLines
      = ["CATEGORY".toList, "ROUGHNESS_LENGTH_m".toList, "SHIELDING".toList] ::
        townRows.map fun x => [x.1.text, x.2.1.text, x.2.2.text] := by decide +kernel
  have h1 : ∀ x ∈ townRows, x.1.Ok ∧ x.2.1.Ok ∧ x.2.2.Ok := by decide +kernel
  refine ⟨⟨ok, _, _, 0, 1, hrec, ⟨rfl, by simp⟩, ⟨rfl, by decide +kernel⟩, by decide +kernel, ?_⟩,
    ⟨ok, _, _, 0, 2, hrec, ⟨rfl, by simp⟩, ⟨rfl, by decide +kernel⟩, by decide +kernel, ?_⟩⟩
  · rw [List.forall₂_map_left_iff]
    have key : List.Forall₂ (fun (x : Numeral × Numeral × Numeral) (e : ℤ × ℚ) =>
        x.1.value = e.1 ∧ x.2.1.value = e.2) townRows [(205, 0.2), (6, 0.02)] := by
      simp only [townRows]
      repeat (first | exact .nil | refine .cons ?_ ?_)
      all_goals norm_num [Numeral.value, Digits.value, Nat.ofDigits]
    refine (forall₂_and_mem key h1).imp fun x y h => ?_
    exact ⟨⟨_, rfl, isNumber_text _ _ h.1.1 h.2.1⟩, ⟨_, rfl, isNumber_text _ _ h.1.2.1 h.2.2⟩⟩
  · rw [List.forall₂_map_left_iff]
    have key : List.Forall₂ (fun (x : Numeral × Numeral × Numeral) (e : ℤ × ℚ) =>
        x.1.value = e.1 ∧ x.2.2.value = e.2) townRows [(205, 90), (6, 100)] := by
      simp only [townRows]
      repeat (first | exact .nil | refine .cons ?_ ?_)
      all_goals norm_num [Numeral.value, Digits.value, Nat.ofDigits]
    refine (forall₂_and_mem key h1).imp fun x y h => ?_
    exact ⟨⟨_, rfl, isNumber_text _ _ h.1.1 h.2.1⟩, ⟨_, rfl, isNumber_text _ _ h.1.2.2 h.2.2⟩⟩

theorem townRough_ok : ∀ x ∈ ([(205, 0.2), (6, 0.02)] : List (ℤ × ℚ)),
    0 < x.2 ∧ 0 < 3.734 + 0.4554 * Real.log x.2 := by
  intro x hx
  have h : (5, x.2) ∈ shippedRoughness ∨ (9, x.2) ∈ shippedRoughness := by
    revert x
    decide +kernel
  rcases h with h | h
  · exact shippedRough_ok (5, x.2) h
  · exact shippedRough_ok (9, x.2) h

/-- The land cover of the city has residential land of a city at its pixels. -/
theorem townCover (cat : Grid ℕ) (h : townShapes.IsCover townInputs.r cat) : cat.val 5 1240 = 205 := by
  obtain ⟨hd, hin⟩ := townShapes_inside
  have hmem : (townInputs.r.lonCentre 1240, townInputs.r.latCentre 5) ∈
      (Set.Icc 148 151 ×ˢ Set.Icc (-36) (-34) : Region) ∩ townShapes.domain := by
    rw [hd, Set.inter_univ]
    norm_num [townInputs, standardInputs, RasterInfo.lonCentre, RasterInfo.latCentre]
  obtain ⟨v, h1, h2⟩ := (h.2.2 1240 5 (by norm_num [townInputs, standardInputs])
    (by norm_num [townInputs, standardInputs])).2 [] _ [] hin hmem (by simp)
  rw [hd, Set.inter_univ] at h1
  rw [townShapes_dominates v h1] at h2
  rw [h2]
  decide

theorem townLand (cat : Grid ℕ) (h : townShapes.IsCover townInputs.r cat) :
    LandIn townInputs cat.ints fun κ => 0 < classMz (terrainRows [(205, 0.2), (6, 0.02)]) κ := by
  intro k B EB hB _ _
  rw [show TileGrid.init 0.01 townInputs.r = TileGrid.init 0.01 standardInputs.r from rfl, standardGrid] at hB
  have hk : k < 2 := by
    by_contra hk
    have : (tileGridLoop 2 1 1250 1250 12 12 1300 100)[k]? = none :=
      List.getElem?_eq_none (by
        have : (tileGridLoop 2 1 1250 1250 12 12 1300 100).length = 2 := rfl
        omega)
    simp only [TileGrid.getGridlimitBuffer, TileGrid.idx, this] at hB
    cases hB
  refine ⟨1240, 5, ?_, ?_⟩
  · interval_cases k
    · cases hB
      decide
    · cases hB
      decide
  · change 0 < classMz _ ((cat.val 5 1240 : ℕ) : ℤ)
    rw [townCover cat h]
    have h5 := levelMz_pos
    rw [levelMz] at h5
    have e : classMz (terrainRows [(205, 0.2), (6, 0.02)]) ((205 : ℕ) : ℤ) = roughnessMz 0.2 := by
      norm_num [classMz, terrainRows]
    rw [e]
    exact h5

/-- The files of that run. -/
def townFiles (name : String) : Option (List Char) :=
  if name = "my.cfg" then some shippedConf.text
  else if name = "/short/w85/nfm547/Wind_multipliers/input/Cairns/terrain_classification_cairns.csv" then
    some townFile.text
  else none

/-- A completed run on the land cover of the city, with the configuration of the repository. -/
example (st : CfgState) (str : ℝ → List Char) (hstr : RendersDecimal str) : ∃ (cat : Grid ℕ) (S : _) (tiles : _)
    (j : _) (s : _), cat.val 5 1240 = 205 ∧
    startSettings townFiles (some "my.cfg") false st = .ok S ∧
    RunSteps ((townInputs.withTables S).runCfg S.out.toList 2 tiles) j
      (((townInputs.withTables S).runCfg S.out.toList 2 tiles).start fun _ => none) s ∧
    ((townInputs.withTables S).runCfg S.out.toList 2 tiles).Done s := by
  have htab : townFiles (String.ofList
      "/short/w85/nfm547/Wind_multipliers/input/Cairns/terrain_classification_cairns.csv".toList)
      = some townFile.text := by
    rw [String.ofList_toList, townFiles, if_neg (by decide +kernel), if_pos rfl]
  have ho : ¬ ['/', '/'] <:+ "/short/w85/nfm547/Wind_multipliers/output/CairnsWM".toList := by decide
  obtain ⟨cat, hcat, S, tiles, h1, h2, -⟩ := C132_run townShapes townShapes_good townFiles "my.cfg" (by decide) false st
    shippedConf _ _ _ _ shippedConf_for rfl townFile _ _ htab townFile_describes.1 townFile_describes.2 townRough_ok
    townInputs townDem townShapes_from townLand str hstr ho
  obtain ⟨j, s, h4, -, h5⟩ := C94_completes _ (h2.good 2) (h2.shapes 2) (fun _ => none) 0 _ (.refl _)
  exact ⟨cat, S, tiles, j, s, townCover cat hcat, h1, h4, h5⟩

end WindMult
