import Verif.Spec.PreScript
import Verif.Props.PreProcess
import Verif.Props.ConfigText

/-!
# C145: the pre-processing script from its configuration to its files
-/

set_option autoImplicit false

namespace WindMult

theorem drawn_read {l : List (ShpAttr × Option Region)} {l' : List (ShpAttr × Region)} (h : Drawn l l') :
    (l.filterMap fun f => f.2.map fun g => (f.1, g)) = l' := by
  unfold Drawn at h
  induction l generalizing l' with
  | nil => cases l' with
    | nil => rfl
    | cons => simp at h
  | cons a l ih =>
    obtain ⟨x, y⟩ := a
    cases y with
    | none =>
      simp only [List.filter_cons, Option.isSome_none, Bool.false_eq_true, if_false] at h
      simpa using ih h
    | some y =>
      simp only [List.filter_cons, Option.isSome_some, if_true] at h
      cases l' with
      | nil => simp at h
      | cons b l' =>
        simp only [List.map_cons, List.cons.injEq, Prod.mk.injEq, Option.some.injEq] at h
        simp only [List.filterMap_cons, Option.map_some, List.cons.injEq]
        exact ⟨by rw [h.1.1, h.1.2], ih h.2⟩

theorem get_of_read {f : IniFile} {st st' : CfgState} (hf : f.Ok) (h : setConfigText (some f.text) st = .ok st')
    (sect opt v : String) (hs : f.Sets sect.toList (opt.toList.map Char.toLower) v.toList) :
    configGet st' sect opt = .ok v := by
  obtain ⟨st'', h1, h2⟩ := C123_get f hf st sect opt v.toList hs
  cases h.symm.trans h1
  rw [h2, String.ofList_toList]

theorem preSettings_conf {f : IniFile} {a b c d e g k t : String} (h : PreConf f a b c d e g k t) (disk : PreDisk)
    (arg : String) (harg : disk arg = some (.text f.text)) (st : CfgState) :
    preSettings disk arg st = .ok ⟨a, b, c, d, e, g, k, t⟩ := by
  obtain ⟨st', h1, -⟩ := C123_get f h.ok st "Preprocessing" "settlement_data" a.toList h.settlementData
  have low : ∀ s ∈ ["settlement_data", "settlement_cat", "land_use_data", "land_use_cat", "crop_mask",
      "output_shapefile", "output_rasterized", "input_topo", "dem_data"], s.toList.map Char.toLower = s.toList := by
    decide
  have G : ∀ sect opt v, f.Sets sect.toList opt.toList v.toList → opt.toList.map Char.toLower = opt.toList →
      configGet st' sect opt = .ok v := fun sect opt v hs hl => get_of_read h.ok h1 sect opt v (by rw [hl]; exact hs)
  unfold preSettings
  rw [harg]
  simp only [h1, bind, Except.bind, G _ _ _ h.settlementData (low _ (by simp)), G _ _ _ h.settlementCat (low _ (by simp)),
    G _ _ _ h.landUseData (low _ (by simp)), G _ _ _ h.landUseCat (low _ (by simp)),
    G _ _ _ h.cropMask (low _ (by simp)), G _ _ _ h.outShapes (low _ (by simp)),
    G _ _ _ h.outRaster (low _ (by simp))]
  rcases h.grid with ⟨hn, hs⟩ | ⟨hs, hd⟩
  · simp only [G _ _ _ hs (low _ (by simp)), if_neg hn]
  · simp only [G _ _ _ hs (low _ (by simp)), if_true, G _ _ _ hd (low _ (by simp))]

theorem preWrite_same (disk : PreDisk) (n : String) (f : PreFile) : disk.write n f n = some f := if_pos rfl

theorem preWrite_other (disk : PreDisk) {n m : String} (f : PreFile) (h : n ≠ m) : disk.write m f n = disk n :=
  if_neg h

section
variable {f : IniFile} {sData sCat lData lCat mask shp tif topo : String}

/-- What the script does before it looks for the DEM. -/
theorem preScript_features (hf : PreConf f sData sCat lData lCat mask shp tif topo) (p : PreCfg)
    (disk : PreDisk) (arg : String) (harg : disk arg = some (.text f.text)) (st : CfgState)
    (S L : List (ShpAttr × Option Region)) (hS : disk sData = some (.shapes S)) (hL : disk lData = some (.shapes L))
    (dS : Drawn S p.settlement) (dL : Drawn L p.landUse) (cS : p.settlementCat = sCat) (cL : p.landUseCat = lCat)
    (hM : (mask = "None" ∧ p.mask = none) ∨ (mask ≠ "None" ∧ ∃ M l, disk mask = some (.shapes M) ∧ Drawn M l ∧
      p.mask = some (l.map Prod.snd))) (out : List (Region × ℕ)) (hout : preProcess p = .ok out) :
    preScript p.query p.finish arg st disk =
      match (disk.write shp (.coded out)) topo with
      | some (.raster r _) => (.ok (), (disk.write shp (.coded out)).write tif (.raster r ⟨(rasterize r out).rows,
          (rasterize r out).cols, fun i j => ((rasterize r out).val i j : ℝ)⟩))
      | _ => (.error .runtimeError, disk.write shp (.coded out)) := by
  have hp : ∀ m, p.mask = m → (⟨p.settlement, sCat, p.landUse, lCat, m, p.query, p.finish⟩ : PreCfg) = p := by
    rintro m rfl; subst cS; subst cL; rfl
  unfold preScript
  simp only [preSettings_conf hf disk arg harg st, bind, Except.bind, readShapes, hS, hL, drawn_read dS, drawn_read dL]
  rcases hM with ⟨h1, h2⟩ | ⟨h1, M, l, h2, h3, h4⟩
  · simp only [h1, if_true, hp none h2, hout]
    rfl
  · simp only [h1, if_false, h2, drawn_read h3, hp _ h4, hout]
    rfl

/-- **C145** Any configuration text that names the files: the script ends well; the shape file it names has the features
with the codes of C100, the raster it names has the grid of the DEM and the land cover that the two layers describe,
cut to the mask unless that is `None`; features without geometry do not count; all other files are as before. -/
theorem C145_script (hf : PreConf f sData sCat lData lCat mask shp tif topo) (p : PreCfg) (hg : p.Good)
    (disk : PreDisk) (arg : String) (harg : disk arg = some (.text f.text)) (st : CfgState)
    (S L : List (ShpAttr × Option Region)) (hS : disk sData = some (.shapes S)) (hL : disk lData = some (.shapes L))
    (dS : Drawn S p.settlement) (dL : Drawn L p.landUse) (cS : p.settlementCat = sCat) (cL : p.landUseCat = lCat)
    (hM : (mask = "None" ∧ p.mask = none) ∨ (mask ≠ "None" ∧ ∃ M l, disk mask = some (.shapes M) ∧ Drawn M l ∧
      p.mask = some (l.map Prod.snd)))
    (r : RasterInfo ℝ) (heights : Grid ℝ) (ht : disk topo = some (.raster r heights)) (n1 : topo ≠ shp)
    (n2 : shp ≠ tif) :
    ∃ after features cat, preScript p.query p.finish arg st disk = (.ok (), after) ∧
      after shp = some (.coded features) ∧ List.Forall₂ (fun a o => o.1 = a.2 ∩ p.domain ∧
        ∃ v, p.Dominates o.1 v ∧
          o.2 = 100 * codeIn settlementCodes v + codeIn landUseCodes (a.1 p.landUseCat)) p.inside features ∧
      after tif = some (.raster r ⟨cat.rows, cat.cols, fun i j => (cat.val i j : ℝ)⟩) ∧ p.IsCover r cat ∧
      ∀ n, n ≠ shp → n ≠ tif → after n = disk n := by
  obtain ⟨out, h1, h2⟩ := C100_features p hg
  obtain ⟨out', h3, h4⟩ := C100_raster p hg r
  cases h1.symm.trans h3
  have key := preScript_features hf p disk arg harg st S L hS hL dS dL cS cL hM out h1
  rw [preWrite_other _ _ n1, ht] at key
  refine ⟨_, out, rasterize r out, key, ?_, h2, preWrite_same _ _ _, h4, fun n a b => ?_⟩
  · rw [preWrite_other _ _ n2, preWrite_same]
  · rw [preWrite_other _ _ b, preWrite_other _ _ a]

/-- **C145** Nothing protects the inputs: if the raster is given the name of the DEM, the DEM is replaced by codes; if
the shape file is given the name of the land use, that is replaced by its coded features. -/
theorem C145_inputs_lost (hf : PreConf f sData sCat lData lCat mask shp tif topo) (p : PreCfg) (hg : p.Good)
    (disk : PreDisk) (arg : String) (harg : disk arg = some (.text f.text)) (st : CfgState)
    (S L : List (ShpAttr × Option Region)) (hS : disk sData = some (.shapes S)) (hL : disk lData = some (.shapes L))
    (dS : Drawn S p.settlement) (dL : Drawn L p.landUse) (cS : p.settlementCat = sCat) (cL : p.landUseCat = lCat)
    (hM : (mask = "None" ∧ p.mask = none) ∨ (mask ≠ "None" ∧ ∃ M l, disk mask = some (.shapes M) ∧ Drawn M l ∧
      p.mask = some (l.map Prod.snd)))
    (r : RasterInfo ℝ) (heights : Grid ℝ) (ht : disk topo = some (.raster r heights)) (n1 : topo ≠ shp)
    (n2 : shp ≠ tif) : ∃ after, preScript p.query p.finish arg st disk = (.ok (), after) ∧
      (tif = topo → ∃ cat, after topo = some (.raster r ⟨cat.rows, cat.cols, fun i j => (cat.val i j : ℝ)⟩) ∧
        p.IsCover r cat) ∧ (shp = lData → ∃ features, after lData = some (.coded features)) := by
  obtain ⟨after, feats, cat, h1, h2, -, h3, h4, -⟩ := C145_script hf p hg disk arg harg st S L hS hL dS dL cS cL hM r
    heights ht n1 n2
  exact ⟨after, h1, fun e => ⟨cat, e ▸ h3, h4⟩, fun e => ⟨feats, e ▸ h2⟩⟩

/-- **C145** If the DEM is missing, the script says so, but only after the shape file is written; no raster is
written. -/
theorem C145_no_dem (hf : PreConf f sData sCat lData lCat mask shp tif topo) (p : PreCfg) (hg : p.Good)
    (disk : PreDisk) (arg : String) (harg : disk arg = some (.text f.text)) (st : CfgState)
    (S L : List (ShpAttr × Option Region)) (hS : disk sData = some (.shapes S)) (hL : disk lData = some (.shapes L))
    (dS : Drawn S p.settlement) (dL : Drawn L p.landUse) (cS : p.settlementCat = sCat) (cL : p.landUseCat = lCat)
    (hM : (mask = "None" ∧ p.mask = none) ∨ (mask ≠ "None" ∧ ∃ M l, disk mask = some (.shapes M) ∧ Drawn M l ∧
      p.mask = some (l.map Prod.snd))) (ht : disk topo = none) (n1 : topo ≠ shp) :
    ∃ e after features, preScript p.query p.finish arg st disk = (.error e, after) ∧
      after shp = some (.coded features) ∧ ∀ n, n ≠ shp → after n = disk n := by
  obtain ⟨out, h1, -⟩ := C100_features p hg
  have key := preScript_features hf p disk arg harg st S L hS hL dS dL cS cL hM out h1
  rw [preWrite_other _ _ n1, ht] at key
  exact ⟨_, _, out, key, preWrite_same _ _ _, fun n a => preWrite_other _ _ a⟩

end

/-- **C145** Whatever is wrong - configuration, shape files, mask, attributes, DEM - the script writes at most the shape
file that the configuration names when it ends with an error: if the configuration cannot be read nothing is written,
and no other file is touched. -/
theorem C145_on_error (query : List Region → Region → List ℕ) (finish : ℕ → List ℕ) (arg : String) (st : CfgState)
    (disk after : PreDisk) (e : PyErr) (h : preScript query finish arg st disk = (.error e, after)) :
    after = disk ∨ ∃ s, preSettings disk arg st = .ok s ∧ ∀ n, n ≠ s.outShapes → after n = disk n := by
  unfold preScript at h
  simp only at h
  split at h
  · exact .inl (Prod.mk.inj h).2.symm
  · rename_i s out hfeat
    right
    refine ⟨s, ?_, ?_⟩
    · cases hs : preSettings disk arg st with
      | error x => rw [hs] at hfeat; simp [bind, Except.bind] at hfeat
      | ok s' =>
        rw [hs] at hfeat
        simp only [bind, Except.bind] at hfeat
        repeat' split at hfeat
        all_goals first
          | cases hfeat; rfl
          | cases hfeat
    · split at h
      · simp at h
      · obtain rfl := (Prod.mk.inj h).2
        exact fun n hn => preWrite_other _ _ hn

/-- **C145** A configuration file that does not exist is not reported: the script works through the files of the
default configuration, as if that had been given. -/
theorem C145_default (query : List Region → Region → List ℕ) (finish : ℕ → List ℕ) (arg arg' : String)
    (disk : PreDisk) (st0 st : CfgState) (f : List Char) (harg : disk arg = none) (harg' : disk arg' = some (.text f))
    (hst : setConfigText (some f) st0 = .ok st) :
    preScript query finish arg st disk = preScript query finish arg' st0 disk := by
  have hr : st.readonce = true := by
    unfold setConfigText at hst
    cases hl : iniLines f with
    | error e => simp [hl, bind, Except.bind] at hst
    | ok l =>
      simp only [hl, bind, Except.bind, cfgSetFile, cfgReadFile, Bool.false_eq_true, if_false] at hst
      split at hst
      · simp at hst
      · cases hst; rfl
  have h0 : setConfigText none st = .ok st := by
    obtain ⟨v, b⟩ := st
    cases hr
    rfl
  have hs : preSettings disk arg st = preSettings disk arg' st0 := by
    unfold preSettings
    rw [harg, harg']
    simp only [h0, hst]
  unfold preScript
  rw [hs]

/-! ### The configuration in the repository -/

/-- **C145** The configuration file of the repository names its files in this sense: the grid is that of its DEM
(`input_topo = True`), blanks behind the name of the mask do not count, and `topo_crop` plays no part. -/
theorem C145_shipped : PreConf shippedConf
    "/workspaces/Wind_multipliers/testing/input/SettlementTypes_20210413.shp" "SETTLEMENT"
    "/workspaces/Wind_multipliers/testing/input/NEXIS_INPUT_MB2016_QLD.shp" "MB_CAT16"
    "/workspaces/Wind_multipliers/testing/input/box_sub.shp"
    "/workspaces/Wind_multipliers/testing/intermediate/meshblobcks.shp"
    "/workspaces/Wind_multipliers/testing/intermediate/meshblobcks.tiff"
    "/short/w85/nfm547/Wind_multipliers/input/Cairns/Cairns.tif" where
  ok := shippedConf_ok
  settlementData := by unfold IniFile.Sets; decide +kernel
  settlementCat := by unfold IniFile.Sets; decide +kernel
  landUseData := by unfold IniFile.Sets; decide +kernel
  landUseCat := by unfold IniFile.Sets; decide +kernel
  cropMask := by unfold IniFile.Sets; decide +kernel
  outShapes := by unfold IniFile.Sets; decide +kernel
  outRaster := by unfold IniFile.Sets; decide +kernel
  grid := .inr ⟨by unfold IniFile.Sets; decide +kernel, by unfold IniFile.Sets; decide +kernel⟩

/-- A city and a settlement that was never drawn; residential land in the city; a mask around both. -/
noncomputable def scriptTown : PreCfg where
  settlement := [(fun _ => some "City", Set.Icc 0 4 ×ˢ Set.Icc 0 1)]
  settlementCat := "SETTLEMENT"
  landUse := [(fun _ => some "Residential", Set.Icc 1 3 ×ˢ Set.Icc 0 1)]
  landUseCat := "MB_CAT16"
  mask := some [Set.Icc 0 9 ×ˢ Set.Icc 0 1]
  query := fun gs _ => List.range gs.length
  finish := List.range

theorem scriptTown_good : scriptTown.Good where
  names := by decide
  maskFile := by simp [scriptTown]
  finiteS := by
    simp only [scriptTown, List.mem_cons, List.not_mem_nil, or_false, forall_eq]
    exact volume_rect _ _ _ _
  finiteL := by
    simp only [scriptTown, List.mem_cons, List.not_mem_nil, or_false, forall_eq]
    exact volume_rect _ _ _ _
  positive := by simp [scriptTown]
  found := fun gs P i h _ => List.mem_range.mpr h
  valid := fun gs P i h => List.mem_range.mp h
  finishes := fun n => List.Perm.refl _

/-- The files of the configuration of the repository, under their names. -/
noncomputable def scriptDisk : PreDisk := fun n =>
  if n = "multiplier_conf.cfg" then some (.text shippedConf.text)
  else if n = "/workspaces/Wind_multipliers/testing/input/SettlementTypes_20210413.shp" then
    some (.shapes [(fun _ => some "Urban", none), (fun _ => some "City", some (Set.Icc 0 4 ×ˢ Set.Icc 0 1))])
  else if n = "/workspaces/Wind_multipliers/testing/input/NEXIS_INPUT_MB2016_QLD.shp" then
    some (.shapes [(fun _ => some "Residential", some (Set.Icc 1 3 ×ˢ Set.Icc 0 1))])
  else if n = "/workspaces/Wind_multipliers/testing/input/box_sub.shp" then
    some (.shapes [(fun _ => none, some (Set.Icc 0 9 ×ˢ Set.Icc 0 1))])
  else if n = "/short/w85/nfm547/Wind_multipliers/input/Cairns/Cairns.tif" then
    some (.raster ⟨9, 1, -1, 1, 1, -1⟩ ⟨1, 9, fun _ _ => 0⟩)
  else none

/-- The hypotheses of `C145_script` are met. -/
example (st : CfgState) : ∃ after cat,
    preScript scriptTown.query scriptTown.finish "multiplier_conf.cfg" st scriptDisk = (.ok (), after) ∧
      after "/workspaces/Wind_multipliers/testing/intermediate/meshblobcks.tiff" =
        some (.raster ⟨9, 1, -1, 1, 1, -1⟩ ⟨cat.rows, cat.cols, fun i j => (cat.val i j : ℝ)⟩) ∧
      scriptTown.IsCover ⟨9, 1, -1, 1, 1, -1⟩ cat := by
  obtain ⟨after, -, cat, h1, -, -, h2, h3, -⟩ := C145_script C145_shipped scriptTown scriptTown_good scriptDisk
    "multiplier_conf.cfg" rfl st _ _ rfl rfl rfl rfl rfl rfl
    (.inr ⟨by decide, _, [(fun _ => none, Set.Icc 0 9 ×ˢ Set.Icc 0 1)], rfl, rfl, rfl⟩) _ _ rfl (by decide) (by decide)
  exact ⟨after, cat, h1, h2, h3⟩

/-- The hypotheses of `C145_no_dem` are met when the DEM is taken away; those of `C145_on_error` then, too. -/
example (st : CfgState) : ∃ e after features, preScript scriptTown.query scriptTown.finish "multiplier_conf.cfg" st
      (fun n => if n = "/short/w85/nfm547/Wind_multipliers/input/Cairns/Cairns.tif" then none else scriptDisk n) =
        (.error e, after) ∧
      after "/workspaces/Wind_multipliers/testing/intermediate/meshblobcks.shp" = some (.coded features) := by
  obtain ⟨e, after, feats, h1, h2, -⟩ := C145_no_dem C145_shipped scriptTown scriptTown_good
    (fun n => if n = "/short/w85/nfm547/Wind_multipliers/input/Cairns/Cairns.tif" then none else scriptDisk n)
    "multiplier_conf.cfg" rfl st _ _ rfl rfl rfl rfl rfl rfl
    (.inr ⟨by decide, _, [(fun _ => none, Set.Icc 0 9 ×ˢ Set.Icc 0 1)], rfl, rfl, rfl⟩) rfl (by decide)
  exact ⟨e, after, feats, h1, h2⟩

/-- The hypotheses of `C145_default` are met: `conf.cfg` does not exist, the configuration of the repository is the
default. -/
example (st0 : CfgState) : ∃ st, setConfigText (some shippedConf.text) st0 = .ok st ∧
    preScript scriptTown.query scriptTown.finish "conf.cfg" st scriptDisk =
      preScript scriptTown.query scriptTown.finish "multiplier_conf.cfg" st0 scriptDisk := by
  obtain ⟨st, h, -⟩ := C123_read shippedConf shippedConf_ok st0
  exact ⟨st, h, C145_default _ _ _ _ _ _ _ _ rfl rfl h⟩

/-- A configuration that gives the raster the name of the DEM and the shape file that of the land use; no mask. -/
def carelessConf : IniFile where
  before := []
  sections := [⟨"Preprocessing".toList, [], [
    .option "settlement_data".toList [] false [] "towns".toList [],
    .option "settlement_cat".toList [] false [] "SOS".toList [],
    .option "land_use_data".toList [] false [] "use".toList [],
    .option "land_use_cat".toList [] false [] "USE".toList [],
    .option "crop_mask".toList [] false [] "None".toList [],
    .option "output_shapefile".toList [] false [] "use".toList [],
    .option "output_rasterized".toList [] false [] "dem".toList [],
    .option "input_topo".toList [] false [] "dem".toList []]⟩]

theorem carelessConf_names : PreConf carelessConf "towns" "SOS" "use" "USE" "None" "use" "dem" "dem" where
  ok := ok_of_simple rfl (by decide +kernel) (by decide +kernel) (by decide +kernel)
  settlementData := by unfold IniFile.Sets; decide +kernel
  settlementCat := by unfold IniFile.Sets; decide +kernel
  landUseData := by unfold IniFile.Sets; decide +kernel
  landUseCat := by unfold IniFile.Sets; decide +kernel
  cropMask := by unfold IniFile.Sets; decide +kernel
  outShapes := by unfold IniFile.Sets; decide +kernel
  outRaster := by unfold IniFile.Sets; decide +kernel
  grid := .inl ⟨by decide, by unfold IniFile.Sets; decide +kernel⟩

/-- The hypotheses of `C145_inputs_lost` are met; there are no settlements and no land use. -/
example (st : CfgState) : ∃ after, preScript (fun gs _ => List.range gs.length) List.range "c" st
      (fun n => if n = "c" then some (.text carelessConf.text)
        else if n = "dem" then some (.raster ⟨9, 1, -1, 1, 1, -1⟩ ⟨1, 9, fun _ _ => 100⟩)
        else some (.shapes [(fun _ => some "City", none)])) = (.ok (), after) ∧
      (∃ cat : Grid ℕ, after "dem" = some (.raster ⟨9, 1, -1, 1, 1, -1⟩ ⟨cat.rows, cat.cols, fun i j => cat.val i j⟩)) ∧
      ∃ features, after "use" = some (.coded features) := by
  have hg : PreCfg.Good ⟨[], "SOS", [], "USE", none, fun gs _ => List.range gs.length, List.range⟩ :=
    ⟨by decide, by simp, by simp, by simp, by simp, fun gs P i h _ => List.mem_range.mpr h,
      fun gs P i h => List.mem_range.mp h, fun n => List.Perm.refl _⟩
  obtain ⟨after, h1, h2, h3⟩ := C145_inputs_lost carelessConf_names _ hg
    (fun n => if n = "c" then some (.text carelessConf.text)
        else if n = "dem" then some (.raster ⟨9, 1, -1, 1, 1, -1⟩ ⟨1, 9, fun _ _ => 100⟩)
        else some (.shapes [(fun _ => some "City", none)])) "c" rfl st _ _ rfl rfl rfl rfl rfl rfl (.inl ⟨rfl, rfl⟩)
    _ _ rfl (by decide) (by decide)
  obtain ⟨cat, h4, -⟩ := h2 rfl
  exact ⟨after, h1, ⟨cat, h4⟩, h3 rfl⟩

end WindMult
