import Verif.Spec.BothPrograms
import Verif.Props.PreScript
import Verif.Props.FromShapes

/-!
# C146: one configuration file for the pre-processing script and the run
-/

set_option autoImplicit false

namespace WindMult
open Spec

section
variable {f : IniFile} {sData sCat lData lCat mask shp tif topo : String}

/-- **C146** One configuration file drives both programs, if its option for the land cover names the raster that the
script writes and the grid is that of the DEM: the script ends well, and a run started afterwards on the files then in
the folder never deadlocks or fails, and gives every pixel of the DEM the documented value for the land cover that the
two layers describe. -/
theorem C146_both (out table : List Char) (hf : PreConf f sData sCat lData lCat mask shp tif topo)
    (hrun : ConfFor f (1 / 100) tif.toList topo.toList out table) (p : PreCfg) (hg : p.Good)
    (disk : PreDisk) (arg : String) (hname : arg ≠ "") (harg : disk arg = some (.text f.text)) (st st' : CfgState)
    (S L : List (ShpAttr × Option Region)) (hS : disk sData = some (.shapes S)) (hL : disk lData = some (.shapes L))
    (dS : Drawn S p.settlement) (dL : Drawn L p.landUse) (cS : p.settlementCat = sCat) (cL : p.landUseCat = lCat)
    (hM : (mask = "None" ∧ p.mask = none) ∨ (mask ≠ "None" ∧ ∃ M l, disk mask = some (.shapes M) ∧ Drawn M l ∧
      p.mask = some (l.map Prod.snd)))
    (r : RasterInfo ℝ) (heights : Grid ℝ) (ht : disk topo = some (.raster r heights))
    (tab : FileText) (rough pct : List (ℤ × ℚ)) (htab : disk (String.ofList table) = some (.text tab.text))
    (hr : tab.Describes "ROUGHNESS_LENGTH_m".toList rough) (hp : tab.Describes "SHIELDING".toList pct)
    (hrough : ∀ x ∈ rough, 0 < x.2 ∧ 0 < 3.734 + 0.4554 * Real.log x.2)
    (n2 : shp ≠ tif) (n3 : ∀ n ∈ [arg, topo, String.ofList table], n ≠ shp ∧ n ≠ tif)
    (str : ℝ → List Char) (hstr : RendersDecimal str) (ho : ¬ ['/', '/'] <:+ out) (verbose : Bool) :
    ∃ after, preScript p.query p.finish arg st disk = (.ok (), after) ∧
      ∀ c : Inputs, after.Gives tif topo c → StandardDem c →
      (∀ cat : Grid ℕ, p.IsCover c.r cat → LandIn c cat.ints fun κ => 0 < classMz (terrainRows rough) κ) →
      c.r = r ∧ (∀ i j v, c.dem.val i j = some v → heights.val i j = v) ∧
      ∃ cat : Grid ℕ, p.IsCover c.r cat ∧ ∃ S tiles, startSettings after.texts (some arg) verbose st' = .ok S ∧
      RunCase (c.withTables S) S.upwind cat.ints str S.out.toList tiles ∧
      ∀ nW st0 j s, RunSteps ((c.withTables S).runCfg S.out.toList nW tiles) j
          (((c.withTables S).runCfg S.out.toList nW tiles).start st0) s →
        (¬ ((c.withTables S).runCfg S.out.toList nW tiles).Done s →
          ∃ s', RunStep ((c.withTables S).runCfg S.out.toList nW tiles) s s') ∧
        (((c.withTables S).runCfg S.out.toList nW tiles).Done s → ∀ px py : ℕ, px < c.r.xDim → py < c.r.yDim →
          ∃ k L n, (TileGrid.init 0.01 c.r).getGridlimit k = .ok L ∧ L.Has px py ∧
            (∀ k' L', (TileGrid.init 0.01 c.r).getGridlimit k' = .ok L' → L'.Has px py → k' = k) ∧
            (TileGrid.init 0.01 c.r).getTilename str k = .ok n ∧
            ((∃ EB, (TileGrid.init 0.01 c.r).getTileExtentBuffer k = .ok EB ∧
                c.checksum (cutDem c.r c.dem EB 0) = 0 ∧ s.store (pjoin out (m3File n)) = none ∧
                s.store (pjoin out (m3MaxFile n)) = none) ∨
              ∃ B xm ym gw tif mx, s.store (pjoin out (m3File n)) = some (.tif tif) ∧
                IsM3 { c with terrainTable := terrainRows rough, shieldTable := shieldRows pct } L B xm ym gw cat.ints
                  tif ∧
                s.store (pjoin out (m3MaxFile n)) = some (.maxTif mx) ∧ IsM3Max L tif mx)) := by
  obtain ⟨feats, h1, -⟩ := C100_features p hg
  obtain ⟨after, feats', cat', k1, k2, -, k3, -, k5⟩ := C145_script hf p hg disk arg harg st S L hS hL dS dL cS cL hM r
    heights ht (n3 topo (by simp)).1 n2
  refine ⟨after, k1, fun c hc hdem hland => ?_⟩
  obtain ⟨⟨hd, e1, e2⟩, ld, e3, e4⟩ := hc
  rw [k5 topo (n3 topo (by simp)).1 (n3 topo (by simp)).2, ht] at e1
  simp only [Option.some.injEq, PreFile.raster.injEq] at e1
  obtain ⟨rfl, rfl⟩ := e1
  have key := preScript_features hf p disk arg harg st S L hS hL dS dL cS cL hM feats h1
  rw [preWrite_other _ _ (n3 topo (by simp)).1, ht, k1] at key
  have hafter := (Prod.mk.inj key).2
  rw [hafter, preWrite_same] at e3
  simp only [Option.some.injEq, PreFile.raster.injEq] at e3
  obtain ⟨hlr, rfl⟩ := e3
  have hshape : FromShapes p c := by
    refine ⟨hlr.symm, feats, h1, fun i j => ?_⟩
    rw [e4 i j]
    simp only [Nat.cast_eq_zero, Int.floor_natCast]
  have htexts : ∀ n t, disk n = some (.text t) → n ≠ shp → n ≠ tif → after.texts n = some t := by
    intro n t hn a b
    unfold PreDisk.texts
    rw [k5 n a b, hn]
  obtain ⟨cat, q1, q2⟩ := C132_run p hg after.texts arg hname verbose st' f tif.toList topo.toList out table hrun
    (htexts _ _ harg (n3 arg (by simp)).1 (n3 arg (by simp)).2) tab rough pct
    (htexts _ _ htab (n3 _ (by simp)).1 (n3 _ (by simp)).2) hr hp hrough c hdem hshape hland str hstr ho
  exact ⟨rfl, e2, cat, q1, q2⟩

end

/-- **C146** The configuration of the repository does not connect the two programs: whatever the script does with it,
well or not, the land cover that a run would read is left as it was. -/
theorem C146_shipped_apart (query : List Region → Region → List ℕ) (finish : ℕ → List ℕ) (arg : String)
    (st : CfgState) (disk : PreDisk) (harg : disk arg = some (.text shippedConf.text)) :
    shippedConf.Sets "inputValues".toList "terrain_data".toList
      "/short/w85/nfm547/Wind_multipliers/input/Cairns/cairns_tr_int.tif".toList ∧
    (preScript query finish arg st disk).2 "/short/w85/nfm547/Wind_multipliers/input/Cairns/cairns_tr_int.tif" =
      disk "/short/w85/nfm547/Wind_multipliers/input/Cairns/cairns_tr_int.tif" := by
  refine ⟨by unfold IniFile.Sets; decide +kernel, ?_⟩
  unfold preScript
  simp only [preSettings_conf C145_shipped disk arg harg st, bind, Except.bind]
  split
  · rfl
  · rename_i s out h
    have hs : s = ⟨"/workspaces/Wind_multipliers/testing/input/SettlementTypes_20210413.shp", "SETTLEMENT",
        "/workspaces/Wind_multipliers/testing/input/NEXIS_INPUT_MB2016_QLD.shp", "MB_CAT16",
        "/workspaces/Wind_multipliers/testing/input/box_sub.shp",
        "/workspaces/Wind_multipliers/testing/intermediate/meshblobcks.shp",
        "/workspaces/Wind_multipliers/testing/intermediate/meshblobcks.tiff",
        "/short/w85/nfm547/Wind_multipliers/input/Cairns/Cairns.tif"⟩ := by
      repeat' split at h
      all_goals first
        | cases h; rfl
        | cases h
    subst hs
    split
    · simp only
      rw [preWrite_other _ _ (by decide), preWrite_other _ _ (by decide)]
    · simp only
      rw [preWrite_other _ _ (by decide)]

/-- The hypothesis of `C146_shipped_apart` is met. -/
example (st : CfgState) : (preScript scriptTown.query scriptTown.finish "multiplier_conf.cfg" st scriptDisk).2
    "/short/w85/nfm547/Wind_multipliers/input/Cairns/cairns_tr_int.tif" = none :=
  (C146_shipped_apart _ _ "multiplier_conf.cfg" st scriptDisk rfl).2

/-- A configuration for both programs. -/
def jointConf : IniFile where
  before := []
  sections := [⟨"Preprocessing".toList, [], [
      .option "settlement_data".toList [] false [] "towns".toList [],
      .option "settlement_cat".toList [] false [] "SOS".toList [],
      .option "land_use_data".toList [] false [] "use".toList [],
      .option "land_use_cat".toList [] false [] "USE".toList [],
      .option "crop_mask".toList [] false [] "None".toList [],
      .option "output_shapefile".toList [] false [] "coded".toList [],
      .option "output_rasterized".toList [] false [] "cover".toList [],
      .option "input_topo".toList [] false [] "True".toList []]⟩,
    ⟨"inputValues".toList, [], [
      .option "root".toList [] false [] "/".toList [],
      .option "upwind_length".toList [] false [] "0.01".toList [],
      .option "terrain_data".toList [] false [] "cover".toList [],
      .option "terrain_table".toList [] false [] "table".toList [],
      .option "dem_data".toList [] false [] "dem".toList []]⟩,
    ⟨"Output".toList, [], [.option "output_dir".toList [] false [] "out".toList []]⟩,
    ⟨"Logging".toList, [], [
      .option "LogFile".toList [] false [] "log".toList [],
      .option "LogLevel".toList [] false [] "INFO".toList [],
      .option "Verbose".toList [] false [] "False".toList []]⟩]

theorem jointConf_ok : jointConf.Ok := ok_of_simple rfl (by decide +kernel) (by decide +kernel) (by decide +kernel)

theorem jointConf_pre : PreConf jointConf "towns" "SOS" "use" "USE" "None" "coded" "cover" "dem" where
  ok := jointConf_ok
  settlementData := by unfold IniFile.Sets; decide +kernel
  settlementCat := by unfold IniFile.Sets; decide +kernel
  landUseData := by unfold IniFile.Sets; decide +kernel
  landUseCat := by unfold IniFile.Sets; decide +kernel
  cropMask := by unfold IniFile.Sets; decide +kernel
  outShapes := by unfold IniFile.Sets; decide +kernel
  outRaster := by unfold IniFile.Sets; decide +kernel
  grid := .inr ⟨by unfold IniFile.Sets; decide +kernel, by unfold IniFile.Sets; decide +kernel⟩

theorem jointConf_run : ConfFor jointConf (1 / 100) "cover".toList "dem".toList "out".toList "table".toList where
  ok := jointConf_ok
  root := ⟨"/".toList, by unfold IniFile.Sets; decide +kernel⟩
  upwind := ⟨"0.01".toList, by unfold IniFile.Sets; decide +kernel,
    ⟨⟨false, [0], some [0, 1], none⟩, .plain, 0, 0, by simp [Numeral.Ok], by decide +kernel, by decide⟩⟩
  logFile := ⟨"log".toList, by unfold IniFile.Sets; decide +kernel⟩
  logLevel := ⟨"INFO".toList, by unfold IniFile.Sets; decide +kernel, by decide⟩
  verbose := ⟨"False".toList, by unfold IniFile.Sets; decide +kernel, by decide⟩
  land := by unfold IniFile.Sets; decide +kernel
  dem := by unfold IniFile.Sets; decide +kernel
  out := by unfold IniFile.Sets; decide +kernel
  table := by unfold IniFile.Sets; decide +kernel

/-- The files before the two programs: the city of C132, its table, a DEM at 120 m. -/
noncomputable def jointDisk : PreDisk := fun n =>
  if n = "both.cfg" then some (.text jointConf.text)
  else if n = "towns" then some (.shapes [(fun _ => some "City", some (Set.Icc 147 152 ×ˢ Set.Icc (-37) (-33)))])
  else if n = "use" then some (.shapes [(fun _ => some "Residential", some (Set.Icc 148 151 ×ˢ Set.Icc (-36) (-34)))])
  else if n = "table" then some (.text townFile.text)
  else if n = "dem" then some (.raster standardInputs.r ⟨100, 1300, fun _ _ => 120⟩)
  else none

/-- The hypotheses of `C146_both` are met; the run on what the script left is completed, and the land cover has
residential land of a city (205). -/
example (st st' : CfgState) (str : ℝ → List Char) (hstr : RendersDecimal str) :
    ∃ (after : PreDisk) (c : Inputs) (cat : Grid ℕ) (S : _) (tiles : _) (j : _) (s : _),
    preScript townShapes.query townShapes.finish "both.cfg" st jointDisk = (.ok (), after) ∧
    after.Gives "cover" "dem" c ∧ cat.val 5 1240 = 205 ∧
    startSettings after.texts (some "both.cfg") false st' = .ok S ∧
    RunSteps ((c.withTables S).runCfg S.out.toList 2 tiles) j
      (((c.withTables S).runCfg S.out.toList 2 tiles).start fun _ => none) s ∧
    ((c.withTables S).runCfg S.out.toList 2 tiles).Done s := by
  obtain ⟨after0, -, cat0, k1, -, -, k2, -, k3⟩ := C145_script jointConf_pre townShapes townShapes_good jointDisk
    "both.cfg" rfl st _ _ rfl rfl rfl rfl rfl rfl (.inl ⟨rfl, rfl⟩) standardInputs.r _ rfl (by decide) (by decide)
  obtain ⟨after, h1, h2⟩ := C146_both _ _ jointConf_pre jointConf_run townShapes townShapes_good jointDisk
    "both.cfg" (by decide) rfl st st' _ _ rfl rfl rfl rfl rfl rfl (.inl ⟨rfl, rfl⟩) standardInputs.r _ rfl
    townFile _ _ rfl townFile_describes.1 townFile_describes.2 townRough_ok (by decide) (by decide) str hstr
    (by decide) false
  obtain rfl := (Prod.mk.inj (h1.symm.trans k1)).2
  let c : Inputs := { townInputs with lcv := ⟨100, 1300, fun i j => if (cat0.val i j : ℝ) = 0 then none
    else some ⌊(cat0.val i j : ℝ)⌋⟩ }
  have hg : after.Gives "cover" "dem" c := ⟨⟨⟨100, 1300, fun _ _ => 120⟩,
    by rw [k3 "dem" (by decide) (by decide)]; rfl, fun i j v h => by cases h; rfl⟩, _, k2, fun i j => rfl⟩
  obtain ⟨-, -, cat, q1, S, tiles, q2, q3, -⟩ := h2 c hg
    ⟨townDem.sizes, townDem.fine, townDem.square, townDem.extent, townDem.east, townDem.south, townDem.disjoint⟩
    (fun cat h => townLand cat h)
  obtain ⟨j, s, h4, -, h5⟩ := C94_completes _ (q3.good 2) (q3.shapes 2) (fun _ => none) 0 _ (.refl _)
  exact ⟨after, c, cat, S, tiles, j, s, h1, hg, townCover cat q1, q2, h4, h5⟩

end WindMult
