import Verif.Model.RunTexts
import Verif.Props.ConfigText
import Verif.Props.ClassTable
import Verif.Props.Range

/-!
# C124: from the text files to the GeoTIFFs
-/

set_option autoImplicit false

namespace WindMult
open Spec

/-- The configuration sets all options that a run needs, with these values. -/
structure ConfFor (f : IniFile) (up : ℚ) (land dem out table : List Char) : Prop where
  ok : f.Ok
  root : ∃ v, f.Sets "inputValues".toList "root".toList v
  upwind : ∃ v, f.Sets "inputValues".toList "upwind_length".toList v ∧ IsNumber v up
  logFile : ∃ v, f.Sets "Logging".toList "logfile".toList v
  logLevel : ∃ v, f.Sets "Logging".toList "loglevel".toList v ∧
    v ∈ ["DEBUG".toList, "INFO".toList, "WARNING".toList, "ERROR".toList, "CRITICAL".toList]
  verbose : ∃ v, f.Sets "Logging".toList "verbose".toList v ∧ v ∈ ["True".toList, "False".toList]
  land : f.Sets "inputValues".toList "terrain_data".toList land
  dem : f.Sets "inputValues".toList "dem_data".toList dem
  out : f.Sets "Output".toList "output_dir".toList out
  table : f.Sets "inputValues".toList "terrain_table".toList table

/-- **C124** (settings) What a run takes from its configuration and its table is what is written there. -/
theorem C124_settings (files : String → Option (List Char)) (name : String) (hname : name ≠ "") (verbose : Bool)
    (st : CfgState) (f : IniFile) (up : ℚ) (land dem out table : List Char) (hf : ConfFor f up land dem out table)
    (hfile : files name = some f.text) (tab : FileText) (rough pct : List (ℤ × ℚ))
    (htab : files (String.ofList table) = some tab.text)
    (hr : tab.Describes "ROUGHNESS_LENGTH_m".toList rough) (hp : tab.Describes "SHIELDING".toList pct) :
    startSettings files (some name) verbose st = .ok ⟨up, String.ofList land, String.ofList dem, String.ofList out,
      rough.map fun x => (x.1, some x.2), pct.map fun x => (x.1, some x.2)⟩ := by
  obtain ⟨st', h1, -⟩ := C123_read f hf.ok st
  have get : ∀ (sect opt : String) (v : List Char), f.Sets sect.toList (opt.toList.map Char.toLower) v →
      configGet st' sect opt = .ok (String.ofList v) := by
    intro sect opt v h
    obtain ⟨st'', h3, h4⟩ := C123_get f hf.ok st sect opt v h
    cases h1.symm.trans h3
    exact h4
  obtain ⟨v0, r0⟩ := hf.root
  obtain ⟨v1, r1, n1⟩ := hf.upwind
  obtain ⟨v2, r2⟩ := hf.logFile
  obtain ⟨v3, r3, n3⟩ := hf.logLevel
  obtain ⟨v4, r4, n4⟩ := hf.verbose
  have g0 := get "inputValues" "root" v0 r0
  have g1 : configUpwind st' = .ok up := by
    obtain ⟨st'', h3, h4⟩ := C123_upwind f hf.ok st v1 up r1 n1
    cases h1.symm.trans h3
    exact h4
  have g2 := get "Logging" "LogFile" v2 r2
  have g3 := get "Logging" "LogLevel" v3 r3
  have g4 := get "Logging" "Verbose" v4 r4
  have g5 := get "inputValues" "terrain_data" land hf.land
  have g6 := get "inputValues" "dem_data" dem hf.dem
  have g7 := get "Output" "output_dir" out hf.out
  have g8 := get "inputValues" "terrain_table" table hf.table
  have g9 := C122_terrain tab rough hr
  have g10 := C122_shielding tab pct hp
  have hlevel : String.ofList v3 ∈ logLevels := by
    simp only [List.mem_cons, List.not_mem_nil, or_false] at n3
    rcases n3 with rfl | rfl | rfl | rfl | rfl <;> decide
  have hbool : ∃ b, configBool st' "Logging" "Verbose" = .ok b := by
    simp only [configBool, g4, bind, Except.bind]
    simp only [List.mem_cons, List.not_mem_nil, or_false] at n4
    rcases n4 with rfl | rfl
    · exact ⟨true, by decide⟩
    · exact ⟨false, by decide⟩
  obtain ⟨b, hb⟩ := hbool
  cases verbose <;>
    simp only [startSettings, hname, if_false, hfile, h1, g0, g1, g2, g3, hb, hlevel, if_true, g5, g6, g7, g8, htab, g9,
      g10, bind, Except.bind, Bool.false_eq_true]

/-- Rows as the terrain step uses them. -/
noncomputable def terrainRows (l : List (ℤ × ℚ)) : List (TerrainRow ℤ ℝ) := l.map fun x => ⟨x.1, (x.2 : ℝ)⟩

/-- Rows as the shielding step uses them. -/
noncomputable def shieldRows (l : List (ℤ × ℚ)) : List (ℤ × ℝ) := l.map fun x => (x.1, (x.2 : ℝ))

theorem withTables_eq (c : Inputs) (up : ℚ) (a b d : String) (rough pct : List (ℤ × ℚ)) :
    c.withTables ⟨up, a, b, d, rough.map fun x => (x.1, some x.2), pct.map fun x => (x.1, some x.2)⟩ =
      { c with terrainTable := terrainRows rough, shieldTable := shieldRows pct } := by
  have h1 : ∀ l : List (ℤ × ℚ), (l.map fun x => (x.1, some x.2)).filterMap
      (fun p : ℤ × Option ℚ => p.2.map fun q => (⟨p.1, (q : ℝ)⟩ : TerrainRow ℤ ℝ)) = terrainRows l := by
    intro l
    induction l with
    | nil => rfl
    | cons x l ih => simp [terrainRows]
  have h2 : ∀ l : List (ℤ × ℚ), (l.map fun x => (x.1, some x.2)).filterMap
      (fun p : ℤ × Option ℚ => p.2.map fun q => (p.1, (q : ℝ))) = shieldRows l := by
    intro l
    induction l with
    | nil => rfl
    | cons x l ih => simp [shieldRows]
  simp only [Inputs.withTables, h1, h2]

/-- The table of the repository, read from its text, is the one of C98. -/
theorem C122_shipped_rows : terrainRows shippedRoughness = shippedTerrain ∧ shieldRows shippedPercent = shippedShield := by
  constructor
  · simp only [terrainRows, shippedRoughness, shippedTerrain, List.map_cons, List.map_nil]
    norm_num
  · simp only [shieldRows, shippedPercent, shippedShield, List.map_cons, List.map_nil]
    norm_num

/-- The rasters of C97: a DEM in the south-east quadrant down to 43.9° S with square pixels of at most 0.00085° that
extends over at least 0.01° each way and whose tiles do not overlap, land cover on a north-up grid, pixel sizes as the
code computes them. -/
structure StandardRasters (c : Inputs) (cat : Grid ℤ) : Prop where
  sizes : ∃ fuel, 8 ≤ fuel ∧ c.pixelSizes = pixelSizes fuel
  fine : 1 / 1000000 ≤ c.r.gt1 ∧ c.r.gt1 ≤ 0.00085
  square : c.r.gt5 = -c.r.gt1
  extent : 0.01 ≤ c.r.xDim * c.r.gt1 ∧ 0.01 ≤ c.r.yDim * c.r.gt1
  east : 0.0001 ≤ c.r.gt0 ∧ c.r.gt0 + c.r.xDim * c.r.gt1 ≤ 180
  south : c.r.gt3 ≤ -0.0001 ∧ -43.9 ≤ c.r.gt3 + c.r.yDim * c.r.gt5
  land : 0 < c.lr.gt1 ∧ c.lr.gt5 < 0
  disjoint : TilesDisjoint (TileGrid.init 0.01 c.r)
  landcover : IsLandcover c cat

/-- A tile whose DEM is not empty has a pixel of a category with `P`. -/
def LandIn (c : Inputs) (cat : Grid ℤ) (P : ℤ → Prop) : Prop :=
  ∀ k B EB, (TileGrid.init 0.01 c.r).getGridlimitBuffer k = .ok B →
    (TileGrid.init 0.01 c.r).getTileExtentBuffer k = .ok EB → c.checksum (cutDem c.r c.dem EB 0) ≠ 0 →
    ∃ px py : ℕ, B.Has px py ∧ P (cat.val py px)

/-- **C124** From the text files to the GeoTIFFs: a run that is started with any configuration file that sets the needed
options, the buffer width to 0.01, and the table to any file that is a table of classes with meaningful roughness
lengths, on rasters as in C97, lists its tiles, never deadlocks or fails, and in the end every pixel of the DEM is in
exactly one tile and has the documented value *for the roughness lengths and percentages that are written in the table*,
in the output folder that is written in the configuration. -/
theorem C124_run (files : String → Option (List Char)) (name : String) (hname : name ≠ "") (verbose : Bool)
    (st : CfgState) (f : IniFile) (land dem out table : List Char) (hf : ConfFor f (1 / 100) land dem out table)
    (hfile : files name = some f.text) (tab : FileText) (rough pct : List (ℤ × ℚ))
    (htab : files (String.ofList table) = some tab.text)
    (hr : tab.Describes "ROUGHNESS_LENGTH_m".toList rough) (hp : tab.Describes "SHIELDING".toList pct)
    (hrough : ∀ x ∈ rough, 0 < x.2 ∧ 0 < 3.734 + 0.4554 * Real.log x.2)
    (c : Inputs) (cat : Grid ℤ) (hc : StandardRasters c cat)
    (hland : LandIn c cat fun κ => 0 < classMz (terrainRows rough) κ)
    (str : ℝ → List Char) (hstr : RendersDecimal str) (ho : ¬ ['/', '/'] <:+ out) :
    ∃ S tiles, startSettings files (some name) verbose st = .ok S ∧
      RunCase (c.withTables S) S.upwind cat str S.out.toList tiles ∧
      ∀ nW st0 j s, RunSteps ((c.withTables S).runCfg S.out.toList nW tiles) j
          (((c.withTables S).runCfg S.out.toList nW tiles).start st0) s →
        (¬ ((c.withTables S).runCfg S.out.toList nW tiles).Done s →
          ∃ s', RunStep ((c.withTables S).runCfg S.out.toList nW tiles) s s') ∧
        (((c.withTables S).runCfg S.out.toList nW tiles).Done s → ∀ px py : ℕ, px < c.r.xDim → py < c.r.yDim →
          ∃ k L n, (TileGrid.init 0.01 c.r).getGridlimit k = .ok L ∧ L.Has px py ∧
            (∀ k' L', (TileGrid.init 0.01 c.r).getGridlimit k' = .ok L' → L'.Has px py → k' = k) ∧
            (TileGrid.init 0.01 c.r).getTilename str k = .ok n ∧
            ((∃ EB, (TileGrid.init 0.01 c.r).getTileExtentBuffer k = .ok EB ∧
                c.checksum (cutDem c.r c.dem EB 0) = 0 ∧ s.store (pjoin out (m3File n)) = none ∧
                s.store (pjoin out (m3MaxFile n)) = none) ∨
              ∃ B xm ym gw tif mx, s.store (pjoin out (m3File n)) = some (.tif tif) ∧
                IsM3 { c with terrainTable := terrainRows rough, shieldTable := shieldRows pct } L B xm ym gw cat tif ∧
                s.store (pjoin out (m3MaxFile n)) = some (.maxTif mx) ∧ IsM3Max L tif mx)) := by
  have hS := C124_settings files name hname verbose st f (1 / 100) land dem out table hf hfile tab rough pct htab hr hp
  obtain ⟨fuel, hfuel, hsizes⟩ := hc.sizes
  have hup : (((1 / 100 : ℚ)) : ℝ) = 0.01 := by norm_num
  obtain ⟨tiles, -, hcase⟩ := C97_standard_run fuel hfuel
    { c with terrainTable := terrainRows rough, shieldTable := shieldRows pct } cat str hstr out ho hsizes hc.fine.1
    hc.fine.2 hc.square hc.extent.1 hc.extent.2 hc.east.1 hc.east.2 hc.south.1 hc.south.2 hc.land.1 hc.land.2 hc.disjoint
    hc.landcover hland (by
      intro row hrow
      obtain ⟨x, hx, rfl⟩ := List.mem_map.1 hrow
      obtain ⟨h1, h2⟩ := hrough x hx
      exact ⟨(Rat.cast_pos (K := ℝ)).2 h1, h2⟩)
  refine ⟨_, tiles, hS, ?_⟩
  rw [withTables_eq]
  simp only [String.toList_ofList, hup]
  refine ⟨hcase, fun nW st0 j s hrun => ⟨(C96_run hcase nW st0 j s hrun).2.1, fun hdone px py hx hy => ?_⟩⟩
  obtain ⟨k, L, n, h1, h2, h3, h4, h5⟩ := C96_every_pixel hcase nW st0 j s hrun hdone px py hx hy
  refine ⟨k, L, n, h1, h2, h3, h4, ?_⟩
  rcases h5 with h5 | ⟨B, E, EB, xm, ym, gw, tif, mx, -, h6⟩
  · exact .inl h5
  · exact .inr ⟨B, xm, ym, gw, tif, mx, h6⟩

theorem shippedRough_ok : ∀ x ∈ shippedRoughness, 0 < x.2 ∧ 0 < 3.734 + 0.4554 * Real.log x.2 := by
  intro x hx
  have key : (0.002 : ℚ) ≤ x.2 := by
    revert x
    decide +kernel
  have h0 : (0.002 : ℝ) ≤ (x.2 : ℝ) := by
    have := (Rat.cast_le (K := ℝ)).2 key
    norm_num at this ⊢
    exact this
  have := mz_defined (a := (x.2 : ℝ)) (by norm_num at h0 ⊢; linarith)
  refine ⟨lt_of_lt_of_le (by norm_num) key, ?_⟩
  norm_num at this ⊢
  linarith

theorem shippedTerrain_pos {κ : ℤ} (h : 1 ≤ κ ∧ κ ≤ 13) : 0 < classMz shippedTerrain κ := by
  have key : ∃ row ∈ shippedTerrain, classMz shippedTerrain κ = roughnessMz row.roughness := by
    obtain ⟨h1, h2⟩ := h
    interval_cases κ <;> simp [shippedTerrain, classMz]
  obtain ⟨row, hrow, e⟩ := key
  have := (shippedTerrain_range row hrow).1
  norm_num at this
  rw [e]
  linarith

/-- **C124** (the table of the repository) If the table is the text of `/repo/tests/test_data/terrain_classification.csv`, and
the DEM is outside Tasmania and wherever it is not empty there is a pixel of a category from 1 to 13, then all values
of a completed run that are not NaN are between 0.52 and 1.701, on the edge of the raster between 0.23 and 1.701. -/
theorem C124_shipped (files : String → Option (List Char)) (name : String) (hname : name ≠ "") (verbose : Bool)
    (st : CfgState) (f : IniFile) (land dem out table : List Char) (hf : ConfFor f (1 / 100) land dem out table)
    (hfile : files name = some f.text) (htab : files (String.ofList table) = some shippedText.toList)
    (c : Inputs) (cat : Grid ℤ) (hc : StandardRasters c cat) (hland : LandIn c cat fun κ => 1 ≤ κ ∧ κ ≤ 13)
    (hmain : c.r.gt0 + c.r.xDim * c.r.gt1 ≤ 143 ∨ -40 ≤ c.r.gt3 + c.r.yDim * c.r.gt5)
    (str : ℝ → List Char) (hstr : RendersDecimal str) (ho : ¬ ['/', '/'] <:+ out) :
    ∃ S tiles, startSettings files (some name) verbose st = .ok S ∧
      ∀ nW st0 j s, RunSteps ((c.withTables S).runCfg S.out.toList nW tiles) j
          (((c.withTables S).runCfg S.out.toList nW tiles).start st0) s →
        (¬ ((c.withTables S).runCfg S.out.toList nW tiles).Done s →
          ∃ s', RunStep ((c.withTables S).runCfg S.out.toList nW tiles) s s') ∧
        (((c.withTables S).runCfg S.out.toList nW tiles).Done s → ∀ px py : ℕ, px < c.r.xDim → py < c.r.yDim →
          ∃ k L n, (TileGrid.init 0.01 c.r).getGridlimit k = .ok L ∧ L.Has px py ∧
            (TileGrid.init 0.01 c.r).getTilename str k = .ok n ∧
            ((∃ EB, (TileGrid.init 0.01 c.r).getTileExtentBuffer k = .ok EB ∧
                c.checksum (cutDem c.r c.dem EB 0) = 0 ∧ s.store (pjoin out (m3File n)) = none ∧
                s.store (pjoin out (m3MaxFile n)) = none) ∨
              ∃ tif mx, s.store (pjoin out (m3File n)) = some (.tif tif) ∧
                s.store (pjoin out (m3MaxFile n)) = some (.maxTif mx) ∧
                ∀ v, v = mx.band.val (py - L.y1.toNat) (px - L.x1.toNat) ∨
                  (∃ d g, (d, g) ∈ tif.bands ∧ v = g.val (py - L.y1.toNat) (px - L.x1.toNat)) →
                  v = .nan ∨ ∃ x, v = .num x ∧ 0.23 ≤ x ∧ x ≤ 1.701 ∧
                    (0 < px → px + 1 < c.r.xDim → 0 < py → py + 1 < c.r.yDim → 0.52 ≤ x))) := by
  rw [← shippedFile_text] at htab
  have hland' : LandIn c cat fun κ => 0 < classMz (terrainRows shippedRoughness) κ := by
    intro k B EB h1 h2 h3
    obtain ⟨px, py, h4, h5⟩ := hland k B EB h1 h2 h3
    refine ⟨px, py, h4, ?_⟩
    rw [C122_shipped_rows.1]
    exact shippedTerrain_pos h5
  have hS := C124_settings files name hname verbose st f (1 / 100) land dem out table hf hfile shippedFile
    shippedRoughness shippedPercent htab shippedFile_describes.1 shippedFile_describes.2
  obtain ⟨S, tiles, h1, h2, h3⟩ := C124_run files name hname verbose st f land dem out table hf hfile shippedFile
    shippedRoughness shippedPercent htab shippedFile_describes.1 shippedFile_describes.2 shippedRough_ok c cat hc hland'
    str hstr ho
  have hup : (((1 / 100 : ℚ)) : ℝ) = 0.01 := by norm_num
  cases h1.symm.trans hS
  refine ⟨_, tiles, hS, fun nW st0 j s hrun => ⟨(h3 nW st0 j s hrun).1, fun hdone px py hx hy => ?_⟩⟩
  rw [withTables_eq] at h2 hrun hdone
  simp only [String.toList_ofList, hup] at h2 hrun hdone
  have hx2 : 2 ≤ c.r.xDim := by
    have a := hc.extent.1
    have b := hc.fine.2
    have d : (0 : ℝ) ≤ c.r.xDim := by positivity
    have : (1 : ℝ) < c.r.xDim := by
      norm_num at a b
      nlinarith
    exact_mod_cast this
  exact C98_shipped_table h2 hx2 nW st0 j s hrun hdone C122_shipped_rows.1 C122_shipped_rows.2 hmain px py hx hy

/-! ### The hypotheses can be met -/

theorem shippedConf_for : ConfFor shippedConf (1 / 100)
    "/short/w85/nfm547/Wind_multipliers/input/Cairns/cairns_tr_int.tif".toList
    "/short/w85/nfm547/Wind_multipliers/input/Cairns/Cairns.tif".toList
    "/short/w85/nfm547/Wind_multipliers/output/CairnsWM".toList
    "/short/w85/nfm547/Wind_multipliers/input/Cairns/terrain_classification_cairns.csv".toList where
  ok := shippedConf_ok
  root := ⟨"/short/w85/nfm547/Wind_multipliers".toList, by unfold IniFile.Sets; decide +kernel⟩
  upwind := ⟨"0.01".toList, by unfold IniFile.Sets; decide +kernel,
    ⟨false, [0], some [0, 1], none⟩, .plain, 0, 0, by simp [Numeral.Ok], by decide +kernel, by decide⟩
  logFile := ⟨"/short/w85/nfm547/Wind_multipliers/Cairns/log/multipliers.log".toList,
    by unfold IniFile.Sets; decide +kernel⟩
  logLevel := ⟨"DEBUG".toList, by unfold IniFile.Sets; decide +kernel, by decide⟩
  verbose := ⟨"False".toList, by unfold IniFile.Sets; decide +kernel, by decide⟩
  land := by unfold IniFile.Sets; decide +kernel
  dem := by unfold IniFile.Sets; decide +kernel
  out := by unfold IniFile.Sets; decide +kernel
  table := by unfold IniFile.Sets; decide +kernel

theorem levelRasters : StandardRasters levelInputs ⟨100, 1300, fun _ _ => 5⟩ where
  sizes := ⟨20, by norm_num, rfl⟩
  fine := by norm_num [levelInputs, standardInputs]
  square := rfl
  extent := by norm_num [levelInputs, standardInputs]
  east := by norm_num [levelInputs, standardInputs]
  south := by norm_num [levelInputs, standardInputs]
  land := by norm_num [levelInputs, standardInputs]
  disjoint := standardDisjoint
  landcover := isLandcover_same levelInputs rfl (by norm_num [levelInputs, standardInputs])
    (by norm_num [levelInputs, standardInputs])

theorem levelLand : LandIn levelInputs ⟨100, 1300, fun _ _ => 5⟩ fun κ => 1 ≤ κ ∧ κ ≤ 13 := by
  intro k B EB hB _ _
  rw [show TileGrid.init 0.01 levelInputs.r = TileGrid.init 0.01 standardInputs.r from rfl, standardGrid] at hB
  have hk : k < 2 := by
    by_contra hk
    have : (tileGridLoop 2 1 1250 1250 12 12 1300 100)[k]? = none :=
      List.getElem?_eq_none (by
        have : (tileGridLoop 2 1 1250 1250 12 12 1300 100).length = 2 := rfl
        omega)
    simp only [TileGrid.getGridlimitBuffer, TileGrid.idx, this] at hB
    cases hB
  refine ⟨1240, 5, ?_, by norm_num⟩
  interval_cases k
  · cases hB
    decide
  · cases hB
    decide

/-- The files of the repository under the names in its configuration. -/
def shippedFiles (name : String) : Option (List Char) :=
  if name = "my.cfg" then some shippedConf.text
  else if name = "/short/w85/nfm547/Wind_multipliers/input/Cairns/terrain_classification_cairns.csv" then
    some shippedText.toList
  else none

/-- A completed run with the configuration and the table of the repository. -/
example (st : CfgState) (str : ℝ → List Char) (hstr : RendersDecimal str) : ∃ S tiles j s,
    startSettings shippedFiles (some "my.cfg") false st = .ok S ∧
    RunSteps ((levelInputs.withTables S).runCfg S.out.toList 2 tiles) j
      (((levelInputs.withTables S).runCfg S.out.toList 2 tiles).start fun _ => none) s ∧
    ((levelInputs.withTables S).runCfg S.out.toList 2 tiles).Done s ∧
    ∃ (L : Limits) (n : List Char) (tif : TileTif (NanNum ℝ) (List ℝ × List ℝ))
      (mx : Raster (NanNum ℝ) (List ℝ × List ℝ)), L.Has 700 40 ∧ s.store (pjoin S.out.toList (m3File n)) = some (.tif tif) ∧
      s.store (pjoin S.out.toList (m3MaxFile n)) = some (.maxTif mx) ∧
      (mx.band.val (40 - L.y1.toNat) (700 - L.x1.toNat) = .nan ∨
        ∃ x, mx.band.val (40 - L.y1.toNat) (700 - L.x1.toNat) = .num x ∧ 0.52 ≤ x ∧ x ≤ 1.701) := by
  have hfile : shippedFiles "my.cfg" = some shippedConf.text := rfl
  have htab : shippedFiles (String.ofList
      "/short/w85/nfm547/Wind_multipliers/input/Cairns/terrain_classification_cairns.csv".toList)
      = some shippedText.toList := by
    rw [String.ofList_toList, shippedFiles, if_neg (by decide +kernel), if_pos rfl]
  have htab' := htab
  rw [← shippedFile_text] at htab'
  have ho : ¬ ['/', '/'] <:+ "/short/w85/nfm547/Wind_multipliers/output/CairnsWM".toList := by decide
  have hland' : LandIn levelInputs ⟨100, 1300, fun _ _ => 5⟩ fun κ =>
      0 < classMz (terrainRows shippedRoughness) κ := by
    intro k B EB h1 h2 h3
    obtain ⟨px, py, h4, h5⟩ := levelLand k B EB h1 h2 h3
    refine ⟨px, py, h4, ?_⟩
    rw [C122_shipped_rows.1]
    exact shippedTerrain_pos h5
  have hS := C124_settings shippedFiles "my.cfg" (by decide) false st shippedConf _ _ _ _ _ shippedConf_for hfile
    shippedFile shippedRoughness shippedPercent htab' shippedFile_describes.1
    shippedFile_describes.2
  obtain ⟨S, tiles, h1, h2, -⟩ := C124_run shippedFiles "my.cfg" (by decide) false st shippedConf _ _ _ _
    shippedConf_for hfile shippedFile shippedRoughness shippedPercent htab' shippedFile_describes.1
    shippedFile_describes.2 shippedRough_ok levelInputs _ levelRasters hland' str hstr ho
  obtain ⟨j, s, h4, -, h5⟩ := C94_completes _ (h2.good 2) (h2.shapes 2) (fun _ => none) 0 _ (.refl _)
  refine ⟨S, tiles, j, s, h1, h4, h5, ?_⟩
  have hup : (((1 / 100 : ℚ)) : ℝ) = 0.01 := by norm_num
  cases h1.symm.trans hS
  rw [withTables_eq] at h2 h4 h5
  simp only [hup] at h2
  obtain ⟨k, L, n, -, h7, -, h8⟩ := C98_shipped_table h2 (by norm_num [levelInputs, standardInputs]) 2 _ j s h4 h5
    C122_shipped_rows.1 C122_shipped_rows.2 (.inr (by norm_num [levelInputs, standardInputs])) 700 40
    (by norm_num [levelInputs, standardInputs]) (by norm_num [levelInputs, standardInputs])
  rcases h8 with ⟨EB, -, h9, -⟩ | ⟨tif, mx, e1, e2, e3⟩
  · cases h9
  · refine ⟨L, n, tif, mx, h7, e1, e2, ?_⟩
    rcases e3 _ (.inl rfl) with h | ⟨x, hx, -, q2, q3⟩
    · exact .inl h
    · exact .inr ⟨x, hx, q3 (by norm_num) (by norm_num [levelInputs, standardInputs]) (by norm_num)
        (by norm_num [levelInputs, standardInputs]), q2⟩

end WindMult
