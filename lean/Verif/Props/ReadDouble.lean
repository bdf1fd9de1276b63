import Verif.Proofs.ReadDouble
import Verif.Props.RunTexts
import Verif.Props.FloatStandard

/-!
# C127: numbers in text files, in double precision
-/

set_option autoImplicit false

namespace WindMult
open Spec

/-- **C127** (a number) A number of at most 15 digits whose last digit counts a power of ten from -15 to 15, with blanks
around it, is read as the double next to it: it is rounded once, although it is computed digit by digit. -/
theorem C127_number (R : Rounding) (n : Numeral) (p : Spelling) (hn : n.Ok) (hs : n.Short) (a b : ℕ) :
    readDouble R (List.replicate a ' ' ++ n.spelt p ++ List.replicate b ' ') = some (R.rnd (n.value : ℝ)) :=
  readDouble_of R ⟨n, p, a, b, hn, hs, rfl⟩ ⟨n, p, a, b, hn, rfl, rfl⟩

example (R : Rounding) : readDouble R " 0.0020".toList = some (R.rnd 0.002) := by
  have := C127_number R ⟨false, [0], some [0, 0, 2, 0], none⟩ .plain (by simp [Numeral.Ok])
    (by simp [Numeral.Short, Numeral.size, Numeral.unit]) 1 0
  rw [show ((⟨false, [0], some [0, 0, 2, 0], none⟩ : Numeral).value : ℝ) = 0.002 by
    norm_num [Numeral.value, Digits.value, Nat.ofDigits]] at this
  exact this

/-- **C127** (long numbers) This does not hold for numbers with more digits: digits behind the seventeenth are dropped,
and zeros count.  A number that is not zero is read as zero. -/
theorem C127_long_numbers (R : Rounding) : ∃ n : Numeral, n.Ok ∧ n.value = 5 / 10 ^ 18 ∧
    readDouble R n.text = some 0 := by
  have r0 : R.rnd 0 = 0 := by simpa using rnd_nat R (n := 0) (by norm_num)
  refine ⟨⟨false, [0], some [0, 0, 0, 0, 0, 0, 0, 0, 0, 0, 0, 0, 0, 0, 0, 0, 0, 5], none⟩, by simp [Numeral.Ok],
    by norm_num [Numeral.value, Digits.value, Nat.ofDigits], ?_⟩
  set n : Numeral := ⟨false, [0], some [0, 0, 0, 0, 0, 0, 0, 0, 0, 0, 0, 0, 0, 0, 0, 0, 0, 5], none⟩ with hn
  obtain ⟨s₁, s₂, s₃, p1, p2, p3, p4⟩ := numeral_parts n .plain (by simp [hn, Numeral.Ok]) 0 0
  rw [List.replicate_zero, List.nil_append, List.append_nil] at p1
  simp only [Numeral.text, readDouble, p1, p2, p3, p4]
  simp only [hn, List.map_cons, List.map_nil, List.cons_ne_self, reduceCtorEq, false_and, if_false,
    Option.getD_some, Option.elim_none, List.take_succ_cons, List.take_nil, List.length_cons, List.length_nil,
    Fin.isValue, Fin.coe_ofNat_eq_mod, Nat.zero_mod, List.cons_append, List.nil_append, accumulate, List.foldl_cons,
    List.foldl_nil, Nat.cast_zero, zero_mul, r0, add_zero, Bool.false_eq_true, Nat.reduceSub, Nat.reduceAdd,
    List.take_zero, scaleTen, zero_div, ite_self]

theorem mapM_rowsFl (R : Rounding) {α : Type} (es : List α) (cat : α → ℤ) (val : α → ℚ) (txt : α → List Char)
    (h : ∀ x ∈ es, readDouble R (txt x) = some (R.rnd (val x : ℝ))) :
    (((es.map fun x => CsvCell.num (cat x : ℚ)).zip (es.map fun x => CsvCell.num (val x))).zip (es.map txt)).mapM
      (fun p => do
        let row ← tableRow p.1.1 p.1.2
        return row.map fun x => (x.1, x.2.bind fun _ => readDouble R p.2)) =
      Except.ok (es.map fun x => some (cat x, some (R.rnd (val x : ℝ)))) := by
  induction es with
  | nil => rfl
  | cons x es ih =>
    rw [List.map_cons, List.map_cons, List.map_cons, List.zip_cons_cons, List.zip_cons_cons, List.mapM_cons,
      ih fun y hy => h y (by simp [hy])]
    simp [tableRow, bind, Except.bind, pure, Except.pure, h x (by simp)]

/-- What the loops over the rows find, in double precision, in a table that describes `entries` by short numbers. -/
theorem tableRowsFl_of_describes (R : Rounding) {f : FileText} {name : List Char} {entries : List (ℤ × ℚ)}
    (h : f.Describes name entries) (hs : f.ShortNumbers name) :
    (do tableRowsFl R (← readCsv f.text) name) = .ok (entries.map fun x => (x.1, some (R.rnd (x.2 : ℝ)))) := by
  obtain ⟨hok, header, recs, kc, kv, hrec, hc, hv, hlen, hall⟩ := h
  have hsh := hs header recs kv hrec hv
  have hread : readCsv f.text = .ok ⟨header, recs.map fun r =>
      (r ++ List.replicate (header.length - r.length) []).take header.length⟩ := by
    rw [readCsv, csvLines_text f hok, hrec]
    have hw : (recs.any fun r => decide (max header.length (recs.headD []).length < r.length)) = false := by
      rw [List.any_eq_false]
      intro r hr
      have := hlen r hr
      simp only [decide_eq_true_eq, not_lt]
      omega
    simp only [bind, Except.bind, hw, Bool.false_eq_true, if_false]
  rw [hread]
  show tableRowsFl R _ name = _
  have hz : ∃ es : List (List (List Char) × (ℤ × ℚ)), es.map Prod.fst = recs ∧ es.map Prod.snd = entries ∧
      ∀ x ∈ es, x.1.length ≤ header.length ∧ (∃ s, x.1[kc]? = some s ∧ IsNumber s x.2.1) ∧
        ∃ s, x.1[kv]? = some s ∧ IsNumber s x.2.2 ∧ IsShortNumber s := by
    clear hrec hread hs
    induction hall with
    | nil => exact ⟨[], rfl, rfl, by simp⟩
    | cons hx _ ih =>
      rename_i r x _ _ _
      obtain ⟨es, h1, h2, h3⟩ := ih (fun r hr => hlen r (by simp [hr])) fun r hr => hsh r (by simp [hr])
      refine ⟨(r, x) :: es, by simp [h1], by simp [h2], ?_⟩
      intro y hy
      rcases List.mem_cons.1 hy with rfl | hy
      · obtain ⟨k1, s, k2, k3⟩ := hx
        exact ⟨hlen _ (by simp), k1, s, k2, k3, hsh _ (by simp) s k2⟩
      · exact h3 y hy
  obtain ⟨es, rfl, rfl, hes⟩ := hz
  rw [tableRowsFl]
  by_cases hnil : es = []
  · subst hnil; rfl
  rw [if_neg (by simpa using hnil)]
  simp only [idxOf?_of_first hc, idxOf?_of_first hv, List.map_map]
  rw [typedColumn_numbers es _ (fun x => (x.2.1 : ℚ)) ?_, typedColumn_numbers es _ (fun x => x.2.2) ?_]
  · have := mapM_rowsFl R es (fun x => x.2.1) (fun x => x.2.2) ((fun r : List (List Char) => r.getD kv []) ∘
      (fun r => (r ++ List.replicate (header.length - r.length) []).take header.length) ∘ Prod.fst) (by
        intro x hx
        obtain ⟨h1, -, s, h2, h3, h4⟩ := hes x hx
        simp only [Function.comp]
        rw [getD_padded h1 h2]
        exact readDouble_of R h4 h3)
    simp only [Function.comp_def] at this ⊢
    rw [this]
    simp [bind, Except.bind, pure, Except.pure, List.filterMap_map]
  · intro x hx
    obtain ⟨h1, -, s, h2, h3, -⟩ := hes x hx
    simp only [Function.comp]
    rw [getD_padded h1 h2]
    exact h3
  · intro x hx
    obtain ⟨h1, ⟨s, h2, h3⟩, -⟩ := hes x hx
    simp only [Function.comp]
    rw [getD_padded h1 h2]
    exact h3

/-- **C127** (the table) From a table of short numbers in whatever layout, the terrain and the shielding step get the
categories in order, each with the double next to the number that is written. -/
theorem C127_tables (R : Rounding) (f : FileText) (entries : List (ℤ × ℚ)) :
    (f.Describes "ROUGHNESS_LENGTH_m".toList entries → f.ShortNumbers "ROUGHNESS_LENGTH_m".toList →
      terrainTableFl R f.text = .ok (entries.map fun x => (x.1, some (R.rnd (x.2 : ℝ))))) ∧
    (f.Describes "SHIELDING".toList entries → f.ShortNumbers "SHIELDING".toList →
      shieldTableFl R f.text = .ok (entries.map fun x => (x.1, some (R.rnd (x.2 : ℝ))))) :=
  ⟨tableRowsFl_of_describes R, tableRowsFl_of_describes R⟩

/-- **C127** (settings) What a run has of its configuration and its table in double precision are the doubles next to the
numbers that are written there. -/
theorem C127_settings (R : Rounding) (files : String → Option (List Char)) (name : String) (hname : name ≠ "")
    (verbose : Bool) (st : CfgState) (f : IniFile) (up : ℚ) (land dem out table : List Char)
    (hf : ConfFor f up land dem out table) (hfile : files name = some f.text) (tab : FileText) (rough pct : List (ℤ × ℚ))
    (htab : files (String.ofList table) = some tab.text)
    (hr : tab.Describes "ROUGHNESS_LENGTH_m".toList rough) (hp : tab.Describes "SHIELDING".toList pct)
    (hrs : tab.ShortNumbers "ROUGHNESS_LENGTH_m".toList) (hps : tab.ShortNumbers "SHIELDING".toList) :
    startSettingsFl R files (some name) verbose st = .ok ⟨R.rnd (up : ℝ), String.ofList land, String.ofList dem,
      String.ofList out, rough.map fun x => (x.1, some (R.rnd (x.2 : ℝ))),
      pct.map fun x => (x.1, some (R.rnd (x.2 : ℝ)))⟩ := by
  obtain ⟨st', h1, -⟩ := C123_read f hf.ok st
  have get : ∀ (sect opt : String) (v : List Char), f.Sets sect.toList (opt.toList.map Char.toLower) v →
      configGet st' sect opt = .ok (String.ofList v) := by
    intro sect opt v h
    obtain ⟨st'', h3, h4⟩ := C123_get f hf.ok st sect opt v h
    cases h1.symm.trans h3
    exact h4
  obtain ⟨v0, r0⟩ := hf.root
  obtain ⟨v1, r1, n1⟩ := hf.upwind
  obtain ⟨v2, r2⟩ := hf.logFile
  obtain ⟨v3, r3, n3⟩ := hf.logLevel
  obtain ⟨v4, r4, n4⟩ := hf.verbose
  have g0 := get "inputValues" "root" v0 r0
  have g1 : configUpwind st' = .ok up := by
    obtain ⟨st'', h3, h4⟩ := C123_upwind f hf.ok st v1 up r1 n1
    cases h1.symm.trans h3
    exact h4
  have g2 := get "Logging" "LogFile" v2 r2
  have g3 := get "Logging" "LogLevel" v3 r3
  have g4 := get "Logging" "Verbose" v4 r4
  have g5 := get "inputValues" "terrain_data" land hf.land
  have g6 := get "inputValues" "dem_data" dem hf.dem
  have g7 := get "Output" "output_dir" out hf.out
  have g8 := get "inputValues" "terrain_table" table hf.table
  have g9 := (C127_tables R tab rough).1 hr hrs
  have g10 := (C127_tables R tab pct).2 hp hps
  have hlevel : String.ofList v3 ∈ logLevels := by
    simp only [List.mem_cons, List.not_mem_nil, or_false] at n3
    rcases n3 with rfl | rfl | rfl | rfl | rfl <;> decide
  have hbool : ∃ b, configBool st' "Logging" "Verbose" = .ok b := by
    simp only [configBool, g4, bind, Except.bind]
    simp only [List.mem_cons, List.not_mem_nil, or_false] at n4
    rcases n4 with rfl | rfl
    · exact ⟨true, by decide⟩
    · exact ⟨false, by decide⟩
  obtain ⟨b, hb⟩ := hbool
  cases verbose <;>
    simp only [startSettingsFl, hname, if_false, hfile, h1, g0, g1, g2, g3, hb, hlevel, if_true, g5, g6, g7, g8, htab, g9,
      g10, bind, Except.bind, Bool.false_eq_true]

/-- Rows as the terrain step has them. -/
noncomputable def terrainRowsFl (R : Rounding) (l : List (ℤ × ℚ)) : List (TerrainRow ℤ ℝ) :=
  l.map fun x => ⟨x.1, R.rnd (x.2 : ℝ)⟩

/-- Rows as the shielding step has them. -/
noncomputable def shieldRowsFl (R : Rounding) (l : List (ℤ × ℚ)) : List (ℤ × ℝ) :=
  l.map fun x => (x.1, R.rnd (x.2 : ℝ))

theorem withTablesFl_eq (R : Rounding) (c : Inputs) (up : ℝ) (a b d : String) (rough pct : List (ℤ × ℚ)) :
    c.withTablesFl ⟨up, a, b, d, rough.map fun x => (x.1, some (R.rnd (x.2 : ℝ))),
      pct.map fun x => (x.1, some (R.rnd (x.2 : ℝ)))⟩ =
      { c with terrainTable := terrainRowsFl R rough, shieldTable := shieldRowsFl R pct } := by
  have h1 : ∀ l : List (ℤ × ℚ), (l.map fun x => (x.1, some (R.rnd (x.2 : ℝ)))).filterMap
      (fun p : ℤ × Option ℝ => p.2.map fun y => (⟨p.1, y⟩ : TerrainRow ℤ ℝ)) = terrainRowsFl R l := by
    intro l
    induction l with
    | nil => rfl
    | cons x l ih => simp [terrainRowsFl]
  have h2 : ∀ l : List (ℤ × ℚ), (l.map fun x => (x.1, some (R.rnd (x.2 : ℝ)))).filterMap
      (fun p : ℤ × Option ℝ => p.2.map fun y => (p.1, y)) = shieldRowsFl R l := by
    intro l
    induction l with
    | nil => rfl
    | cons x l ih => simp [shieldRowsFl]
  simp only [Inputs.withTablesFl, h1, h2]

theorem tableRead_of (R : Rounding) (rough : List (ℤ × ℚ)) (h : ∀ x ∈ rough, 1 / 1000 ≤ x.2 ∧ x.2 ≤ 10) :
    TableRead (1 / 2 ^ 53) (terrainRows rough) (terrainRowsFl R rough) := by
  unfold TableRead terrainRows terrainRowsFl
  rw [List.forall₂_map_left_iff, List.forall₂_map_right_iff, List.forall₂_same]
  intro x hx
  obtain ⟨h1, h2⟩ := h x hx
  have h1' := (Rat.cast_le (K := ℝ)).2 h1
  have h2' := (Rat.cast_le (K := ℝ)).2 h2
  push_cast at h1' h2'
  refine ⟨rfl, h1', h2', (R.near _).trans ?_⟩
  rw [abs_of_nonneg (by linarith)]
  nlinarith

theorem shieldRead_of (R : Rounding) (pct : List (ℤ × ℚ)) (h : ∀ x ∈ pct, 0 ≤ x.2 ∧ x.2 ≤ 100) :
    ShieldRead (1 / 2 ^ 53) (shieldRows pct) (shieldRowsFl R pct) := by
  unfold ShieldRead shieldRows shieldRowsFl
  rw [List.forall₂_map_left_iff, List.forall₂_map_right_iff, List.forall₂_same]
  intro x hx
  obtain ⟨h1, h2⟩ := h x hx
  have h1' := (Rat.cast_le (K := ℝ)).2 h1
  have h2' := (Rat.cast_le (K := ℝ)).2 h2
  push_cast at h1' h2'
  refine ⟨rfl, h1', h2', (R.near _).trans ?_⟩
  rw [abs_of_nonneg (by linarith)]
  nlinarith

theorem rnd_buffer (R : Rounding) : |R.rnd (((1 / 100 : ℚ)) : ℝ) - 0.01| ≤ 1 / 10 ^ 6 := by
  have e : (((1 / 100 : ℚ)) : ℝ) = 0.01 := by norm_num
  rw [e]
  refine (R.near _).trans ?_
  norm_num [abs_of_pos]

section Run
variable (R : Rounding) (W : FpRound (1 / 2 ^ 53)) (M : FpMath (1 / 2 ^ 53)) (N : TileFp)

/-- **C127** (a run) From the text files to the GeoTIFFs, everything rounded: a run that is started with any configuration
file that sets the needed options and the buffer width to 0.01, with a table of short numbers (roughness lengths from
1 mm to 10 m, percentages), in the standard configuration: any interleaving of the processes is finite and can go on
until all is done, and then every pixel of the DEM is in exactly one tile and its values are within 1/2000 of the exact
ones *for the numbers that are written in the table*. -/
theorem C127_run (files : String → Option (List Char)) (name : String) (hname : name ≠ "") (verbose : Bool)
    (st : CfgState) (f : IniFile) (land dem out table : List Char) (hf : ConfFor f (1 / 100) land dem out table)
    (hfile : files name = some f.text) (tab : FileText) (rough pct : List (ℤ × ℚ))
    (htab : files (String.ofList table) = some tab.text)
    (hr : tab.Describes "ROUGHNESS_LENGTH_m".toList rough) (hp : tab.Describes "SHIELDING".toList pct)
    (hrs : tab.ShortNumbers "ROUGHNESS_LENGTH_m".toList) (hps : tab.ShortNumbers "SHIELDING".toList)
    (hrough : ∀ x ∈ rough, 1 / 1000 ≤ x.2 ∧ x.2 ≤ 10) (hpct : ∀ x ∈ pct, 0 ≤ x.2 ∧ x.2 ≤ 100)
    (fuel : ℕ) (c cf : Inputs) (cat : Grid ℤ) (str : ℝ → List Char) (tiles : List (List Char × Extent ℝ × Extent ℝ))
    (hg : StandardRasterFl W M N fuel c cf)
    (ht : StandardTiles R { c with terrainTable := terrainRows rough, shieldTable := shieldRows pct }
      (R.rnd (((1 / 100 : ℚ)) : ℝ)) cat str out tiles) :
    ∃ S, startSettingsFl R files (some name) verbose st = .ok S ∧
      ∀ nW st0 j s, RunSteps ((cf.withTablesFl S).runCfgGeo R N S.out.toList nW tiles) j
          (((cf.withTablesFl S).runCfgGeo R N S.out.toList nW tiles).start st0) s →
        j ≤ 45 * (TileGrid.initFl R S.upwind c.r).numTiles + 9 * nW + 9 ∧
        (¬ ((cf.withTablesFl S).runCfgGeo R N S.out.toList nW tiles).Done s →
          ∃ s', RunStep ((cf.withTablesFl S).runCfgGeo R N S.out.toList nW tiles) s s') ∧
        (((cf.withTablesFl S).runCfgGeo R N S.out.toList nW tiles).Done s →
          ∀ px py : ℕ, px < c.r.xDim → py < c.r.yDim →
          ∃ k L B n, (TileGrid.initFl R S.upwind c.r).getGridlimit k = .ok L ∧ L.Has px py ∧
            (∀ k' L', (TileGrid.initFl R S.upwind c.r).getGridlimit k' = .ok L' → L'.Has px py → k' = k) ∧
            (TileGrid.initFl R S.upwind c.r).getTilenameFl R str k = .ok n ∧
            (TileGrid.initFl R S.upwind c.r).getGridlimitBuffer k = .ok B ∧
            ((c.checksum (cutDemFl R c.r c.dem (extFl R c S.upwind B) 0) = 0 ∧
                s.store (pjoin out (m3File n)) = none ∧ s.store (pjoin out (m3MaxFile n)) = none) ∨
              ∃ xm ym tif mx, pixelSizes fuel (part c.r B) = .ok (xm, ym) ∧
                s.store (pjoin out (m3File n)) = some (.tif tif) ∧ CentresNear c.r L tif.transform ∧
                BandsNear (1 / 2000) { c with terrainTable := terrainRows rough, shieldTable := shieldRows pct } L B
                  xm ym (gridWidth xm ym) cat tif ∧
                s.store (pjoin out (m3MaxFile n)) = some (.maxTif mx) ∧
                IsM3MaxNear (1 / 2000) { c with terrainTable := terrainRows rough, shieldTable := shieldRows pct } L B
                  xm ym (gridWidth xm ym) cat mx)) := by
  have hS := C127_settings R files name hname verbose st f (1 / 100) land dem out table hf hfile tab rough pct htab hr hp
    hrs hps
  refine ⟨_, hS, ?_⟩
  rw [withTablesFl_eq]
  simp only [String.toList_ofList]
  have h : StandardRun R W M N fuel { c with terrainTable := terrainRows rough, shieldTable := shieldRows pct }
      { cf with terrainTable := terrainRowsFl R rough, shieldTable := shieldRowsFl R pct }
      (R.rnd (((1 / 100 : ℚ)) : ℝ)) cat str out tiles :=
    { ht with
      std := { rounds := hg.rounds, sizes := hg.sizes, sizesFl := hg.sizesFl, rasters := hg.rasters
               coarse := hg.coarse, fine := hg.fine, square := hg.square, lw := hg.lw, lh := hg.lh, wide := hg.wide
               high := hg.high, north := hg.north, south := hg.south, east := hg.east, sums := hg.sums
               digits := hg.digits, elevations := hg.elevations
               terrain := tableRead_of R rough hrough
               shield := shieldRead_of R pct hpct
               buffer := rnd_buffer R } }
  intro nW st0 j s hrun
  obtain ⟨b1, b2, -⟩ := C121_run h nW st0 j s hrun
  exact ⟨b1, b2, fun hd px py hx hy => C121_every_pixel h nW st0 j s hrun hd px py hx hy⟩

end Run

/-! ### The table and the configuration of the repository -/

instance (n : Numeral) : Decidable n.Short := by unfold Numeral.Short; infer_instance

theorem shippedFile_short : shippedFile.ShortNumbers "ROUGHNESS_LENGTH_m".toList ∧
    shippedFile.ShortNumbers "SHIELDING".toList := by
  have h1 : ∀ x ∈ shippedRows, (x.2.2.1.Ok ∧ x.2.2.1.Short) ∧ x.2.2.2.Ok ∧ x.2.2.2.Short := by decide +kernel
  constructor
  · intro header recs k hrec hk r hr s hs
    rw [shippedFile_records, List.cons.injEq] at hrec
    obtain ⟨rfl, rfl⟩ := hrec
    have hk2 := (idxOf?_of_first hk).symm.trans
      (by decide : _ = some 2)
    cases hk2
    obtain ⟨x, hx, rfl⟩ := List.mem_map.1 hr
    cases hs
    exact ⟨_, .plain, 0, 0, (h1 x hx).1.1, (h1 x hx).1.2, by simp [Numeral.text]⟩
  · intro header recs k hrec hk r hr s hs
    rw [shippedFile_records, List.cons.injEq] at hrec
    obtain ⟨rfl, rfl⟩ := hrec
    have hk3 := (idxOf?_of_first hk).symm.trans
      (by decide : _ = some 3)
    cases hk3
    obtain ⟨x, hx, rfl⟩ := List.mem_map.1 hr
    cases hs
    exact ⟨_, .plain, 0, 0, (h1 x hx).2.1, (h1 x hx).2.2, by simp [Numeral.text]⟩

/-- **C127** (the table of the repository) What the steps get from the text of
`/repo/tests/test_data/terrain_classification.csv` in double precision. -/
theorem C127_shipped (R : Rounding) :
    terrainTableFl R shippedText.toList = .ok (shippedRoughness.map fun x => (x.1, some (R.rnd (x.2 : ℝ)))) ∧
    shieldTableFl R shippedText.toList = .ok (shippedPercent.map fun x => (x.1, some (R.rnd (x.2 : ℝ)))) := by
  rw [← shippedFile_text]
  exact ⟨(C127_tables R _ _).1 shippedFile_describes.1 shippedFile_short.1,
    (C127_tables R _ _).2 shippedFile_describes.2 shippedFile_short.2⟩

theorem shippedRough_range : ∀ x ∈ shippedRoughness, 1 / 1000 ≤ x.2 ∧ x.2 ≤ 10 := by decide +kernel

theorem shippedPercent_range : ∀ x ∈ shippedPercent, 0 ≤ x.2 ∧ x.2 ≤ 100 := by decide +kernel

/-- A completed run in double precision with the configuration and the table of the repository, on the raster of C121:
there is a GeoTIFF with the multipliers of pixel (20, 15). -/
example (st : CfgState) : ∃ S tiles j s,
    startSettingsFl ieee shippedFiles (some "my.cfg") false st = .ok S ∧
    RunSteps ((plateauRead.withTablesFl S).runCfgGeo ieee slopeFp S.out.toList 3 tiles) j
      (((plateauRead.withTablesFl S).runCfgGeo ieee slopeFp S.out.toList 3 tiles).start fun _ => none) s ∧
    ((plateauRead.withTablesFl S).runCfgGeo ieee slopeFp S.out.toList 3 tiles).Done s ∧
    ∃ n L B xm ym tif, L.Has 20 15 ∧ s.store (pjoin S.out.toList (m3File n)) = some (.tif tif) ∧
      CentresNear plateau.r L tif.transform ∧
      BandsNear (1 / 2000) { plateau with terrainTable := shippedTerrain, shieldTable := shippedShield } L B xm ym
        (gridWidth xm ym) plateauCat tif := by
  have hfile : shippedFiles "my.cfg" = some shippedConf.text := rfl
  have htab : shippedFiles (String.ofList
      "/short/w85/nfm547/Wind_multipliers/input/Cairns/terrain_classification_cairns.csv".toList)
      = some shippedFile.text := by
    rw [shippedFile_text, String.ofList_toList, shippedFiles, if_neg (by decide +kernel), if_pos rfl]
  have ho : ¬ ['/', '/'] <:+ "/short/w85/nfm547/Wind_multipliers/output/CairnsWM".toList := by decide
  have hstd : StandardFl (digits 53) roundedMath slopeFp 20
      { plateau with terrainTable := terrainRows shippedRoughness, shieldTable := shieldRows shippedPercent }
      { plateauRead with terrainTable := terrainRowsFl ieee shippedRoughness
                         shieldTable := shieldRowsFl ieee shippedPercent }
      (ieee.rnd (((1 / 100 : ℚ)) : ℝ)) :=
    { rounds := plateau_std.rounds, sizes := plateau_std.sizes, sizesFl := plateau_std.sizesFl
      rasters := plateau_std.rasters, coarse := plateau_std.coarse, fine := plateau_std.fine
      square := plateau_std.square, lw := plateau_std.lw, lh := plateau_std.lh, wide := plateau_std.wide
      high := plateau_std.high, north := plateau_std.north, south := plateau_std.south, east := plateau_std.east
      sums := plateau_std.sums, digits := plateau_std.digits, elevations := plateau_std.elevations
      terrain := tableRead_of ieee _ shippedRough_range
      shield := shieldRead_of ieee _ shippedPercent_range
      buffer := rnd_buffer ieee }
  obtain ⟨tiles, ht⟩ := plateau_tiles ieee _ ho (by
    rw [C122_shipped_rows.1]; exact shippedTerrain_pos (by norm_num)) hstd
  have hrun : StandardRun ieee (digits 53) roundedMath slopeFp 20 _ _ _ plateauCat oneDecimal _ tiles := ⟨ht, hstd⟩
  obtain ⟨S, h1, h2⟩ := C127_run ieee (digits 53) roundedMath slopeFp shippedFiles "my.cfg" (by decide) false st
    shippedConf _ _ _ _ shippedConf_for hfile shippedFile shippedRoughness shippedPercent htab shippedFile_describes.1
    shippedFile_describes.2 shippedFile_short.1 shippedFile_short.2 shippedRough_range shippedPercent_range 20 plateau
    plateauRead plateauCat oneDecimal tiles plateau_std.toStandardRasterFl ht
  have hS := C127_settings ieee shippedFiles "my.cfg" (by decide) false st shippedConf _ _ _ _ _ shippedConf_for hfile
    shippedFile shippedRoughness shippedPercent htab shippedFile_describes.1 shippedFile_describes.2
    shippedFile_short.1 shippedFile_short.2
  obtain ⟨j, s, h3, -, h4⟩ := C94_completes _ (hrun.runCase.good (N := slopeFp)
    (cf := { plateauRead with terrainTable := terrainRowsFl ieee shippedRoughness
                              shieldTable := shieldRowsFl ieee shippedPercent }) 3)
    (hrun.runCase.shapes hrun.runRead 3) (fun _ => none) 0 _ (.refl _)
  cases h1.symm.trans hS
  rw [← withTablesFl_eq ieee plateauRead (ieee.rnd (((1 / 100 : ℚ)) : ℝ)) _ _ _ _ _] at h3 h4
  refine ⟨_, tiles, j, s, hS, h3, h4, ?_⟩
  obtain ⟨-, -, h5⟩ := h2 3 _ j s h3
  obtain ⟨k, L, B, n, -, hp, -, hn, hB, h6⟩ := h5 h4 20 15 (by norm_num [plateau]) (by norm_num [plateau])
  rw [C122_shipped_rows.1, C122_shipped_rows.2] at h6
  rcases h6 with ⟨h7, -⟩ | ⟨xm, ym, tif, mx, -, h7, h8, h9, -⟩
  · exact absurd h7 one_ne_zero
  · exact ⟨n, L, B, xm, ym, tif, hp, h7, h8, h9⟩

end WindMult
