import Verif.Spec.Recoding
import Verif.Props.TileMirrorFalse
import Verif.Props.TerrainDriver

/-!
# C140: land-cover codes and the order of the table
-/

set_option autoImplicit false
set_option linter.unusedSectionVars false

namespace WindMult
open Spec

/-! ### What the two steps take from the raster and the tables -/

theorem class2mz_fold {C : Type} [DecidableEq C] (mz : ℝ → ℝ) (data : Grid C) (table : List (TerrainRow C ℝ)) :
    terrainClass2mz mz data table = ⟨data.rows, data.cols, fun i j =>
      table.foldl (fun out row => if data.val i j = row.category then mz row.roughness else out) 0⟩ := by
  have : ∀ out : Grid ℝ, table.foldl (fun out row => (⟨out.rows, out.cols, fun i j =>
      if data.val i j = row.category then mz row.roughness else out.val i j⟩ : Grid ℝ)) out = ⟨out.rows, out.cols,
        fun i j => table.foldl (fun o row => if data.val i j = row.category then mz row.roughness else o)
          (out.val i j)⟩ := by
    intro out
    induction table generalizing out with
    | nil => rfl
    | cons r t ih =>
      rw [List.foldl_cons, ih]
      rfl
  exact this _

/-- The terrain step sees the land cover and the table only through the classes. -/
theorem terrain_of_class {C C' : Type} [DecidableEq C] [DecidableEq C'] (mz : ℝ → ℝ) (gw : ℝ) (data : Grid C)
    (data' : Grid C') (table : List (TerrainRow C ℝ)) (table' : List (TerrainRow C' ℝ))
    (clip : Grid (Option ℝ) → Grid (Option ℝ)) (h : terrainClass2mz mz data' table' = terrainClass2mz mz data table) :
    terrain mz gw data' table' clip = terrain mz gw data table clip := by
  unfold terrain
  rw [h]

theorem reproject_map {α β : Type} (f : α → β) (src dst : RasterInfo ℝ) (cells : Grid (Option α)) (fill : α) :
    reprojectNearest src (cells.map (Option.map f)) dst (f fill) = (reprojectNearest src cells dst fill).map f := by
  unfold reprojectNearest Grid.map
  simp only [Grid.mk.injEq, true_and]
  funext i j
  split_ifs
  · cases cells.val _ _ <;> rfl
  · rfl

theorem fold_recoded {γ : Type} (f : ℤ → ℤ) (hf : Function.Injective f) (g : ℝ → γ) (x : ℤ) (table : List (ℤ × ℝ))
    (o : γ) : (table.map fun r => (f r.1, r.2)).foldl (fun out row => if f x = row.1 then g row.2 else out) o =
      table.foldl (fun out row => if x = row.1 then g row.2 else out) o := by
  induction table generalizing o with
  | nil => rfl
  | cons r t ih =>
    simp only [List.map_cons, List.foldl_cons, hf.eq_iff]
    exact ih _

theorem tileStep_of_class (c c' : Inputs) (EB E : Extent ℝ) (hr : c'.r = c.r) (hd : c'.dem = c.dem)
    (hp : c'.pixelSizes = c.pixelSizes) (hk : c'.checksum = c.checksum)
    (hz : terrainClass2mz mzFormula (cutLandcover c'.lr c'.lcv (clipInfo c.r EB) 0) c'.terrainTable =
      terrainClass2mz mzFormula (cutLandcover c.lr c.lcv (clipInfo c.r EB) 0) c.terrainTable)
    (hs : class2ms none c'.shieldTable (cutLandcover c'.lr c'.lcv (clipInfo c.r EB) 0) =
      class2ms none c.shieldTable (cutLandcover c.lr c.lcv (clipInfo c.r EB) 0)) :
    tileStep c' EB E = tileStep c EB E ∧ tileFiles c' EB E = tileFiles c EB E := by
  have h : tileStep c' EB E = tileStep c EB E := by
    unfold tileStep
    simp only [hr, hd, hp, hk, hs, terrain_of_class mzFormula _ _ _ _ _ _ hz]
  refine ⟨h, ?_⟩
  funext m d
  unfold tileFiles
  rw [h, hr]

/-! ### Other numbers for the codes -/

/-- **C140** *Full claim:* if each land-cover code is replaced by another number, in the raster and in the table, the
multipliers of every tile stay as they are.  False if 0 or -99 is given or loses a meaning (`C140_zero`,
`C140_minus_99`): 0 is what cells without data get, and -99 is taken for no data by the shielding step alone.
*Proved:* for every recoding that keeps these two; *missing:* the other recodings. -/
theorem C140_codes_partial (f : ℤ → ℤ) (hf : Function.Injective f) (h0 : f 0 = 0) (h99 : f (-99) = -99) (c : Inputs)
    (EB E : Extent ℝ) :
    tileStep (recoded f c) EB E = tileStep c EB E ∧ tileFiles (recoded f c) EB E = tileFiles c EB E := by
  have hl : cutLandcover (recoded f c).lr (recoded f c).lcv (clipInfo c.r EB) 0 =
      (cutLandcover c.lr c.lcv (clipInfo c.r EB) 0).map f := by
    have := reproject_map f c.lr (clipInfo c.r EB) c.lcv 0
    rw [h0] at this
    exact this
  refine tileStep_of_class _ _ _ _ rfl rfl rfl rfl ?_ ?_
  · rw [hl, class2mz_fold, class2mz_fold]
    simp only [Grid.map, Grid.mk.injEq, true_and]
    funext i j
    have := fold_recoded f hf mzFormula ((cutLandcover c.lr c.lcv (clipInfo c.r EB) 0).val i j)
      (roughnessRows c) 0
    simp only [roughnessRows, List.map_map, List.foldl_map, Function.comp_def] at this
    simp only [recoded, List.foldl_map]
    exact this
  · rw [hl]
    simp only [class2ms, Grid.map, Grid.mk.injEq, true_and]
    funext i j
    generalize (cutLandcover c.lr c.lcv (clipInfo c.r EB) 0).val i j = x
    have := fold_recoded f hf (· / 100) x c.shieldTable 1
    have e : f x = -99 ↔ x = -99 := by
      conv_lhs => rw [← h99]
      exact hf.eq_iff
    simp only [class2msCell, recoded, reduceCtorEq, if_false, this, e]

/-! ### Other tables that say the same -/

theorem gives_append_same (t : List (ℤ × ℝ)) (a : ℤ) (v w : ℝ) : Gives (t ++ [(a, v)]) a w ↔ w = v := by
  constructor
  · rintro ⟨b, l, e, h⟩
    rcases List.eq_nil_or_concat l with rfl | ⟨l', x, rfl⟩
    · have := List.append_inj_right' e rfl
      simp only [List.cons.injEq, Prod.mk.injEq, true_and, and_true] at this
      exact this.symm
    · have e' : t ++ [(a, v)] = (b ++ (a, w) :: l') ++ [x] := by rw [e]; simp
      have := List.append_inj_right' e' rfl
      simp only [List.cons.injEq, and_true] at this
      exact absurd (show x.1 = a by rw [← this]) (h x (by simp))
  · rintro rfl
    exact ⟨t, [], rfl, by simp⟩

theorem gives_append_other (t : List (ℤ × ℝ)) (a b : ℤ) (v w : ℝ) (hab : a ≠ b) :
    Gives (t ++ [(a, v)]) b w ↔ Gives t b w := by
  constructor
  · rintro ⟨p, l, e, h⟩
    rcases List.eq_nil_or_concat l with rfl | ⟨l', x, rfl⟩
    · have := List.append_inj_right' e rfl
      simp only [List.cons.injEq, Prod.mk.injEq, and_true] at this
      exact absurd this.1 hab
    · have e' : t ++ [(a, v)] = (p ++ (b, w) :: l') ++ [x] := by rw [e]; simp
      exact ⟨p, l', List.append_inj_left' e' rfl, fun r hr => h r (by simp [hr])⟩
  · rintro ⟨p, l, rfl, h⟩
    refine ⟨p, l ++ [(a, v)], by simp, fun r hr => ?_⟩
    rcases List.mem_append.mp hr with hr | hr
    · exact h r hr
    · rw [List.mem_singleton.mp hr]; exact hab

/-- The loop over the rows takes the value of the last row of the code. -/
theorem fold_gives {γ : Type} (g : ℝ → γ) (x : ℤ) (table : List (ℤ × ℝ)) (o : γ) :
    (∀ v, Gives table x v → table.foldl (fun out row => if x = row.1 then g row.2 else out) o = g v) ∧
    ((∀ v, ¬ Gives table x v) → table.foldl (fun out row => if x = row.1 then g row.2 else out) o = o) := by
  induction table using List.reverseRecOn with
  | nil => exact ⟨fun v ⟨b, l, e, _⟩ => by simp at e, fun _ => rfl⟩
  | append_singleton t r ih =>
    obtain ⟨a, v⟩ := r
    rw [List.foldl_append, List.foldl_cons, List.foldl_nil]
    by_cases hx : x = a
    · subst hx
      simp only [if_true, gives_append_same]
      exact ⟨fun w hw => by rw [hw], fun h => absurd rfl (h v)⟩
    · simp only [if_neg hx, gives_append_other t a x v _ (Ne.symm hx)]
      exact ih

theorem fold_same {γ : Type} (g : ℝ → γ) (x : ℤ) (t t' : List (ℤ × ℝ)) (o : γ)
    (h : ∀ v, Gives t' x v ↔ Gives t x v) :
    t'.foldl (fun out row => if x = row.1 then g row.2 else out) o =
      t.foldl (fun out row => if x = row.1 then g row.2 else out) o := by
  by_cases hx : ∃ v, Gives t x v
  · obtain ⟨v, hv⟩ := hx
    rw [(fold_gives g x t o).1 v hv, (fold_gives g x t' o).1 v ((h v).mpr hv)]
  · push Not at hx
    rw [(fold_gives g x t o).2 hx, (fold_gives g x t' o).2 fun v hv => hx v ((h v).mp hv)]

theorem cutLand_occurs (c : Inputs) (dst : RasterInfo ℝ) (i j : ℕ) : Occurs c ((cutLandcover c.lr c.lcv dst 0).val i j) := by
  unfold cutLandcover reprojectNearest
  simp only
  split_ifs with h
  · cases hv : c.lcv.val _ _ with
    | none => exact Or.inl rfl
    | some v => exact Or.inr ⟨_, by omega, _, by omega, hv⟩
  · exact Or.inl rfl

/-- **C140** (tables) Only the values that the last rows of the codes in the raster (and of 0) give matter: two tables
that agree on these give the same files for every tile.  Order, repeated and unused rows do not matter. -/
theorem C140_tables (c : Inputs) (roughness shielding : List (ℤ × ℝ))
    (hz : ∀ code, Occurs c code → ∀ v, Gives roughness code v ↔ Gives (roughnessRows c) code v)
    (hs : ∀ code, Occurs c code → ∀ v, Gives shielding code v ↔ Gives c.shieldTable code v) (EB E : Extent ℝ) :
    tileStep (withRows c roughness shielding) EB E = tileStep c EB E ∧
      tileFiles (withRows c roughness shielding) EB E = tileFiles c EB E := by
  refine tileStep_of_class _ _ _ _ rfl rfl rfl rfl ?_ ?_
  · rw [class2mz_fold, class2mz_fold]
    simp only [withRows, Grid.mk.injEq, true_and, List.foldl_map]
    funext i j
    have := fold_same mzFormula _ _ _ 0 (hz _ (cutLand_occurs c (clipInfo c.r EB) i j))
    refine Eq.trans this ?_
    simp only [roughnessRows, List.foldl_map]
  · simp only [withRows, class2ms, Grid.map, Grid.mk.injEq, true_and]
    funext i j
    have h := hs _ (cutLand_occurs c (clipInfo c.r EB) i j)
    generalize (cutLandcover c.lr c.lcv (clipInfo c.r EB) 0).val i j = x at h
    simp only [class2msCell, reduceCtorEq, if_false]
    rw [fold_same (· / 100) x _ _ 1 h]

theorem gives_iff_mem {t : List (ℤ × ℝ)} (hn : (t.map Prod.fst).Nodup) (a : ℤ) (v : ℝ) :
    Gives t a v ↔ (a, v) ∈ t := by
  constructor
  · rintro ⟨b, l, rfl, -⟩
    simp
  · intro h
    obtain ⟨b, l, rfl⟩ := List.append_of_mem h
    refine ⟨b, l, rfl, fun r hr e => ?_⟩
    rw [List.map_append, List.map_cons, List.nodup_append] at hn
    exact (List.nodup_cons.mp hn.2.1).1 (List.mem_map.mpr ⟨r, hr, e⟩)

/-- **C140** (order) If no code is in the table twice, the order of its rows does not matter. -/
theorem C140_order (c : Inputs) (roughness shielding : List (ℤ × ℝ))
    (hn : ((roughnessRows c).map Prod.fst).Nodup) (hn' : (c.shieldTable.map Prod.fst).Nodup)
    (hz : roughness.Perm (roughnessRows c)) (hs : shielding.Perm c.shieldTable) (EB E : Extent ℝ) :
    tileStep (withRows c roughness shielding) EB E = tileStep c EB E ∧
      tileFiles (withRows c roughness shielding) EB E = tileFiles c EB E := by
  refine C140_tables c _ _ (fun a _ v => ?_) (fun a _ v => ?_) EB E
  · rw [gives_iff_mem hn, gives_iff_mem ((hz.map _).nodup_iff.mpr hn), hz.mem_iff]
  · rw [gives_iff_mem hn', gives_iff_mem ((hs.map _).nodup_iff.mpr hn'), hs.mem_iff]

/-! ### The two codes that cannot be changed -/

/-- Three by three pixels without land cover; the tables give 0 a roughness length and a percentage. -/
noncomputable def noCover : Inputs where
  r := ⟨3, 3, 150, 1, -20, -1⟩
  dem := ⟨3, 3, fun _ _ => some 1⟩
  lr := ⟨3, 3, 150, 1, -20, -1⟩
  lcv := ⟨3, 3, fun _ _ => none⟩
  terrainTable := [⟨0, 1⟩]
  shieldTable := [(0, 100)]
  pixelSizes := fun _ => .ok (⟨3, 3, fun _ _ => 100⟩, ⟨3, 3, fun _ _ => 100⟩)
  checksum := fun _ => 1

theorem noCover_oneTile (f : ℤ → ℤ) : ∃ xm ym, OneTile (recoded f noCover) xm ym ∧ gridWidth xm ym = 100 := by
  have hg : gridWidth (⟨3, 3, fun _ _ => 100⟩ : Grid ℝ) ⟨3, 3, fun _ _ => 100⟩ = 100 := by
    norm_num [gridWidth, Grid.mean, Grid.cells, List.range_succ]
  exact ⟨_, _, ⟨by norm_num [recoded, noCover], by norm_num [recoded, noCover], by norm_num [recoded, noCover],
    by norm_num [recoded, noCover], rfl, rfl, rfl, rfl, rfl, rfl, by rw [hg]; norm_num, by rw [hg], one_ne_zero⟩, hg⟩

/-- Whether there is a terrain file depends on whether 0 is in the table. -/
theorem noCover_mz (f : ℤ → ℤ) : (tileFiles (recoded f noCover) noCover.r.area noCover.r.area .mz .n).isSome ↔
    f 0 = 0 := by
  obtain ⟨xm, ym, o, hg⟩ := noCover_oneTile f
  obtain ⟨-, s2, -⟩ := o.step
  have hlr := o.cutLand.1
  have hlc := o.cutLand.2.1
  have hlv := o.cutLand.2.2
  have hval : ∀ i < 3, ∀ j < 3, (cutLandcover (recoded f noCover).lr (recoded f noCover).lcv
      (clipInfo (recoded f noCover).r (recoded f noCover).r.area) 0).val i j = 0 := fun i hi j hj =>
    hlv i (by rw [hlr]; exact hi) j (by rw [hlc]; exact hj)
  have e : (tileFiles (recoded f noCover) noCover.r.area noCover.r.area .mz .n).isSome ↔
      Dir.n ∈ (tileStep (recoded f noCover) (recoded f noCover).r.area (recoded f noCover).r.area).1.mz.map Prod.fst := by
    unfold tileFiles savedFile
    simp only [Option.isSome_map]
    exact lookup_isSome_iff _ _
  rw [e, s2, hg]
  by_cases h0 : f 0 = 0
  · have ht := C69_terrain_outputs mzFormula 100 (by norm_num) (by norm_num) (cutLandcover (recoded f noCover).lr
      (recoded f noCover).lcv (clipInfo (recoded f noCover).r (recoded f noCover).r.area) 0)
      (recoded f noCover).terrainTable id _ _ rfl rfl ⟨0, by rw [hlr]; exact Nat.succ_pos 2, 0,
        by rw [hlc]; exact Nat.succ_pos 2, by
          rw [class2mz_fold]
          simp only [hval 0 (by norm_num) 0 (by norm_num)]
          norm_num [recoded, noCover, h0]
          have := abs_lt.mp C27_value_at_one_metre
          linarith [this.1]⟩ (by
        rw [hlr]
        intro d
        have h1 : (terrainWidths d (100 : ℝ)).2 ≤ 2 := by
          unfold terrainWidths
          split_ifs
          · norm_num [around]
          · norm_num [pyInt]
        have : ((recoded f noCover).land.rows : ℤ) = 3 := rfl
        rw [this]
        omega)
    rw [ht.2.1]
    simp [h0]
  · have ht := C26_no_known_category_no_output mzFormula 100 (cutLandcover (recoded f noCover).lr
      (recoded f noCover).lcv (clipInfo (recoded f noCover).r (recoded f noCover).r.area) 0)
      (recoded f noCover).terrainTable id (by rw [hlr]; exact Nat.succ_pos 2) (by rw [hlc]; exact Nat.succ_pos 2)
      (fun i hi j hj r hr => by
        rw [hval i (by rw [hlr] at hi; exact hi) j (by rw [hlc] at hj; exact hj)]
        have : r = ⟨f 0, 1⟩ := by simpa [recoded, noCover] using hr
        rw [this]
        exact h0)
    rw [ht]
    simp [h0]

/-- **C140 is false of the code** for recodings that move 0: a table for which 0 is a class gives the cells without land
cover a terrain multiplier; if the class is 5, they have none. -/
theorem C140_zero : ¬ ∀ (f : ℤ → ℤ), Function.Injective f → f (-99) = -99 → ∀ (c : Inputs) (EB E : Extent ℝ),
    tileFiles (recoded f c) EB E = tileFiles c EB E := by
  intro hall
  have h := congrFun (congrFun (hall (Equiv.swap 0 5) (Equiv.swap 0 5).injective (by decide) noCover noCover.r.area
    noCover.r.area) .mz) .n
  have h1 := (noCover_mz id).mpr rfl
  have e : recoded id noCover = noCover := by
    simp [recoded, noCover, Grid.map]
  rw [e, ← h, noCover_mz] at h1
  exact absurd h1 (by decide)

/-- **C140 is false of the code** for recodings to -99: a class given this number has no shielding multiplier. -/
theorem C140_minus_99 : ¬ ∀ (f : ℤ → ℤ), Function.Injective f → f 0 = 0 → ∀ (table : List (ℤ × ℝ)) (data : Grid ℤ),
    class2ms none (table.map fun x => (f x.1, x.2)) (data.map f) = class2ms none table data := by
  intro hall
  have h := congrArg (fun g => g.val 0 0) (hall (Equiv.swap (-99) 1) (Equiv.swap (-99) 1).injective (by decide)
    [(1, 85)] ⟨1, 1, fun _ _ => 1⟩)
  have e : (Equiv.swap (-99) 1 : ℤ ≃ ℤ) 1 = -99 := by decide
  simp only [class2ms, Grid.map, class2msCell, e] at h
  norm_num [reduceCtorEq] at h
  exact absurd (h (fun h => by cases h)) (by simp)

/-! ### The hypotheses can be met -/

/-- Cities and suburbs exchange their numbers, and the rows of the table their places. -/
example : Function.Injective (Equiv.swap (1 : ℤ) 5) ∧ Equiv.swap (1 : ℤ) 5 0 = 0 ∧ Equiv.swap (1 : ℤ) 5 (-99) = -99 :=
  ⟨(Equiv.swap (1 : ℤ) 5).injective, by decide, by decide⟩

/-- A table with a row that is overridden by a later one and a row that is not used. -/
example : (∀ code, Occurs noCover code → ∀ v, Gives [(0, 2), (7, 3), (0, 1)] code v ↔
      Gives (roughnessRows noCover) code v) ∧
    ∀ code, Occurs noCover code → ∀ v, Gives [(-3, 2), (0, 100), (-4, 1)] code v ↔ Gives noCover.shieldTable code v := by
  have hocc : ∀ code, Occurs noCover code → code = 0 := by
    rintro code (h | ⟨i, -, j, -, h⟩)
    · exact h
    · cases h
  constructor
  · intro code hc v
    rw [hocc code hc]
    exact (gives_append_same [(0, 2), (7, 3)] 0 (1) v).trans (gives_append_same [] 0 (1) v).symm
  · intro code hc v
    rw [hocc code hc]
    exact (gives_append_other [(-3, 2), (0, 100)] (-4) 0 1 v (by norm_num)).trans
      ((gives_append_same [(-3, 2)] 0 100 v).trans (gives_append_same [] 0 100 v).symm)

/-- `noCover` with tables of two classes each. -/
noncomputable def twoRows : Inputs := withRows noCover [(0, 1), (5, 0.2)] [(0, 100), (5, 90)]

/-- The rows exchange their places. -/
example (EB E : Extent ℝ) : tileFiles (withRows twoRows [(5, 0.2), (0, 1)] [(5, 90), (0, 100)]) EB E =
    tileFiles twoRows EB E :=
  (C140_order twoRows _ _ (by simp [twoRows, roughnessRows, withRows]) (by simp [twoRows, withRows])
    (.swap _ _ _) (.swap _ _ _) EB E).2

end WindMult
