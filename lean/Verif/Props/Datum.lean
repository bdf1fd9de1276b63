import Verif.Spec.Datum
import Verif.Props.MapShift
import Verif.Props.Recoding
import Verif.Props.SlopeAspect
import Verif.Props.TopoLine
import Verif.Proofs.Seamless

/-!
# C142: the same country higher or lower
-/

set_option autoImplicit false

namespace WindMult
open Spec

/-! ### Lines and rasters -/

/-- The multipliers of two lines, one a whole number of metres above the other. -/
theorem lines_raised {x x' : Line ℝ} (hs : x'.size = x.size) (h : ℤ) (hv : ∀ i < x.size, x'.val i = x.val i + h)
    (ds : ℝ) (hds : 0 < ds) {m m' : Line ℝ} (hm : multiplierCalc x ds = .ok m) (hm' : multiplierCalc x' ds = .ok m')
    (t : ℕ) (ht : t < x.size) : m'.val t = m.val t := by
  obtain ⟨a, a1, a2⟩ := multiplierCalc_exact x' ds hds
  obtain ⟨b, b1, b2⟩ := multiplierCalc_exact ⟨x.size, fun i => x.val i + (h : ℝ)⟩ ds hds
  rw [hm'] at a1
  rw [C50_datum x h ds, hm] at b1
  cases a1
  cases b1
  refine IsGreatest.unique (lineMultiplier_congr (y := x'.wholeMetres)
    (z := Line.wholeMetres ⟨x.size, fun i => x.val i + (h : ℝ)⟩) hs (fun i hi => ?_) ds t _ (a2 t (hs ▸ ht))) (b2 t ht)
  have hi : i < x.size := by rw [← hs]; exact hi
  simp only [Line.wholeMetres, hv i hi]

/-- `g'` has the elevations of `g`, `h` metres higher. -/
def Above (h : ℝ) (g' g : Grid ℝ) : Prop :=
  g'.rows = g.rows ∧ g'.cols = g.cols ∧ ∀ i < g.rows, ∀ j < g.cols, g'.val i j = g.val i j + h

theorem topoLines_raised {g' g : Grid ℝ} (hr : 0 < g.rows) (hc : 0 < g.cols) (h : ℤ) (ha : Above h g' g) (d : Dir)
    (ds : ℝ) (hds : 0 < ds) :
    topoLines g.rows g.cols d (g'.map some).flattenT ds (startIdx g.rows g.cols d) (fun _ => 1) =
      topoLines g.rows g.cols d (g.map some).flattenT ds (startIdx g.rows g.cols d) (fun _ => 1) := by
  rw [topoLines_eq, topoLines_eq]
  have hf : ∀ l : Line ℝ, ∃ m, multiplierCalc l ds = .ok m := fun l => by
    obtain ⟨m, h, _⟩ := multiplierCalc_spec l ds
    exact ⟨m, h⟩
  obtain ⟨p, p1, p2, p3⟩ := linesWith_spec (fun l => multiplierCalc l ds) hf g.rows g.cols hr hc d
    (g'.map some).flattenT (startIdx g.rows g.cols d) (fun _ => 1) (List.nodup_dedup _) fun s hs => hs
  obtain ⟨q, q1, q2, q3⟩ := linesWith_spec (fun l => multiplierCalc l ds) hf g.rows g.cols hr hc d
    (g.map some).flattenT (startIdx g.rows g.cols d) (fun _ => 1) (List.nodup_dedup _) fun s hs => hs
  rw [p1, q1]
  congr 1
  funext n
  by_cases hn : ∀ s ∈ startIdx g.rows g.cols d, ∀ k ∈ makePath g.rows g.cols s d, n ≠ k.toNat
  · rw [p2 n hn, q2 n hn]
  · push Not at hn
    obtain ⟨s, hs, k, hk, rfl⟩ := hn
    obtain ⟨t, ht, rfl⟩ := List.getElem_of_mem hk
    obtain ⟨m', m1, m2⟩ := p3 s hs t ht
    obtain ⟨m, m3, m4⟩ := q3 s hs t ht
    rw [m2, m4]
    refine lines_raised (x := lineAlong (g.map some).flattenT (makePath g.rows g.cols s d))
      (x' := lineAlong (g'.map some).flattenT (makePath g.rows g.cols s d)) rfl h (fun i hi => ?_) ds hds m3 m1 t ht
    have hi : i < (makePath g.rows g.cols s d).length := hi
    simp only [lineAlong, List.getElem?_eq_getElem hi]
    obtain ⟨r, c, l, -, -, -, e1, e2⟩ := startIdx_path g.rows g.cols hr hc d s hs
    obtain ⟨w, hw⟩ : ∃ w, (makePath g.rows g.cols s d)[i] = w := ⟨_, rfl⟩
    have hmem : w ∈ makePath g.rows g.cols s d := hw ▸ List.getElem_mem hi
    rw [hw]
    rw [e2, List.mem_map] at hmem
    obtain ⟨u, hu, eu⟩ := hmem
    have hin := e1.2.1 u (List.mem_range.mp hu)
    simp only [Nat.cast_zero, zero_sub] at hin
    obtain ⟨b1, b2⟩ := cellIndex_range g.rows g.cols _ _ hin
    rw [eu] at b1 b2
    have hlt : w.toNat < g.rows * g.cols := by
      have : w < ((g.rows * g.cols : ℕ) : ℤ) := by push_cast; exact b2
      omega
    simp only [Grid.flattenT, Grid.map, ha.1, Option.getD_some]
    exact ha.2.2 _ (Nat.mod_lt _ hr) _ (Nat.div_lt_of_lt_mul hlt)

theorem topoDir_raised {g' g : Grid ℝ} (hr : 0 < g.rows) (hc : 0 < g.cols) (h : ℤ) (ha : Above h g' g) (d : Dir)
    (cs : ℝ) (hcs : 0 < cs) (xl yu : ℝ) (hT : ¬ (143 < xl ∧ 40 < yu)) :
    topoDir (g'.map some) cs (√2) xl yu d = topoDir (g.map some) cs (√2) xl yu d := by
  have hl : ∀ ds : ℝ, 0 < ds → topoLines (g'.map some).rows (g'.map some).cols d (g'.map some).flattenT ds
      (startIdx (g'.map some).rows (g'.map some).cols d) (fun _ => 1) =
      topoLines (g.map some).rows (g.map some).cols d (g.map some).flattenT ds
      (startIdx (g.map some).rows (g.map some).cols d) (fun _ => 1) := by
    intro ds hds
    have := topoLines_raised hr hc h ha d ds hds
    simp only [Grid.map, ha.1, ha.2.1] at this ⊢
    exact this
  have hsp : 0 < (if d.letters.length = 2 then cs * √2 else cs) := by split_ifs <;> positivity
  unfold topoDir topoRaw
  simp only [if_neg hT, hl _ hsp]
  simp only [Grid.map, ha.1, ha.2.1]

theorem edge_raised {g' g : Grid ℝ} (hr : 0 < g.rows) (hc : 0 < g.cols) (h : ℝ) (ha : Above h g' g) (r c : ℤ) :
    g'.edge r c = (g.map (· + h)).edge r c := by
  unfold Grid.edge
  rw [ha.1, ha.2.1]
  exact ha.2.2 _ (by omega) _ (by omega)

theorem slope_raised {g' g : Grid ℝ} (hr : 0 < g.rows) (hc : 0 < g.cols) (h : ℝ) (ha : Above h g' g)
    (px py x y : ℝ) (i j : ℕ) :
    slopeAspect (g'.map some) px py x y i j = slopeAspect (g.map some) px py x y i j := by
  rw [← C40_datum_invariant (g.map some) h]
  have hw : window3 (g'.map some) i j = window3 ((g.map some).map (Option.map (· + h))) i j := by
    have he : ∀ r c, (g'.map some).edge r c = ((g.map some).map (Option.map (· + h))).edge r c := fun r c =>
      congrArg some (edge_raised hr hc h ha r c)
    unfold window3
    simp only [he]
  unfold slopeAspect dzdx dzdy sobelX sobelY
  rw [hw]
  rfl

/-! ### The files of a tile -/

theorem dem_above (c : Inputs) (up : ℝ) (hpw : 0 < c.r.gt1) (hph : c.r.gt5 < 0) (hup : 0 ≤ up) (k : ℕ)
    (hk : k < (TileGrid.init up c.r).numTiles) (B : Limits) (EB : Extent ℝ)
    (hB : (TileGrid.init up c.r).getGridlimitBuffer k = .ok B)
    (hEB : (TileGrid.init up c.r).getTileExtentBuffer k = .ok EB)
    (hdata : ∀ px py : ℕ, B.Has px py → c.dem.val py px ≠ none) (h : ℝ) :
    0 < (cutDem c.r c.dem EB 0).rows ∧ 0 < (cutDem c.r c.dem EB 0).cols ∧
      Above h (cutDem c.r (raisedInputs h c).dem EB 0) (cutDem c.r c.dem EB 0) := by
  have hnear : EB.Near c.r.gt1 (-c.r.gt5) EB := by
    simp only [Extent.Near, sub_self, abs_zero]
    refine ⟨?_, ?_, ?_, ?_⟩ <;> linarith
  obtain ⟨a1, a2, a3⟩ := C78_dem_tile_is_block up c.r hpw hph hup (raisedInputs h c).dem (0 : ℝ) k B EB EB hB hEB hnear
  obtain ⟨b1, b2, b3⟩ := C78_dem_tile_is_block up c.r hpw hph hup c.dem (0 : ℝ) k B EB EB hB hEB hnear
  obtain ⟨L, B', -, e2, e3, e4, -⟩ := C03_buffer_surrounds_core up c.r hpw hph hup k hk
  rw [hB] at e2
  cases e2
  refine ⟨by omega, by omega, by omega, by omega, fun i hi j hj => ?_⟩
  have hh : B.Has (B.x1.toNat + j) (B.y1.toNat + i) := ⟨by omega, by omega, by omega, by omega⟩
  have f1 := a3 _ _ hh
  have f2 := b3 _ _ hh
  rw [Nat.add_sub_cancel_left, Nat.add_sub_cancel_left] at f1 f2
  obtain ⟨z, hz⟩ := Option.ne_none_iff_exists'.mp (hdata _ _ hh)
  rw [f1, f2]
  simp [raisedInputs, Grid.map, hz]

/-- **C142** *Full claim:* if the whole country is higher or lower by the same amount, every multiplier file stays the
same.  False (`C142_sea`, `C142_gap`, `C142_fraction`, `C142_tasmania`).  *Proved:* the terrain and shielding files of a
tile stay the same, whatever the amount, if the DEM has no gaps there and the tile is not taken for empty before or
after. *Missing:* gaps, tiles taken for empty. -/
theorem C142_terrain_shielding_partial (c : Inputs) (up : ℝ) (hpw : 0 < c.r.gt1) (hph : c.r.gt5 < 0) (hup : 0 ≤ up)
    (k : ℕ) (hk : k < (TileGrid.init up c.r).numTiles) (B : Limits) (EB E : Extent ℝ)
    (hB : (TileGrid.init up c.r).getGridlimitBuffer k = .ok B)
    (hEB : (TileGrid.init up c.r).getTileExtentBuffer k = .ok EB)
    (hdata : ∀ px py : ℕ, B.Has px py → c.dem.val py px ≠ none) (h : ℝ)
    (hck : c.checksum (cutDem c.r (raisedInputs h c).dem EB 0) = 0 ↔ c.checksum (cutDem c.r c.dem EB 0) = 0) (d : Dir) :
    tileFiles (raisedInputs h c) EB E .mz d = tileFiles c EB E .mz d ∧
      tileFiles (raisedInputs h c) EB E .ms d = tileFiles c EB E .ms d := by
  obtain ⟨h1, h2, ha⟩ := dem_above c up hpw hph hup k hk B EB hB hEB hdata h
  have hs := slope_raised h1 h2 h ha
  have key : (tileStep (raisedInputs h c) EB E).1.mz = (tileStep c EB E).1.mz ∧
      (tileStep (raisedInputs h c) EB E).1.ms = (tileStep c EB E).1.ms := by
    unfold tileStep
    simp only [show (raisedInputs h c).r = c.r from rfl, show (raisedInputs h c).lr = c.lr from rfl,
      show (raisedInputs h c).lcv = c.lcv from rfl, show (raisedInputs h c).terrainTable = c.terrainTable from rfl,
      show (raisedInputs h c).shieldTable = c.shieldTable from rfl,
      show (raisedInputs h c).pixelSizes = c.pixelSizes from rfl,
      show (raisedInputs h c).checksum = c.checksum from rfl, hs, ha.1, ha.2.1, hck]
    split_ifs
    · exact ⟨rfl, rfl⟩
    · cases c.pixelSizes (clipInfo c.r EB) with
      | error e => exact ⟨rfl, rfl⟩
      | ok s =>
        obtain ⟨xm, ym⟩ := s
        simp only
        split <;> exact ⟨rfl, rfl⟩
  exact ⟨by simp only [tileFiles, key.1]; rfl, by simp only [tileFiles, key.2]; rfl⟩

theorem topomult_raised {g' g : Grid ℝ} (hr : 0 < g.rows) (hc : 0 < g.cols) (h : ℤ) (ha : Above h g' g)
    (cs : ℝ) (hcs : 0 < cs) (xl yu : ℝ) (hT : ¬ (143 < xl ∧ 40 < yu)) (clip : Grid (Option ℝ) → Grid (Option ℝ))
    (ds : List Dir) (acc : List (Dir × Grid (Option ℝ))) :
    topomult (g'.map some) cs (√2) xl yu clip ds acc = topomult (g.map some) cs (√2) xl yu clip ds acc := by
  induction ds generalizing acc with
  | nil => rfl
  | cons d ds ih =>
    unfold topomult
    rw [topoDir_raised hr hc h ha d cs hcs xl yu hT]
    cases topoDir (g.map some) cs (√2) xl yu d with
    | error x => rfl
    | ok g => exact ih _

/-- **C142** *Full claim:* as above.  *Proved:* all files of a tile stay the same, and the computation ends in the same
way, if moreover the amount is a whole number of metres and the corner of the tile is not in Tasmania.  *Missing:*
gaps, tiles taken for empty, fractions of metres, Tasmania. -/
theorem C142_tile_partial (c : Inputs) (up : ℝ) (hpw : 0 < c.r.gt1) (hph : c.r.gt5 < 0) (hup : 0 ≤ up)
    (k : ℕ) (hk : k < (TileGrid.init up c.r).numTiles) (B : Limits) (EB E : Extent ℝ)
    (hB : (TileGrid.init up c.r).getGridlimitBuffer k = .ok B)
    (hEB : (TileGrid.init up c.r).getTileExtentBuffer k = .ok EB)
    (hdata : ∀ px py : ℕ, B.Has px py → c.dem.val py px ≠ none) (h : ℤ)
    (hck : c.checksum (cutDem c.r (raisedInputs h c).dem EB 0) = 0 ↔ c.checksum (cutDem c.r c.dem EB 0) = 0)
    (hw : ∀ xm ym, c.pixelSizes (clipInfo c.r EB) = .ok (xm, ym) → 0 < gridWidth xm ym)
    (hT : ¬ CornerInTasmania EB) :
    tileStep (raisedInputs h c) EB E = tileStep c EB E ∧ tileFiles (raisedInputs h c) EB E = tileFiles c EB E := by
  obtain ⟨h1, h2, ha⟩ := dem_above c up hpw hph hup k hk B EB hB hEB hdata h
  have hs := slope_raised h1 h2 h ha
  have hT' : ¬ (143 < (clipInfo c.r EB).gt0 ∧ 40 < -(clipInfo c.r EB).gt3) := fun x => hT ⟨x.1, by
    have := x.2
    simp only [clipInfo] at this
    linarith⟩
  have key : tileStep (raisedInputs h c) EB E = tileStep c EB E := by
    unfold tileStep
    simp only [show (raisedInputs h c).r = c.r from rfl, show (raisedInputs h c).lr = c.lr from rfl,
      show (raisedInputs h c).lcv = c.lcv from rfl, show (raisedInputs h c).terrainTable = c.terrainTable from rfl,
      show (raisedInputs h c).shieldTable = c.shieldTable from rfl,
      show (raisedInputs h c).pixelSizes = c.pixelSizes from rfl,
      show (raisedInputs h c).checksum = c.checksum from rfl, hs, ha.1, ha.2.1, hck]
    split_ifs
    · rfl
    · cases hp : c.pixelSizes (clipInfo c.r EB) with
      | error e => rfl
      | ok s =>
        obtain ⟨xm, ym⟩ := s
        simp only [topomult_raised h1 h2 h ha _ (hw xm ym hp) _ _ hT']
  refine ⟨key, ?_⟩
  funext m d
  cases m <;> simp only [tileFiles, key] <;> rfl

/-! ### Where the claim is false -/

/-- The country of `noCover`, 1 m above the sea; the checksum of a tile of zeros is 0. -/
noncomputable def shore : Inputs := { noCover with checksum := fun g => open Classical in if g.val 0 0 = 0 then 0 else 1 }

theorem shore_cut (c : Inputs) (hr : c.r = noCover.r) (z : ℝ) (hd : c.dem = ⟨3, 3, fun _ _ => some z⟩) :
    (cutDem c.r c.dem noCover.r.area 0).val 0 0 = z := by
  rw [hr, hd]
  norm_num [cutDem, reprojectNearest, clipInfo, noCover, RasterInfo.area, around]

/-- **C142 is false of the code** for a tile that comes to lie at sea level: it is taken for empty and gets no files. -/
theorem C142_sea : ¬ ∀ (h : ℤ) (c : Inputs) (EB E : Extent ℝ), (∀ i j, c.dem.val i j ≠ none) → ¬ CornerInTasmania EB →
    tileFiles (raisedInputs h c) EB E = tileFiles c EB E := by
  intro hall
  have hT : ¬ CornerInTasmania noCover.r.area := by
    norm_num [CornerInTasmania, noCover, RasterInfo.area]
  have e := congrFun (congrFun (hall (-1) shore noCover.r.area noCover.r.area (fun i j => by simp [shore, noCover]) hT)
    .mz) .n
  have h1 : tileFiles shore noCover.r.area noCover.r.area .mz .n = tileFiles noCover noCover.r.area noCover.r.area .mz
      .n := by
    have : tileStep shore noCover.r.area noCover.r.area = tileStep noCover noCover.r.area noCover.r.area := by
      have h0 := shore_cut shore rfl 1 rfl
      have h3 : shore.checksum (cutDem shore.r shore.dem noCover.r.area 0) ≠ 0 := by
        show (if _ then 0 else 1) ≠ 0
        rw [h0, if_neg one_ne_zero]
        exact one_ne_zero
      unfold tileStep
      rw [if_neg h3, if_neg (show noCover.checksum _ ≠ 0 from one_ne_zero)]
      rfl
    simp only [tileFiles, this]
    rfl
  have h2 : tileFiles (raisedInputs (-1 : ℤ) shore) noCover.r.area noCover.r.area .mz .n = none := by
    have : (tileStep (raisedInputs (-1 : ℤ) shore) noCover.r.area noCover.r.area).1.mz = [] := by
      unfold tileStep
      have h0 := shore_cut (raisedInputs (-1 : ℤ) shore) rfl 0 (by simp [raisedInputs, shore, noCover, Grid.map])
      have h3 : (raisedInputs (-1 : ℤ) shore).checksum (cutDem (raisedInputs (-1 : ℤ) shore).r
          (raisedInputs (-1 : ℤ) shore).dem noCover.r.area 0) = 0 := if_pos h0
      rw [if_pos h3]
    simp only [tileFiles, this]
    rfl
  have h4 := (noCover_mz id).mpr rfl
  have e' : recoded id noCover = noCover := by
    simp [recoded, noCover, Grid.map]
  rw [e', ← h1, ← e, h2] at h4
  exact absurd h4 (by simp)

/-- A topographic file of a raster of 3 columns, before clipping, at the middle cell. -/
def middleMt (dem : List (List (Option ℚ))) (h xLeft yUpper : ℚ) : Option ℚ :=
  match topoDir ((cutDem (K := ℚ) ⟨3, dem.length, 0, 1, 0, -1⟩ ⟨dem.length, 3, fun i j =>
      (((dem.getD i []).getD j none).map (· + h))⟩ ⟨0, 0, 3, -(dem.length : ℚ)⟩ 0).map some) 25 (7 / 5) xLeft yUpper .n with
  | .ok g => g.val 1 1
  | .error _ => none

/-- Rows of three equal cells. -/
def rowsOf (l : List (Option ℚ)) : List (List (Option ℚ)) := l.map fun x => [x, x, x]

/-- **C142 is false of the code** where the DEM has gaps: they stay at 0, and the land behind them becomes a hill. -/
theorem C142_gap : middleMt (rowsOf [none, some 1, some 2, some 0, some 0]) 0 150 20 = some 1 ∧
    middleMt (rowsOf [none, some 1, some 2, some 0, some 0]) 20 150 20 = some (9439399 / 8596854) := by
  decide +kernel

/-- **C142 is false of the code** for fractions of metres, because elevations are rounded down first: of a hill of
10.5 m on level ground 10 m remain, or 11 m when it stands half a metre higher. -/
theorem C142_fraction : middleMt (rowsOf [some 0, some 5, some 10.5, some 0, some 0]) 0 150 20 ≠
    middleMt (rowsOf [some 0, some 5, some 10.5, some 0, some 0]) 0.5 150 20 := by
  decide +kernel

/-- **C142 is false of the code** in Tasmania, where the height above the sea counts: level ground at 400 and 600 m. -/
theorem C142_tasmania : middleMt (rowsOf [some 400, some 400, some 400]) 0 150 41 = some 1 ∧
    middleMt (rowsOf [some 400, some 400, some 400]) 200 150 41 = some 1.09 := by
  decide +kernel

/-! ### The hypotheses can be met -/

/-- The tableland of C139 twenty metres higher. -/
example : tileFiles (raisedInputs (20 : ℤ) tableland) tableland.r.area tableland.r.area =
    tileFiles tableland tableland.r.area tableland.r.area := by
  have hk : 0 < (TileGrid.init 0 tableland.r).numTiles := by
    by_contra hk
    have := tableland_tile.2
    unfold TileGrid.getTileExtent at this
    cases hL : (TileGrid.init 0 tableland.r).getGridlimit 0 with
    | error e => rw [hL] at this; cases this
    | ok L => exact hk ((C01_gridlimit_defined_iff 0 tableland.r 0).mp ⟨L, hL⟩)
  obtain ⟨-, B, -, hB, -⟩ := C03_buffer_surrounds_core 0 tableland.r (by norm_num [tableland]) (by norm_num [tableland])
    le_rfl 0 hk
  obtain ⟨xm, ym, h1, h2, -⟩ := tableland_sizes
  refine (C142_tile_partial tableland 0 (by norm_num [tableland]) (by norm_num [tableland]) le_rfl 0 hk B _ _ hB
    tableland_tile.1 (fun px py _ => by simp [tableland]) 20 Iff.rfl (fun x y h => ?_) ?_).2
  · rw [area_info _ (by norm_num [tableland]) (by norm_num [tableland])] at h
    rw [show tableland.pixelSizes tableland.r = pixelSizes 8 tableland.r from rfl, h1] at h
    cases h
    exact h2
  · norm_num [CornerInTasmania, tableland, RasterInfo.area]

end WindMult
