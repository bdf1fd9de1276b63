import Verif.Proofs.Range

/-!
# C98, C99: the values of the final GeoTIFFs
-/

set_option autoImplicit false
set_option linter.unusedSectionVars false

namespace WindMult
open Spec

/-- A value of a GeoTIFF is NaN or lies in the range to be expected of terrain multipliers from `lo`
to `hi`, shielding of at least `sh` and elevations up to `top`; `inner`: the pixel is not on the edge
of the raster, where neighbours are missing in the smoothing of the topographic multiplier. -/
def M3InRange (lo hi sh top : ℝ) (tasmania inner : Prop) (v : NanNum ℝ) : Prop :=
  v = .nan ∨ ∃ x, v = .num x ∧ 4 / 9 * (finalMs sh * lo) ≤ x ∧
    x ≤ hi * (1.539 * (1 + 0.00015 * top)) ∧ (inner → finalMs sh * lo ≤ x) ∧
    (¬ tasmania → x ≤ hi * 1.539)

section
variable {c : Inputs} {up : ℝ} {k : ℕ} {L B : Limits} {E EB : Extent ℝ} {xm ym : Grid ℝ} {gw : ℝ}
  {cat : Grid ℤ}

theorem TileCase.kernel_pos (t : TileCase c up k L B E EB xm ym gw cat) :
    1 ≤ ⌊100 / gw⌋.toNat := by
  have h0 := t.gwPos
  have : (1 : ℤ) ≤ ⌊100 / gw⌋ := by
    rw [Int.le_floor]
    push_cast
    rw [le_div_iff₀ h0]
    linarith [t.gwFine]
  omega

theorem TileCase.buffer_pos (t : TileCase c up k L B E EB xm ym gw cat) :
    1 ≤ (TileGrid.init up c.r).xBuffer ∧ 1 ≤ (TileGrid.init up c.r).yBuffer ∧ 2 ≤ c.r.yDim := by
  have h0 := t.gwPos
  have h1 : 7 ≤ 700 / gw := by
    rw [le_div_iff₀ h0]
    linarith [t.gwFine]
  have a : (1 : ℝ) ≤ (TileGrid.init up c.r).xBuffer := by linarith [t.bufferX]
  have b : (1 : ℝ) ≤ (TileGrid.init up c.r).yBuffer := by linarith [t.bufferY]
  have e : ((2 : ℕ) : ℝ) ≤ c.r.yDim := by push_cast; linarith [t.height]
  exact ⟨by exact_mod_cast a, by exact_mod_cast b, by exact_mod_cast e⟩

theorem IsM3.range (t : TileCase c up k L B E EB xm ym gw cat) (hx : 2 ≤ c.r.xDim)
    {tif : TileTif (NanNum ℝ) (List ℝ × List ℝ)} (h : IsM3 c L B xm ym gw cat tif)
    {lo hi sh top : ℝ} (h0 : 0 ≤ lo) (hlo : lo ≤ 1) (hhi : 1 ≤ hi) (hsh0 : 0 ≤ sh) (hsh1 : sh ≤ 1)
    (htop : 0 ≤ top)
    (hterrain : ∀ row ∈ c.terrainTable,
      lo ≤ roughnessMz row.roughness ∧ roughnessMz row.roughness ≤ hi)
    (hshield : ∀ row ∈ c.shieldTable, 100 * sh ≤ row.2 ∧ row.2 ≤ 100)
    (helev : ∀ i < c.r.yDim, ∀ j < c.r.xDim, c.elevation.val i j ≤ top) {px py : ℕ}
    (hp : L.Has px py) {d : Dir} {g : Grid (NanNum ℝ)} (hg : (d, g) ∈ tif.bands) :
    M3InRange lo hi sh top (143 < c.r.lonEdge B.x1 ∧ c.r.latEdge B.y1 < -40)
      (0 < px ∧ px + 1 < c.r.xDim ∧ 0 < py ∧ py + 1 < c.r.yDim)
      (g.val (py - L.y1.toNat) (px - L.x1.toNat)) := by
  obtain ⟨⟨a0, a1, a2, a3, a4⟩, ⟨b0, b1, b2, b3, b4⟩, g1, g2, g3, g4⟩ := t.geometry
  obtain ⟨w1, w2, w3⟩ := t.buffer_pos
  obtain ⟨hnan, hval⟩ := (h.2.2 d g hg).2.2 px py hp
  obtain ⟨p1, p2, p3, p4⟩ := hp
  by_cases hn : g.val (py - L.y1.toNat) (px - L.x1.toNat) = .nan
  · exact .inl hn
  · right
    rw [hnan] at hn
    push Not at hn
    obtain ⟨m, hm⟩ := Option.ne_none_iff_exists'.mp hn.2
    obtain ⟨hd, s, hf⟩ := exists_fallsTowards
      (riseEast c.elevation py px / xm.val (py - B.y1.toNat) (px - B.x1.toNat))
      (riseNorth c.elevation py px / ym.val (py - B.y1.toNat) (px - B.x1.toNat))
    obtain ⟨x, hx1, hx2⟩ := hval m hd s (Classical.dec _) hn.1 hm hf
    refine ⟨_, hx2, ?_⟩
    -- shielding
    have hm' := shieldMean_range (lo := sh) (hi := 1) t.kernel_pos (by
      intro o _ v hv
      unfold Grid.cellOrOne at hv
      split_ifs at hv
      · exact classMs_range hsh1 hshield _ _ hv
      · cases hv
        exact ⟨hsh1, le_rfl⟩) hm
    let _ : Decidable (InSector d hd) := Classical.dec _
    have hadj := slopeAdjusted_bounds (InSector d hd) m (some s) hm'.2
    have hms0 : finalMs sh ≤ finalMs (slopeAdjusted (InSector d hd) m (some s)) :=
      finalMs_mono hsh0 (hm'.1.trans hadj.1)
    have hms1 : finalMs (slopeAdjusted (InSector d hd) m (some s)) ≤ 1 := by
      rw [← finalMs_one]
      exact finalMs_mono (hsh0.trans (hm'.1.trans hadj.1)) hadj.2
    have hmsp := finalMs_nonneg hsh0
    -- terrain
    have hmz := upwindMean_mem (waterMz c.terrainTable cat) d (terrainWidths d gw).1.toNat
      (terrainWidths d gw).2.toNat py px
      (by show py < cat.rows; rw [t.land.1]; omega) (by show px < cat.cols; rw [t.land.2.1]; omega)
      lo hi (fun a _ b _ => waterMz_range hlo hhi hterrain cat a b)
    -- topography
    have hrow : (((c.elevation.window B).rows : ℕ) : ℤ) = B.y2 - B.y1 := by
      simp only [Grid.window]; omega
    have hcol : (((c.elevation.window B).cols : ℕ) : ℤ) = B.x2 - B.x1 := by
      simp only [Grid.window]; omega
    have hraw := fun a b => (hx1 a b).range htop (by
      intro i hi' j hj
      refine helev (B.y1.toNat + i) ?_ (B.x1.toNat + j) ?_ <;> omega)
    have hin : InRaster (c.elevation.window B).rows (c.elevation.window B).cols (py - B.y1)
        (px - B.x1) := ⟨by omega, by omega, by omega, by omega⟩
    obtain ⟨t1, t2, t3⟩ := nine_range (by omega) (by omega) hin (x := x) (fun a b => (hraw a b).1)
      (fun a b => (hraw a b).2.1) (fun a b => (hraw a b).2.2.1)
    set mz := upwindMean (waterMz c.terrainTable cat) d (terrainWidths d gw).1.toNat
      (terrainWidths d gw).2.toNat py px
    set ms := finalMs (slopeAdjusted (InSector d hd) m (some s))
    set mt := (∑ a ∈ ({-1, 0, 1} : Finset ℤ), ∑ b ∈ ({-1, 0, 1} : Finset ℤ), x a b) / 9
    have e0 : 0 ≤ ms := hmsp.trans hms0
    have e1 : 0 ≤ mz := h0.trans hmz.1
    have e2 : finalMs sh * lo ≤ ms * mz := mul_le_mul hms0 hmz.1 h0 e0
    have e3 : ms * mz ≤ hi := by
      calc ms * mz ≤ 1 * hi := mul_le_mul hms1 hmz.2 e1 zero_le_one
        _ = hi := one_mul _
    have e4 : 0 ≤ ms * mz := mul_nonneg e0 e1
    have e5 : 0 ≤ mt := le_trans (by norm_num) t1
    refine ⟨?_, mul_le_mul e3 t2 e5 (by linarith), fun hi' => ?_, fun hnt => ?_⟩
    · rw [mul_comm]
      exact mul_le_mul e2 t1 (by norm_num) e4
    · calc finalMs sh * lo = finalMs sh * lo * 1 := (mul_one _).symm
        _ ≤ ms * mz * mt := mul_le_mul e2
          (t3 (by omega) (by omega) (by omega) (by omega)) zero_le_one e4
    · exact mul_le_mul e3 (nine_range (by omega) (by omega) hin (x := x) (fun a b => (hraw a b).1)
        (fun a b => (hraw a b).2.1) (fun a b => (hraw a b).2.2.2 hnt)).2.1 e5 (by linarith)

/-- The maximum of values in the range is in the range. -/
theorem IsM3Max.range {tif : TileTif (NanNum ℝ) (List ℝ × List ℝ)}
    (hb : ∀ d, ∃ g, (d, g) ∈ tif.bands ∧ ∀ g', (d, g') ∈ tif.bands → g' = g)
    {mx : Raster (NanNum ℝ) (List ℝ × List ℝ)} (h : IsM3Max L tif mx) {lo hi sh top : ℝ}
    {tasmania inner : Prop} {px py : ℕ} (hp : L.Has px py)
    (hr : ∀ d g, (d, g) ∈ tif.bands → M3InRange lo hi sh top tasmania inner
      (g.val (py - L.y1.toNat) (px - L.x1.toNat))) :
    M3InRange lo hi sh top tasmania inner (mx.band.val (py - L.y1.toNat) (px - L.x1.toNat)) := by
  obtain ⟨h1, h2⟩ := h.2.2 px py hp
  by_cases hn : mx.band.val (py - L.y1.toNat) (px - L.x1.toNat) = .nan
  · exact .inl hn
  · rw [h1] at hn
    push Not at hn
    choose g hg hu using hb
    have hv : ∀ d, ∃ x, (g d).val (py - L.y1.toNat) (px - L.x1.toNat) = .num x := fun d => by
      rcases hr d _ (hg d) with hc | ⟨x, hx, -⟩
      · exact absurd hc (hn d _ (hg d))
      · exact ⟨x, hx⟩
    choose p hp' using hv
    obtain ⟨d, hd, -⟩ := h2 p (fun d g' hg' => by rw [hu d g' hg', hp' d])
    rw [hd, ← hp' d]
    exact hr d _ (hg d)

theorem bands_unique {tif : TileTif (NanNum ℝ) (List ℝ × List ℝ)}
    (h : ∀ d, (tif.bands.map Prod.fst).count d = 1) (d : Dir) :
    ∃ g, (d, g) ∈ tif.bands ∧ ∀ g', (d, g') ∈ tif.bands → g' = g := by
  have hmem : d ∈ tif.bands.map Prod.fst := by
    rw [← List.count_pos_iff, h d]
    exact one_pos
  obtain ⟨⟨d', g⟩, hg, rfl⟩ := List.mem_map.mp hmem
  refine ⟨g, hg, fun g' hg' => ?_⟩
  have hnd : (tif.bands.map Prod.fst).Nodup := List.nodup_iff_count_le_one.mpr fun d => (h d).le
  have := List.inj_on_of_nodup_map hnd hg' hg rfl
  exact congrArg Prod.snd this

end

section
variable {c : Inputs} {up : ℝ} {cat : Grid ℤ} {str : ℝ → List Char} {out : List Char}
  {tiles : List (List Char × Extent ℝ × Extent ℝ)}

/-- **C98** After a completed run, every pixel of every direction in every GeoTIFF, and of the maxima,
is NaN or lies between the product of the smallest shielding and terrain multipliers of the tables and
1.539 times the largest terrain multiplier of the table; in Tasmania the upper bound rises with the
largest elevation, on the edge of the raster the lower bound is 4/9 of that. -/
theorem C98_range (h : RunCase c up cat str out tiles) (hx : 2 ≤ c.r.xDim) (nW : ℕ)
    (st0 : Store (NanNum ℝ) (List ℝ × List ℝ)) (j : ℕ) (s : RunState (NanNum ℝ) (List ℝ × List ℝ))
    (hrun : RunSteps (c.runCfg out nW tiles) j ((c.runCfg out nW tiles).start st0) s)
    (hdone : (c.runCfg out nW tiles).Done s)
    (lo hi sh top : ℝ) (h0 : 0 ≤ lo) (hlo : lo ≤ 1) (hhi : 1 ≤ hi) (hsh0 : 0 ≤ sh) (hsh1 : sh ≤ 1)
    (htop : 0 ≤ top)
    (hterrain : ∀ row ∈ c.terrainTable,
      lo ≤ roughnessMz row.roughness ∧ roughnessMz row.roughness ≤ hi)
    (hshield : ∀ row ∈ c.shieldTable, 100 * sh ≤ row.2 ∧ row.2 ≤ 100)
    (helev : ∀ i < c.r.yDim, ∀ j < c.r.xDim, c.elevation.val i j ≤ top)
    (px py : ℕ) (hpx : px < c.r.xDim) (hpy : py < c.r.yDim) :
    ∃ k L B n, (TileGrid.init up c.r).getGridlimit k = .ok L ∧ L.Has px py ∧
      (TileGrid.init up c.r).getGridlimitBuffer k = .ok B ∧
      (TileGrid.init up c.r).getTilename str k = .ok n ∧
      ((∃ EB, (TileGrid.init up c.r).getTileExtentBuffer k = .ok EB ∧
          c.checksum (cutDem c.r c.dem EB 0) = 0 ∧ s.store (pjoin out (m3File n)) = none ∧
          s.store (pjoin out (m3MaxFile n)) = none) ∨
        ∃ tif mx, s.store (pjoin out (m3File n)) = some (.tif tif) ∧
          s.store (pjoin out (m3MaxFile n)) = some (.maxTif mx) ∧
          ∀ v, v = mx.band.val (py - L.y1.toNat) (px - L.x1.toNat) ∨
            (∃ d g, (d, g) ∈ tif.bands ∧ v = g.val (py - L.y1.toNat) (px - L.x1.toNat)) →
            M3InRange lo hi sh top (143 < c.r.lonEdge B.x1 ∧ c.r.latEdge B.y1 < -40)
              (0 < px ∧ px + 1 < c.r.xDim ∧ 0 < py ∧ py + 1 < c.r.yDim) v) := by
  obtain ⟨k, L, n, hL, hp, -, hn, hcase⟩ := C96_every_pixel h nW st0 j s hrun hdone px py hpx hpy
  have hk := (C01_gridlimit_defined_iff up c.r k).mp ⟨L, hL⟩
  obtain ⟨-, B, -, hB, -⟩ := C03_buffer_surrounds_core up c.r h.pw h.ph h.upPos k hk
  refine ⟨k, L, B, n, hL, hp, hB, hn, ?_⟩
  rcases hcase with hempty | ⟨B', E, EB, xm, ym, gw, tif, mx, t, e1, e2, e3, e4⟩
  · exact .inl hempty
  · have hB' := t.limitsB
    rw [hB] at hB'
    cases hB'
    refine .inr ⟨tif, mx, e1, e3, fun v hv => ?_⟩
    have hall : ∀ d g, (d, g) ∈ tif.bands → M3InRange lo hi sh top
        (143 < c.r.lonEdge B.x1 ∧ c.r.latEdge B.y1 < -40)
        (0 < px ∧ px + 1 < c.r.xDim ∧ 0 < py ∧ py + 1 < c.r.yDim)
        (g.val (py - L.y1.toNat) (px - L.x1.toNat)) := fun d g hg =>
      e2.range t hx h0 hlo hhi hsh0 hsh1 htop hterrain hshield helev hp hg
    rcases hv with rfl | ⟨d, g, hg, rfl⟩
    · exact e4.range (bands_unique e2.2.1) hp hall
    · exact hall d g hg

/-! ### The table of the repository -/

/-- Categories and roughness lengths of `/repo/tests/test_data/terrain_classification.csv` 2-14
(columns `CATEGORY`, `ROUGHNESS_LENGTH_m`). -/
noncomputable def shippedTerrain : List (TerrainRow ℤ ℝ) :=
  [⟨1, 2⟩, ⟨2, 1⟩, ⟨3, 0.8⟩, ⟨4, 0.4⟩, ⟨5, 0.2⟩, ⟨6, 0.08⟩, ⟨7, 0.06⟩, ⟨8, 0.04⟩, ⟨9, 0.02⟩,
    ⟨10, 0.008⟩, ⟨11, 0.006⟩, ⟨12, 0.004⟩, ⟨13, 0.002⟩]

/-- Categories and shielding percentages of `/repo/tests/test_data/terrain_classification.csv` 2-14
(columns `CATEGORY`, `SHIELDING`). -/
noncomputable def shippedShield : List (ℤ × ℝ) :=
  [(1, 85), (2, 100), (3, 88), (4, 90), (5, 90), (6, 100), (7, 100), (8, 100), (9, 100), (10, 100),
    (11, 100), (12, 100), (13, 100)]

theorem roughnessMz_anti {a b : ℝ} (ha : 1 / 1000 ≤ a) (hab : a ≤ b) :
    roughnessMz b ≤ roughnessMz a := by
  rcases hab.lt_or_eq with h | rfl
  · rw [← mzFormula_eq, ← mzFormula_eq]
    exact (C27_rougher_is_lower a b (by linarith) (mz_defined ha) h).le
  · exact le_rfl

theorem shippedTerrain_range : ∀ row ∈ shippedTerrain,
    0.6805 ≤ roughnessMz row.roughness ∧ roughnessMz row.roughness ≤ 1.1052 := by
  obtain ⟨h1, -, h3⟩ := C27_value_at_reference_roughness
  rw [mzFormula_eq, abs_lt] at h1 h3
  have key : ∀ row ∈ shippedTerrain, 0.002 ≤ row.roughness ∧ row.roughness ≤ 2 := by
    intro row hrow
    simp only [shippedTerrain, List.mem_cons, List.not_mem_nil, or_false] at hrow
    rcases hrow with rfl | rfl | rfl | rfl | rfl | rfl | rfl | rfl | rfl | rfl | rfl | rfl | rfl <;>
      norm_num
  intro row hrow
  obtain ⟨k1, k2⟩ := key row hrow
  have a := roughnessMz_anti (a := 0.002) (b := row.roughness) (by norm_num) k1
  have b := roughnessMz_anti (a := row.roughness) (b := 2) (by norm_num at k1 ⊢; linarith) k2
  norm_num at h1 h3 a b ⊢
  constructor <;> linarith

theorem shippedShield_range : ∀ row ∈ shippedShield, 100 * 0.85 ≤ row.2 ∧ row.2 ≤ 100 := by
  intro row hrow
  simp only [shippedShield, List.mem_cons, List.not_mem_nil, or_false] at hrow
  rcases hrow with rfl | rfl | rfl | rfl | rfl | rfl | rfl | rfl | rfl | rfl | rfl | rfl | rfl <;>
    norm_num

/-- **C98** (the table of the repository) With this table, on a DEM outside Tasmania, all values that
are not NaN lie between 0.52 and 1.701, on the edge of the raster between 0.23 and 1.701. -/
theorem C98_shipped_table (h : RunCase c up cat str out tiles) (hx : 2 ≤ c.r.xDim) (nW : ℕ)
    (st0 : Store (NanNum ℝ) (List ℝ × List ℝ)) (j : ℕ) (s : RunState (NanNum ℝ) (List ℝ × List ℝ))
    (hrun : RunSteps (c.runCfg out nW tiles) j ((c.runCfg out nW tiles).start st0) s)
    (hdone : (c.runCfg out nW tiles).Done s)
    (hterrain : c.terrainTable = shippedTerrain) (hshield : c.shieldTable = shippedShield)
    (hmain : c.r.gt0 + c.r.xDim * c.r.gt1 ≤ 143 ∨ -40 ≤ c.r.gt3 + c.r.yDim * c.r.gt5)
    (px py : ℕ) (hpx : px < c.r.xDim) (hpy : py < c.r.yDim) :
    ∃ k L n, (TileGrid.init up c.r).getGridlimit k = .ok L ∧ L.Has px py ∧
      (TileGrid.init up c.r).getTilename str k = .ok n ∧
      ((∃ EB, (TileGrid.init up c.r).getTileExtentBuffer k = .ok EB ∧
          c.checksum (cutDem c.r c.dem EB 0) = 0 ∧ s.store (pjoin out (m3File n)) = none ∧
          s.store (pjoin out (m3MaxFile n)) = none) ∨
        ∃ tif mx, s.store (pjoin out (m3File n)) = some (.tif tif) ∧
          s.store (pjoin out (m3MaxFile n)) = some (.maxTif mx) ∧
          ∀ v, v = mx.band.val (py - L.y1.toNat) (px - L.x1.toNat) ∨
            (∃ d g, (d, g) ∈ tif.bands ∧ v = g.val (py - L.y1.toNat) (px - L.x1.toNat)) →
            v = .nan ∨ ∃ x, v = .num x ∧ 0.23 ≤ x ∧ x ≤ 1.701 ∧
              (0 < px → px + 1 < c.r.xDim → 0 < py → py + 1 < c.r.yDim → 0.52 ≤ x)) := by
  have hbound : ∃ top, 0 ≤ top ∧ ∀ i < c.r.yDim, ∀ j < c.r.xDim, c.elevation.val i j ≤ top := by
    refine ⟨∑ i ∈ Finset.range c.r.yDim, ∑ j ∈ Finset.range c.r.xDim, |c.elevation.val i j|,
      by positivity, fun i hi j hj => ?_⟩
    calc c.elevation.val i j ≤ |c.elevation.val i j| := le_abs_self _
      _ ≤ ∑ j ∈ Finset.range c.r.xDim, |c.elevation.val i j| :=
        Finset.single_le_sum (f := fun j => |c.elevation.val i j|) (fun _ _ => abs_nonneg _)
          (Finset.mem_range.mpr hj)
      _ ≤ _ := Finset.single_le_sum (f := fun i => ∑ j ∈ Finset.range c.r.xDim,
          |c.elevation.val i j|) (fun _ _ => by positivity) (Finset.mem_range.mpr hi)
  obtain ⟨top, htop, helev⟩ := hbound
  obtain ⟨k, L, B, n, hL, hp, hB, hn, hcase⟩ := C98_range h hx nW st0 j s hrun hdone 0.6805 1.1052
    0.85 top (by norm_num) (by norm_num) (by norm_num) (by norm_num) (by norm_num) htop
    (by rw [hterrain]; exact shippedTerrain_range) (by rw [hshield]; exact shippedShield_range) helev
    px py hpx hpy
  refine ⟨k, L, n, hL, hp, hn, ?_⟩
  rcases hcase with hempty | ⟨tif, mx, e1, e2, e3⟩
  · exact .inl hempty
  · refine .inr ⟨tif, mx, e1, e2, fun v hv => ?_⟩
    rcases e3 v hv with hnan | ⟨x, hx', r1, -, r3, r4⟩
    · exact .inl hnan
    · right
      have hfin : finalMs 0.85 = 0.765 := by
        unfold finalMs
        norm_num
      rw [hfin] at r1 r3
      have hnt : ¬ (143 < c.r.lonEdge B.x1 ∧ c.r.latEdge B.y1 < -40) := by
        rintro ⟨w1, w2⟩
        have hk := (C01_gridlimit_defined_iff up c.r k).mp ⟨L, hL⟩
        obtain ⟨L', B', q1, q2, ⟨a0, a1, a2, a3, a4⟩, ⟨b0, b1, b2, b3, b4⟩, -⟩ :=
          C03_buffer_surrounds_core up c.r h.pw h.ph h.upPos k hk
        rw [hB] at q2
        cases q2
        have hpw := h.pw
        have hph := h.ph
        have x1 : (B.x1 : ℝ) ≤ c.r.xDim := by exact_mod_cast (by omega : B.x1 ≤ c.r.xDim)
        have y1 : (B.y1 : ℝ) ≤ c.r.yDim := by exact_mod_cast (by omega : B.y1 ≤ c.r.yDim)
        unfold RasterInfo.lonEdge at w1
        unfold RasterInfo.latEdge at w2
        rcases hmain with hm | hm <;> nlinarith
      have r4 := r4 hnt
      refine ⟨x, hx', ?_, ?_, fun i1 i2 i3 i4 => ?_⟩
      · norm_num at r1 ⊢; linarith
      · norm_num at r4 ⊢; linarith
      · have r3 := r3 ⟨i1, i2, i3, i4⟩
        norm_num at r3 ⊢; linarith

end

/-! ### C99: level ground with a single land-cover category -/

theorem lineMultiplier_flat {y : Line ℝ} {ds x : ℝ} {p : ℕ}
    (hflat : ∀ i, i + 1 < y.size → y.val (i + 1) = y.val i) (h : IsLineMultiplier y ds p x) :
    x = 1 := by
  rcases h.1 with h | ⟨v, r, ⟨-, -, h1, h2, h3⟩, -, -⟩
  · exact h
  · have := h3 v le_rfl h1
    rw [hflat v (by omega)] at this
    exact absurd this (lt_irrefl _)

theorem rawMt_flat {dem : Grid ℝ} {d : Dir} {ds : ℝ} {tas : Prop} [Decidable tas] {r c : ℤ}
    {x e : ℝ} (h : IsRawMt dem d ds tas r c x) (hin : InRaster dem.rows dem.cols r c)
    (hflat : ∀ i < dem.rows, ∀ j < dem.cols, dem.val i j = e) (htas : ¬ tas ∨ e ≤ 500) : x = 1 := by
  obtain ⟨u, n, y, ht, hy, rfl⟩ := h.1 hin
  have hval : ∀ i < n, (transectLine (dem.map some) d r c u n).val i = e := by
    intro i hi
    simp only [transectLine, if_pos hi, Grid.map, Option.getD_some]
    obtain ⟨q1, q2, q3, q4⟩ := ht.2.1 i hi
    exact hflat _ (by omega) _ (by omega)
  rw [lineMultiplier_flat (fun i hi => by
    show (⌊(transectLine (dem.map some) d r c u n).val (i + 1)⌋ : ℝ) =
      ⌊(transectLine (dem.map some) d r c u n).val i⌋
    have : i + 1 < n := hi
    rw [hval _ this, hval _ (by omega)]) hy]
  obtain ⟨q1, q2, q3, q4⟩ := hin
  rw [hflat _ (by omega) _ (by omega)]
  unfold adjustedMt
  simp only [le_refl, if_true]
  rw [if_neg]
  rintro ⟨a, b⟩
  rcases htas with h | h
  · exact h a
  · linarith

theorem fallsTowards_zero : FallsTowards 0 0 0 0 := by
  refine ⟨le_rfl, by norm_num, le_rfl, by norm_num, ?_, ?_⟩ <;> simp

section
variable {c : Inputs} {up : ℝ} {k : ℕ} {L B : Limits} {E EB : Extent ℝ} {xm ym : Grid ℝ} {gw : ℝ}
  {cat : Grid ℤ}

theorem IsM3.uniform (t : TileCase c up k L B E EB xm ym gw cat)
    {tif : TileTif (NanNum ℝ) (List ℝ × List ℝ)} (h : IsM3 c L B xm ym gw cat tif)
    {e p : ℝ} {κ : ℤ} (helev : ∀ i < c.r.yDim, ∀ j < c.r.xDim, c.elevation.val i j = e)
    (hcat : ∀ i < c.r.yDim, ∀ j < c.r.xDim, cat.val i j = κ)
    (hz : classMz c.terrainTable κ ≠ 0) (hs : classMs c.shieldTable κ = some p)
    (htas : ¬ (143 < c.r.lonEdge B.x1 ∧ c.r.latEdge B.y1 < -40) ∨ e ≤ 500) {px py : ℕ}
    (hp : L.Has px py) (hx0 : ⌊100 / gw⌋ ≤ px) (hx1 : px + ⌊100 / gw⌋ < c.r.xDim)
    (hy0 : ⌊100 / gw⌋ ≤ py) (hy1 : py + ⌊100 / gw⌋ < c.r.yDim) {d : Dir} {g : Grid (NanNum ℝ)}
    (hg : (d, g) ∈ tif.bands) :
    g.val (py - L.y1.toNat) (px - L.x1.toNat) = .num (finalMs p * classMz c.terrainTable κ) := by
  obtain ⟨⟨a0, a1, a2, a3, a4⟩, ⟨b0, b1, b2, b3, b4⟩, g1, g2, g3, g4⟩ := t.geometry
  obtain ⟨w1, w2, w3⟩ := t.buffer_pos
  have hk := t.kernel_pos
  obtain ⟨-, hval⟩ := (h.2.2 d g hg).2.2 px py hp
  obtain ⟨p1, p2, p3, p4⟩ := hp
  have hpy : py < c.r.yDim := by omega
  have hpx : px < c.r.xDim := by omega
  rw [hcat py hpy px hpx] at hval
  -- shielding
  have hcell : ∀ o ∈ shieldCells d ⌊100 / gw⌋.toNat,
      (cat.map (classMs c.shieldTable)).cellOrOne (py + o.1) (px + o.2) = some p := by
    intro o ho
    unfold shieldCells at ho
    rw [Finset.mem_filter, Finset.mem_product, Finset.mem_Icc, Finset.mem_Icc] at ho
    unfold Grid.cellOrOne
    have hin : InRaster (cat.map (classMs c.shieldTable)).rows (cat.map (classMs c.shieldTable)).cols
        (py + o.1) (px + o.2) := by
      show InRaster cat.rows cat.cols _ _
      rw [t.land.1, t.land.2.1]
      refine ⟨by omega, by omega, by omega, by omega⟩
    rw [if_pos hin]
    obtain ⟨q1, q2, q3, q4⟩ := hin
    show classMs c.shieldTable (cat.val _ _) = _
    rw [hcat _ (by omega) _ (by omega), hs]
  have hm : ∃ m, shieldMean (cat.map (classMs c.shieldTable)) d ⌊100 / gw⌋.toNat py px = some m := by
    unfold shieldMean
    rw [if_neg]
    · exact ⟨_, rfl⟩
    · rintro ⟨o, ho, hc⟩
      rw [hcell o ho] at hc
      cases hc
  obtain ⟨m, hm⟩ := hm
  have hmp : m = p := by
    obtain ⟨l, u⟩ := shieldMean_range (lo := p) (hi := p) hk (by
      intro o ho v hv
      rw [hcell o ho] at hv
      cases hv
      exact ⟨le_rfl, le_rfl⟩) hm
    exact le_antisymm u l
  subst hmp
  -- inclination
  have hclamp : ∀ r q : ℤ, -1 ≤ r → r ≤ c.r.yDim → -1 ≤ q → q ≤ c.r.xDim →
      c.elevation.clamped r q = e := by
    intro r q r1 r2 q1 q2
    unfold Grid.clamped
    have hr : c.elevation.rows = c.r.yDim := rfl
    have hc : c.elevation.cols = c.r.xDim := rfl
    rw [hr, hc]
    refine helev _ ?_ _ ?_ <;> split_ifs <;> omega
  have he : riseEast c.elevation py px = 0 := by
    unfold riseEast
    simp only [hclamp _ _ (by omega : (-1 : ℤ) ≤ (py : ℤ) - 1) (by omega) (by omega : (-1 : ℤ) ≤ (px : ℤ) + 1) (by omega),
      hclamp _ _ (by omega : (-1 : ℤ) ≤ (py : ℤ) - 1) (by omega) (by omega : (-1 : ℤ) ≤ (px : ℤ) - 1) (by omega),
      hclamp _ _ (by omega : (-1 : ℤ) ≤ (py : ℤ)) (by omega) (by omega : (-1 : ℤ) ≤ (px : ℤ) + 1) (by omega),
      hclamp _ _ (by omega : (-1 : ℤ) ≤ (py : ℤ)) (by omega) (by omega : (-1 : ℤ) ≤ (px : ℤ) - 1) (by omega),
      hclamp _ _ (by omega : (-1 : ℤ) ≤ (py : ℤ) + 1) (by omega) (by omega : (-1 : ℤ) ≤ (px : ℤ) + 1) (by omega),
      hclamp _ _ (by omega : (-1 : ℤ) ≤ (py : ℤ) + 1) (by omega) (by omega : (-1 : ℤ) ≤ (px : ℤ) - 1) (by omega)]
    norm_num
  have hn : riseNorth c.elevation py px = 0 := by
    unfold riseNorth
    simp only [hclamp _ _ (by omega : (-1 : ℤ) ≤ (py : ℤ) - 1) (by omega) (by omega : (-1 : ℤ) ≤ (px : ℤ) + 1) (by omega),
      hclamp _ _ (by omega : (-1 : ℤ) ≤ (py : ℤ) - 1) (by omega) (by omega : (-1 : ℤ) ≤ (px : ℤ) - 1) (by omega),
      hclamp _ _ (by omega : (-1 : ℤ) ≤ (py : ℤ) - 1) (by omega) (by omega : (-1 : ℤ) ≤ (px : ℤ)) (by omega),
      hclamp _ _ (by omega : (-1 : ℤ) ≤ (py : ℤ) + 1) (by omega) (by omega : (-1 : ℤ) ≤ (px : ℤ)) (by omega),
      hclamp _ _ (by omega : (-1 : ℤ) ≤ (py : ℤ) + 1) (by omega) (by omega : (-1 : ℤ) ≤ (px : ℤ) + 1) (by omega),
      hclamp _ _ (by omega : (-1 : ℤ) ≤ (py : ℤ) + 1) (by omega) (by omega : (-1 : ℤ) ≤ (px : ℤ) - 1) (by omega)]
    norm_num
  have hf := fallsTowards_zero
  obtain ⟨x, hx2, hx3⟩ := hval m 0 0 (Classical.dec _) hz hm (by
    rw [he, hn, zero_div, zero_div]; exact hf)
  rw [hx3]
  -- the slope correction of level ground
  have hadj : ∀ _ : Decidable (InSector d (0 : ℝ)),
      slopeAdjusted (InSector d (0 : ℝ)) m (some 0) = m := by
    intro _
    have hw : slopeWeight (some (0 : ℝ)) = 0 := by
      unfold slopeWeight
      norm_num
    unfold slopeAdjusted
    rw [hw]
    split_ifs <;> ring
  rw [hadj]
  -- terrain
  have hmz : upwindMean (waterMz c.terrainTable cat) d (terrainWidths d gw).1.toNat
      (terrainWidths d gw).2.toNat py px = classMz c.terrainTable κ := by
    obtain ⟨l, u⟩ := upwindMean_mem (waterMz c.terrainTable cat) d (terrainWidths d gw).1.toNat
      (terrainWidths d gw).2.toNat py px
      (by show py < cat.rows; rw [t.land.1]; omega) (by show px < cat.cols; rw [t.land.2.1]; omega)
      (classMz c.terrainTable κ) (classMz c.terrainTable κ) (fun a ha b hb => by
        have ha' : a < c.r.yDim := by rw [← t.land.1]; exact ha
        have hb' : b < c.r.xDim := by rw [← t.land.2.1]; exact hb
        have : (waterMz c.terrainTable cat).val a b = classMz c.terrainTable κ := by
          show (if classMz c.terrainTable (cat.val a b) = 0 then 1
            else classMz c.terrainTable (cat.val a b)) = _
          rw [hcat a ha' b hb', if_neg hz]
        rw [this]
        exact ⟨le_rfl, le_rfl⟩)
    exact le_antisymm u l
  rw [hmz]
  -- topography
  have hrow : (((c.elevation.window B).rows : ℕ) : ℤ) = B.y2 - B.y1 := by
    simp only [Grid.window]; omega
  have hcol : (((c.elevation.window B).cols : ℕ) : ℤ) = B.x2 - B.x1 := by
    simp only [Grid.window]; omega
  have hone : ∀ a b : ℤ, -1 ≤ a → a ≤ 1 → -1 ≤ b → b ≤ 1 → x a b = 1 := by
    intro a b q1 q2 q3 q4
    refine rawMt_flat (hx2 a b) ⟨by omega, by omega, by omega, by omega⟩ ?_ htas
    intro i hi j hj
    refine helev (B.y1.toNat + i) ?_ (B.x1.toNat + j) ?_ <;> omega
  rw [sum_nine, hone, hone, hone, hone, hone, hone, hone, hone, hone] <;> norm_num

end

section
variable {c : Inputs} {up : ℝ} {cat : Grid ℤ} {str : ℝ → List Char} {out : List Char}
  {tiles : List (List Char × Extent ℝ × Extent ℝ)}

/-- **C99** On level ground with a single land-cover category the run gives the multiplier of the
tables: at every pixel 100 m or more from the edge of the raster, in every direction and in the
maxima, the terrain multiplier of the category times its reduced shielding. -/
theorem C99_uniform (h : RunCase c up cat str out tiles) (nW : ℕ)
    (st0 : Store (NanNum ℝ) (List ℝ × List ℝ)) (j : ℕ) (s : RunState (NanNum ℝ) (List ℝ × List ℝ))
    (hrun : RunSteps (c.runCfg out nW tiles) j ((c.runCfg out nW tiles).start st0) s)
    (hdone : (c.runCfg out nW tiles).Done s) (e p : ℝ) (κ : ℤ)
    (helev : ∀ i < c.r.yDim, ∀ j < c.r.xDim, c.elevation.val i j = e)
    (hcat : ∀ i < c.r.yDim, ∀ j < c.r.xDim, cat.val i j = κ)
    (hz : classMz c.terrainTable κ ≠ 0) (hs : classMs c.shieldTable κ = some p) (he : e ≤ 500)
    (k : ℕ) (L B : Limits) (E EB : Extent ℝ) (xm ym : Grid ℝ) (gw : ℝ) (n : List Char)
    (t : TileCase c up k L B E EB xm ym gw cat)
    (hn : (TileGrid.init up c.r).getTilename str k = .ok n) :
    ∃ tif mx, s.store (pjoin out (m3File n)) = some (.tif tif) ∧
      s.store (pjoin out (m3MaxFile n)) = some (.maxTif mx) ∧
      (∀ d, (tif.bands.map Prod.fst).count d = 1) ∧
      ∀ px py : ℕ, L.Has px py → 100 / gw ≤ px → px + 100 / gw < c.r.xDim → 100 / gw ≤ py →
        py + 100 / gw < c.r.yDim →
        mx.band.val (py - L.y1.toNat) (px - L.x1.toNat) =
          .num (finalMs p * classMz c.terrainTable κ) ∧
        ∀ d g, (d, g) ∈ tif.bands → g.val (py - L.y1.toNat) (px - L.x1.toNat) =
          .num (finalMs p * classMz c.terrainTable κ) := by
  obtain ⟨tif, mx, e1, e2, e3, e4⟩ :=
    (C96_run h nW st0 j s hrun).2.2 hdone k L B E EB xm ym gw n t hn
  refine ⟨tif, mx, e1, e3, e2.2.1, fun px py hp q1 q2 q3 q4 => ?_⟩
  have hfl := Int.floor_le (100 / gw)
  have hall : ∀ d g, (d, g) ∈ tif.bands → g.val (py - L.y1.toNat) (px - L.x1.toNat) =
      .num (finalMs p * classMz c.terrainTable κ) := fun d g hg => by
    refine e2.uniform t helev hcat hz hs (.inr he) hp ?_ ?_ ?_ ?_ hg
    · exact_mod_cast hfl.trans q1
    · have : (px : ℝ) + ⌊100 / gw⌋ < c.r.xDim := by linarith
      exact_mod_cast this
    · exact_mod_cast hfl.trans q3
    · have : (py : ℝ) + ⌊100 / gw⌋ < c.r.yDim := by linarith
      exact_mod_cast this
  refine ⟨?_, hall⟩
  obtain ⟨d, hd, -⟩ := (e4.2.2 px py hp).2 (fun _ => finalMs p * classMz c.terrainTable κ) hall
  exact hd

end
/-! ### The hypotheses can be met -/

/-- The raster of `standardInputs` with a level DEM of 120 m, suburban land cover (category 5) and the
table of the repository. -/
noncomputable def levelInputs : Inputs :=
  { standardInputs with
    dem := ⟨100, 1300, fun _ _ => some 120⟩
    lcv := ⟨100, 1300, fun _ _ => some 5⟩
    terrainTable := shippedTerrain
    shieldTable := shippedShield }

theorem levelMz : classMz levelInputs.terrainTable 5 = roughnessMz 0.2 := rfl

theorem levelMz_pos : 0 < classMz levelInputs.terrainTable 5 := by
  have := (shippedTerrain_range ⟨5, 0.2⟩ (by simp [shippedTerrain])).1
  rw [levelMz]
  norm_num at this ⊢
  linarith

theorem levelMs : classMs levelInputs.shieldTable 5 = some (90 / 100) := rfl

theorem levelRun (str : ℝ → List Char) (hstr : RendersDecimal str) : ∃ tiles,
    RunCase levelInputs 0.01 ⟨100, 1300, fun _ _ => 5⟩ str ['/', 'o'] tiles := by
  have hpw : 0 < levelInputs.r.gt1 := by norm_num [levelInputs, standardInputs]
  have hph : levelInputs.r.gt5 < 0 := by norm_num [levelInputs, standardInputs]
  have hgrid : TileGrid.init 0.01 levelInputs.r = TileGrid.init 0.01 standardInputs.r := rfl
  obtain ⟨tiles, -, h2⟩ := C97_standard_run 20 (by norm_num) levelInputs _ str hstr ['/', 'o']
    (by decide) rfl (by norm_num [levelInputs, standardInputs])
    (by norm_num [levelInputs, standardInputs]) rfl
    (by norm_num [levelInputs, standardInputs]) (by norm_num [levelInputs, standardInputs])
    (by norm_num [levelInputs, standardInputs]) (by norm_num [levelInputs, standardInputs])
    (by norm_num [levelInputs, standardInputs]) (by norm_num [levelInputs, standardInputs])
    hpw hph standardDisjoint (isLandcover_same levelInputs rfl hpw hph) (by
      intro k B EB hB _ _
      rw [hgrid, standardGrid] at hB
      have hk : k < 2 := by
        by_contra hk
        have : (tileGridLoop 2 1 1250 1250 12 12 1300 100)[k]? = none :=
          List.getElem?_eq_none (by
            have : (tileGridLoop 2 1 1250 1250 12 12 1300 100).length = 2 := rfl
            omega)
        simp only [TileGrid.getGridlimitBuffer, TileGrid.idx, this] at hB
        cases hB
      refine ⟨1240, 5, ?_, levelMz_pos⟩
      interval_cases k
      · cases hB
        decide
      · cases hB
        decide) (by
      intro row hrow
      have hrow' : row ∈ shippedTerrain := hrow
      have key : 0.002 ≤ row.roughness := by
        simp only [shippedTerrain, List.mem_cons, List.not_mem_nil, or_false] at hrow'
        rcases hrow' with rfl | rfl | rfl | rfl | rfl | rfl | rfl | rfl | rfl | rfl | rfl | rfl | rfl <;>
          norm_num
      have := mz_defined (a := row.roughness) (by norm_num at key ⊢; linarith)
      norm_num at key this ⊢
      exact ⟨by linarith, by linarith⟩)
  exact ⟨tiles, h2⟩

/-- A run on this raster: the value of the pixel in row 40 and column 700 is 0.81 times the terrain
multiplier of roughness 0.2 m, in every direction; all values are between 0.23 and 1.701. -/
example (str : ℝ → List Char) (hstr : RendersDecimal str) : ∃ tiles j s,
    RunSteps (levelInputs.runCfg ['/', 'o'] 2 tiles) j
      ((levelInputs.runCfg ['/', 'o'] 2 tiles).start fun _ => none) s ∧
    (levelInputs.runCfg ['/', 'o'] 2 tiles).Done s ∧
    ∃ k L n tif mx, (TileGrid.init 0.01 levelInputs.r).getGridlimit k = .ok L ∧ L.Has 700 40 ∧
      (TileGrid.init 0.01 levelInputs.r).getTilename str k = .ok n ∧
      s.store (pjoin ['/', 'o'] (m3File n)) = some (.tif tif) ∧
      s.store (pjoin ['/', 'o'] (m3MaxFile n)) = some (.maxTif mx) ∧
      mx.band.val (40 - L.y1.toNat) (700 - L.x1.toNat) = .num (0.81 * roughnessMz 0.2) ∧
      ∀ x, mx.band.val (40 - L.y1.toNat) (700 - L.x1.toNat) = .num x → 0.23 ≤ x ∧ x ≤ 1.701 := by
  obtain ⟨tiles, h⟩ := levelRun str hstr
  obtain ⟨j, s, h1, -, h2⟩ := C94_completes _ (h.good 2) (h.shapes 2) (fun _ => none) 0 _ (.refl _)
  refine ⟨tiles, j, s, h1, h2, ?_⟩
  obtain ⟨k, L, n, hL, hp, -, hn, h3⟩ := C96_every_pixel h 2 _ j s h1 h2 700 40
    (by norm_num [levelInputs, standardInputs]) (by norm_num [levelInputs, standardInputs])
  rcases h3 with ⟨EB, -, h4, -⟩ | ⟨B, E, EB, xm, ym, gw, -, -, t, -⟩
  · cases h4
  · obtain ⟨tif, mx, e1, e2, -, e4⟩ := C99_uniform h 2 _ j s h1 h2 120 (90 / 100) 5
      (fun _ _ _ _ => rfl) (fun _ _ _ _ => rfl) levelMz_pos.ne' levelMs (by norm_num) k L B E EB xm
      ym gw n t hn
    have hgw : 100 / gw ≤ 12 := by
      have := t.bufferX
      rw [show TileGrid.init 0.01 levelInputs.r = TileGrid.init 0.01 standardInputs.r from rfl,
        standardGrid] at this
      have e : 700 / gw = 7 * (100 / gw) := by ring
      norm_num at this
      linarith [t.gwPos, div_pos (by norm_num : (0 : ℝ) < 100) t.gwPos]
    have hpix := (e4 700 40 hp (by norm_num; linarith)
      (by norm_num [levelInputs, standardInputs]; linarith) (by norm_num; linarith)
      (by norm_num [levelInputs, standardInputs]; linarith)).1
    have hfin : finalMs (90 / 100) = 0.81 := by unfold finalMs; norm_num
    rw [hfin, levelMz] at hpix
    refine ⟨k, L, n, tif, mx, hL, hp, hn, e1, e2, hpix, fun x hx => ?_⟩
    obtain ⟨k', L', n', hL', hp', hn', hc⟩ := C98_shipped_table h
      (by norm_num [levelInputs, standardInputs]) 2 _ j s h1 h2 rfl rfl
      (.inr (by norm_num [levelInputs, standardInputs])) 700 40
      (by norm_num [levelInputs, standardInputs]) (by norm_num [levelInputs, standardInputs])
    have hkk : k' = k := h.disjoint k' k L' L hL' hL ⟨700, 40, hp', hp⟩
    subst hkk
    rw [hL] at hL'
    rw [hn] at hn'
    cases hL'
    cases hn'
    rcases hc with ⟨EB, -, hc, -⟩ | ⟨tif', mx', f1, f2, f3⟩
    · cases hc
    · rw [e2] at f2
      cases f2
      rcases f3 _ (.inl rfl) with hnan | ⟨y, hy, q1, q2, -⟩
      · rw [hx] at hnan
        cases hnan
      · rw [hx] at hy
        cases hy
        exact ⟨q1, q2⟩

end WindMult
