import Verif.Spec.LargerMap
import Verif.Props.Sensitivity

/-!
# C147: a larger map has the same multipliers in its old part
-/

set_option autoImplicit false
set_option linter.unusedSectionVars false

namespace WindMult
open Spec

/-! ### Tiles -/

section
variable {K : Type} [Field K] [LinearOrder K] [IsStrictOrderedRing K] [FloorRing K]

theorem tileCount_mono {a b : ℕ} (h : a ≤ b) (s : ℤ) (hs : 0 < s) :
    (⌈(a : K) / (s : K)⌉).toNat ≤ (⌈(b : K) / (s : K)⌉).toNat := by
  refine Int.toNat_le_toNat (Int.ceil_mono ?_)
  have : (0 : K) < s := by exact_mod_cast hs
  gcongr

/-- **C147** (tiles) A tile of a map that does not reach an edge beyond which a larger map goes on is a tile of the
larger map, with the same pixels, the same buffer, the same area and the same name. -/
theorem C147_tiles (up : K) (r r' : RasterInfo K) (h : LargerMap r r') (hpw : 0 < r.gt1) (hph : r.gt5 < 0) (hup : 0 ≤ up)
    (k : ℕ) (L B : Limits) (hL : (TileGrid.init up r).getGridlimit k = .ok L)
    (hB : (TileGrid.init up r).getGridlimitBuffer k = .ok B) (hin : InnerPart r r' B) :
    ∃ k', (TileGrid.init up r').getGridlimit k' = .ok L ∧ (TileGrid.init up r').getGridlimitBuffer k' = .ok B ∧
      (TileGrid.init up r').getTileExtent k' = (TileGrid.init up r).getTileExtent k ∧
      (TileGrid.init up r').getTileExtentBuffer k' = (TileGrid.init up r).getTileExtentBuffer k ∧
      ∀ str, (TileGrid.init up r').getTilename str k' = (TileGrid.init up r).getTilename str k := by
  obtain ⟨w, ht, x, pw, y, ph⟩ := r
  obtain ⟨w', ht', x', pw', y', ph'⟩ := r'
  obtain ⟨h1, h2, h3, h4, h5, h6⟩ := h
  simp only at h1 h2 h3 h4 h5 h6 hpw hph hin
  subst h1 h2 h3 h4
  set r : RasterInfo K := ⟨w, ht, x', pw', y', ph'⟩ with er
  set r' : RasterInfo K := ⟨w', ht', x', pw', y', ph'⟩ with er'
  have d1 : r.xDim = w := rfl
  have d2 : r'.xDim = w' := rfl
  have d3 : r.yDim = ht := rfl
  have d4 : r'.yDim = ht' := rfl
  have hk : k < nCols r * nRows r := by
    by_contra hk
    rw [getGridlimit_init, if_neg hk] at hL
    cases hL
  have s1 : 0 < (TileGrid.init up r).xStep := (axisX (up := up) (r := r) hpw hup).s_pos
  have s2 : 0 < (TileGrid.init up r).yStep := (axisY (up := up) (r := r) hph hup).s_pos
  have c1 : nCols r ≤ nCols r' := tileCount_mono h5 _ s1
  have c2 : nRows r ≤ nRows r' := tileCount_mono h6 _ s2
  have i1 := div_lt_nCols hk
  have j1 := mod_lt_nRows hk
  rw [gridlimit_ok hk] at hL
  rw [gridlimitBuffer_ok hk] at hB
  have ex : (TileGrid.init up r').xStep = (TileGrid.init up r).xStep := rfl
  have ey : (TileGrid.init up r').yStep = (TileGrid.init up r).yStep := rfl
  have bx : (TileGrid.init up r').xBuffer = (TileGrid.init up r).xBuffer := rfl
  have by' : (TileGrid.init up r').yBuffer = (TileGrid.init up r).yBuffer := rfl
  have hk' : k / nRows r * nRows r' + k % nRows r < nCols r' * nRows r' := by
    have : (k / nRows r + 1) * nRows r' ≤ nCols r' * nRows r' := Nat.mul_le_mul_right _ (by omega)
    rw [add_mul, one_mul] at this
    omega
  have q1 : (k / nRows r * nRows r' + k % nRows r) / nRows r' = k / nRows r := by
    rw [mul_comm (k / nRows r), Nat.mul_add_div (by omega), Nat.div_eq_of_lt (a := k % nRows r) (by omega), add_zero]
  have q2 : (k / nRows r * nRows r' + k % nRows r) % nRows r' = k % nRows r := by
    rw [mul_comm (k / nRows r), Nat.mul_add_mod, Nat.mod_eq_of_lt (by omega)]
  cases hL
  cases hB
  have g1 : (TileGrid.init up r').getGridlimit (k / nRows r * nRows r' + k % nRows r) =
      (TileGrid.init up r).getGridlimit k := by
    rw [gridlimit_ok hk', gridlimit_ok hk, q1, q2, ex, ey, bx, by']
    obtain ⟨u, v⟩ := hin
    simp only [Except.ok.injEq, Limits.mk.injEq, true_and, coreHi_eq]
    simp only [d1, d2, d3, d4] at u v ⊢
    refine ⟨?_, ?_⟩
    · rcases u with u | u
      · rw [if_pos (by omega), if_pos (by omega)]
      · rw [u]
    · rcases v with v | v
      · rw [if_pos (by omega), if_pos (by omega)]
      · rw [v]
  have g2 : (TileGrid.init up r').getGridlimitBuffer (k / nRows r * nRows r' + k % nRows r) =
      (TileGrid.init up r).getGridlimitBuffer k := by
    rw [gridlimitBuffer_ok hk', gridlimitBuffer_ok hk, q1, q2, ex, ey, bx, by']
    obtain ⟨u, v⟩ := hin
    simp only [Except.ok.injEq, Limits.mk.injEq, true_and]
    simp only [d1, d2, d3, d4] at u v ⊢
    refine ⟨?_, ?_⟩
    · rcases u with u | u
      · omega
      · rw [u]
    · rcases v with v | v
      · omega
      · rw [v]
  refine ⟨_, g1.trans (gridlimit_ok hk), g2.trans (gridlimitBuffer_ok hk), ?_, ?_, fun str => ?_⟩
  · unfold TileGrid.getTileExtent
    rw [g1]
    rfl
  · unfold TileGrid.getTileExtentBuffer
    rw [g2]
    rfl
  · unfold TileGrid.getTilename TileGrid.getStartcord
    rw [g1]
    rfl

end

/-! ### Two runs -/

theorem Spec.LargerMap.lonEdge {r r' : RasterInfo ℝ} (h : LargerMap r r') (n : ℤ) : r'.lonEdge n = r.lonEdge n := by
  unfold RasterInfo.lonEdge
  rw [h.west, h.width]

theorem Spec.LargerMap.latEdge {r r' : RasterInfo ℝ} (h : LargerMap r r') (n : ℤ) : r'.latEdge n = r.latEdge n := by
  unfold RasterInfo.latEdge
  rw [h.north, h.height]

theorem Spec.LargerMap.clipInfo {r r' : RasterInfo ℝ} (h : LargerMap r r') (x : Extent ℝ) :
    clipInfo r' x = clipInfo r x := by
  unfold WindMult.clipInfo
  rw [h.width, h.height]

theorem Spec.LargerMap.centres {r r' : RasterInfo ℝ} (h : LargerMap r r') (L : Limits) : L.centres r' = L.centres r := by
  unfold Limits.centres RasterInfo.lonCentre RasterInfo.latCentre
  rw [h.west, h.width, h.north, h.height]

section
variable {c c' : Inputs} {up : ℝ} {k k' : ℕ} {L B : Limits} {E EB : Extent ℝ} {xm ym : Grid ℝ} {gw : ℝ}
  {cat cat' : Grid ℤ}

/-- A pixel with a value in two runs on the same elevations around the tile: the values differ only in
shielding and terrain. -/
theorem m3_pair_larger (t : TileCase c up k L B E EB xm ym gw cat) (t' : TileCase c' up k' L B E EB xm ym gw cat')
    (hr : LargerMap c.r c'.r)
    (hdem : ∀ qx qy : ℕ, B.Has qx qy → c'.elevation.val qy qx = c.elevation.val qy qx)
    {tif tif' : TileTif (NanNum ℝ) (List ℝ × List ℝ)} (h : IsM3 c L B xm ym gw cat tif)
    (h' : IsM3 c' L B xm ym gw cat' tif') {px py : ℕ} (hp : L.Has px py) {d : Dir}
    {g g' : Grid (NanNum ℝ)} (hg : (d, g) ∈ tif.bands) (hg' : (d, g') ∈ tif'.bands) {m m' : ℝ}
    (hz : classMz c.terrainTable (cat.val py px) ≠ 0)
    (hs : shieldMean (cat.map (classMs c.shieldTable)) d ⌊100 / gw⌋.toNat py px = some m)
    (hz' : classMz c'.terrainTable (cat'.val py px) ≠ 0)
    (hs' : shieldMean (cat'.map (classMs c'.shieldTable)) d ⌊100 / gw⌋.toNat py px = some m') :
    ∃ (facing : Prop) (_ : Decidable facing) (s mt : ℝ), 0 ≤ mt ∧
      g.val (py - L.y1.toNat) (px - L.x1.toNat) =
        .num (finalMs (slopeAdjusted facing m (some s)) *
          upwindMean (waterMz c.terrainTable cat) d (terrainWidths d gw).1.toNat
            (terrainWidths d gw).2.toNat py px * mt) ∧
      g'.val (py - L.y1.toNat) (px - L.x1.toNat) =
        .num (finalMs (slopeAdjusted facing m' (some s)) *
          upwindMean (waterMz c'.terrainTable cat') d (terrainWidths d gw).1.toNat
            (terrainWidths d gw).2.toNat py px * mt) := by
  obtain ⟨⟨a0, a1, a2, a3, a4⟩, ⟨b0, b1, b2, b3, b4⟩, -⟩ := t.geometry
  have hsame : (c.elevation.window B).Same (c'.elevation.window B) := by
    refine ⟨rfl, rfl, fun i hi j hj => ?_⟩
    have hi : i < (B.y2 - B.y1).toNat := hi
    have hj : j < (B.x2 - B.x1).toNat := hj
    exact (hdem (B.x1.toNat + j) (B.y1.toNat + i) ⟨by push_cast; omega, by push_cast; omega,
      by push_cast; omega, by push_cast; omega⟩).symm
  have hp' := hp
  obtain ⟨p1, p2, p3, p4⟩ := hp'
  have hrise : riseEast c.elevation py px = riseEast c'.elevation py px ∧
      riseNorth c.elevation py px = riseNorth c'.elevation py px := by
    have d1 := t.dem_same
    have d2 := t'.dem_same
    have r1 : 0 < (cutDem c.r c.dem EB 0).rows := by
      rw [d1.1]; show 0 < (B.y2 - B.y1).toNat; omega
    have r2 : 0 < (cutDem c.r c.dem EB 0).cols := by
      rw [d1.2.1]; show 0 < (B.x2 - B.x1).toNat; omega
    have hs : (cutDem c.r c.dem EB 0).Same (cutDem c'.r c'.dem EB 0) := by
      refine ⟨by rw [d1.1, d2.1]; rfl, by rw [d1.2.1, d2.2.1]; rfl, fun i hi j hj => ?_⟩
      rw [d1.2.2 i hi j hj, hsame.2.2 i (by rw [← d1.1]; exact hi) j (by rw [← d1.2.1]; exact hj),
        d2.2.2 i (by rw [d2.1]; rw [d1.1] at hi; exact hi) j
          (by rw [d2.2.1]; rw [d1.2.1] at hj; exact hj)]
    obtain ⟨e1, e2⟩ := t.toAt.rise_block px py hp
    obtain ⟨f1, f2⟩ := t'.toAt.rise_block px py hp
    obtain ⟨s1, s2⟩ := rise_same hs r1 r2 (py - B.y1.toNat : ℕ) (px - B.x1.toNat : ℕ)
    rw [← e1, ← f1, ← e2, ← f2]
    exact ⟨s1, s2⟩
  obtain ⟨hd, s, hf⟩ := exists_fallsTowards
    (riseEast c.elevation py px / xm.val (py - B.y1.toNat) (px - B.x1.toNat))
    (riseNorth c.elevation py px / ym.val (py - B.y1.toNat) (px - B.x1.toNat))
  obtain ⟨x, x1, x2⟩ := ((h.2.2 d g hg).2.2 px py hp).2 m hd s (Classical.dec _) hz hs hf
  rw [hrise.1, hrise.2] at hf
  obtain ⟨y, y1, y2⟩ := ((h'.2.2 d g' hg').2.2 px py hp).2 m' hd s (Classical.dec _) hz' hs' hf
  have hxy : ∀ a b, x a b = y a b := by
    intro a b
    have h2 := rawMt_same _ _ hsame d _ _ _ _ _ (x1 a b)
    have h3 := y1 a b
    rw [hr.lonEdge, hr.latEdge] at h3
    exact h2.unique h3
  have hnn : ∀ a b, 0 ≤ x a b := by
    intro a b
    by_cases hin : InRaster (c.elevation.window B).rows (c.elevation.window B).cols (py - B.y1 + a)
        (px - B.x1 + b)
    · obtain ⟨u, n, v, -, v2, v3⟩ := (x1 a b).1 hin
      rw [v3]
      exact zero_le_one.trans (adjustedMt_range v2.range.1 v2.range.2 (le_max_left 0 _)
        (le_max_right 0 _)).1
    · rw [(x1 a b).2 hin]
  refine ⟨InSector d hd, Classical.dec _, s, (∑ a ∈ {-1, 0, 1}, ∑ b ∈ {-1, 0, 1}, x a b) / 9, ?_, x2, ?_⟩
  · exact div_nonneg (Finset.sum_nonneg fun a _ => Finset.sum_nonneg fun b _ => hnn a b) (by norm_num)
  · rw [y2]
    simp only [hxy]

end

section
variable {c c' : Inputs} {up : ℝ} {cat cat' : Grid ℤ} {str : ℝ → List Char} {out out' : List Char}
  {tiles tiles' : List (List Char × Extent ℝ × Extent ℝ)}

/-- What two completed runs leave for a pixel, if the map of the second is larger and the elevations are the same
around its tile. -/
theorem run_pair_larger (h : RunCase c up cat str out tiles) (h' : RunCase c' up cat' str out' tiles')
    (hr : LargerMap c.r c'.r) (hsz : c'.pixelSizes = c.pixelSizes) (hck : c'.checksum = c.checksum)
    (hcells : ∀ g g' : Grid ℝ, g.Same g' → c.checksum g = c.checksum g') (nW nW' : ℕ)
    (st0 st0' : Store (NanNum ℝ) (List ℝ × List ℝ)) (j j' : ℕ)
    (s s' : RunState (NanNum ℝ) (List ℝ × List ℝ))
    (hrun : RunSteps (c.runCfg out nW tiles) j ((c.runCfg out nW tiles).start st0) s)
    (hdone : (c.runCfg out nW tiles).Done s)
    (hrun' : RunSteps (c'.runCfg out' nW' tiles') j' ((c'.runCfg out' nW' tiles').start st0') s')
    (hdone' : (c'.runCfg out' nW' tiles').Done s') (px py : ℕ) (hx : px < c.r.xDim) (hy : py < c.r.yDim) :
    ∃ k L B n, (TileGrid.init up c.r).getGridlimit k = .ok L ∧ L.Has px py ∧
      (TileGrid.init up c.r).getGridlimitBuffer k = .ok B ∧
      (TileGrid.init up c.r).getTilename str k = .ok n ∧
      (InnerPart c.r c'.r B → (∀ qx qy : ℕ, B.Has qx qy → c'.dem.val qy qx = c.dem.val qy qx) →
        (s.store (pjoin out (m3File n)) = none ∧ s'.store (pjoin out' (m3File n)) = none ∧
          s.store (pjoin out (m3MaxFile n)) = none ∧ s'.store (pjoin out' (m3MaxFile n)) = none) ∨
        ∃ k' E EB xm ym gw tif mx tif' mx', TileCase c up k L B E EB xm ym gw cat ∧
          TileCase c' up k' L B E EB xm ym gw cat' ∧
          s.store (pjoin out (m3File n)) = some (.tif tif) ∧
          s'.store (pjoin out' (m3File n)) = some (.tif tif') ∧
          s.store (pjoin out (m3MaxFile n)) = some (.maxTif mx) ∧
          s'.store (pjoin out' (m3MaxFile n)) = some (.maxTif mx') ∧
          IsM3 c L B xm ym gw cat tif ∧ IsM3 c' L B xm ym gw cat' tif' ∧
          IsM3Max L tif mx ∧ IsM3Max L tif' mx') := by
  obtain ⟨k, L, n, hL, hp, huniq, hn, hcase⟩ := C96_every_pixel h nW st0 j s hrun hdone px py hx hy
  have hk := (C01_gridlimit_defined_iff up c.r k).mp ⟨L, hL⟩
  obtain ⟨-, B, -, hB, -⟩ := C03_buffer_surrounds_core up c.r h.pw h.ph h.upPos k hk
  refine ⟨k, L, B, n, hL, hp, hB, hn, fun hin hdem => ?_⟩
  obtain ⟨k', v1, v2, v3, v4, v5⟩ := C147_tiles up c.r c'.r hr h.pw h.ph h.upPos k L B hL hB hin
  obtain ⟨k'', L', n', hL', hp', huniq, hn', hcase'⟩ :=
    C96_every_pixel h' nW' st0' j' s' hrun' hdone' px py (hx.trans_le hr.cols) (hy.trans_le hr.rows)
  obtain rfl := huniq k' L v1 hp
  rw [v1] at hL'
  cases hL'
  rw [v5, hn] at hn'
  cases hn'
  have hempty : ∀ EB, (TileGrid.init up c.r).getTileExtentBuffer k = .ok EB →
      c.checksum (cutDem c'.r c'.dem EB 0) = c.checksum (cutDem c.r c.dem EB 0) := by
    intro EB hEB
    have hnear : EB.Near c.r.gt1 (-c.r.gt5) EB := by
      have h1 := h.pw
      have h2 := h.ph
      simp only [Extent.Near, sub_self, abs_zero]
      refine ⟨?_, ?_, ?_, ?_⟩ <;> linarith
    obtain ⟨a1, a2, a3⟩ := C78_dem_tile_is_block up c'.r h'.pw h'.ph h'.upPos c'.dem (0 : ℝ) k' B EB EB v2
      (v4.trans hEB) (by rw [hr.width, hr.height]; exact hnear)
    obtain ⟨b1, b2, b3⟩ := C78_dem_tile_is_block up c.r h.pw h.ph h.upPos c.dem (0 : ℝ) k B EB EB hB hEB
      hnear
    refine hcells _ _ ⟨by omega, by omega, fun i hi j hj => ?_⟩
    by_cases hneg : 0 ≤ B.y1 ∧ 0 ≤ B.x1
    · have hh : B.Has (B.x1.toNat + j) (B.y1.toNat + i) :=
        ⟨by omega, by omega, by omega, by omega⟩
      have e1 := a3 _ _ hh
      have e2 := b3 _ _ hh
      rw [Nat.add_sub_cancel_left, Nat.add_sub_cancel_left] at e1 e2
      rw [e1, e2, hdem _ _ hh]
    · exfalso
      obtain ⟨L'', B'', q1, q2, ⟨q3, -⟩, ⟨q4, -⟩, -⟩ :=
        C03_buffer_surrounds_core up c.r h.pw h.ph h.upPos k hk
      rw [hB] at q2
      cases q2
      exact hneg ⟨q4, q3⟩
  rcases hcase with ⟨EB, e1, e2, e3, e4⟩ | ⟨B1, E, EB, xm, ym, gw, tif, mx, t, e1, e2, e3, e4⟩
  · rcases hcase' with ⟨EB', f1, f2, f3, f4⟩ | ⟨B2, E', EB', xm', ym', gw', tif', mx', t', f1, f2, f3, f4⟩
    · exact .inl ⟨e3, f3, e4, f4⟩
    · have g1 := t'.extentB
      have g2 := t'.notEmpty
      rw [v4, e1] at g1
      cases g1
      rw [hck, hempty _ e1] at g2
      exact absurd e2 g2
  · rcases hcase' with ⟨EB', f1, f2, f3, f4⟩ | ⟨B2, E', EB', xm', ym', gw', tif', mx', t', f1, f2, f3, f4⟩
    · have g1 := t.extentB
      rw [v4, g1] at f1
      cases f1
      rw [hck, hempty _ g1] at f2
      exact absurd f2 t.notEmpty
    · right
      have a1 := t.limitsB
      have a2 := t'.limitsB
      have a3 := t'.extentB
      have a4 := t'.extent
      have a5 := t'.sizes
      have a6 := t'.width
      rw [hB] at a1
      rw [v2] at a2
      cases a1
      cases a2
      rw [v4, t.extentB] at a3
      cases a3
      rw [v3, t.extent] at a4
      cases a4
      rw [hr.clipInfo, hsz, t.sizes] at a5
      cases a5
      rw [← t.width] at a6
      subst a6
      exact ⟨k', E, EB, xm, ym, gw', tif, mx, tif', mx', t, t', e1, f1, e3, f3, e2, f2, e4, f4⟩

/-- **C147** A run on a larger map – more columns in the east, more rows in the south – leaves for every tile that
does not reach an old edge beyond which the map now goes on, under the same name, the same values in all bands and in
the maxima on the same pixels, if the inputs agree within its buffered limits; or neither run leaves a GeoTIFF of the
tile.  Numbers of processes, schedules and output folders may differ. -/
theorem C147_run (h : RunCase c up cat str out tiles) (h' : RunCase c' up cat' str out' tiles')
    (hr : LargerMap c.r c'.r) (hsz : c'.pixelSizes = c.pixelSizes) (hck : c'.checksum = c.checksum)
    (hcells : ∀ g g' : Grid ℝ, g.Same g' → c.checksum g = c.checksum g')
    (hterrain : c'.terrainTable = c.terrainTable) (hshield : c'.shieldTable = c.shieldTable) (nW nW' : ℕ)
    (st0 st0' : Store (NanNum ℝ) (List ℝ × List ℝ)) (j j' : ℕ)
    (s s' : RunState (NanNum ℝ) (List ℝ × List ℝ))
    (hrun : RunSteps (c.runCfg out nW tiles) j ((c.runCfg out nW tiles).start st0) s)
    (hdone : (c.runCfg out nW tiles).Done s)
    (hrun' : RunSteps (c'.runCfg out' nW' tiles') j' ((c'.runCfg out' nW' tiles').start st0') s')
    (hdone' : (c'.runCfg out' nW' tiles').Done s') (px py : ℕ) (hx : px < c.r.xDim) (hy : py < c.r.yDim) :
    ∃ k L B n, (TileGrid.init up c.r).getGridlimit k = .ok L ∧ L.Has px py ∧
      (TileGrid.init up c.r).getGridlimitBuffer k = .ok B ∧
      (TileGrid.init up c.r).getTilename str k = .ok n ∧
      (InnerPart c.r c'.r B →
        (∀ qx qy : ℕ, B.Has qx qy → c'.dem.val qy qx = c.dem.val qy qx ∧ cat'.val qy qx = cat.val qy qx) →
        (s.store (pjoin out (m3File n)) = none ∧ s'.store (pjoin out' (m3File n)) = none ∧
          s.store (pjoin out (m3MaxFile n)) = none ∧ s'.store (pjoin out' (m3MaxFile n)) = none) ∨
        ∃ tif mx tif' mx', s.store (pjoin out (m3File n)) = some (.tif tif) ∧
          s'.store (pjoin out' (m3File n)) = some (.tif tif') ∧
          s.store (pjoin out (m3MaxFile n)) = some (.maxTif mx) ∧
          s'.store (pjoin out' (m3MaxFile n)) = some (.maxTif mx') ∧
          tif'.transform = tif.transform ∧ (∀ d, ∃ g g', (d, g) ∈ tif.bands ∧ (d, g') ∈ tif'.bands) ∧
          (∀ d g g', (d, g) ∈ tif.bands → (d, g') ∈ tif'.bands →
            g'.val (py - L.y1.toNat) (px - L.x1.toNat) = g.val (py - L.y1.toNat) (px - L.x1.toNat)) ∧
          mx'.band.val (py - L.y1.toNat) (px - L.x1.toNat) =
            mx.band.val (py - L.y1.toNat) (px - L.x1.toNat)) := by
  obtain ⟨k, L, B, n, hL, hp, hB, hn, hcase⟩ :=
    run_pair_larger h h' hr hsz hck hcells nW nW' st0 st0' j j' s s' hrun hdone hrun' hdone' px py hx hy
  refine ⟨k, L, B, n, hL, hp, hB, hn, fun hin' hagree => ?_⟩
  rcases hcase hin' (fun qx qy hq => (hagree qx qy hq).1) with hnone |
    ⟨k', E, EB, xm, ym, gw, tif, mx, tif', mx', t, t', e1, e2, e3, e4, m3, m3', mm, mm'⟩
  · exact .inl hnone
  right
  obtain ⟨⟨a0, a1, a2, a3, a4⟩, ⟨b0, b1, b2, b3, b4⟩, -⟩ := t.geometry
  have hp' := hp
  obtain ⟨p1, p2, p3, p4⟩ := hp'
  have hin : ∀ i < (B.y2 - B.y1).toNat, ∀ j < (B.x2 - B.x1).toNat,
      B.Has (B.x1.toNat + j) (B.y1.toNat + i) := fun i hi j hj =>
    ⟨by omega, by omega, by omega, by omega⟩
  obtain ⟨r1, r2, -⟩ := t.land
  obtain ⟨r1', r2', -⟩ := t'.land
  have hcat : cat'.val py px = cat.val py px :=
    (hagree px py ⟨by omega, by omega, by omega, by omega⟩).2
  have hmean : ∀ d, upwindMean (waterMz c'.terrainTable cat') d (terrainWidths d gw).1.toNat
        (terrainWidths d gw).2.toNat py px =
      upwindMean (waterMz c.terrainTable cat) d (terrainWidths d gw).1.toNat
        (terrainWidths d gw).2.toNat py px := by
    intro d
    rw [← t.upwindMean_block (waterMz c.terrainTable cat) r1 r2 d px py hp,
      ← t'.upwindMean_block (waterMz c'.terrainTable cat') r1' r2' d px py hp]
    have hs : ((waterMz c'.terrainTable cat').window B).Same ((waterMz c.terrainTable cat).window B) := by
      refine ⟨rfl, rfl, fun i hi j hj => ?_⟩
      show (if classMz c'.terrainTable (cat'.val _ _) = 0 then 1
          else classMz c'.terrainTable (cat'.val _ _)) =
        if classMz c.terrainTable (cat.val _ _) = 0 then 1 else classMz c.terrainTable (cat.val _ _)
      rw [(hagree _ _ (hin i hi j hj)).2, hterrain]
    exact upwindMean_same _ _ hs d _ _ _ _ (show py - B.y1.toNat < (B.y2 - B.y1).toNat by omega)
      (show px - B.x1.toNat < (B.x2 - B.x1).toNat by omega)
  have hsh : ∀ d, shieldMean (cat'.map (classMs c'.shieldTable)) d ⌊100 / gw⌋.toNat py px =
      shieldMean (cat.map (classMs c.shieldTable)) d ⌊100 / gw⌋.toNat py px := by
    intro d
    rw [← t.shieldMean_block (cat.map (classMs c.shieldTable)) r1 r2 d px py hp,
      ← t'.shieldMean_block (cat'.map (classMs c'.shieldTable)) r1' r2' d px py hp]
    have hs : ((cat'.map (classMs c'.shieldTable)).window B).Same
        ((cat.map (classMs c.shieldTable)).window B) := by
      refine ⟨rfl, rfl, fun i hi j hj => ?_⟩
      show classMs c'.shieldTable (cat'.val _ _) = classMs c.shieldTable (cat.val _ _)
      rw [(hagree _ _ (hin i hi j hj)).2, hshield]
    exact shieldMean_same _ _ hs d _ _ _
  have hpair : ∀ d g g', (d, g) ∈ tif.bands → (d, g') ∈ tif'.bands →
      (g.val (py - L.y1.toNat) (px - L.x1.toNat) = .nan ∧
        g'.val (py - L.y1.toNat) (px - L.x1.toNat) = .nan) ∨
      ∃ x y, g.val (py - L.y1.toNat) (px - L.x1.toNat) = .num x ∧
        g'.val (py - L.y1.toNat) (px - L.x1.toNat) = .num y ∧ x = y := by
    intro d g g' hg hg'
    have n1 := ((m3.2.2 d g hg).2.2 px py hp).1
    have n2 := ((m3'.2.2 d g' hg').2.2 px py hp).1
    rw [hsh, hterrain, hcat] at n2
    by_cases hnan : classMz c.terrainTable (cat.val py px) = 0 ∨
        shieldMean (cat.map (classMs c.shieldTable)) d ⌊100 / gw⌋.toNat py px = none
    · exact .inl ⟨n1.mpr hnan, n2.mpr hnan⟩
    · right
      push Not at hnan
      obtain ⟨m, hm⟩ := Option.ne_none_iff_exists'.mp hnan.2
      obtain ⟨f, hf, sl, mt, -, v1, v2⟩ := m3_pair_larger t t' hr (fun qx qy hq => by
          show (c'.dem.val qy qx).getD 0 = (c.dem.val qy qx).getD 0
          rw [(hagree qx qy hq).1]) m3 m3' hp hg hg' hnan.1 hm
        (by rw [hterrain, hcat]; exact hnan.1) ((hsh d).trans hm)
      rw [hmean d] at v2
      exact ⟨_, _, v1, v2, rfl⟩
  refine ⟨tif, mx, tif', mx', e1, e2, e3, e4, ?_, ?_, ?_, ?_⟩
  · rw [m3.1, m3'.1, hr.centres]
  · intro d
    obtain ⟨g, hg, -⟩ := bands_unique m3.2.1 d
    obtain ⟨g', hg', -⟩ := bands_unique m3'.2.1 d
    exact ⟨g, g', hg, hg'⟩
  · intro d g g' hg hg'
    rcases hpair d g g' hg hg' with ⟨q1, q2⟩ | ⟨x, y, q1, q2, rfl⟩
    · rw [q1, q2]
    · rw [q1, q2]
  · rcases mm.pair m3.2.1 m3'.2.1 mm' hp (· = ·) hpair with ⟨q1, q2⟩ | ⟨p, q, d, d', o1, o2, o3, o4, o5⟩
    · rw [q1, q2]
    · rw [o2, o4]
      have : p = q := funext o1
      subst this
      rw [le_antisymm (o3 d') (o5 d)]

end

/-! ### The edge -/

/-- A map of 25 × 13 pixels, and one that goes on in the east and in the south. -/
def largerRaster : RasterInfo ℚ := ⟨40, 33, 1435 / 10, 1 / 10, -41, -1 / 10⟩

/-- The condition of C147 is needed: the last tile of the smaller map, which reaches its edge, is not a tile of the
larger map. -/
theorem C147_edge : LargerMap exRaster largerRaster ∧
    (TileGrid.init (1 / 5) exRaster).getGridlimit 5 = .ok ⟨20, 25, 10, 13⟩ ∧
    ∀ k, (TileGrid.init (1 / 5) largerRaster).getGridlimit k ≠ .ok ⟨20, 25, 10, 13⟩ := by
  refine ⟨⟨rfl, rfl, rfl, rfl, by decide, by decide⟩, by decide +kernel, fun k h => ?_⟩
  have hk := (C01_gridlimit_defined_iff _ _ k).mp ⟨_, h⟩
  rw [show (TileGrid.init (1 / 5) largerRaster).numTiles = 16 by decide +kernel] at hk
  revert h
  revert k
  decide +kernel

/-- The first tile of the smaller map, which does not reach the edges, meets the conditions of `C147_tiles`. -/
example : (TileGrid.init (1 / 5) exRaster).getGridlimit 0 = .ok ⟨0, 10, 0, 10⟩ ∧
    (TileGrid.init (1 / 5) exRaster).getGridlimitBuffer 0 = .ok ⟨0, 12, 0, 12⟩ ∧
    InnerPart exRaster largerRaster ⟨0, 12, 0, 12⟩ := by
  refine ⟨by decide +kernel, by decide +kernel, .inl (by decide), .inl (by decide)⟩

/-- The next tile has another number on the larger map. -/
example : (TileGrid.init (1 / 5) exRaster).getGridlimit 2 = .ok ⟨10, 20, 0, 10⟩ ∧
    InnerPart exRaster largerRaster ⟨8, 22, 0, 12⟩ ∧
    (TileGrid.init (1 / 5) largerRaster).getGridlimit 4 = .ok ⟨10, 20, 0, 10⟩ := by
  refine ⟨by decide +kernel, ⟨.inl (by decide), .inl (by decide)⟩, by decide +kernel⟩

/-! ### Two runs that meet the conditions -/

/-- The raster of two tiles with 700 more columns in the east, where the land is 300 m higher. -/
noncomputable def widerInputs : Inputs :=
  { standardInputs with
    r := ⟨2000, 100, 149, 8 / 10000, -35, -(8 / 10000)⟩
    dem := ⟨100, 2000, fun i j => some (if j < 1300 then i + j else i + j + 300)⟩
    lr := ⟨2000, 100, 149, 8 / 10000, -35, -(8 / 10000)⟩
    lcv := ⟨100, 2000, fun _ j => some (if j < 1245 then 1 else 2)⟩ }

theorem widerGrid : TileGrid.init 0.01 widerInputs.r =
    { xDim := 2000, yDim := 100, xLeft := 149, yUpper := 35, pixelwidth := 8 / 10000
      pixelheight := 8 / 10000, xStep := 1250, yStep := 1250, xBuffer := 12, yBuffer := 12
      tiles := tileGridLoop 2 1 1250 1250 12 12 2000 100 } := by
  have h1 : ⌈(1 : ℝ) / (8 / 10000)⌉ = 1250 := by
    rw [Int.ceil_eq_iff]; norm_num
  have h2 : pyInt ((0.01 : ℝ) / (8 / 10000)) = 12 := by
    unfold pyInt
    rw [if_pos (by norm_num), Int.floor_eq_iff]; norm_num
  have h3 : ⌈((2000 : ℕ) : ℝ) / ((1250 : ℤ) : ℝ)⌉ = 2 := by
    rw [Int.ceil_eq_iff]; norm_num
  have h4 : ⌈((100 : ℕ) : ℝ) / ((1250 : ℤ) : ℝ)⌉ = 1 := by
    rw [Int.ceil_eq_iff]; norm_num
  simp only [TileGrid.init, widerInputs, neg_neg, h1, h2, h3, h4]
  rfl

theorem widerRun (str : ℝ → List Char) (hstr : RendersDecimal str) : ∃ tiles, RunCase widerInputs 0.01
    ⟨100, 2000, fun i j => (widerInputs.lcv.val i j).getD 0⟩ str ['/', 'o'] tiles := by
  have hpw : 0 < widerInputs.r.gt1 := by norm_num [widerInputs]
  have hph : widerInputs.r.gt5 < 0 := by norm_num [widerInputs]
  have hd : TilesDisjoint (TileGrid.init 0.01 widerInputs.r) := by
    refine (C02_tiles_disjoint_iff 0.01 widerInputs.r hpw hph (by norm_num) (by norm_num [widerInputs])
      (by norm_num [widerInputs])).mpr ?_
    rw [widerGrid]
    exact ⟨.inr (by norm_num [widerInputs]), .inl (by norm_num [widerInputs])⟩
  obtain ⟨tiles, h1, h2⟩ := C97_standard_run 20 (by norm_num) widerInputs _ str hstr ['/', 'o']
    (by decide) rfl (by norm_num [widerInputs]) (by norm_num [widerInputs]) rfl
    (by norm_num [widerInputs]) (by norm_num [widerInputs]) (by norm_num [widerInputs])
    (by norm_num [widerInputs]) (by norm_num [widerInputs]) (by norm_num [widerInputs])
    hpw hph hd (isLandcover_same widerInputs rfl hpw hph) (by
      intro k B EB hB _ _
      rw [widerGrid] at hB
      have hk : k < 2 := by
        by_contra hk
        have : (tileGridLoop 2 1 1250 1250 12 12 2000 100)[k]? = none :=
          List.getElem?_eq_none (by
            have : (tileGridLoop 2 1 1250 1250 12 12 2000 100).length = 2 := rfl
            omega)
        simp only [TileGrid.getGridlimitBuffer, TileGrid.idx, this] at hB
        cases hB
      refine ⟨1240, 5, ?_, standardLand⟩
      interval_cases k
      · cases hB
        decide
      · cases hB
        decide) (by
      intro row hrow
      rw [List.mem_singleton.mp (show row ∈ [(⟨1, 1⟩ : TerrainRow ℤ ℝ)] from hrow)]
      norm_num [Real.log_one])
  exact ⟨tiles, h2⟩

/-- A run on the raster of two tiles and one on the wider raster: the multipliers at row 40 and column 700 are the
same, whatever lies beyond the old edge. -/
example (str : ℝ → List Char) (hstr : RendersDecimal str) : ∃ tiles tiles' j j' s s',
    RunSteps ((variantInputs standardInputs.dem 1 80).runCfg ['/', 'o'] 3 tiles) j
      (((variantInputs standardInputs.dem 1 80).runCfg ['/', 'o'] 3 tiles).start fun _ => none) s ∧
    RunSteps (widerInputs.runCfg ['/', 'o'] 1 tiles') j' ((widerInputs.runCfg ['/', 'o'] 1 tiles').start fun _ => none) s' ∧
    ∃ (n : List Char) (L : Limits) (tif tif' : TileTif (NanNum ℝ) (List ℝ × List ℝ)), L.Has 700 40 ∧
      s.store (pjoin ['/', 'o'] (m3File n)) = some (.tif tif) ∧
      s'.store (pjoin ['/', 'o'] (m3File n)) = some (.tif tif') ∧
      ∀ d, ∃ g g', (d, g) ∈ tif.bands ∧ (d, g') ∈ tif'.bands ∧
        g'.val (40 - L.y1.toNat) (700 - L.x1.toNat) = g.val (40 - L.y1.toNat) (700 - L.x1.toNat) := by
  obtain ⟨tiles, h⟩ := variantRun standardInputs.dem 1 80 (by norm_num) le_rfl str hstr
  obtain ⟨tiles', h'⟩ := widerRun str hstr
  obtain ⟨j, s, h1, -, h2⟩ := C94_completes _ (h.good 3) (h.shapes 3) (fun _ => none) 0 _ (.refl _)
  obtain ⟨j', s', h1', -, h2'⟩ := C94_completes _ (h'.good 1) (h'.shapes 1) (fun _ => none) 0 _ (.refl _)
  refine ⟨tiles, tiles', j, j', s, s', h1, h1', ?_⟩
  obtain ⟨k, L, B, n, a1, a2, a3, a4, a5⟩ := C147_run h h'
    ⟨rfl, rfl, rfl, rfl, by norm_num [variantInputs, standardInputs, widerInputs], le_rfl⟩ rfl rfl (fun _ _ _ => rfl)
    rfl rfl 3 1 _ _ j j' s s' h1 h2 h1' h2' 700 40 (by norm_num [variantInputs, standardInputs])
    (by norm_num [variantInputs, standardInputs])
  have ag := a1
  have ab := a3
  change (TileGrid.init 0.01 standardInputs.r).getGridlimit k = .ok L at ag
  change (TileGrid.init 0.01 standardInputs.r).getGridlimitBuffer k = .ok B at ab
  rw [standardGrid] at ag ab
  have hk : k < 2 := by
    by_contra hk
    have : (tileGridLoop 2 1 1250 1250 12 12 1300 100)[k]? = none :=
      List.getElem?_eq_none (by
        have : (tileGridLoop 2 1 1250 1250 12 12 1300 100).length = 2 := rfl
        omega)
    simp only [TileGrid.getGridlimitBuffer, TileGrid.idx, this] at ab
    cases ab
  have hB : B.x2 ≤ 1262 := by
    interval_cases k
    · cases ab
      decide
    · have : L.x1 = 1250 := by
        cases ag
        decide
      obtain ⟨o, -⟩ := a2
      omega
  have hin : InnerPart (variantInputs standardInputs.dem 1 80).r widerInputs.r B := by
    refine ⟨.inl ?_, .inr rfl⟩
    show B.x2 < ((1300 : ℕ) : ℤ)
    omega
  rcases a5 hin (by
    rintro qx qy ⟨q1, q2, q3, q4⟩
    refine ⟨?_, rfl⟩
    show some (if qx < 1300 then (qy : ℝ) + qx else qy + qx + 300) = some ((qy : ℝ) + qx)
    rw [if_pos (by omega)]) with ⟨c1, -⟩ | ⟨tif, mx, tif', mx', c1, c2, -, -, -, c3, c4, -⟩
  · exfalso
    rcases h.each k ((C01_gridlimit_defined_iff 0.01 _ k).mp ⟨L, a1⟩) with
      ⟨EB, -, b1⟩ | ⟨L', B', E, EB, xm, ym, gw, t⟩
    · exact one_ne_zero b1
    · obtain ⟨tif, mx, b1, -⟩ := (C96_run h 3 _ j s h1).2.2 h2 k L' B' E EB xm ym gw n t a4
      rw [c1] at b1
      cases b1
  · refine ⟨n, L, tif, tif', a2, c1, c2, fun d => ?_⟩
    obtain ⟨g, g', c5, c6⟩ := c3 d
    exact ⟨g, g', c5, c6, c4 d g g' c5 c6⟩

end WindMult
