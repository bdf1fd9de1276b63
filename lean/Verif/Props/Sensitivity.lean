import Verif.Props.Range

/-!
# C103, C104: what the final multipliers depend on

Two runs are compared: on inputs that agree around a tile, and on inputs with other tables.
-/

set_option autoImplicit false
set_option linter.unusedSectionVars false

namespace WindMult
open Spec

/-! ### Raw topographic multipliers are determined -/

theorem IsRawMt.unique {g : Grid ℝ} {d : Dir} {ds : ℝ} {tas : Prop} [Decidable tas] {r c : ℤ} {x y : ℝ}
    (hx : IsRawMt g d ds tas r c x) (hy : IsRawMt g d ds tas r c y) : x = y := by
  by_cases h : InRaster g.rows g.cols r c
  · obtain ⟨u, n, a, h1, h2, h3⟩ := hx.1 h
    obtain ⟨u', n', b, k1, k2, k3⟩ := hy.1 h
    obtain ⟨rfl, rfl⟩ := transect_unique _ _ d r c u n u' n' h1 k1
    rw [h3, k3, IsGreatest.unique h2 k2]
  · rw [hx.2 h, hy.2 h]

theorem clamped_same {g h : Grid ℝ} (hs : g.Same h) (hr : 0 < g.rows) (hc : 0 < g.cols) (r c : ℤ) :
    g.clamped r c = h.clamped r c := by
  obtain ⟨h1, h2, h3⟩ := hs
  unfold Grid.clamped
  rw [← h1, ← h2]
  exact h3 _ (by split_ifs <;> omega) _ (by split_ifs <;> omega)

theorem rise_same {g h : Grid ℝ} (hs : g.Same h) (hr : 0 < g.rows) (hc : 0 < g.cols) (r c : ℤ) :
    riseEast g r c = riseEast h r c ∧ riseNorth g r c = riseNorth h r c := by
  unfold riseEast riseNorth
  simp only [clamped_same hs hr hc, and_self]

section
variable {c c' : Inputs} {up : ℝ} {k : ℕ} {L B : Limits} {E EB : Extent ℝ} {xm ym : Grid ℝ} {gw : ℝ}
  {cat cat' : Grid ℤ}

/-- A pixel with a value in two runs on the same elevations around the tile: the values differ only in
shielding and terrain. -/
theorem m3_pair (t : TileCase c up k L B E EB xm ym gw cat) (t' : TileCase c' up k L B E EB xm ym gw cat')
    (hr : c'.r = c.r)
    (hdem : ∀ qx qy : ℕ, B.Has qx qy → c'.elevation.val qy qx = c.elevation.val qy qx)
    {tif tif' : TileTif (NanNum ℝ) (List ℝ × List ℝ)} (h : IsM3 c L B xm ym gw cat tif)
    (h' : IsM3 c' L B xm ym gw cat' tif') {px py : ℕ} (hp : L.Has px py) {d : Dir}
    {g g' : Grid (NanNum ℝ)} (hg : (d, g) ∈ tif.bands) (hg' : (d, g') ∈ tif'.bands) {m m' : ℝ}
    (hz : classMz c.terrainTable (cat.val py px) ≠ 0)
    (hs : shieldMean (cat.map (classMs c.shieldTable)) d ⌊100 / gw⌋.toNat py px = some m)
    (hz' : classMz c'.terrainTable (cat'.val py px) ≠ 0)
    (hs' : shieldMean (cat'.map (classMs c'.shieldTable)) d ⌊100 / gw⌋.toNat py px = some m') :
    ∃ (facing : Prop) (_ : Decidable facing) (s mt : ℝ), 0 ≤ mt ∧
      g.val (py - L.y1.toNat) (px - L.x1.toNat) =
        .num (finalMs (slopeAdjusted facing m (some s)) *
          upwindMean (waterMz c.terrainTable cat) d (terrainWidths d gw).1.toNat
            (terrainWidths d gw).2.toNat py px * mt) ∧
      g'.val (py - L.y1.toNat) (px - L.x1.toNat) =
        .num (finalMs (slopeAdjusted facing m' (some s)) *
          upwindMean (waterMz c'.terrainTable cat') d (terrainWidths d gw).1.toNat
            (terrainWidths d gw).2.toNat py px * mt) := by
  obtain ⟨⟨a0, a1, a2, a3, a4⟩, ⟨b0, b1, b2, b3, b4⟩, -⟩ := t.geometry
  have hsame : (c.elevation.window B).Same (c'.elevation.window B) := by
    refine ⟨rfl, rfl, fun i hi j hj => ?_⟩
    have hi : i < (B.y2 - B.y1).toNat := hi
    have hj : j < (B.x2 - B.x1).toNat := hj
    exact (hdem (B.x1.toNat + j) (B.y1.toNat + i) ⟨by push_cast; omega, by push_cast; omega,
      by push_cast; omega, by push_cast; omega⟩).symm
  have hp' := hp
  obtain ⟨p1, p2, p3, p4⟩ := hp'
  have hrise : riseEast c.elevation py px = riseEast c'.elevation py px ∧
      riseNorth c.elevation py px = riseNorth c'.elevation py px := by
    have d1 := t.dem_same
    have d2 := t'.dem_same
    have r1 : 0 < (cutDem c.r c.dem EB 0).rows := by
      rw [d1.1]; show 0 < (B.y2 - B.y1).toNat; omega
    have r2 : 0 < (cutDem c.r c.dem EB 0).cols := by
      rw [d1.2.1]; show 0 < (B.x2 - B.x1).toNat; omega
    have hs : (cutDem c.r c.dem EB 0).Same (cutDem c'.r c'.dem EB 0) := by
      refine ⟨by rw [d1.1, d2.1]; rfl, by rw [d1.2.1, d2.2.1]; rfl, fun i hi j hj => ?_⟩
      rw [d1.2.2 i hi j hj, hsame.2.2 i (by rw [← d1.1]; exact hi) j (by rw [← d1.2.1]; exact hj),
        d2.2.2 i (by rw [d2.1]; rw [d1.1] at hi; exact hi) j
          (by rw [d2.2.1]; rw [d1.2.1] at hj; exact hj)]
    obtain ⟨e1, e2⟩ := t.toAt.rise_block px py hp
    obtain ⟨f1, f2⟩ := t'.toAt.rise_block px py hp
    obtain ⟨s1, s2⟩ := rise_same hs r1 r2 (py - B.y1.toNat : ℕ) (px - B.x1.toNat : ℕ)
    rw [← e1, ← f1, ← e2, ← f2]
    exact ⟨s1, s2⟩
  obtain ⟨hd, s, hf⟩ := exists_fallsTowards
    (riseEast c.elevation py px / xm.val (py - B.y1.toNat) (px - B.x1.toNat))
    (riseNorth c.elevation py px / ym.val (py - B.y1.toNat) (px - B.x1.toNat))
  obtain ⟨x, x1, x2⟩ := ((h.2.2 d g hg).2.2 px py hp).2 m hd s (Classical.dec _) hz hs hf
  rw [hrise.1, hrise.2] at hf
  obtain ⟨y, y1, y2⟩ := ((h'.2.2 d g' hg').2.2 px py hp).2 m' hd s (Classical.dec _) hz' hs' hf
  have hxy : ∀ a b, x a b = y a b := by
    intro a b
    have h2 := rawMt_same _ _ hsame d _ _ _ _ _ (x1 a b)
    have h3 := y1 a b
    simp only [hr] at h3
    exact h2.unique h3
  have hnn : ∀ a b, 0 ≤ x a b := by
    intro a b
    by_cases hin : InRaster (c.elevation.window B).rows (c.elevation.window B).cols (py - B.y1 + a)
        (px - B.x1 + b)
    · obtain ⟨u, n, v, -, v2, v3⟩ := (x1 a b).1 hin
      rw [v3]
      exact zero_le_one.trans (adjustedMt_range v2.range.1 v2.range.2 (le_max_left 0 _)
        (le_max_right 0 _)).1
    · rw [(x1 a b).2 hin]
  refine ⟨InSector d hd, Classical.dec _, s, (∑ a ∈ {-1, 0, 1}, ∑ b ∈ {-1, 0, 1}, x a b) / 9, ?_, x2, ?_⟩
  · exact div_nonneg (Finset.sum_nonneg fun a _ => Finset.sum_nonneg fun b _ => hnn a b) (by norm_num)
  · rw [y2]
    simp only [hxy]

/-- Maxima of bands that are related direction by direction. -/
theorem IsM3Max.pair {tif tif' : TileTif (NanNum ℝ) (List ℝ × List ℝ)}
    {mx mx' : Raster (NanNum ℝ) (List ℝ × List ℝ)}
    (hb : ∀ d, (tif.bands.map Prod.fst).count d = 1) (hb' : ∀ d, (tif'.bands.map Prod.fst).count d = 1)
    (h : IsM3Max L tif mx) (h' : IsM3Max L tif' mx') {px py : ℕ} (hp : L.Has px py)
    (R : ℝ → ℝ → Prop)
    (hpair : ∀ d g g', (d, g) ∈ tif.bands → (d, g') ∈ tif'.bands →
      (g.val (py - L.y1.toNat) (px - L.x1.toNat) = .nan ∧
        g'.val (py - L.y1.toNat) (px - L.x1.toNat) = .nan) ∨
      ∃ x y, g.val (py - L.y1.toNat) (px - L.x1.toNat) = .num x ∧
        g'.val (py - L.y1.toNat) (px - L.x1.toNat) = .num y ∧ R x y) :
    (mx.band.val (py - L.y1.toNat) (px - L.x1.toNat) = .nan ∧
      mx'.band.val (py - L.y1.toNat) (px - L.x1.toNat) = .nan) ∨
    ∃ (p q : Dir → ℝ) (d d' : Dir), (∀ v, R (p v) (q v)) ∧
      mx.band.val (py - L.y1.toNat) (px - L.x1.toNat) = .num (p d) ∧ (∀ v, p v ≤ p d) ∧
      mx'.band.val (py - L.y1.toNat) (px - L.x1.toNat) = .num (q d') ∧ (∀ v, q v ≤ q d') := by
  obtain ⟨h1, h2⟩ := h.2.2 px py hp
  obtain ⟨k1, k2⟩ := h'.2.2 px py hp
  choose g hg hu using fun d => bands_unique hb d
  choose g' hg' hu' using fun d => bands_unique hb' d
  by_cases hn : mx.band.val (py - L.y1.toNat) (px - L.x1.toNat) = .nan
  · left
    refine ⟨hn, ?_⟩
    obtain ⟨d, gd, m1, m2⟩ := h1.mp hn
    rw [k1]
    rcases hpair d gd (g' d) m1 (hg' d) with ⟨-, q⟩ | ⟨x, y, q, -⟩
    · exact ⟨d, g' d, hg' d, q⟩
    · rw [m2] at q
      cases q
  · right
    rw [h1] at hn
    push Not at hn
    have hv : ∀ d, ∃ x y, (g d).val (py - L.y1.toNat) (px - L.x1.toNat) = .num x ∧
        (g' d).val (py - L.y1.toNat) (px - L.x1.toNat) = .num y ∧ R x y := fun d => by
      rcases hpair d (g d) (g' d) (hg d) (hg' d) with ⟨q, -⟩ | q
      · exact absurd q (hn d _ (hg d))
      · exact q
    choose p q hpq using hv
    obtain ⟨d, d1, d2⟩ := h2 p (fun d g0 hg0 => by rw [hu d g0 hg0, (hpq d).1])
    obtain ⟨d', d3, d4⟩ := k2 q (fun d g0 hg0 => by rw [hu' d g0 hg0, (hpq d).2.1])
    exact ⟨p, q, d, d', fun v => (hpq v).2.2, d1, d2, d3, d4⟩

end

/-! ### Two runs -/

section
variable {c c' : Inputs} {up : ℝ} {cat cat' : Grid ℤ} {str : ℝ → List Char} {out out' : List Char}
  {tiles tiles' : List (List Char × Extent ℝ × Extent ℝ)}

/-- What two completed runs on the same grid leave for a pixel, if the elevations are the same around
its tile. -/
theorem run_pair (h : RunCase c up cat str out tiles) (h' : RunCase c' up cat' str out' tiles')
    (hr : c'.r = c.r) (hsz : c'.pixelSizes = c.pixelSizes) (hck : c'.checksum = c.checksum)
    (hcells : ∀ g g' : Grid ℝ, g.Same g' → c.checksum g = c.checksum g') (nW nW' : ℕ)
    (st0 st0' : Store (NanNum ℝ) (List ℝ × List ℝ)) (j j' : ℕ)
    (s s' : RunState (NanNum ℝ) (List ℝ × List ℝ))
    (hrun : RunSteps (c.runCfg out nW tiles) j ((c.runCfg out nW tiles).start st0) s)
    (hdone : (c.runCfg out nW tiles).Done s)
    (hrun' : RunSteps (c'.runCfg out' nW' tiles') j' ((c'.runCfg out' nW' tiles').start st0') s')
    (hdone' : (c'.runCfg out' nW' tiles').Done s') (px py : ℕ) (hx : px < c.r.xDim) (hy : py < c.r.yDim) :
    ∃ k L B n, (TileGrid.init up c.r).getGridlimit k = .ok L ∧ L.Has px py ∧
      (TileGrid.init up c.r).getGridlimitBuffer k = .ok B ∧
      (TileGrid.init up c.r).getTilename str k = .ok n ∧
      ((∀ qx qy : ℕ, B.Has qx qy → c'.dem.val qy qx = c.dem.val qy qx) →
        (s.store (pjoin out (m3File n)) = none ∧ s'.store (pjoin out' (m3File n)) = none ∧
          s.store (pjoin out (m3MaxFile n)) = none ∧ s'.store (pjoin out' (m3MaxFile n)) = none) ∨
        ∃ E EB xm ym gw tif mx tif' mx', TileCase c up k L B E EB xm ym gw cat ∧
          TileCase c' up k L B E EB xm ym gw cat' ∧
          s.store (pjoin out (m3File n)) = some (.tif tif) ∧
          s'.store (pjoin out' (m3File n)) = some (.tif tif') ∧
          s.store (pjoin out (m3MaxFile n)) = some (.maxTif mx) ∧
          s'.store (pjoin out' (m3MaxFile n)) = some (.maxTif mx') ∧
          IsM3 c L B xm ym gw cat tif ∧ IsM3 c' L B xm ym gw cat' tif' ∧
          IsM3Max L tif mx ∧ IsM3Max L tif' mx') := by
  obtain ⟨k, L, n, hL, hp, huniq, hn, hcase⟩ := C96_every_pixel h nW st0 j s hrun hdone px py hx hy
  obtain ⟨k', L', n', hL', hp', -, hn', hcase'⟩ :=
    C96_every_pixel h' nW' st0' j' s' hrun' hdone' px py (by rw [hr]; exact hx) (by rw [hr]; exact hy)
  rw [hr] at hL' hn' hcase'
  obtain rfl := huniq k' L' hL' hp'
  rw [hL] at hL'
  cases hL'
  rw [hn] at hn'
  cases hn'
  have hk := (C01_gridlimit_defined_iff up c.r k').mp ⟨L, hL⟩
  obtain ⟨-, B, -, hB, -⟩ := C03_buffer_surrounds_core up c.r h.pw h.ph h.upPos k' hk
  refine ⟨k', L, B, n, hL, hp, hB, hn, fun hdem => ?_⟩
  have hempty : ∀ EB, (TileGrid.init up c.r).getTileExtentBuffer k' = .ok EB →
      c.checksum (cutDem c.r c'.dem EB 0) = c.checksum (cutDem c.r c.dem EB 0) := by
    intro EB hEB
    have hnear : EB.Near c.r.gt1 (-c.r.gt5) EB := by
      have h1 := h.pw
      have h2 := h.ph
      simp only [Extent.Near, sub_self, abs_zero]
      refine ⟨?_, ?_, ?_, ?_⟩ <;> linarith
    obtain ⟨a1, a2, a3⟩ := C78_dem_tile_is_block up c.r h.pw h.ph h.upPos c'.dem (0 : ℝ) k' B EB EB hB hEB
      hnear
    obtain ⟨b1, b2, b3⟩ := C78_dem_tile_is_block up c.r h.pw h.ph h.upPos c.dem (0 : ℝ) k' B EB EB hB hEB
      hnear
    refine hcells _ _ ⟨by omega, by omega, fun i hi j hj => ?_⟩
    by_cases hneg : 0 ≤ B.y1 ∧ 0 ≤ B.x1
    · have hh : B.Has (B.x1.toNat + j) (B.y1.toNat + i) :=
        ⟨by omega, by omega, by omega, by omega⟩
      have e1 := a3 _ _ hh
      have e2 := b3 _ _ hh
      rw [Nat.add_sub_cancel_left, Nat.add_sub_cancel_left] at e1 e2
      rw [e1, e2, hdem _ _ hh]
    · exfalso
      obtain ⟨L'', B'', q1, q2, ⟨q3, -⟩, ⟨q4, -⟩, -⟩ :=
        C03_buffer_surrounds_core up c.r h.pw h.ph h.upPos k' hk
      rw [hB] at q2
      cases q2
      exact hneg ⟨q4, q3⟩
  rcases hcase with ⟨EB, e1, e2, e3, e4⟩ | ⟨B1, E, EB, xm, ym, gw, tif, mx, t, e1, e2, e3, e4⟩
  · rcases hcase' with ⟨EB', f1, f2, f3, f4⟩ | ⟨B2, E', EB', xm', ym', gw', tif', mx', t', f1, f2, f3, f4⟩
    · exact .inl ⟨e3, f3, e4, f4⟩
    · have g1 := t'.extentB
      have g2 := t'.notEmpty
      rw [hr] at g1 g2
      rw [e1] at g1
      cases g1
      rw [hck, hempty _ e1] at g2
      exact absurd e2 g2
  · rcases hcase' with ⟨EB', f1, f2, f3, f4⟩ | ⟨B2, E', EB', xm', ym', gw', tif', mx', t', f1, f2, f3, f4⟩
    · have g1 := t.extentB
      rw [f1] at g1
      cases g1
      rw [hck, hempty _ f1] at f2
      exact absurd f2 t.notEmpty
    · right
      have a1 := t.limitsB
      have a2 := t'.limitsB
      have a3 := t'.extentB
      have a4 := t'.extent
      have a5 := t'.sizes
      have a6 := t'.width
      rw [hr] at a2 a3 a4
      rw [hB] at a1 a2
      cases a1
      cases a2
      rw [t.extentB] at a3
      cases a3
      rw [t.extent] at a4
      cases a4
      rw [hr, hsz, t.sizes] at a5
      cases a5
      rw [← t.width] at a6
      subst a6
      exact ⟨E, EB, xm, ym, gw', tif, mx, tif', mx', t, t', e1, f1, e3, f3, e2, f2, e4, f4⟩

/-- **C103** The GeoTIFFs of a tile depend only on the elevations and the land cover within its buffered
limits: two completed runs with the same tables, whose inputs agree there and may differ elsewhere, leave
both no GeoTIFF of the tile or the same values in all bands and in the maxima – with any numbers of
processes, any schedules and any output folders. -/
theorem C103_local (h : RunCase c up cat str out tiles) (h' : RunCase c' up cat' str out' tiles')
    (hr : c'.r = c.r) (hsz : c'.pixelSizes = c.pixelSizes) (hck : c'.checksum = c.checksum)
    (hcells : ∀ g g' : Grid ℝ, g.Same g' → c.checksum g = c.checksum g')
    (hterrain : c'.terrainTable = c.terrainTable) (hshield : c'.shieldTable = c.shieldTable) (nW nW' : ℕ)
    (st0 st0' : Store (NanNum ℝ) (List ℝ × List ℝ)) (j j' : ℕ)
    (s s' : RunState (NanNum ℝ) (List ℝ × List ℝ))
    (hrun : RunSteps (c.runCfg out nW tiles) j ((c.runCfg out nW tiles).start st0) s)
    (hdone : (c.runCfg out nW tiles).Done s)
    (hrun' : RunSteps (c'.runCfg out' nW' tiles') j' ((c'.runCfg out' nW' tiles').start st0') s')
    (hdone' : (c'.runCfg out' nW' tiles').Done s') (px py : ℕ) (hx : px < c.r.xDim) (hy : py < c.r.yDim) :
    ∃ k L B n, (TileGrid.init up c.r).getGridlimit k = .ok L ∧ L.Has px py ∧
      (TileGrid.init up c.r).getGridlimitBuffer k = .ok B ∧
      (TileGrid.init up c.r).getTilename str k = .ok n ∧
      ((∀ qx qy : ℕ, B.Has qx qy → c'.dem.val qy qx = c.dem.val qy qx ∧ cat'.val qy qx = cat.val qy qx) →
        (s.store (pjoin out (m3File n)) = none ∧ s'.store (pjoin out' (m3File n)) = none ∧
          s.store (pjoin out (m3MaxFile n)) = none ∧ s'.store (pjoin out' (m3MaxFile n)) = none) ∨
        ∃ tif mx tif' mx', s.store (pjoin out (m3File n)) = some (.tif tif) ∧
          s'.store (pjoin out' (m3File n)) = some (.tif tif') ∧
          s.store (pjoin out (m3MaxFile n)) = some (.maxTif mx) ∧
          s'.store (pjoin out' (m3MaxFile n)) = some (.maxTif mx') ∧
          tif'.transform = tif.transform ∧ (∀ d, ∃ g g', (d, g) ∈ tif.bands ∧ (d, g') ∈ tif'.bands) ∧
          (∀ d g g', (d, g) ∈ tif.bands → (d, g') ∈ tif'.bands →
            g'.val (py - L.y1.toNat) (px - L.x1.toNat) = g.val (py - L.y1.toNat) (px - L.x1.toNat)) ∧
          mx'.band.val (py - L.y1.toNat) (px - L.x1.toNat) =
            mx.band.val (py - L.y1.toNat) (px - L.x1.toNat)) := by
  obtain ⟨k, L, B, n, hL, hp, hB, hn, hcase⟩ :=
    run_pair h h' hr hsz hck hcells nW nW' st0 st0' j j' s s' hrun hdone hrun' hdone' px py hx hy
  refine ⟨k, L, B, n, hL, hp, hB, hn, fun hagree => ?_⟩
  rcases hcase (fun qx qy hq => (hagree qx qy hq).1) with hnone |
    ⟨E, EB, xm, ym, gw, tif, mx, tif', mx', t, t', e1, e2, e3, e4, m3, m3', mm, mm'⟩
  · exact .inl hnone
  right
  obtain ⟨⟨a0, a1, a2, a3, a4⟩, ⟨b0, b1, b2, b3, b4⟩, -⟩ := t.geometry
  have hp' := hp
  obtain ⟨p1, p2, p3, p4⟩ := hp'
  have hin : ∀ i < (B.y2 - B.y1).toNat, ∀ j < (B.x2 - B.x1).toNat,
      B.Has (B.x1.toNat + j) (B.y1.toNat + i) := fun i hi j hj =>
    ⟨by omega, by omega, by omega, by omega⟩
  obtain ⟨r1, r2, -⟩ := t.land
  obtain ⟨r1', r2', -⟩ := t'.land
  rw [hr] at r1' r2'
  have hcat : cat'.val py px = cat.val py px :=
    (hagree px py ⟨by omega, by omega, by omega, by omega⟩).2
  have hmean : ∀ d, upwindMean (waterMz c'.terrainTable cat') d (terrainWidths d gw).1.toNat
        (terrainWidths d gw).2.toNat py px =
      upwindMean (waterMz c.terrainTable cat) d (terrainWidths d gw).1.toNat
        (terrainWidths d gw).2.toNat py px := by
    intro d
    rw [← t.upwindMean_block (waterMz c.terrainTable cat) r1 r2 d px py hp,
      ← t.upwindMean_block (waterMz c'.terrainTable cat') r1' r2' d px py hp]
    have hs : ((waterMz c'.terrainTable cat').window B).Same ((waterMz c.terrainTable cat).window B) := by
      refine ⟨rfl, rfl, fun i hi j hj => ?_⟩
      show (if classMz c'.terrainTable (cat'.val _ _) = 0 then 1
          else classMz c'.terrainTable (cat'.val _ _)) =
        if classMz c.terrainTable (cat.val _ _) = 0 then 1 else classMz c.terrainTable (cat.val _ _)
      rw [(hagree _ _ (hin i hi j hj)).2, hterrain]
    exact upwindMean_same _ _ hs d _ _ _ _ (show py - B.y1.toNat < (B.y2 - B.y1).toNat by omega)
      (show px - B.x1.toNat < (B.x2 - B.x1).toNat by omega)
  have hsh : ∀ d, shieldMean (cat'.map (classMs c'.shieldTable)) d ⌊100 / gw⌋.toNat py px =
      shieldMean (cat.map (classMs c.shieldTable)) d ⌊100 / gw⌋.toNat py px := by
    intro d
    rw [← t.shieldMean_block (cat.map (classMs c.shieldTable)) r1 r2 d px py hp,
      ← t.shieldMean_block (cat'.map (classMs c'.shieldTable)) r1' r2' d px py hp]
    have hs : ((cat'.map (classMs c'.shieldTable)).window B).Same
        ((cat.map (classMs c.shieldTable)).window B) := by
      refine ⟨rfl, rfl, fun i hi j hj => ?_⟩
      show classMs c'.shieldTable (cat'.val _ _) = classMs c.shieldTable (cat.val _ _)
      rw [(hagree _ _ (hin i hi j hj)).2, hshield]
    exact shieldMean_same _ _ hs d _ _ _
  have hpair : ∀ d g g', (d, g) ∈ tif.bands → (d, g') ∈ tif'.bands →
      (g.val (py - L.y1.toNat) (px - L.x1.toNat) = .nan ∧
        g'.val (py - L.y1.toNat) (px - L.x1.toNat) = .nan) ∨
      ∃ x y, g.val (py - L.y1.toNat) (px - L.x1.toNat) = .num x ∧
        g'.val (py - L.y1.toNat) (px - L.x1.toNat) = .num y ∧ x = y := by
    intro d g g' hg hg'
    have n1 := ((m3.2.2 d g hg).2.2 px py hp).1
    have n2 := ((m3'.2.2 d g' hg').2.2 px py hp).1
    rw [hsh, hterrain, hcat] at n2
    by_cases hnan : classMz c.terrainTable (cat.val py px) = 0 ∨
        shieldMean (cat.map (classMs c.shieldTable)) d ⌊100 / gw⌋.toNat py px = none
    · exact .inl ⟨n1.mpr hnan, n2.mpr hnan⟩
    · right
      push Not at hnan
      obtain ⟨m, hm⟩ := Option.ne_none_iff_exists'.mp hnan.2
      obtain ⟨f, hf, sl, mt, -, v1, v2⟩ := m3_pair t t' hr (fun qx qy hq => by
          show (c'.dem.val qy qx).getD 0 = (c.dem.val qy qx).getD 0
          rw [(hagree qx qy hq).1]) m3 m3' hp hg hg' hnan.1 hm
        (by rw [hterrain, hcat]; exact hnan.1) ((hsh d).trans hm)
      rw [hmean d] at v2
      exact ⟨_, _, v1, v2, rfl⟩
  refine ⟨tif, mx, tif', mx', e1, e2, e3, e4, ?_, ?_, ?_, ?_⟩
  · rw [m3.1, m3'.1, hr]
  · intro d
    obtain ⟨g, hg, -⟩ := bands_unique m3.2.1 d
    obtain ⟨g', hg', -⟩ := bands_unique m3'.2.1 d
    exact ⟨g, g', hg, hg'⟩
  · intro d g g' hg hg'
    rcases hpair d g g' hg hg' with ⟨q1, q2⟩ | ⟨x, y, q1, q2, rfl⟩
    · rw [q1, q2]
    · rw [q1, q2]
  · rcases mm.pair m3.2.1 m3'.2.1 mm' hp (· = ·) hpair with ⟨q1, q2⟩ | ⟨p, q, d, d', o1, o2, o3, o4, o5⟩
    · rw [q1, q2]
    · rw [o2, o4]
      have : p = q := funext o1
      subst this
      rw [le_antisymm (o3 d') (o5 d)]

/-! ### Other tables -/

/-- A category in two tables with the same categories. -/
theorem find_forall₂ {α : Type} {R : α → α → Prop} {p : α → Bool}
    (hp : ∀ a b, R a b → p a = p b) : ∀ {l l' : List α}, List.Forall₂ R l l' →
    (l.find? p = none ∧ l'.find? p = none) ∨ ∃ a b, l.find? p = some a ∧ l'.find? p = some b ∧ R a b
  | _, _, .nil => .inl ⟨rfl, rfl⟩
  | _, _, .cons (a := a) (b := b) (l₁ := l) (l₂ := l') h t => by
    have e := hp a b h
    rw [List.find?_cons, List.find?_cons, ← e]
    cases p a with
    | true => exact .inr ⟨a, b, rfl, rfl, h⟩
    | false => exact find_forall₂ hp t

/-- The terrain multiplier of a category for smoother ground. -/
theorem classMz_mono {T T' : List (TerrainRow ℤ ℝ)}
    (h : List.Forall₂ (fun row row' => row'.category = row.category ∧ row'.roughness ≤ row.roughness) T T')
    (hpos : ∀ row ∈ T, 0 < roughnessMz row.roughness)
    (hdef : ∀ row ∈ T', 0 < row.roughness ∧ 0 < 3.734 + 0.4554 * Real.log row.roughness) (k : ℤ) :
    (classMz T k = 0 ∧ classMz T' k = 0) ∨ (0 < classMz T k ∧ classMz T k ≤ classMz T' k) := by
  unfold classMz
  rcases find_forall₂ (p := fun row : TerrainRow ℤ ℝ => row.category = k)
    (fun a b hab => by simp only [hab.1])
    (List.forall₂_reverse_iff.mpr h) with ⟨e1, e2⟩ | ⟨a, b, e1, e2, -, e3⟩
  · rw [e1, e2]
    exact .inl ⟨rfl, rfl⟩
  · rw [e1, e2]
    right
    have ha := hpos a (List.mem_reverse.mp (List.mem_of_find?_eq_some e1))
    obtain ⟨b1, b2⟩ := hdef b (List.mem_reverse.mp (List.mem_of_find?_eq_some e2))
    show 0 < roughnessMz a.roughness ∧ roughnessMz a.roughness ≤ roughnessMz b.roughness
    refine ⟨ha, ?_⟩
    rcases e3.lt_or_eq with hlt | heq
    · rw [← mzFormula_eq, ← mzFormula_eq]
      refine (C27_rougher_is_lower b.roughness a.roughness b1 ?_ hlt).le
      norm_num at b2 ⊢
      linarith
    · rw [heq]

theorem classMs_mono {S S' : List (ℤ × ℝ)}
    (h : List.Forall₂ (fun row row' => row'.1 = row.1 ∧ 0 ≤ row.2 ∧ row.2 ≤ row'.2) S S') (k : ℤ) :
    (classMs S k = none ∧ classMs S' k = none) ∨
      ∃ a b, classMs S k = some a ∧ classMs S' k = some b ∧ 0 ≤ a ∧ a ≤ b := by
  unfold classMs
  by_cases hk : k = -99
  · rw [if_pos hk, if_pos hk]
    exact .inl ⟨rfl, rfl⟩
  rw [if_neg hk, if_neg hk]
  right
  rcases find_forall₂ (p := fun row : ℤ × ℝ => row.1 = k) (fun a b hab => by simp only [hab.1])
    (List.forall₂_reverse_iff.mpr h) with ⟨e1, e2⟩ | ⟨a, b, e1, e2, -, e3, e4⟩
  · rw [e1, e2]
    exact ⟨1, 1, rfl, rfl, zero_le_one, le_rfl⟩
  · rw [e1, e2]
    exact ⟨_, _, rfl, rfl, by positivity, by linarith⟩

theorem shieldMean_mono {S S' : List (ℤ × ℝ)} (cat : Grid ℤ)
    (h : List.Forall₂ (fun row row' => row'.1 = row.1 ∧ 0 ≤ row.2 ∧ row.2 ≤ row'.2) S S') (d : Dir)
    (k i j : ℕ) :
    (shieldMean (cat.map (classMs S)) d k i j = none ∧ shieldMean (cat.map (classMs S')) d k i j = none) ∨
      ∃ m m', shieldMean (cat.map (classMs S)) d k i j = some m ∧
        shieldMean (cat.map (classMs S')) d k i j = some m' ∧ 0 ≤ m ∧ m ≤ m' := by
  have hcell : ∀ r c : ℤ, ((cat.map (classMs S)).cellOrOne r c = none ∧
        (cat.map (classMs S')).cellOrOne r c = none) ∨
      ∃ a b, (cat.map (classMs S)).cellOrOne r c = some a ∧ (cat.map (classMs S')).cellOrOne r c = some b ∧
        0 ≤ a ∧ a ≤ b := by
    intro r c
    by_cases hin : InRaster cat.rows cat.cols r c
    · have e1 : ∀ T, (cat.map (classMs T)).cellOrOne r c = classMs T (cat.val r.toNat c.toNat) :=
        fun T => if_pos hin
      rw [e1, e1]
      exact classMs_mono h _
    · have e1 : ∀ T, (cat.map (classMs T)).cellOrOne r c = some 1 := fun T => if_neg hin
      rw [e1, e1]
      exact .inr ⟨1, 1, rfl, rfl, zero_le_one, le_rfl⟩
  unfold shieldMean
  by_cases hex : ∃ o ∈ shieldCells d k, (cat.map (classMs S)).cellOrOne (i + o.1) (j + o.2) = none
  · left
    rw [if_pos hex, if_pos]
    · exact ⟨rfl, rfl⟩
    · obtain ⟨o, ho, e⟩ := hex
      refine ⟨o, ho, ?_⟩
      rcases hcell (i + o.1) (j + o.2) with ⟨-, q⟩ | ⟨a, b, q, -⟩
      · exact q
      · rw [e] at q
        cases q
  · right
    rw [if_neg hex, if_neg]
    · push Not at hex
      have hb : ∀ o ∈ shieldCells d k,
          0 ≤ ((cat.map (classMs S)).cellOrOne (i + o.1) (j + o.2)).getD 0 ∧
          ((cat.map (classMs S)).cellOrOne (i + o.1) (j + o.2)).getD 0 ≤
            ((cat.map (classMs S')).cellOrOne (i + o.1) (j + o.2)).getD 0 := by
        intro o ho
        rcases hcell (i + o.1) (j + o.2) with ⟨q, -⟩ | ⟨a, b, q1, q2, q3, q4⟩
        · exact absurd q (hex o ho)
        · rw [q1, q2]
          exact ⟨q3, q4⟩
      refine ⟨_, _, rfl, rfl, div_nonneg (Finset.sum_nonneg fun o ho => (hb o ho).1) (Nat.cast_nonneg _), ?_⟩
      gcongr with o ho
      exact (hb o ho).2
    · rintro ⟨o, ho, e⟩
      apply hex
      refine ⟨o, ho, ?_⟩
      rcases hcell (i + o.1) (j + o.2) with ⟨q, -⟩ | ⟨a, b, -, q, -⟩
      · exact q
      · rw [e] at q
        cases q

theorem slopeAdjusted_nonneg {f : Prop} [Decidable f] {m : ℝ} (s : Option ℝ) (h0 : 0 ≤ m) :
    0 ≤ slopeAdjusted f m s := by
  have a := slopeWeight_nonneg (K := ℝ) s
  have b := slopeWeight_le_one (K := ℝ) s
  unfold slopeAdjusted
  split_ifs
  · nlinarith
  · exact h0

theorem upwindMean_mono {g h : Grid ℝ} (hr : g.rows = h.rows) (hc : g.cols = h.cols)
    (hv : ∀ i j, 0 ≤ g.val i j ∧ g.val i j ≤ h.val i j) (d : Dir) (w l i j : ℕ) :
    0 ≤ upwindMean g d w l i j ∧ upwindMean g d w l i j ≤ upwindMean h d w l i j := by
  unfold upwindMean
  rw [hr, hc]
  split_ifs
  · refine ⟨div_nonneg (Finset.sum_nonneg fun t _ => (hv _ _).1) (Nat.cast_nonneg _), ?_⟩
    gcongr with t ht
    exact (hv _ _).2
  · exact hv i j

/-- **C104** Smoother ground and less shielding never lower a multiplier: if a second run differs only in
the tables, with no roughness length larger and no shielding value smaller, every pixel of every band and
of the maxima is NaN in both runs or at least as large in the second. -/
theorem C104_monotone (h : RunCase c up cat str out tiles) (h' : RunCase c' up cat str out' tiles')
    (hr : c'.r = c.r) (hsz : c'.pixelSizes = c.pixelSizes) (hck : c'.checksum = c.checksum)
    (hcells : ∀ g g' : Grid ℝ, g.Same g' → c.checksum g = c.checksum g')
    (hdem : ∀ i < c.r.yDim, ∀ j < c.r.xDim, c'.dem.val i j = c.dem.val i j)
    (hterrain : List.Forall₂
      (fun row row' => row'.category = row.category ∧ row'.roughness ≤ row.roughness)
      c.terrainTable c'.terrainTable)
    (hpos : ∀ row ∈ c.terrainTable, 0 < roughnessMz row.roughness)
    (hshield : List.Forall₂ (fun row row' => row'.1 = row.1 ∧ 0 ≤ row.2 ∧ row.2 ≤ row'.2)
      c.shieldTable c'.shieldTable) (nW nW' : ℕ)
    (st0 st0' : Store (NanNum ℝ) (List ℝ × List ℝ)) (j j' : ℕ)
    (s s' : RunState (NanNum ℝ) (List ℝ × List ℝ))
    (hrun : RunSteps (c.runCfg out nW tiles) j ((c.runCfg out nW tiles).start st0) s)
    (hdone : (c.runCfg out nW tiles).Done s)
    (hrun' : RunSteps (c'.runCfg out' nW' tiles') j' ((c'.runCfg out' nW' tiles').start st0') s')
    (hdone' : (c'.runCfg out' nW' tiles').Done s') (px py : ℕ) (hx : px < c.r.xDim) (hy : py < c.r.yDim) :
    ∃ k L n, (TileGrid.init up c.r).getGridlimit k = .ok L ∧ L.Has px py ∧
      (TileGrid.init up c.r).getTilename str k = .ok n ∧
      ((s.store (pjoin out (m3File n)) = none ∧ s'.store (pjoin out' (m3File n)) = none ∧
          s.store (pjoin out (m3MaxFile n)) = none ∧ s'.store (pjoin out' (m3MaxFile n)) = none) ∨
        ∃ tif mx tif' mx', s.store (pjoin out (m3File n)) = some (.tif tif) ∧
          s'.store (pjoin out' (m3File n)) = some (.tif tif') ∧
          s.store (pjoin out (m3MaxFile n)) = some (.maxTif mx) ∧
          s'.store (pjoin out' (m3MaxFile n)) = some (.maxTif mx') ∧
          (∀ d, ∃ g g', (d, g) ∈ tif.bands ∧ (d, g') ∈ tif'.bands) ∧
          ∀ v v', (v = mx.band.val (py - L.y1.toNat) (px - L.x1.toNat) ∧
              v' = mx'.band.val (py - L.y1.toNat) (px - L.x1.toNat)) ∨
            (∃ d g g', (d, g) ∈ tif.bands ∧ (d, g') ∈ tif'.bands ∧
              v = g.val (py - L.y1.toNat) (px - L.x1.toNat) ∧
              v' = g'.val (py - L.y1.toNat) (px - L.x1.toNat)) →
            (v = .nan ∧ v' = .nan) ∨ ∃ x y, v = .num x ∧ v' = .num y ∧ x ≤ y) := by
  obtain ⟨k, L, B, n, hL, hp, hB, hn, hcase⟩ :=
    run_pair h h' hr hsz hck hcells nW nW' st0 st0' j j' s s' hrun hdone hrun' hdone' px py hx hy
  refine ⟨k, L, n, hL, hp, hn, ?_⟩
  have hk := (C01_gridlimit_defined_iff up c.r k).mp ⟨L, hL⟩
  obtain ⟨L0, B0, q1, q2, ⟨q3, -, -, -, q4⟩, ⟨q5, -, -, -, q6⟩, -⟩ :=
    C03_buffer_surrounds_core up c.r h.pw h.ph h.upPos k hk
  rw [hB] at q2
  cases q2
  have hagree : ∀ qx qy : ℕ, B.Has qx qy → c'.dem.val qy qx = c.dem.val qy qx := by
    rintro qx qy ⟨o1, o2, o3, o4⟩
    exact hdem qy (by omega) qx (by omega)
  rcases hcase hagree with hnone |
    ⟨E, EB, xm, ym, gw, tif, mx, tif', mx', t, t', e1, e2, e3, e4, m3, m3', mm, mm'⟩
  · exact .inl hnone
  right
  have hclass := classMz_mono hterrain hpos t'.roughness
  have hwater : ∀ i j, 0 ≤ (waterMz c.terrainTable cat).val i j ∧
      (waterMz c.terrainTable cat).val i j ≤ (waterMz c'.terrainTable cat).val i j := by
    intro i j
    show 0 ≤ (if classMz c.terrainTable (cat.val i j) = 0 then 1 else classMz c.terrainTable (cat.val i j)) ∧
      (if classMz c.terrainTable (cat.val i j) = 0 then 1 else classMz c.terrainTable (cat.val i j)) ≤
        if classMz c'.terrainTable (cat.val i j) = 0 then 1 else classMz c'.terrainTable (cat.val i j)
    rcases hclass (cat.val i j) with ⟨z1, z2⟩ | ⟨z1, z2⟩
    · rw [if_pos z1, if_pos z2]
      exact ⟨zero_le_one, le_rfl⟩
    · rw [if_neg z1.ne', if_neg (z1.trans_le z2).ne']
      exact ⟨z1.le, z2⟩
  have hpair : ∀ d g g', (d, g) ∈ tif.bands → (d, g') ∈ tif'.bands →
      (g.val (py - L.y1.toNat) (px - L.x1.toNat) = .nan ∧
        g'.val (py - L.y1.toNat) (px - L.x1.toNat) = .nan) ∨
      ∃ x y, g.val (py - L.y1.toNat) (px - L.x1.toNat) = .num x ∧
        g'.val (py - L.y1.toNat) (px - L.x1.toNat) = .num y ∧ x ≤ y := by
    intro d g g' hg hg'
    have n1 := ((m3.2.2 d g hg).2.2 px py hp).1
    have n2 := ((m3'.2.2 d g' hg').2.2 px py hp).1
    rcases hclass (cat.val py px) with ⟨z1, z2⟩ | ⟨z1, z2⟩
    · exact .inl ⟨n1.mpr (.inl z1), n2.mpr (.inl z2)⟩
    rcases shieldMean_mono cat hshield d ⌊100 / gw⌋.toNat py px with ⟨w1, w2⟩ | ⟨m, m', w1, w2, w3, w4⟩
    · exact .inl ⟨n1.mpr (.inr w1), n2.mpr (.inr w2)⟩
    right
    obtain ⟨f, hf, sl, mt, hmt, v1, v2⟩ := m3_pair t t' hr (fun qx qy hq => by
        show (c'.dem.val qy qx).getD 0 = (c.dem.val qy qx).getD 0
        rw [hagree qx qy hq]) m3 m3' hp hg hg' z1.ne' w1 (z1.trans_le z2).ne' w2
    refine ⟨_, _, v1, v2, ?_⟩
    have s1 := slopeAdjusted_nonneg (f := f) sl w3
    have s2 := slopeAdjusted_mono f m m' sl w4
    obtain ⟨u1, u2⟩ := upwindMean_mono (g := waterMz c.terrainTable cat) (h := waterMz c'.terrainTable cat)
      rfl rfl hwater d (terrainWidths d gw).1.toNat (terrainWidths d gw).2.toNat py px
    have f1 := finalMs_nonneg s1
    have f2 := finalMs_mono s1 s2
    exact mul_le_mul_of_nonneg_right (mul_le_mul f2 u2 u1 (f1.trans f2)) hmt
  refine ⟨tif, mx, tif', mx', e1, e2, e3, e4, ?_, ?_⟩
  · intro d
    obtain ⟨g, hg, -⟩ := bands_unique m3.2.1 d
    obtain ⟨g', hg', -⟩ := bands_unique m3'.2.1 d
    exact ⟨g, g', hg, hg'⟩
  · rintro v v' (⟨rfl, rfl⟩ | ⟨d, g, g', hg, hg', rfl, rfl⟩)
    · rcases mm.pair m3.2.1 m3'.2.1 mm' hp (· ≤ ·) hpair with ⟨q1, q2⟩ | ⟨p, q, d, d', o1, o2, o3, o4, o5⟩
      · exact .inl ⟨q1, q2⟩
      · exact .inr ⟨_, _, o2, o4, (o1 d).trans (o5 d)⟩
    · exact hpair d g g' hg hg'

end

/-! ### Two runs -/

/-- The raster of two tiles with other elevations, or other tables with a single terrain category. -/
noncomputable def variantInputs (dem : Grid (Option ℝ)) (z m : ℝ) : Inputs :=
  { standardInputs with dem := dem, terrainTable := [⟨1, z⟩], shieldTable := [(1, m)] }

theorem variantRun (dem : Grid (Option ℝ)) (z m : ℝ) (hz : 1 / 2 ≤ z) (hz1 : z ≤ 1) (str : ℝ → List Char)
    (hstr : RendersDecimal str) : ∃ tiles, RunCase (variantInputs dem z m) 0.01
      ⟨100, 1300, fun i j => (standardInputs.lcv.val i j).getD 0⟩ str ['/', 'o'] tiles := by
  have hpw : 0 < (variantInputs dem z m).r.gt1 := by norm_num [variantInputs, standardInputs]
  have hph : (variantInputs dem z m).r.gt5 < 0 := by norm_num [variantInputs, standardInputs]
  have hlog : -1 ≤ Real.log z := by
    have h1 := Real.one_sub_inv_le_log_of_pos (show (0 : ℝ) < 1 / 2 by norm_num)
    have h2 := Real.log_le_log (show (0 : ℝ) < 1 / 2 by norm_num) hz
    norm_num at h1 h2 ⊢
    linarith
  have hdef : 0 < z ∧ 0 < 3.734 + 0.4554 * Real.log z := by
    refine ⟨by linarith, ?_⟩
    norm_num
    linarith
  have hland : 0 < classMz (variantInputs dem z m).terrainTable 1 := by
    have h0 : 0 < classMz [⟨1, 1⟩] (1 : ℤ) := standardLand
    rcases classMz_mono (T := [⟨1, 1⟩]) (T' := [⟨1, z⟩]) (.cons ⟨rfl, hz1⟩ .nil) (by
      intro row hrow
      rw [List.mem_singleton.mp hrow]
      exact h0) (by
      intro row hrow
      rw [List.mem_singleton.mp hrow]
      exact hdef) 1 with ⟨e, -⟩ | ⟨e1, e2⟩
    · exact absurd e h0.ne'
    · exact e1.trans_le e2
  obtain ⟨tiles, h1, h2⟩ := C97_standard_run 20 (by norm_num) (variantInputs dem z m) _ str hstr ['/', 'o']
    (by decide) rfl (by norm_num [variantInputs, standardInputs])
    (by norm_num [variantInputs, standardInputs]) rfl
    (by norm_num [variantInputs, standardInputs]) (by norm_num [variantInputs, standardInputs])
    (by norm_num [variantInputs, standardInputs]) (by norm_num [variantInputs, standardInputs])
    (by norm_num [variantInputs, standardInputs]) (by norm_num [variantInputs, standardInputs])
    hpw hph standardDisjoint (isLandcover_same (variantInputs dem z m) rfl hpw hph) (by
      intro k B EB hB _ _
      change (TileGrid.init 0.01 standardInputs.r).getGridlimitBuffer k = .ok B at hB
      rw [standardGrid] at hB
      have hk : k < 2 := by
        by_contra hk
        have : (tileGridLoop 2 1 1250 1250 12 12 1300 100)[k]? = none :=
          List.getElem?_eq_none (by
            have : (tileGridLoop 2 1 1250 1250 12 12 1300 100).length = 2 := rfl
            omega)
        simp only [TileGrid.getGridlimitBuffer, TileGrid.idx, this] at hB
        cases hB
      refine ⟨1240, 5, ?_, hland⟩
      interval_cases k
      · cases hB
        decide
      · cases hB
        decide) (by
      intro row hrow
      rw [List.mem_singleton.mp hrow]
      exact hdef)
  exact ⟨tiles, h2⟩

/-- A run on these elevations and one with 500 metres more in the easternmost column: the multipliers at
row 40 and column 700, in the tile west of it, are the same. -/
example (str : ℝ → List Char) (hstr : RendersDecimal str) : ∃ tiles tiles' j j' s s',
    RunSteps ((variantInputs standardInputs.dem 1 80).runCfg ['/', 'o'] 3 tiles) j
      (((variantInputs standardInputs.dem 1 80).runCfg ['/', 'o'] 3 tiles).start fun _ => none) s ∧
    RunSteps ((variantInputs ⟨100, 1300, fun i j => some (if j = 1299 then i + j + 500 else i + j)⟩ 1
        80).runCfg ['/', 'o'] 1 tiles') j'
      (((variantInputs ⟨100, 1300, fun i j => some (if j = 1299 then i + j + 500 else i + j)⟩ 1
        80).runCfg ['/', 'o'] 1 tiles').start fun _ => none) s' ∧
    ∃ k n L tif tif', (TileGrid.init 0.01 standardInputs.r).getTilename str k = .ok n ∧
      (TileGrid.init 0.01 standardInputs.r).getGridlimit k = .ok L ∧ L.Has 700 40 ∧
      s.store (pjoin ['/', 'o'] (m3File n)) = some (.tif tif) ∧
      s'.store (pjoin ['/', 'o'] (m3File n)) = some (.tif tif') ∧
      ∀ d, ∃ g g', (d, g) ∈ tif.bands ∧ (d, g') ∈ tif'.bands ∧
        g'.val (40 - L.y1.toNat) (700 - L.x1.toNat) = g.val (40 - L.y1.toNat) (700 - L.x1.toNat) := by
  obtain ⟨tiles, h⟩ := variantRun standardInputs.dem 1 80 (by norm_num) le_rfl str hstr
  obtain ⟨tiles', h'⟩ := variantRun ⟨100, 1300, fun i j => some (if j = 1299 then i + j + 500 else i + j)⟩
    1 80 (by norm_num) le_rfl str hstr
  obtain ⟨j, s, h1, -, h2⟩ := C94_completes _ (h.good 3) (h.shapes 3) (fun _ => none) 0 _ (.refl _)
  obtain ⟨j', s', h1', -, h2'⟩ := C94_completes _ (h'.good 1) (h'.shapes 1) (fun _ => none) 0 _ (.refl _)
  refine ⟨tiles, tiles', j, j', s, s', h1, h1', ?_⟩
  obtain ⟨k, L, B, n, a1, a2, a3, a4, a5⟩ := C103_local h h' rfl rfl rfl (fun _ _ _ => rfl) rfl rfl 3 1
    _ _ j j' s s' h1 h2 h1' h2' 700 40 (by norm_num [variantInputs, standardInputs])
    (by norm_num [variantInputs, standardInputs])
  have ag := a1
  have ab := a3
  change (TileGrid.init 0.01 standardInputs.r).getGridlimit k = .ok L at ag
  change (TileGrid.init 0.01 standardInputs.r).getGridlimitBuffer k = .ok B at ab
  rw [standardGrid] at ag ab
  have hk : k < 2 := by
    by_contra hk
    have : (tileGridLoop 2 1 1250 1250 12 12 1300 100)[k]? = none :=
      List.getElem?_eq_none (by
        have : (tileGridLoop 2 1 1250 1250 12 12 1300 100).length = 2 := rfl
        omega)
    simp only [TileGrid.getGridlimitBuffer, TileGrid.idx, this] at ab
    cases ab
  have hB : B.x2 ≤ 1262 := by
    interval_cases k
    · cases ab
      decide
    · have : L.x1 = 1250 := by
        cases ag
        decide
      obtain ⟨o, -⟩ := a2
      omega
  rcases a5 (by
    rintro qx qy ⟨q1, q2, q3, q4⟩
    refine ⟨?_, rfl⟩
    show some (if qx = 1299 then (qy : ℝ) + qx + 500 else qy + qx) = some ((qy : ℝ) + qx)
    rw [if_neg (by omega)]) with ⟨c1, -⟩ | ⟨tif, mx, tif', mx', c1, c2, -, -, -, c3, c4, -⟩
  · exfalso
    rcases h.each k ((C01_gridlimit_defined_iff 0.01 _ k).mp ⟨L, a1⟩) with
      ⟨EB, -, b1⟩ | ⟨L', B', E, EB, xm, ym, gw, t⟩
    · exact one_ne_zero b1
    · obtain ⟨tif, mx, b1, -⟩ := (C96_run h 3 _ j s h1).2.2 h2 k L' B' E EB xm ym gw n t a4
      rw [c1] at b1
      cases b1
  · refine ⟨k, n, L, tif, tif', a4, a1, a2, c1, c2, fun d => ?_⟩
    obtain ⟨g, g', c5, c6⟩ := c3 d
    exact ⟨g, g', c5, c6, c4 d g g' c5 c6⟩

/-- The tables with a roughness length of 1 and a shielding value of 80, and smoother ground with less
shielding (0.5 and 90), meet the conditions of C104. -/
example (str : ℝ → List Char) (hstr : RendersDecimal str) : ∃ tiles tiles' cat,
    RunCase (variantInputs standardInputs.dem 1 80) 0.01 cat str ['/', 'o'] tiles ∧
    RunCase (variantInputs standardInputs.dem 0.5 90) 0.01 cat str ['/', 'o'] tiles' ∧
    List.Forall₂ (fun row row' => row'.category = row.category ∧ row'.roughness ≤ row.roughness)
      (variantInputs standardInputs.dem 1 80).terrainTable
      (variantInputs standardInputs.dem 0.5 90).terrainTable ∧
    (∀ row ∈ (variantInputs standardInputs.dem 1 80).terrainTable, 0 < roughnessMz row.roughness) ∧
    List.Forall₂ (fun row row' => row'.1 = row.1 ∧ 0 ≤ row.2 ∧ row.2 ≤ row'.2)
      (variantInputs standardInputs.dem 1 80).shieldTable
      (variantInputs standardInputs.dem 0.5 90).shieldTable := by
  obtain ⟨tiles, h⟩ := variantRun standardInputs.dem 1 80 (by norm_num) le_rfl str hstr
  obtain ⟨tiles', h'⟩ := variantRun standardInputs.dem 0.5 90 (by norm_num) (by norm_num) str hstr
  refine ⟨tiles, tiles', _, h, h', .cons ⟨rfl, ?_⟩ .nil, ?_, .cons ⟨rfl, ?_, ?_⟩ .nil⟩
  · show (0.5 : ℝ) ≤ 1
    norm_num
  · intro row hrow
    rw [List.mem_singleton.mp hrow]
    exact standardLand
  · show (0 : ℝ) ≤ 80
    norm_num
  · show (80 : ℝ) ≤ 90
    norm_num

end WindMult
