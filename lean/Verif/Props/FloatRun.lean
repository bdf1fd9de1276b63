import Verif.Model.FloatRun
import Verif.Props.FloatPipeline
import Verif.Props.EndToEnd

/-!
# C118: from the input rasters to the GeoTIFFs of a parallel run, with rounded arithmetic
-/

set_option autoImplicit false
set_option linter.unusedSectionVars false

namespace WindMult
open Spec

/-- A run as in C96, in rounded arithmetic: the inputs are read as `cf`, and no tile is one for which rounding changes
the numbers of cells. -/
structure RunRead (N : TileFp) (c cf : Inputs) (up : ℝ) (cat : Grid ℤ) : Prop where
  rasters : cf.r = c.r ∧ cf.dem = c.dem ∧ cf.checksum = c.checksum
  read : ∀ k L B E EB xm ym gw, TileCase c up k L B E EB xm ym gw cat →
    ∃ xmf ymf, AsRead N c cf B EB xm ym xmf ymf gw

variable {N : TileFp} {c cf : Inputs} {up : ℝ} {cat : Grid ℤ} {str : ℝ → List Char} {out : List Char}
  {tiles : List (List Char × Extent ℝ × Extent ℝ)} {k : ℕ} {L B : Limits} {E EB : Extent ℝ} {xm ym xmf ymf : Grid ℝ}
  {gw : ℝ}

theorem RunCase.goodFl (h : RunCase c up cat str out tiles) (nW : ℕ) : (cf.runCfgFl N out nW tiles).Good where
  out := h.outPath
  names := (h.good nW).names
  nodup := h.nodup

/-- The run sees of a tile what the pipeline computes for it. -/
theorem TileCase.seenFl (t : TileCase c up k L B E EB xm ym gw cat) (q : AsRead N c cf B EB xm ym xmf ymf gw) (nW : ℕ)
    {n : List Char} (hl : tiles.lookup n = some (EB, E)) :
    (cf.runCfgFl N out nW tiles).empty n = false ∧ (cf.runCfgFl N out nW tiles).noLand n = false ∧
      (cf.runCfgFl N out nW tiles).seen n = tileFilesFl N cf EB E := by
  obtain ⟨hmz, hfile⟩ := t.toAt.filesFl q (getLatLon E (clipInfo cf.r EB).gt1 (-(clipInfo cf.r EB).gt5))
  have h1 : (cf.runCfgFl N out nW tiles).empty n = false := by
    simp only [Inputs.runCfgFl, hl, decide_eq_false_iff_not]
    rw [q.rasters.1, q.rasters.2.1, q.rasters.2.2.2.2]
    exact t.notEmpty
  have h2 : (cf.runCfgFl N out nW tiles).noLand n = false := by
    simp only [Inputs.runCfgFl, hl]
    exact hmz
  refine ⟨h1, h2, ?_⟩
  funext m d
  obtain ⟨r, hr, -⟩ := hfile m d
  unfold RunCfg.seen
  rw [if_pos ⟨h1, fun _ => h2⟩]
  simp only [Inputs.runCfgFl, hl, tileFilesFl_eq, hr, Option.getD_some]

theorem RunCase.shapesFl (h : RunCase c up cat str out tiles) (hr : RunRead N c cf up cat) (nW : ℕ) :
    (cf.runCfgFl N out nW tiles).Shapes := by
  intro n hn he
  obtain ⟨k, EB, E, h1, h2, h3, h4, hl⟩ := h.mem hn
  rcases h.each k h1 with ⟨EB', e1, e2⟩ | ⟨L, B, E', EB', xm, ym, gw, t⟩
  · rw [h3] at e1
    cases e1
    simp only [Inputs.runCfgFl, hl, decide_eq_false_iff_not] at he
    rw [hr.rasters.1, hr.rasters.2.1, hr.rasters.2.2] at he
    exact absurd e2 he
  · have e1 := t.extent
    have e2 := t.extentB
    rw [h4] at e1
    rw [h3] at e2
    cases e1
    cases e2
    obtain ⟨xmf, ymf, q⟩ := hr.read _ _ _ _ _ _ _ _ t
    obtain ⟨-, hfile⟩ := t.toAt.filesFl q (getLatLon E (clipInfo cf.r EB).gt1 (-(clipInfo cf.r EB).gt5))
    have hno := (t.seenFl (out := out) q nW hl).2.1
    refine ⟨(L.x2 - L.x1).toNat, (L.y2 - L.y1).toNat, ?_, fun m d => ?_⟩
    · intro hc
      rw [hno] at hc
      cases hc
    obtain ⟨r, hr, g1, g2⟩ := hfile m d
    simp only [Inputs.runCfgFl, hl, tileFilesFl_eq, hr, Option.getD_some]
    omega

/-- **C118** A run in rounded arithmetic on inputs all of whose tiles are empty or meet the conditions of C81–C85 and
C117 never deadlocks or fails, finishes after a bounded number of steps, and then the GeoTIFF of every non-empty tile
and that of its maxima hold the documented values up to 0.0005 (as in C117) – with any number of processes and however
these are interleaved. -/
theorem C118_run (h : RunCase c up cat str out tiles) (hr : RunRead N c cf up cat) (nW : ℕ)
    (st0 : Store (NanNum (Fl N.file)) (List ℝ × List ℝ)) (j : ℕ)
    (s : RunState (NanNum (Fl N.file)) (List ℝ × List ℝ))
    (hrun : RunSteps (cf.runCfgFl N out nW tiles) j ((cf.runCfgFl N out nW tiles).start st0) s) :
    j ≤ 45 * (TileGrid.init up c.r).numTiles + 9 * nW + 9 ∧
    (¬ (cf.runCfgFl N out nW tiles).Done s → ∃ s', RunStep (cf.runCfgFl N out nW tiles) s s') ∧
    ((cf.runCfgFl N out nW tiles).Done s → ∀ k L B E EB xm ym gw n,
      TileCase c up k L B E EB xm ym gw cat → (TileGrid.init up c.r).getTilename str k = .ok n →
      ∃ tif mx, s.store (pjoin out (m3File n)) = some (.tif tif) ∧ IsM3Near (1 / 2000) c L B xm ym gw cat tif ∧
        s.store (pjoin out (m3MaxFile n)) = some (.maxTif mx) ∧ IsM3MaxNear (1 / 2000) c L B xm ym gw cat mx) := by
  obtain ⟨b1, b2⟩ := C94_finishes _ (h.goodFl (N := N) (cf := cf) nW) (h.shapesFl hr nW) st0 j s hrun
  refine ⟨?_, b2, fun hdone k L B E EB xm ym gw n t hn => ?_⟩
  · have : (cf.runCfgFl N out nW tiles).tiles.length = (TileGrid.init up c.r).numTiles := by
      show (tiles.map Prod.fst).length = _
      rw [List.length_map, (getTiles_ok h.listed).1]
    rw [this] at b1
    exact b1
  · obtain ⟨hmem, hl⟩ := h.lookup t hn
    obtain ⟨xmf, ymf, q⟩ := hr.read _ _ _ _ _ _ _ _ t
    obtain ⟨q1, -, q3⟩ := t.seenFl (out := out) q nW hl
    obtain ⟨-, hout, -⟩ := C93_outcome _ (h.goodFl (N := N) (cf := cf) nW) st0 j s hrun hdone
    obtain ⟨x, mx, e1, e2, e3, e4⟩ := hout n hmem q1
    rw [q3] at e1
    obtain ⟨-, tif, p1, p2⟩ := C117_tile t q
    obtain ⟨tif', r, m1, m2, m3⟩ := C117_maximum t q
    have ex : tif = x := Except.ok.inj (p1.symm.trans e1)
    have ex' : tif' = x := Except.ok.inj (m1.symm.trans e1)
    subst ex
    subst ex'
    have em : r = mx := Except.ok.inj (m2.symm.trans e2)
    subst em
    exact ⟨tif', r, e3, p2, e4, m3⟩

/-- **C118** (every pixel) After the run, every pixel of the DEM is in exactly one tile; either the DEM is empty around
it and there is no GeoTIFF of the tile, or it has the documented values up to 0.0005. -/
theorem C118_every_pixel (h : RunCase c up cat str out tiles) (hr : RunRead N c cf up cat) (nW : ℕ)
    (st0 : Store (NanNum (Fl N.file)) (List ℝ × List ℝ)) (j : ℕ)
    (s : RunState (NanNum (Fl N.file)) (List ℝ × List ℝ))
    (hrun : RunSteps (cf.runCfgFl N out nW tiles) j ((cf.runCfgFl N out nW tiles).start st0) s)
    (hdone : (cf.runCfgFl N out nW tiles).Done s) (px py : ℕ) (hx : px < c.r.xDim) (hy : py < c.r.yDim) :
    ∃ k L n, (TileGrid.init up c.r).getGridlimit k = .ok L ∧ L.Has px py ∧
      (∀ k' L', (TileGrid.init up c.r).getGridlimit k' = .ok L' → L'.Has px py → k' = k) ∧
      (TileGrid.init up c.r).getTilename str k = .ok n ∧
      ((∃ EB, (TileGrid.init up c.r).getTileExtentBuffer k = .ok EB ∧
          c.checksum (cutDem c.r c.dem EB 0) = 0 ∧ s.store (pjoin out (m3File n)) = none ∧
          s.store (pjoin out (m3MaxFile n)) = none) ∨
        ∃ B E EB xm ym gw tif mx, TileCase c up k L B E EB xm ym gw cat ∧
          s.store (pjoin out (m3File n)) = some (.tif tif) ∧ IsM3Near (1 / 2000) c L B xm ym gw cat tif ∧
          s.store (pjoin out (m3MaxFile n)) = some (.maxTif mx) ∧
          IsM3MaxNear (1 / 2000) c L B xm ym gw cat mx) := by
  obtain ⟨k, hk, L, hL, hp⟩ := C01_tiles_cover up c.r h.pw h.ph h.upPos px py (by positivity)
    (by exact_mod_cast hx) (by positivity) (by exact_mod_cast hy)
  obtain ⟨hlen, hget⟩ := getTiles_ok h.listed
  obtain ⟨⟨n, EB, E⟩, hk'⟩ : ∃ i, tiles[k]? = some i := ⟨_, List.getElem?_eq_getElem (by omega)⟩
  obtain ⟨-, g1, g2, g3⟩ := (hget k n EB E).mp hk'
  refine ⟨k, L, n, hL, hp, fun k' L' hL' hp' => h.disjoint k' k L' L hL' hL ⟨px, py, hp', hp⟩, g1, ?_⟩
  rcases h.each k hk with ⟨EB', e1, e2⟩ | ⟨L', B, E', EB', xm, ym, gw, t⟩
  · rw [g2] at e1
    cases e1
    refine .inl ⟨EB, g2, e2, no_geotiff_of_empty _ (h.goodFl (N := N) (cf := cf) nW) st0 j s hrun hdone n ?_⟩
    simp only [Inputs.runCfgFl, lookup_of_getElem h.nodup hk', decide_eq_true_eq]
    rw [hr.rasters.1, hr.rasters.2.1, hr.rasters.2.2]
    exact e2
  · right
    have e3 := t.limits
    rw [hL] at e3
    cases e3
    obtain ⟨tif, mx, f1, f2, f3, f4⟩ :=
      (C118_run h hr nW st0 j s hrun).2.2 hdone k L B E' EB' xm ym gw n t g1
    exact ⟨B, E', EB', xm, ym, gw, tif, mx, t, f1, f2, f3, f4⟩

/-! ### The hypotheses can be met -/

/-- The raster of `slopeInputs` in nine tiles, all of it suburbs; every pixel is 90 m wide. -/
noncomputable def hillside : Inputs where
  r := ⟨30, 30, 150, 1 / 10, -30, -(1 / 10)⟩
  dem := ⟨30, 30, fun i _ => some (9 * i)⟩
  lr := ⟨30, 30, 150, 1 / 10, -30, -(1 / 10)⟩
  lcv := ⟨30, 30, fun _ _ => some 1⟩
  terrainTable := [⟨1, 0.2⟩]
  shieldTable := [(1, 80)]
  pixelSizes := fun info => .ok (⟨info.yDim, info.xDim, fun _ _ => 90⟩, ⟨info.yDim, info.xDim, fun _ _ => 90⟩)
  checksum := fun _ => 1

/-- The same as a run has it. -/
noncomputable def hillsideRead : Inputs :=
  { hillside with
    terrainTable := [⟨1, roundDigits 53 0.2⟩]
    pixelSizes := fun info => .ok ((⟨info.yDim, info.xDim, fun _ _ => 90⟩ : Grid ℝ).map (roundDigits 24),
      (⟨info.yDim, info.xDim, fun _ _ => 90⟩ : Grid ℝ).map (roundDigits 24)) }

theorem hillsideGrid : TileGrid.init (9 / 10) hillside.r =
    { xDim := 30, yDim := 30, xLeft := 150, yUpper := 30, pixelwidth := 1 / 10, pixelheight := 1 / 10
      xStep := 10, yStep := 10, xBuffer := 9, yBuffer := 9
      tiles := tileGridLoop 3 3 10 10 9 9 30 30 } := slopeGrid

theorem Extent.near_refl (E : Extent ℝ) {pw ph : ℝ} (h1 : 0 < pw) (h2 : 0 < ph) : E.Near pw ph E := by
  refine ⟨?_, ?_, ?_, ?_⟩ <;> rw [sub_self, abs_zero] <;> positivity

theorem hillside_size {k : ℕ} {B : Limits} {EB : Extent ℝ}
    (h1 : (TileGrid.init (9 / 10) hillside.r).getGridlimitBuffer k = .ok B)
    (h2 : (TileGrid.init (9 / 10) hillside.r).getTileExtentBuffer k = .ok EB) :
    (0 ≤ B.x1 ∧ B.x1 < B.x2 ∧ B.x2 ≤ 30 ∧ 0 ≤ B.y1 ∧ B.y1 < B.y2 ∧ B.y2 ≤ 30) ∧
    ((clipInfo hillside.r EB).xDim : ℤ) = B.x2 - B.x1 ∧ ((clipInfo hillside.r EB).yDim : ℤ) = B.y2 - B.y1 := by
  obtain ⟨b, -, -, i1, i2⟩ := clipInfo_size (9 / 10) hillside.r (by norm_num [hillside])
    (by norm_num [hillside]) (by norm_num) k B EB EB h1 h2
    (EB.near_refl (by norm_num [hillside]) (by norm_num [hillside]))
  exact ⟨b, i1, i2⟩

theorem hillside_width (rows cols : ℕ) (h1 : 0 < rows) (h2 : 0 < cols) :
    gridWidth (⟨rows, cols, fun _ _ => 90⟩ : Grid ℝ) ⟨rows, cols, fun _ _ => 90⟩ = 90 := by
  unfold gridWidth
  rw [mean_const rows cols 90 h1 h2]
  norm_num

theorem hillside_read : RunRead slopeFp hillside hillsideRead (9 / 10)
    ⟨30, 30, fun i j => (hillside.lcv.val i j).getD 0⟩ where
  rasters := ⟨rfl, rfl, rfl⟩
  read := by
    intro k L B E EB xm ym gw t
    obtain ⟨⟨b0, b1, b2, b3, b4, b5⟩, i1, i2⟩ := hillside_size t.limitsB t.extentB
    have hs := t.sizes
    have hw := t.width
    simp only [hillside, Except.ok.injEq, Prod.mk.injEq] at hs
    obtain ⟨rfl, rfl⟩ := hs
    change (((clipInfo hillside.r EB).xDim : ℤ) = _) at i1
    have e1 : 0 < (clipInfo hillside.r EB).xDim := by omega
    have e2 : 0 < (clipInfo hillside.r EB).yDim := by omega
    have hw : gw = 90 := hw.trans (hillside_width _ _ e2 e1)
    subst hw
    refine ⟨_, _, ⟨⟨rfl, rfl, rfl, rfl, rfl⟩, slopeAsRead.terrain, slopeAsRead.shield, rfl,
      ⟨⟨rfl, rfl, rfl, rfl, rfl, rfl⟩, fun _ _ _ _ => ⟨by norm_num, by norm_num⟩,
        fun _ _ _ _ => ⟨⟨90, by norm_num, rfl⟩, 90, by norm_num, rfl⟩⟩,
      ⟨i2, i1⟩, ?_, ?_, le_rfl, by norm_num, slopeAsRead.clear500, slopeAsRead.clear200, slopeAsRead.clear100,
      slopeAsRead.elevations, ⟨by omega, by omega⟩⟩⟩
    · show (rowsTree ((clipInfo hillside.r EB).xDim - 1) ((clipInfo hillside.r EB).yDim - 1)).Covers
        (clipInfo hillside.r EB).yDim (clipInfo hillside.r EB).xDim
      have := rowsTree_covers ((clipInfo hillside.r EB).xDim - 1) ((clipInfo hillside.r EB).yDim - 1)
      rwa [Nat.sub_add_cancel e2, Nat.sub_add_cancel e1] at this
    · refine (rowsTree_depth _ _).trans ?_
      show (clipInfo hillside.r EB).xDim - 1 + ((clipInfo hillside.r EB).yDim - 1) ≤ 60
      omega

theorem hillside_case (str : ℝ → List Char) (hstr : RendersDecimal str) :
    ∃ tiles, RunCase hillside (9 / 10) ⟨30, 30, fun i j => (hillside.lcv.val i j).getD 0⟩ str ['/', 'o'] tiles := by
  have hpw : 0 < hillside.r.gt1 := by norm_num [hillside]
  have hph : hillside.r.gt5 < 0 := by norm_num [hillside]
  have hup : (0 : ℝ) ≤ 9 / 10 := by norm_num
  obtain ⟨tiles, ht⟩ := getTiles_exists str (9 / 10) hillside.r hpw hph hup
  refine ⟨tiles, hstr, ?_, by decide, hpw, hph, hup, by norm_num [hillside], by norm_num [hillside], ?_, ht, ?_⟩
  · intro k p hp
    unfold TileGrid.getStartcord at hp
    match hL : (TileGrid.init (9 / 10) hillside.r).getGridlimit k with
    | .error e => rw [hL] at hp; cases hp
    | .ok L =>
      have hk := (C01_gridlimit_defined_iff (9 / 10) hillside.r k).mp ⟨L, hL⟩
      obtain ⟨L', B, h1, -, ⟨a0, a1, a2, a3, a4⟩, ⟨c0, c1, c2, c3, c4⟩, -⟩ :=
        C03_buffer_surrounds_core (9 / 10) hillside.r hpw hph hup k hk
      rw [hL] at h1
      cases h1
      rw [hL] at hp
      cases hp
      have x0 : (0 : ℝ) ≤ L.x1 := by exact_mod_cast a0.trans a1
      have x1 : (L.x1 : ℝ) ≤ (30 : ℕ) := by exact_mod_cast (a2.le.trans a3).trans a4
      have y0 : (0 : ℝ) ≤ L.y1 := by exact_mod_cast c0.trans c1
      have y1 : (L.y1 : ℝ) ≤ (30 : ℕ) := by exact_mod_cast (c2.le.trans c3).trans c4
      push_cast at x1 y1
      rw [hillsideGrid]
      dsimp only
      constructor <;> unfold PlainCoord <;> rw [abs_of_pos (by linarith)] <;>
        exact ⟨.inr (by linarith), by linarith⟩
  · refine (C02_tiles_disjoint_iff (9 / 10) hillside.r hpw hph hup (by norm_num [hillside])
      (by norm_num [hillside])).mpr ?_
    rw [hillsideGrid]
    exact ⟨.inr (by norm_num [hillside]), .inr (by norm_num [hillside])⟩
  · intro k hk
    right
    obtain ⟨L, B, h1, h2, -⟩ := C03_buffer_surrounds_core (9 / 10) hillside.r hpw hph hup k hk
    have hE : (TileGrid.init (9 / 10) hillside.r).getTileExtent k =
        .ok ((TileGrid.init (9 / 10) hillside.r).extentOf L) := by
      unfold TileGrid.getTileExtent; rw [h1]; rfl
    have hEB : (TileGrid.init (9 / 10) hillside.r).getTileExtentBuffer k =
        .ok ((TileGrid.init (9 / 10) hillside.r).extentOf B) := by
      unfold TileGrid.getTileExtentBuffer; rw [h2]; rfl
    obtain ⟨⟨b0, b1, b2, b3, b4, b5⟩, i1, i2⟩ := hillside_size h2 hEB
    refine ⟨L, B, _, _, _, _, 90, ⟨hpw, hph, hpw, hph, hup, h1, h2, hE, hEB,
      isLandcover_same hillside rfl hpw hph, rfl, (hillside_width _ _ (by omega) (by omega)).symm, by norm_num,
      fun _ _ _ _ => ⟨by norm_num, by norm_num⟩, by norm_num, by rw [hillsideGrid]; norm_num,
      by rw [hillsideGrid]; norm_num, by norm_num [hillside], one_ne_zero, ?_, slopeCase.roughness⟩⟩
    refine ⟨B.x1.toNat, B.y1.toNat, ⟨by omega, by omega, by omega, by omega⟩, ?_⟩
    have := slope_class
    show 0 < classMz slopeInputs.terrainTable 1
    rw [this.1]
    exact lt_of_lt_of_le (by norm_num) this.2

/-- A run with three workers on this raster, completed: there is a GeoTIFF with the multipliers of the pixel in row 15
and column 12 up to 0.0005. -/
example (str : ℝ → List Char) (hstr : RendersDecimal str) : ∃ cat tiles j s,
    RunSteps (hillsideRead.runCfgFl slopeFp ['/', 'o'] 3 tiles) j
      ((hillsideRead.runCfgFl slopeFp ['/', 'o'] 3 tiles).start fun _ => none) s ∧
    (hillsideRead.runCfgFl slopeFp ['/', 'o'] 3 tiles).Done s ∧
    ∃ k n L B xm ym gw tif, (TileGrid.init (9 / 10) hillside.r).getTilename str k = .ok n ∧ L.Has 12 15 ∧
      s.store (pjoin ['/', 'o'] (m3File n)) = some (.tif tif) ∧
      IsM3Near (1 / 2000) hillside L B xm ym gw cat tif := by
  obtain ⟨tiles, h⟩ := hillside_case str hstr
  obtain ⟨j, s, h1, -, h2⟩ := C94_completes _ (h.goodFl (N := slopeFp) (cf := hillsideRead) 3)
    (h.shapesFl hillside_read 3) (fun _ => none) 0 _ (.refl _)
  refine ⟨⟨30, 30, fun i j => (hillside.lcv.val i j).getD 0⟩, tiles, j, s, h1, h2, ?_⟩
  obtain ⟨k, L, n, -, hp, -, hn, h3⟩ := C118_every_pixel h hillside_read 3 _ j s h1 h2 12 15
    (by norm_num [hillside]) (by norm_num [hillside])
  rcases h3 with ⟨EB, -, h4, -⟩ | ⟨B, E, EB, xm, ym, gw, tif, mx, -, h4, h5, -⟩
  · cases h4
  · exact ⟨k, n, L, B, xm, ym, gw, tif, hn, hp, h4, h5⟩

end WindMult
