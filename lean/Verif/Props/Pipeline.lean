import Verif.Proofs.Pipeline
import Verif.Props.ConvertNan

/-!
# C81–C85: a tile from the input rasters to the combined multipliers
-/

set_option linter.unusedSectionVars false
set_option autoImplicit false

namespace WindMult
open Spec

variable {c : Inputs} {up : ℝ} {k : ℕ} {L B : Limits} {E EB : Extent ℝ} {xm ym : Grid ℝ} {gw : ℝ}
  {cat : Grid ℤ}

/-- Longitudes and latitudes of the pixel centres of a tile. -/
noncomputable def Limits.centres (L : Limits) (r : RasterInfo ℝ) : List ℝ × List ℝ :=
  ((List.range (L.x2 - L.x1).toNat).map fun i : ℕ => r.lonCentre (L.x1 + i),
   (List.range (L.y2 - L.y1).toNat).map fun i : ℕ => r.latCentre (L.y1 + i))

/-- The run of a tile. -/
theorem TileCase.run (t : TileCase c up k L B E EB xm ym gw cat) :
    (tileStep c EB E).2 = .ok () ∧ ∀ m d, ∃ g : Grid (Option ℝ),
      tileFiles c EB E m d = some ⟨g.map toNanNum, L.centres c.r⟩ ∧
      (g.rows : ℤ) = L.y2 - L.y1 ∧ (g.cols : ℤ) = L.x2 - L.x1 ∧
      ∀ px py : ℕ, L.Has px py →
        match m with
        | .mz => g.val (py - L.y1.toNat) (px - L.x1.toNat) =
            if classMz c.terrainTable (cat.val py px) = 0 then none
            else some (upwindMean (waterMz c.terrainTable cat) d (terrainWidths d gw).1.toNat
              (terrainWidths d gw).2.toNat py px)
        | .ms => (shieldMean (cat.map (classMs c.shieldTable)) d ⌊100 / gw⌋.toNat py px = none →
              g.val (py - L.y1.toNat) (px - L.x1.toNat) = none) ∧
            ∀ m h s, ∀ _ : Decidable (InSector d h),
              shieldMean (cat.map (classMs c.shieldTable)) d ⌊100 / gw⌋.toNat py px = some m →
              FallsTowards
                (riseEast c.elevation py px / xm.val (py - B.y1.toNat) (px - B.x1.toNat))
                (riseNorth c.elevation py px / ym.val (py - B.y1.toNat) (px - B.x1.toNat)) h s →
              g.val (py - L.y1.toNat) (px - L.x1.toNat) =
                some (finalMs (slopeAdjusted (InSector d h) m (some s)))
        | .mt => ∃ x : ℤ → ℤ → ℝ,
            (∀ a b, IsRawMt (c.elevation.window B) d (stepLength d gw)
              (143 < c.r.lonEdge B.x1 ∧ c.r.latEdge B.y1 < -40) (py - B.y1 + a) (px - B.x1 + b)
              (x a b)) ∧
            g.val (py - L.y1.toNat) (px - L.x1.toNat) =
              some ((∑ a ∈ {-1, 0, 1}, ∑ b ∈ {-1, 0, 1}, x a b) / 9) := by
  obtain ⟨mz, z1, z2⟩ := t.toAt.mz_file
  obtain ⟨mt, t1, t2⟩ := t.toAt.mt_file
  have s2 := t.toAt.ms_file
  obtain ⟨c1, c2⟩ := C07_coordinates_are_pixel_centres up c.r t.pw t.ph t.upPos k L E t.limits t.extent
  have hco : getLatLon E (clipInfo c.r EB).gt1 (-(clipInfo c.r EB).gt5) = L.centres c.r := by
    show getLatLon E c.r.gt1 (-(-(-c.r.gt5))) = _
    rw [neg_neg]
    exact Prod.ext c1 c2
  obtain ⟨ms, hstep, hms⟩ : ∃ ms, tileStep c EB E = (⟨mz, ms, mt⟩, .ok ()) ∧
      ms = convoCombine gw (class2ms none c.shieldTable (cutLandcover c.lr c.lcv (clipInfo c.r EB) 0))
        ⟨(cutDem c.r c.dem EB 0).rows, (cutDem c.r c.dem EB 0).cols, fun i j =>
          (slopeAspect ((cutDem c.r c.dem EB 0).map some) |(clipInfo c.r EB).gt1|
            |(clipInfo c.r EB).gt5| (xm.val i j) (ym.val i j) i j).1⟩
        ⟨(cutDem c.r c.dem EB 0).rows, (cutDem c.r c.dem EB 0).cols, fun i j =>
          (slopeAspect ((cutDem c.r c.dem EB 0).map some) |(clipInfo c.r EB).gt1|
            |(clipInfo c.r EB).gt5| (xm.val i j) (ym.val i j) i j).2⟩
        (fun g => clipArray g (clipInfo c.r EB).gt0 (-(clipInfo c.r EB).gt3) (clipInfo c.r EB).gt1
          (-(clipInfo c.r EB).gt5) E) := by
    refine ⟨_, ?_, rfl⟩
    unfold tileStep
    simp only [if_neg t.notEmpty, t.sizes, ← t.width, z1, t1]
  refine ⟨by rw [hstep], fun m d => ?_⟩
  cases m with
  | mz =>
    obtain ⟨g, g1, g2, g3, g4⟩ := z2 d
    refine ⟨g, ?_, g2, g3, g4⟩
    simp only [tileFiles, hstep, savedFile, g1, hco, Option.map_some]
  | ms =>
    obtain ⟨g, g1, g2, g3, g4⟩ := s2 d
    have g1 : ms.lookup d = some g := by rw [hms]; exact g1
    refine ⟨g, ?_, g2, g3, g4⟩
    simp only [tileFiles, hstep, savedFile, g1, hco, Option.map_some]
  | mt =>
    obtain ⟨g, g1, g2, g3, g4⟩ := t2 d
    refine ⟨g, ?_, g2, g3, g4⟩
    simp only [tileFiles, hstep, savedFile, g1, hco, Option.map_some]

/-- **C81** The tile is computed without an exception and leaves all 24 multiplier files, each with
one cell for every pixel of the unbuffered tile and the pixel centres as coordinates. -/
theorem C81_tile_completes (t : TileCase c up k L B E EB xm ym gw cat) :
    (tileStep c EB E).2 = .ok () ∧
    ∀ m d, ∃ r, tileFiles c EB E m d = some r ∧ (r.band.rows : ℤ) = L.y2 - L.y1 ∧
      (r.band.cols : ℤ) = L.x2 - L.x1 ∧ r.transform = L.centres c.r := by
  obtain ⟨h1, h2⟩ := t.run
  refine ⟨h1, fun m d => ?_⟩
  obtain ⟨g, g1, g2, g3, -⟩ := h2 m d
  exact ⟨_, g1, g2, g3, rfl⟩

/-- **C82** The terrain file holds, for every pixel of the tile, the mean over the whole raster's
upwind cells of the multipliers of the land cover at the pixel centres, water counting 1; NaN on
pixels whose category has no multiplier. -/
theorem C82_terrain_pixel (t : TileCase c up k L B E EB xm ym gw cat) (d : Dir)
    (r : Raster (NanNum ℝ) (List ℝ × List ℝ)) (hr : tileFiles c EB E .mz d = some r) (px py : ℕ)
    (hp : L.Has px py) :
    r.band.val (py - L.y1.toNat) (px - L.x1.toNat) =
      if classMz c.terrainTable (cat.val py px) = 0 then .nan
      else .num (upwindMean (waterMz c.terrainTable cat) d (terrainWidths d gw).1.toNat
        (terrainWidths d gw).2.toNat py px) := by
  obtain ⟨g, g1, -, -, g4⟩ := t.run.2 .mz d
  rw [hr] at g1
  cases g1
  show toNanNum (g.val _ _) = _
  rw [g4 px py hp]
  split_ifs <;> rfl

/-- **C83** The shielding file holds, for every pixel of the tile, the mean shielding of the whole
raster's cells within 100 m upwind, weakened where the ground falls towards the wind, then reduced;
NaN if one of those cells is unknown.  `h` and `s` are the heading and the steepness of the fall of
the ground around the pixel. -/
theorem C83_shielding_pixel (t : TileCase c up k L B E EB xm ym gw cat) (d : Dir)
    (r : Raster (NanNum ℝ) (List ℝ × List ℝ)) (hr : tileFiles c EB E .ms d = some r) (px py : ℕ)
    (hp : L.Has px py) (h s : ℝ) [Decidable (InSector d h)]
    (hfall : FallsTowards
      (riseEast c.elevation py px / xm.val (py - B.y1.toNat) (px - B.x1.toNat))
      (riseNorth c.elevation py px / ym.val (py - B.y1.toNat) (px - B.x1.toNat)) h s) :
    r.band.val (py - L.y1.toNat) (px - L.x1.toNat) =
      match shieldMean (cat.map (classMs c.shieldTable)) d ⌊100 / gw⌋.toNat py px with
      | none => .nan
      | some m => .num (finalMs (slopeAdjusted (InSector d h) m (some s))) := by
  obtain ⟨g, g1, -, -, g4⟩ := t.run.2 .ms d
  rw [hr] at g1
  cases g1
  obtain ⟨g5, g6⟩ := g4 px py hp
  show toNanNum (g.val _ _) = _
  cases hm : shieldMean (cat.map (classMs c.shieldTable)) d ⌊100 / gw⌋.toNat py px with
  | none => rw [g5 hm]; rfl
  | some m => rw [g6 m h s _ hm hfall]; rfl

/-- **C84** The topographic file holds, for every pixel of the tile, the mean over the pixel and its
eight neighbours of the corrected multipliers along the transects of the buffered tile; neighbours
outside the buffered tile count 0.  No pixel is NaN. -/
theorem C84_topographic_pixel (t : TileCase c up k L B E EB xm ym gw cat) (d : Dir)
    (r : Raster (NanNum ℝ) (List ℝ × List ℝ)) (hr : tileFiles c EB E .mt d = some r) (px py : ℕ)
    (hp : L.Has px py) :
    ∃ x : ℤ → ℤ → ℝ,
      (∀ a b, IsRawMt (c.elevation.window B) d (stepLength d gw)
        (143 < c.r.lonEdge B.x1 ∧ c.r.latEdge B.y1 < -40) (py - B.y1 + a) (px - B.x1 + b) (x a b)) ∧
      r.band.val (py - L.y1.toNat) (px - L.x1.toNat) =
        .num ((∑ a ∈ {-1, 0, 1}, ∑ b ∈ {-1, 0, 1}, x a b) / 9) := by
  obtain ⟨g, g1, -, -, g4⟩ := t.run.2 .mt d
  rw [hr] at g1
  cases g1
  obtain ⟨x, x1, x2⟩ := g4 px py hp
  exact ⟨x, x1, by show toNanNum (g.val _ _) = _; rw [x2]; rfl⟩

/-- **C85** The converter turns the files of the tile into a GeoTIFF on the pixel centres of the tile
with one band per direction.  A pixel of a band is NaN exactly if its category has no terrain
multiplier or a shielding cell is unknown, and otherwise the product of the three multipliers of
C82–C84. -/
theorem C85_combined (t : TileCase c up k L B E EB xm ym gw cat) :
    ∃ tif, processTile (tileFiles c EB E) = .ok tif ∧ tif.transform = L.centres c.r ∧
      (∀ d, (tif.bands.map Prod.fst).count d = 1) ∧
      ∀ d g, (d, g) ∈ tif.bands → (g.rows : ℤ) = L.y2 - L.y1 ∧ (g.cols : ℤ) = L.x2 - L.x1 ∧
        ∀ px py : ℕ, L.Has px py →
        (g.val (py - L.y1.toNat) (px - L.x1.toNat) = .nan ↔
          classMz c.terrainTable (cat.val py px) = 0 ∨
          shieldMean (cat.map (classMs c.shieldTable)) d ⌊100 / gw⌋.toNat py px = none) ∧
        ∀ m h s, ∀ _ : Decidable (InSector d h), classMz c.terrainTable (cat.val py px) ≠ 0 →
          shieldMean (cat.map (classMs c.shieldTable)) d ⌊100 / gw⌋.toNat py px = some m →
          FallsTowards
            (riseEast c.elevation py px / xm.val (py - B.y1.toNat) (px - B.x1.toNat))
            (riseNorth c.elevation py px / ym.val (py - B.y1.toNat) (px - B.x1.toNat)) h s →
          ∃ x : ℤ → ℤ → ℝ,
            (∀ a b, IsRawMt (c.elevation.window B) d (stepLength d gw)
              (143 < c.r.lonEdge B.x1 ∧ c.r.latEdge B.y1 < -40) (py - B.y1 + a) (px - B.x1 + b)
              (x a b)) ∧
            g.val (py - L.y1.toNat) (px - L.x1.toNat) =
              .num (finalMs (slopeAdjusted (InSector d h) m (some s)) *
                upwindMean (waterMz c.terrainTable cat) d (terrainWidths d gw).1.toNat
                  (terrainWidths d gw).2.toNat py px *
                ((∑ a ∈ {-1, 0, 1}, ∑ b ∈ {-1, 0, 1}, x a b) / 9)) := by
  obtain ⟨⟨a0, a1, a2, a3, a4⟩, ⟨b0, b1, b2, b3, b4⟩, -⟩ := t.geometry
  have hfile := (C81_tile_completes t).2
  have hs : TileShape (tileFiles c EB E) (L.x2 - L.x1).toNat (L.y2 - L.y1).toNat := by
    intro m d r hr
    obtain ⟨r', e1, e2, e3, -⟩ := hfile m d
    rw [hr] at e1
    cases e1
    omega
  obtain ⟨re, e1, -, -, e4⟩ := hfile .ms .e
  obtain ⟨rn, n1, -, -, -⟩ := hfile .ms .n
  obtain ⟨tif, h1, h2, h3, h4⟩ := processTile_ok hs n1 e1
    (fun ⟨m, d, hd⟩ => by obtain ⟨r, e, -⟩ := hfile m d; rw [hd] at e; cases e)
  refine ⟨tif, h1, by rw [h2, e4], fun d => by rw [h3]; cases d <;> decide, fun d g hg => ?_⟩
  obtain ⟨g1, g2, g3⟩ := h4 d g hg
  refine ⟨by omega, by omega, fun px py hp => ?_⟩
  have hp' := hp
  obtain ⟨p1, p2, p3, p4⟩ := hp'
  rw [g3 (py - L.y1.toNat) (by omega) (px - L.x1.toNat) (by omega)]
  obtain ⟨rz, z1, -⟩ := hfile .mz d
  obtain ⟨rs, s1, -⟩ := hfile .ms d
  obtain ⟨rt, t1, -⟩ := hfile .mt d
  have vz := C82_terrain_pixel t d rz z1 px py hp
  obtain ⟨x, x1, vt⟩ := C84_topographic_pixel t d rt t1 px py hp
  have vs := fun h s (_ : Decidable (InSector d h)) => C83_shielding_pixel t d rs s1 px py hp h s
  have hprod : productAt (tileFiles c EB E) d (py - L.y1.toNat) (px - L.x1.toNat) =
      rs.band.val (py - L.y1.toNat) (px - L.x1.toNat) * rz.band.val (py - L.y1.toNat) (px - L.x1.toNat)
        * rt.band.val (py - L.y1.toNat) (px - L.x1.toNat) := by
    unfold productAt multiplierAt
    rw [z1, s1, t1]
  rw [hprod, vz, vt]
  constructor
  · obtain ⟨h, s, hf⟩ := exists_fallsTowards
      (riseEast c.elevation py px / xm.val (py - B.y1.toNat) (px - B.x1.toNat))
      (riseNorth c.elevation py px / ym.val (py - B.y1.toNat) (px - B.x1.toNat))
    rw [vs h s (Classical.dec _) hf]
    rw [NanNum.mul_eq_nan, NanNum.mul_eq_nan]
    cases hm : shieldMean (cat.map (classMs c.shieldTable)) d ⌊100 / gw⌋.toNat py px with
    | none => simp
    | some m => split_ifs with h0 <;> simp [h0]
  · intro m h s _ h0 hm hf
    refine ⟨x, x1, ?_⟩
    rw [vs h s _ hf, hm, if_neg h0]
    rfl

/-- **C85** (maximum) The maximum raster of the tile is NaN on a pixel exactly if a band is, and
otherwise the largest of the eight bands. -/
theorem C85_maximum (t : TileCase c up k L B E EB xm ym gw cat) :
    ∃ tif r, processTile (tileFiles c EB E) = .ok tif ∧ processMaxTile tif = .ok r ∧
      (r.band.rows : ℤ) = L.y2 - L.y1 ∧ (r.band.cols : ℤ) = L.x2 - L.x1 ∧
      ∀ px py : ℕ, L.Has px py →
        (r.band.val (py - L.y1.toNat) (px - L.x1.toNat) = .nan ↔
          classMz c.terrainTable (cat.val py px) = 0 ∨
          ∃ d, shieldMean (cat.map (classMs c.shieldTable)) d ⌊100 / gw⌋.toNat py px = none) ∧
        ∀ p : Dir → ℝ,
          (∀ d g, (d, g) ∈ tif.bands → g.val (py - L.y1.toNat) (px - L.x1.toNat) = .num (p d)) →
          ∃ d, r.band.val (py - L.y1.toNat) (px - L.x1.toNat) = .num (p d) ∧ ∀ d', p d' ≤ p d := by
  obtain ⟨⟨a0, a1, a2, a3, a4⟩, ⟨b0, b1, b2, b3, b4⟩, -⟩ := t.geometry
  have hfile := (C81_tile_completes t).2
  have hs : TileShape (tileFiles c EB E) (L.x2 - L.x1).toNat (L.y2 - L.y1).toNat := by
    intro m d r hr
    obtain ⟨r', e1, e2, e3, -⟩ := hfile m d
    rw [hr] at e1
    cases e1
    omega
  obtain ⟨re, e1, -, -, e4⟩ := hfile .ms .e
  obtain ⟨rn, n1, -, -, -⟩ := hfile .ms .n
  have hall : (∃ m d, tileFiles c EB E m d = none) → (L.x2 - L.x1).toNat = (L.y2 - L.y1).toNat :=
    fun ⟨m, d, hd⟩ => by obtain ⟨r, e, -⟩ := hfile m d; rw [hd] at e; cases e
  obtain ⟨tif, h1, h2, h3, h4⟩ := processTile_ok hs n1 e1 hall
  obtain ⟨tif', r, q1, q2, q3, q4, q5⟩ := C75_maximum (tileFiles c EB E) _ _ hs (by simp [n1])
    (by simp [e1]) hall
  rw [h1] at q1
  cases q1
  refine ⟨tif, r, h1, q2, by omega, by omega, fun px py hp => ?_⟩
  have hp' := hp
  obtain ⟨p1, p2, p3, p4⟩ := hp'
  obtain ⟨w1, w2⟩ := q5 (py - L.y1.toNat) (by omega) (px - L.x1.toNat) (by omega)
  constructor
  · rw [w1]
    constructor
    · rintro ⟨m, d, r', f1, f2⟩
      cases m with
      | mz =>
        left
        rw [C82_terrain_pixel t d r' f1 px py hp] at f2
        by_contra hne
        rw [if_neg hne] at f2
        cases f2
      | ms =>
        right
        refine ⟨d, ?_⟩
        obtain ⟨h, s, hf⟩ := exists_fallsTowards
          (riseEast c.elevation py px / xm.val (py - B.y1.toNat) (px - B.x1.toNat))
          (riseNorth c.elevation py px / ym.val (py - B.y1.toNat) (px - B.x1.toNat))
        have : Decidable (InSector d h) := Classical.dec _
        rw [C83_shielding_pixel t d r' f1 px py hp h s hf] at f2
        cases hm : shieldMean (cat.map (classMs c.shieldTable)) d ⌊100 / gw⌋.toNat py px with
        | none => rfl
        | some m => rw [hm] at f2; cases f2
      | mt =>
        obtain ⟨x, -, hx⟩ := C84_topographic_pixel t d r' f1 px py hp
        rw [hx] at f2
        cases f2
    · rintro (h0 | ⟨d, hd⟩)
      · obtain ⟨r', f1, -⟩ := hfile .mz .n
        exact ⟨.mz, .n, r', f1, by rw [C82_terrain_pixel t .n r' f1 px py hp, if_pos h0]⟩
      · obtain ⟨r', f1, -⟩ := hfile .ms d
        obtain ⟨h, s, hf⟩ := exists_fallsTowards
          (riseEast c.elevation py px / xm.val (py - B.y1.toNat) (px - B.x1.toNat))
          (riseNorth c.elevation py px / ym.val (py - B.y1.toNat) (px - B.x1.toNat))
        have : Decidable (InSector d h) := Classical.dec _
        exact ⟨.ms, d, r', f1, by rw [C83_shielding_pixel t d r' f1 px py hp h s hf, hd]⟩
  · intro p hpd
    obtain ⟨v, v1, v2, d, v3⟩ := w2 p (fun d => by
      obtain ⟨g, gd⟩ : ∃ g, (d, g) ∈ tif.bands := by
        have : d ∈ tif.bands.map Prod.fst := by rw [h3]; cases d <;> decide
        simpa using this
      rw [← hpd d g gd, (h4 d g gd).2.2 _ (by omega) _ (by omega)])
    exact ⟨d, by rw [v1, v3], fun d' => v3 ▸ v2 d'⟩

/-! ### The hypotheses can be met -/

theorem mean_const (rows cols : ℕ) (v : ℝ) (hr : 0 < rows) (hc : 0 < cols) :
    (⟨rows, cols, fun _ _ => v⟩ : Grid ℝ).mean = v := by
  have hcells : (⟨rows, cols, fun _ _ => v⟩ : Grid ℝ).cells = List.replicate (rows * cols) v := by
    rw [List.eq_replicate_iff]
    constructor
    · simp [Grid.cells]
    · intro x hx
      simp only [Grid.cells, List.mem_flatMap, List.mem_map] at hx
      obtain ⟨_, _, _, _, h⟩ := hx
      exact h.symm
  unfold Grid.mean
  rw [hcells, List.sum_replicate, nsmul_eq_mul]
  have : ((rows * cols : ℕ) : ℝ) ≠ 0 := by exact_mod_cast (Nat.mul_pos hr hc).ne'
  exact mul_div_cancel_left₀ v this

/-- A raster of 30 × 30 pixels of a tenth of a degree and 100 m: ground rising to the south and east
with one missing elevation, land cover missing in the first row, of category 1 in the west and of a
category without multiplier in the east. -/
noncomputable def sampleInputs : Inputs where
  r := ⟨30, 30, 150, 1 / 10, -30, -(1 / 10)⟩
  dem := ⟨30, 30, fun i j => if i = 3 ∧ j = 4 then none else some (20 * i + j)⟩
  lr := ⟨30, 30, 150, 1 / 10, -30, -(1 / 10)⟩
  lcv := ⟨30, 30, fun i j => if i = 0 then none else some (if j < 15 then 1 else 2)⟩
  terrainTable := [⟨1, 1⟩]
  shieldTable := [(1, 80)]
  pixelSizes := fun _ => .ok (⟨26, 26, fun _ _ => 100⟩, ⟨26, 26, fun _ _ => 100⟩)
  checksum := fun _ => 1

/-- The land cover of the sample on the grid of the DEM. -/
def sampleLand : Grid ℤ := ⟨30, 30, fun i j => if i = 0 then 0 else if j < 15 then 1 else 2⟩

theorem sampleGrid : TileGrid.init (8 / 10) sampleInputs.r =
    { xDim := 30, yDim := 30, xLeft := 150, yUpper := 30, pixelwidth := 1 / 10, pixelheight := 1 / 10
      xStep := 10, yStep := 10, xBuffer := 8, yBuffer := 8
      tiles := tileGridLoop 3 3 10 10 8 8 30 30 } := by
  have h1 : ⌈(1 : ℝ) / (1 / 10)⌉ = 10 := by
    rw [Int.ceil_eq_iff]; norm_num
  have h2 : pyInt ((8 / 10 : ℝ) / (1 / 10)) = 8 := by
    unfold pyInt
    rw [if_pos (by norm_num), Int.floor_eq_iff]; norm_num
  have h3 : ⌈((30 : ℕ) : ℝ) / ((10 : ℤ) : ℝ)⌉ = 3 := by
    rw [Int.ceil_eq_iff]; norm_num
  simp only [TileGrid.init, sampleInputs, neg_neg, h1, h2, h3]
  rfl

/-- The sample raster meets the hypotheses of C81–C85 with its fifth tile, which has a buffer of 8
pixels on all sides. -/
theorem sampleCase : TileCase sampleInputs (8 / 10) 4 ⟨10, 20, 10, 20⟩ ⟨2, 28, 2, 28⟩
    ⟨151, -31, 152, -32⟩ ⟨150 + 2 / 10, -(30 + 2 / 10), 150 + 28 / 10, -(30 + 28 / 10)⟩
    ⟨26, 26, fun _ _ => 100⟩ ⟨26, 26, fun _ _ => 100⟩ 100 sampleLand where
  pw := by norm_num [sampleInputs]
  ph := by norm_num [sampleInputs]
  lw := by norm_num [sampleInputs]
  lh := by norm_num [sampleInputs]
  upPos := by norm_num
  limits := by rw [sampleGrid]; rfl
  limitsB := by rw [sampleGrid]; rfl
  extent := by
    rw [sampleGrid]
    show Except.ok (TileGrid.extentOf _ ⟨10, 20, 10, 20⟩) = _
    norm_num [TileGrid.extentOf]
  extentB := by
    rw [sampleGrid]
    show Except.ok (TileGrid.extentOf _ ⟨2, 28, 2, 28⟩) = _
    norm_num [TileGrid.extentOf]
  land := by
    refine ⟨rfl, rfl, fun px py hx hy => ⟨?_, ?_⟩⟩
    · rintro col row h1 h2 ⟨q1, q2, q3, q4⟩
      simp only [sampleInputs, RasterInfo.lonEdge, RasterInfo.latEdge, RasterInfo.lonCentre,
        RasterInfo.latCentre] at q1 q2 q3 q4
      push_cast at q1 q2 q3 q4
      have ec : col = px := by
        have a : (col : ℝ) < px + 1 := by linarith
        have b : (px : ℝ) < col + 1 := by linarith
        have a : col < px + 1 := by exact_mod_cast a
        have b : px < col + 1 := by exact_mod_cast b
        omega
      have er : row = py := by
        have a : (row : ℝ) < py + 1 := by linarith
        have b : (py : ℝ) < row + 1 := by linarith
        have a : row < py + 1 := by exact_mod_cast a
        have b : py < row + 1 := by exact_mod_cast b
        omega
      subst ec er
      simp only [sampleLand, sampleInputs]
      split_ifs <;> rfl
    · intro h
      exfalso
      refine h px py hx hy ⟨?_, ?_, ?_, ?_⟩ <;>
        simp only [sampleInputs, RasterInfo.lonEdge, RasterInfo.latEdge, RasterInfo.lonCentre,
          RasterInfo.latCentre] <;> push_cast <;> linarith
  sizes := rfl
  width := by
    unfold gridWidth
    rw [mean_const 26 26 100 (by norm_num) (by norm_num)]
    norm_num
  gwPos := by norm_num
  sizesPos := fun _ _ _ _ => ⟨by norm_num, by norm_num⟩
  gwFine := le_rfl
  bufferX := by rw [sampleGrid]; norm_num
  bufferY := by rw [sampleGrid]; norm_num
  height := by norm_num [sampleInputs]
  notEmpty := one_ne_zero
  someLand := by
    refine ⟨5, 5, by simp [Limits.Has], ?_⟩
    have : classMz sampleInputs.terrainTable (sampleLand.val 5 5) = roughnessMz 1 := rfl
    rw [this, roughnessMz, Real.log_one]
    have := Real.log_le_sub_one_of_pos (show (0 : ℝ) < 3.734 + 0.4554 * 0 by norm_num)
    norm_num at this ⊢
    linarith
  roughness := by
    intro row hrow
    simp only [sampleInputs, List.mem_singleton] at hrow
    subst hrow
    norm_num [Real.log_one]

example : ∃ tif, processTile (tileFiles sampleInputs
    ⟨150 + 2 / 10, -(30 + 2 / 10), 150 + 28 / 10, -(30 + 28 / 10)⟩ ⟨151, -31, 152, -32⟩) = .ok tif ∧
    (∀ g, (Dir.n, g) ∈ tif.bands → g.val 5 6 = .nan) ∧
    ∀ g, (Dir.n, g) ∈ tif.bands → g.val 5 3 ≠ .nan := by
  obtain ⟨tif, h1, -, -, h2⟩ := C85_combined sampleCase
  refine ⟨tif, h1, fun g hg => ?_, fun g hg => ?_⟩
  · have := (h2 .n g hg).2.2 16 15 (by simp [Limits.Has])
    exact this.1.mpr (Or.inl rfl)
  · have := (h2 .n g hg).2.2 13 15 (by simp [Limits.Has])
    intro hn
    rcases this.1.mp hn with h | h
    · have e : classMz sampleInputs.terrainTable (sampleLand.val 15 13) = roughnessMz 1 := rfl
      rw [e, roughnessMz, Real.log_one] at h
      have := Real.log_le_sub_one_of_pos (show (0 : ℝ) < 3.734 + 0.4554 * 0 by norm_num)
      norm_num at this h
      linarith
    · unfold shieldMean at h
      rw [ite_eq_left_iff] at h
      by_cases hex : ∃ o ∈ shieldCells .n ⌊(100 : ℝ) / 100⌋.toNat, (sampleLand.map
          (classMs sampleInputs.shieldTable)).cellOrOne ((15 : ℕ) + o.1) ((13 : ℕ) + o.2) = none
      · obtain ⟨o, -, ho⟩ := hex
        unfold Grid.cellOrOne at ho
        split_ifs at ho
        have hnone : ∀ x : ℤ, x ≠ -99 → classMs sampleInputs.shieldTable x ≠ none := by
          intro x hx
          unfold classMs
          rw [if_neg hx]
          split <;> simp
        refine hnone _ ?_ ho
        simp only [sampleLand]
        split_ifs <;> norm_num
      · exact absurd (h hex) (by simp)

end WindMult
