import Verif.Proofs.FloatPipeline
import Verif.Props.Sensitivity

/-!
# C117: a tile from the input rasters to the combined multipliers, with rounded arithmetic
-/

set_option autoImplicit false
set_option linter.unusedSectionVars false

namespace WindMult
open Spec

variable {c cf : Inputs} {up : ℝ} {k : ℕ} {L B : Limits} {bX bY : ℤ} {E EB : Extent ℝ} {xm ym xmf ymf : Grid ℝ} {gw : ℝ}
  {cat : Grid ℤ} {N : TileFp}

theorem NanNum.mul_nan_iff {K : Type} [Mul K] {a b : NanNum K} : a * b = .nan ↔ a = .nan ∨ b = .nan := by
  cases a <;> cases b <;> simp [HMul.hMul, Mul.mul]

theorem toNanNum_eq_nan {K : Type} {a : Option K} : toNanNum a = .nan ↔ a = none := by
  cases a <;> simp [toNanNum]

/-- What one of the three steps saves. -/
def TileFiles.saved (f : TileFiles) : Mult → List (Dir × Grid (Option ℝ))
  | .mz => f.mz
  | .ms => f.ms
  | .mt => f.mt

/-- The files with coordinates `coords`, as the converter reads them. -/
noncomputable def TileFiles.asRead {u : ℝ} (R : FpRound u) (coords : List ℝ × List ℝ) (f : TileFiles) (m : Mult)
    (d : Dir) : Option (Raster (NanNum (Fl R)) (List ℝ × List ℝ)) :=
  savedFileFl R coords (f.saved m) d

theorem tileFilesFl_eq (N : TileFp) (c : Inputs) (EB E : Extent ℝ) : tileFilesFl N c EB E =
    (tileStepFl N c EB E).1.asRead N.file (getLatLon E (clipInfo c.r EB).gt1 (-(clipInfo c.r EB).gt5)) := by
  funext m d
  cases m <;> rfl

/-- The run of a tile. -/
theorem TileAt.runFl (t : TileAt c L B bX bY E EB xm ym gw cat) (q : AsRead N c cf B EB xm ym xmf ymf gw) :
    (tileStepFl N cf EB E).2 = .ok () ∧ ∀ m d, ∃ g : Grid (Option ℝ),
      ((tileStepFl N cf EB E).1.saved m).lookup d = some g ∧
      (g.rows : ℤ) = L.y2 - L.y1 ∧ (g.cols : ℤ) = L.x2 - L.x1 ∧
      ∀ px py : ℕ, L.Has px py →
        match m with
        | .mz => (g.val (py - L.y1.toNat) (px - L.x1.toNat) = none ↔ classMz c.terrainTable (cat.val py px) = 0) ∧
            (classMz c.terrainTable (cat.val py px) ≠ 0 → ∃ v, g.val (py - L.y1.toNat) (px - L.x1.toNat) = some v ∧
              |v - upwindMean (waterMz c.terrainTable cat) d (terrainWidths d gw).1.toNat
                (terrainWidths d gw).2.toNat py px| ≤ 505 / 2 ^ 23 *
                  upwindMean (waterMz c.terrainTable cat) d (terrainWidths d gw).1.toNat
                    (terrainWidths d gw).2.toNat py px)
        | .ms => (g.val (py - L.y1.toNat) (px - L.x1.toNat) = none ↔
              shieldMean (cat.map (classMs c.shieldTable)) d ⌊100 / gw⌋.toNat py px = none) ∧
            ∀ m h s, ∀ _ : Decidable (InSector d h),
              shieldMean (cat.map (classMs c.shieldTable)) d ⌊100 / gw⌋.toNat py px = some m →
              FallsTowards
                (riseEast c.elevation py px / xm.val (py - B.y1.toNat) (px - B.x1.toNat))
                (riseNorth c.elevation py px / ym.val (py - B.y1.toNat) (px - B.x1.toNat)) h s →
              ClearPixel c B xm ym gw d px py h s →
              ∃ y, g.val (py - L.y1.toNat) (px - L.x1.toNat) = some y ∧
                |y - finalMs (slopeAdjusted (InSector d h) m (some s))| ≤ 1 / 2 ^ 17
        | .mt => g.val (py - L.y1.toNat) (px - L.x1.toNat) ≠ none ∧
            ∀ h s, ClearPixel c B xm ym gw d px py h s → ∃ x : ℤ → ℤ → ℝ,
              (∀ a b, IsRawMt (c.elevation.window B) d (stepLength d gw)
                (143 < c.r.lonEdge B.x1 ∧ c.r.latEdge B.y1 < -40) (py - B.y1 + a) (px - B.x1 + b) (x a b)) ∧
              ∃ y, g.val (py - L.y1.toNat) (px - L.x1.toNat) = some y ∧
                |y - (∑ a ∈ {-1, 0, 1}, ∑ b ∈ {-1, 0, 1}, x a b) / 9| ≤ 4 / 2 ^ 15 + 252 / 2 ^ 24 := by
  obtain ⟨mz, z1, z2⟩ := t.mz_fileFl q
  obtain ⟨mt, t1, t2⟩ := t.mt_fileFl q
  have s2 := t.ms_fileFl q
  obtain ⟨r1, r2, r3, r4, r5⟩ := q.rasters
  obtain ⟨ms, hstep, hms⟩ : ∃ ms, tileStepFl N cf EB E = (⟨mz, ms, mt⟩, .ok ()) ∧
      ms = convoCombineFl N.ms N.wide N.terr.quot (N.gridWidth xmf ymf)
        (class2msFl N.ms N.wide none cf.shieldTable (cutLandcover c.lr c.lcv (clipInfo c.r EB) 0))
        ⟨(cutDem c.r c.dem EB 0).rows, (cutDem c.r c.dem EB 0).cols, fun i j =>
          (slopeAspectFl N.wide N.trig ((cutDem c.r c.dem EB 0).map some) |(clipInfo c.r EB).gt1|
            |(clipInfo c.r EB).gt5| (xmf.val i j) (ymf.val i j) i j).1⟩
        ⟨(cutDem c.r c.dem EB 0).rows, (cutDem c.r c.dem EB 0).cols, fun i j =>
          (slopeAspectFl N.wide N.trig ((cutDem c.r c.dem EB 0).map some) |(clipInfo c.r EB).gt1|
            |(clipInfo c.r EB).gt5| (xmf.val i j) (ymf.val i j) i j).2⟩
        (fun g => clipArray g (clipInfo c.r EB).gt0 (-(clipInfo c.r EB).gt3) (clipInfo c.r EB).gt1
          (-(clipInfo c.r EB).gt5) E) := by
    refine ⟨_, ?_, rfl⟩
    unfold tileStepFl
    simp only [r1, r2, r3, r4, r5, if_neg t.notEmpty, q.sizes, z1, t1]
  refine ⟨by rw [hstep], fun m d => ?_⟩
  cases m with
  | mz =>
    obtain ⟨g, g1, g2, g3, g4⟩ := z2 d
    refine ⟨g, ?_, g2, g3, fun px py hp => ⟨⟨fun hn => ?_, (g4 px py hp).1⟩, (g4 px py hp).2⟩⟩
    · rw [hstep]; exact g1
    · by_contra h0
      obtain ⟨v, hv, -⟩ := (g4 px py hp).2 h0
      rw [hn] at hv
      cases hv
  | ms =>
    obtain ⟨g, g1, g2, g3, g4⟩ := s2 d
    have g1 : ms.lookup d = some g := by rw [hms]; exact g1
    refine ⟨g, ?_, g2, g3, g4⟩
    rw [hstep]; exact g1
  | mt =>
    obtain ⟨g, g1, g2, g3, g4⟩ := t2 d
    refine ⟨g, ?_, g2, g3, g4⟩
    rw [hstep]; exact g1

/-- The files are there, in the size of the tile. -/
theorem TileAt.filesFl (t : TileAt c L B bX bY E EB xm ym gw cat) (q : AsRead N c cf B EB xm ym xmf ymf gw)
    (coords : List ℝ × List ℝ) :
    (tileStepFl N cf EB E).1.mz.isEmpty = false ∧ ∀ m d, ∃ r : Raster (NanNum (Fl N.file)) (List ℝ × List ℝ),
      (tileStepFl N cf EB E).1.asRead N.file coords m d = some r ∧ (r.band.rows : ℤ) = L.y2 - L.y1 ∧
      (r.band.cols : ℤ) = L.x2 - L.x1 := by
  have hrun := (t.runFl q).2
  refine ⟨?_, fun m d => ?_⟩
  · obtain ⟨g, hg, -⟩ := hrun .mz .e
    change (tileStepFl N cf EB E).1.mz.lookup .e = _ at hg
    cases hmz : (tileStepFl N cf EB E).1.mz with
    | nil =>
      rw [hmz] at hg
      cases hg
    | cons => rfl
  · obtain ⟨g, g1, g2, g3, -⟩ := hrun m d
    exact ⟨_, by unfold TileFiles.asRead savedFileFl; rw [g1]; rfl, g2, g3⟩

/-! ### The product -/

theorem rnd_close {u : ℝ} (R : FpRound u) (hu : 0 ≤ u) {x y A α : ℝ} (hy : |y - x| ≤ α) (hx : |x| ≤ A) :
    |R.rnd y - x| ≤ α + u * (A + α) := by
  have h1 := R.near y
  have h2 : |y| ≤ A + α := by
    have := abs_sub_abs_le_abs_sub y x
    linarith
  have h3 := abs_sub_le (R.rnd y) y x
  have h4 := mul_le_mul_of_nonneg_left h2 hu
  linarith

theorem mul_close {x y x' y' A α C β : ℝ} (h1 : |x' - x| ≤ α) (h2 : |x| ≤ A) (h3 : |y' - y| ≤ β) (h4 : |y| ≤ C) :
    |x' * y' - x * y| ≤ α * (C + β) + A * β := by
  have hy : |y'| ≤ C + β := by
    have := abs_sub_abs_le_abs_sub y' y
    linarith
  have e : x' * y' - x * y = (x' - x) * y' + x * (y' - y) := by ring
  rw [e]
  refine (abs_add_le _ _).trans ?_
  rw [abs_mul, abs_mul]
  have a1 : |x' - x| * |y'| ≤ α * (C + β) := mul_le_mul h1 hy (abs_nonneg _) ((abs_nonneg _).trans h1)
  have a2 : |x| * |y' - y| ≤ A * β := mul_le_mul h2 h3 (abs_nonneg _) ((abs_nonneg _).trans h2)
  linarith

theorem product_close (R : FpRound (1 / 2 ^ 24)) {s z t s' z' t' : ℝ} (s0 : 0 ≤ s) (s1 : s ≤ 1)
    (hs : |s' - s| ≤ 1 / 2 ^ 17) (z0 : 0 ≤ z) (z1 : z ≤ 1.6) (hz : |z' - z| ≤ 505 / 2 ^ 23 * z) (t0 : 0 ≤ t)
    (t1 : t ≤ 2.4624) (ht : |t' - t| ≤ 4 / 2 ^ 15 + 252 / 2 ^ 24) :
    |R.rnd (R.rnd (R.rnd s' * R.rnd z') * R.rnd t') - s * z * t| ≤ 1 / 2000 := by
  have hu : (0 : ℝ) ≤ 1 / 2 ^ 24 := by positivity
  have as : |s| ≤ 1 := by rw [abs_of_nonneg s0]; exact s1
  have az : |z| ≤ 1.6 := by rw [abs_of_nonneg z0]; exact z1
  have at' : |t| ≤ 2.4624 := by rw [abs_of_nonneg t0]; exact t1
  have hz' : |z' - z| ≤ 505 / 2 ^ 23 * 1.6 := hz.trans (mul_le_mul_of_nonneg_left z1 (by positivity))
  have e1 := rnd_close R hu hs as
  have e2 := rnd_close R hu hz' az
  have e3 := rnd_close R hu ht at'
  have asz : |s * z| ≤ 1.6 := by
    rw [abs_mul]
    calc |s| * |z| ≤ 1 * 1.6 := mul_le_mul as az (abs_nonneg _) zero_le_one
      _ = 1.6 := by norm_num
  have aszt : |s * z * t| ≤ 1.6 * 2.4624 := by
    rw [abs_mul]
    exact mul_le_mul asz at' (abs_nonneg _) (by norm_num)
  have e4 := rnd_close R hu (mul_close e1 as e2 az) asz
  have e5 := rnd_close R hu (mul_close e4 asz e3 at') aszt
  refine e5.trans ?_
  norm_num

theorem mean_nine_range {x : ℤ → ℤ → ℝ} {C : ℝ} (lo : ∀ a b, 0 ≤ x a b) (hi : ∀ a b, x a b ≤ C) :
    0 ≤ (∑ a ∈ ({-1, 0, 1} : Finset ℤ), ∑ b ∈ ({-1, 0, 1} : Finset ℤ), x a b) / 9 ∧
      (∑ a ∈ ({-1, 0, 1} : Finset ℤ), ∑ b ∈ ({-1, 0, 1} : Finset ℤ), x a b) / 9 ≤ C := by
  rw [sum_nine]
  constructor
  · linarith [lo (-1) (-1), lo (-1) 0, lo (-1) 1, lo 0 (-1), lo 0 0, lo 0 1, lo 1 (-1), lo 1 0, lo 1 1]
  · linarith [hi (-1) (-1), hi (-1) 0, hi (-1) 1, hi 0 (-1), hi 0 0, hi 0 1, hi 1 (-1), hi 1 0, hi 1 1]

/-- What the bands of the GeoTIFF of a tile are to hold, up to `ε`: one band per direction.  A pixel is NaN exactly if its
category has no terrain multiplier or a shielding cell is unknown.  The other pixels are within `ε` of the documented
value, where the ground is such that rounding makes no large difference. -/
def BandsNear {u : ℝ} {R : FpRound u} (ε : ℝ) (c : Inputs) (L B : Limits) (xm ym : Grid ℝ) (gw : ℝ) (cat : Grid ℤ)
    (tif : TileTif (NanNum (Fl R)) (List ℝ × List ℝ)) : Prop :=
  (∀ d, (tif.bands.map Prod.fst).count d = 1) ∧
  ∀ d g, (d, g) ∈ tif.bands → (g.rows : ℤ) = L.y2 - L.y1 ∧ (g.cols : ℤ) = L.x2 - L.x1 ∧
    ∀ px py : ℕ, L.Has px py →
    (g.val (py - L.y1.toNat) (px - L.x1.toNat) = .nan ↔
      classMz c.terrainTable (cat.val py px) = 0 ∨
      shieldMean (cat.map (classMs c.shieldTable)) d ⌊100 / gw⌋.toNat py px = none) ∧
    ∀ h s p, M3Value c B xm ym gw cat d px py h s p → ClearPixel c B xm ym gw d px py h s →
      ∃ y, g.val (py - L.y1.toNat) (px - L.x1.toNat) = .num ⟨y⟩ ∧ |y - p| ≤ ε

/-- What the GeoTIFF of a tile is to hold, up to `ε`: the multipliers, on the pixel centres of the tile. -/
def IsM3Near {u : ℝ} {R : FpRound u} (ε : ℝ) (c : Inputs) (L B : Limits) (xm ym : Grid ℝ) (gw : ℝ) (cat : Grid ℤ)
    (tif : TileTif (NanNum (Fl R)) (List ℝ × List ℝ)) : Prop :=
  tif.transform = L.centres c.r ∧ BandsNear ε c L B xm ym gw cat tif

/-- The GeoTIFF made from the files of a tile. -/
theorem TileAt.tile (t : TileAt c L B bX bY E EB xm ym gw cat) (q : AsRead N c cf B EB xm ym xmf ymf gw)
    (coords : List ℝ × List ℝ) :
    ∃ tif, processTile ((tileStepFl N cf EB E).1.asRead N.file coords) = .ok tif ∧ tif.transform = coords ∧ BandsNear (1 / 2000) c L B xm ym gw cat tif := by
  obtain ⟨⟨a0, a1, a2, a3, a4⟩, ⟨b0, b1, b2, b3, b4⟩, -⟩ := t.geometry
  obtain ⟨-, hrun⟩ := t.runFl q
  have hfile : ∀ m d, ∃ g : Grid (Option ℝ), (tileStepFl N cf EB E).1.asRead N.file coords m d =
      some ⟨g.map fun x => toNanNum (x.map fun v => ⟨N.file.rnd v⟩), coords⟩ ∧ _ := fun m d => by
    obtain ⟨g, g1, g2⟩ := hrun m d
    exact ⟨g, by unfold TileFiles.asRead savedFileFl; rw [g1]; rfl, g2⟩
  have hs : TileShape ((tileStepFl N cf EB E).1.asRead N.file coords) (L.x2 - L.x1).toNat (L.y2 - L.y1).toNat := by
    intro m d r hr
    obtain ⟨g, e1, e2, e3, -⟩ := hfile m d
    rw [hr] at e1
    cases e1
    show g.rows = _ ∧ g.cols = _
    omega
  obtain ⟨ge, e1, -⟩ := hfile .ms .e
  obtain ⟨gn, n1, -⟩ := hfile .ms .n
  obtain ⟨tif, h1, h2, h3, h4⟩ := processTile_ok hs n1 e1
    (fun ⟨m, d, hd⟩ => by obtain ⟨r, e, -⟩ := hfile m d; rw [hd] at e; cases e)
  refine ⟨tif, h1, h2, fun d => by rw [h3]; cases d <;> decide, fun d g hg => ?_⟩
  obtain ⟨g1, g2, g3⟩ := h4 d g hg
  refine ⟨by omega, by omega, fun px py hp => ?_⟩
  have hp' := hp
  obtain ⟨p1, p2, p3, p4⟩ := hp'
  rw [g3 (py - L.y1.toNat) (by omega) (px - L.x1.toNat) (by omega)]
  obtain ⟨gz, z1, -, -, z2⟩ := hfile .mz d
  obtain ⟨gs, s1, -, -, s2⟩ := hfile .ms d
  obtain ⟨gt, t1, -, -, t2⟩ := hfile .mt d
  obtain ⟨zn, zv⟩ := z2 px py hp
  obtain ⟨sn, sv⟩ := s2 px py hp
  obtain ⟨tn, tv⟩ := t2 px py hp
  have hprod : productAt ((tileStepFl N cf EB E).1.asRead N.file coords) d (py - L.y1.toNat) (px - L.x1.toNat) =
      toNanNum ((gs.val (py - L.y1.toNat) (px - L.x1.toNat)).map fun v => (⟨N.file.rnd v⟩ : Fl N.file)) *
      toNanNum ((gz.val (py - L.y1.toNat) (px - L.x1.toNat)).map fun v => (⟨N.file.rnd v⟩ : Fl N.file)) *
      toNanNum ((gt.val (py - L.y1.toNat) (px - L.x1.toNat)).map fun v => (⟨N.file.rnd v⟩ : Fl N.file)) := by
    unfold productAt multiplierAt
    rw [z1, s1, t1]
    rfl
  rw [hprod]
  constructor
  · rw [NanNum.mul_nan_iff, NanNum.mul_nan_iff, toNanNum_eq_nan, toNanNum_eq_nan, toNanNum_eq_nan,
      Option.map_eq_none_iff, Option.map_eq_none_iff, Option.map_eq_none_iff, zn, sn]
    constructor
    · rintro ((h | h) | h)
      · exact .inr h
      · exact .inl h
      · exact absurd h tn
    · rintro (h | h)
      · exact .inl (.inr h)
      · exact .inl (.inl h)
  · rintro h s p ⟨h0, hf, m, x, _, hm, hraw, rfl⟩ hc
    obtain ⟨v, v1, v2⟩ := zv h0
    obtain ⟨y, y1, y2⟩ := sv m h s _ hm hf hc
    obtain ⟨x', hx', w, w1, w2⟩ := tv h s hc
    have hxx : ∀ a b, x' a b = x a b := fun a b => (hx' a b).unique (hraw a b)
    simp only [hxx] at w2
    rw [v1, y1, w1]
    refine ⟨_, rfl, ?_⟩
    -- ranges
    have hm' := shieldMean_range (lo := 0) (hi := 1) t.kernel.1 (by
      intro o _ v hv
      unfold Grid.cellOrOne at hv
      split_ifs at hv
      · refine classMs_range (table := c.shieldTable) zero_le_one ?_ _ _ hv
        intro row hrow
        obtain ⟨b, hb⟩ := (List.forall₂_iff_get.mp q.shield)
        obtain ⟨i, hi⟩ := List.mem_iff_get.mp hrow
        have := hb i i.2 (by rw [← b]; exact i.2)
        rw [show c.shieldTable.get ⟨i, i.2⟩ = row from hi] at this
        exact ⟨by rw [mul_zero]; exact this.2.1, this.2.2.1⟩
      · cases hv
        exact ⟨zero_le_one, le_rfl⟩) hm
    have hadj := slopeAdjusted_bounds (InSector d h) m (some s) hm'.2
    have hms0 := finalMs_nonneg (hm'.1.trans hadj.1)
    have hms1 : finalMs (slopeAdjusted (InSector d h) m (some s)) ≤ 1 := by
      rw [← finalMs_one]
      exact finalMs_mono (hm'.1.trans hadj.1) hadj.2
    have hmz := upwindMean_mem (waterMz c.terrainTable cat) d (terrainWidths d gw).1.toNat
      (terrainWidths d gw).2.toNat py px
      (by show py < cat.rows; rw [t.land.1]; omega) (by show px < cat.cols; rw [t.land.2]; omega)
      0.62 1.6 (fun a _ b _ => waterMz_range (by norm_num) (by norm_num) (by
        intro row hrow
        obtain ⟨b, hb⟩ := (List.forall₂_iff_get.mp q.terrain)
        obtain ⟨i, hi⟩ := List.mem_iff_get.mp hrow
        have := hb i i.2 (by rw [← b]; exact i.2)
        rw [show c.terrainTable.get ⟨i, i.2⟩ = row from hi] at this
        rw [← mzFormula_eq]
        exact mzFormula_bounds this.2.1 this.2.2.1) cat a b)
    have hR := fun a b => (hraw a b).range (top := 4000) (by norm_num) (by
      intro i hi j hj
      simp only [Grid.window] at hi hj ⊢
      exact (abs_le.mp (q.elevations (B.y1.toNat + i) (by omega) (B.x1.toNat + j) (by omega))).2)
    have hmt : 0 ≤ (∑ a ∈ ({-1, 0, 1} : Finset ℤ), ∑ b ∈ ({-1, 0, 1} : Finset ℤ), x a b) / 9 ∧
        (∑ a ∈ ({-1, 0, 1} : Finset ℤ), ∑ b ∈ ({-1, 0, 1} : Finset ℤ), x a b) / 9 ≤ 2.4624 := by
      exact mean_nine_range (fun a b => (hR a b).1) fun a b => (hR a b).2.2.1.trans (by norm_num)
    exact product_close N.file hms0 hms1 y2 (le_trans (by norm_num) hmz.1) hmz.2 v2 hmt.1 hmt.2 w2

theorem centres_eq (t : TileCase c up k L B E EB xm ym gw cat) :
    getLatLon E (clipInfo c.r EB).gt1 (-(clipInfo c.r EB).gt5) = L.centres c.r := by
  obtain ⟨c1, c2⟩ := C07_coordinates_are_pixel_centres up c.r t.pw t.ph t.upPos k L E t.limits t.extent
  show getLatLon E c.r.gt1 (-(-(-c.r.gt5))) = _
  rw [neg_neg]
  exact Prod.ext c1 c2

/-- **C117** The whole computation of a tile in rounded arithmetic – tables with decimal fractions, pixel sizes, cell
size, initial multipliers, averages, slope and aspect, hills, the multiplier files and their product: it ends without
error, and the GeoTIFF has NaN where exact arithmetic has; every other value is within 0.0005 of the documented one,
unless a hill or heading on which it depends is borderline. -/
theorem C117_tile (t : TileCase c up k L B E EB xm ym gw cat) (q : AsRead N c cf B EB xm ym xmf ymf gw) :
    (tileStepFl N cf EB E).2 = .ok () ∧
    ∃ tif, processTile (tileFilesFl N cf EB E) = .ok tif ∧ IsM3Near (1 / 2000) c L B xm ym gw cat tif := by
  obtain ⟨tif, h1, h2, h3⟩ := t.toAt.tile q (L.centres c.r)
  rw [tileFilesFl_eq, q.rasters.1, centres_eq t]
  exact ⟨(t.toAt.runFl q).1, tif, h1, h2, h3⟩

/-- There is one documented value. -/
theorem TileAt.value (t : TileAt c L B bX bY E EB xm ym gw cat) (d : Dir) (px py : ℕ) (hp : L.Has px py) (m : ℝ)
    (h0 : classMz c.terrainTable (cat.val py px) ≠ 0)
    (hm : shieldMean (cat.map (classMs c.shieldTable)) d ⌊100 / gw⌋.toNat py px = some m) :
    (∃ h s p, M3Value c B xm ym gw cat d px py h s p) ∧
    ∀ h s p p', M3Value c B xm ym gw cat d px py h s p → M3Value c B xm ym gw cat d px py h s p' → p = p' := by
  constructor
  · obtain ⟨mt, -, m2⟩ := t.mt_file
    obtain ⟨g, -, -, -, g1⟩ := m2 d
    obtain ⟨x, x1, -⟩ := g1 px py hp
    obtain ⟨h, s, hf⟩ := exists_fallsTowards
      (riseEast c.elevation py px / xm.val (py - B.y1.toNat) (px - B.x1.toNat))
      (riseNorth c.elevation py px / ym.val (py - B.y1.toNat) (px - B.x1.toNat))
    exact ⟨h, s, _, h0, hf, m, x, Classical.dec _, hm, x1, rfl⟩
  · rintro h s p p' ⟨-, -, m1, x1, i1, e1, r1, rfl⟩ ⟨-, -, m2, x2, i2, e2, r2, rfl⟩
    rw [e1] at e2
    cases e2
    have hx : ∀ a b, x1 a b = x2 a b := fun a b => (r1 a b).unique (r2 a b)
    rw [Subsingleton.elim i1 i2]
    simp only [hx]

/-- **C117** (documented value) Every pixel with a terrain multiplier and known shielding cells has one documented
value, whichever way the gradient of the ground is written as heading and slope. -/
theorem C117_value (t : TileCase c up k L B E EB xm ym gw cat) (d : Dir) (px py : ℕ) (hp : L.Has px py) (m : ℝ)
    (h0 : classMz c.terrainTable (cat.val py px) ≠ 0)
    (hm : shieldMean (cat.map (classMs c.shieldTable)) d ⌊100 / gw⌋.toNat py px = some m) :
    (∃ h s p, M3Value c B xm ym gw cat d px py h s p) ∧
    ∀ h s p p', M3Value c B xm ym gw cat d px py h s p → M3Value c B xm ym gw cat d px py h s p' → p = p' :=
  t.toAt.value d px py hp m h0 hm

/-! ### The maximum -/

theorem NanNum.max_nan_iff {K : Type} [Max K] {a b : NanNum K} : max a b = .nan ↔ a = .nan ∨ b = .nan := by
  cases a <;> cases b <;> simp [max, Max.max]

theorem foldl_max_nan {α K : Type} [Max K] (f : α → NanNum K) (l : List α) (a : NanNum K) :
    l.foldl (fun m c => max m (f c)) a = .nan ↔ a = .nan ∨ ∃ c ∈ l, f c = .nan := by
  induction l generalizing a with
  | nil => simp
  | cons c l ih => rw [List.foldl_cons, ih, NanNum.max_nan_iff]; simp [or_assoc]

theorem foldl_max_fl {u : ℝ} {R : FpRound u} {α : Type} (f : α → NanNum (Fl R)) (g : α → ℝ) (l : List α)
    (h : ∀ c ∈ l, f c = .num ⟨g c⟩) (a : ℝ) :
    ∃ y, l.foldl (fun m c => max m (f c)) (.num ⟨a⟩) = .num ⟨y⟩ ∧ a ≤ y ∧ (∀ c ∈ l, g c ≤ y) ∧
      (y = a ∨ ∃ c ∈ l, y = g c) := by
  induction l generalizing a with
  | nil => exact ⟨a, rfl, le_rfl, by simp, .inl rfl⟩
  | cons c l ih =>
    obtain ⟨y, y1, y2, y3, y4⟩ := ih (fun c' hc' => h c' (by simp [hc'])) (max a (g c))
    refine ⟨y, ?_, (le_max_left _ _).trans y2, ?_, ?_⟩
    · rw [List.foldl_cons, h c (by simp)]
      exact y1
    · intro c' hc'
      rcases List.mem_cons.mp hc' with rfl | hc'
      · exact (le_max_right _ _).trans y2
      · exact y3 c' hc'
    · rcases y4 with y4 | ⟨c', hc', y4⟩
      · rcases max_choice a (g c) with e | e
        · exact .inl (y4.trans e)
        · exact .inr ⟨c, by simp, y4.trans e⟩
      · exact .inr ⟨c', by simp [hc'], y4⟩

/-- What the maximum raster of a tile is to hold, up to `ε`: a pixel is NaN exactly if it is in a band of the GeoTIFF;
other pixels are within `ε` of the largest documented value of the eight directions, if none of the eight hangs on a
rounding. -/
def IsM3MaxNear {u : ℝ} {R : FpRound u} (ε : ℝ) (c : Inputs) (L B : Limits) (xm ym : Grid ℝ) (gw : ℝ) (cat : Grid ℤ)
    (r : Raster (NanNum (Fl R)) (List ℝ × List ℝ)) : Prop :=
  (r.band.rows : ℤ) = L.y2 - L.y1 ∧ (r.band.cols : ℤ) = L.x2 - L.x1 ∧
  ∀ px py : ℕ, L.Has px py →
    (r.band.val (py - L.y1.toNat) (px - L.x1.toNat) = .nan ↔
      classMz c.terrainTable (cat.val py px) = 0 ∨
      ∃ d, shieldMean (cat.map (classMs c.shieldTable)) d ⌊100 / gw⌋.toNat py px = none) ∧
    ∀ h s (p : Dir → ℝ), (∀ d, M3Value c B xm ym gw cat d px py h s (p d)) →
      (∀ d, ClearPixel c B xm ym gw d px py h s) →
      ∃ y d, r.band.val (py - L.y1.toNat) (px - L.x1.toNat) = .num ⟨y⟩ ∧ (∀ d', p d' ≤ p d) ∧ |y - p d| ≤ ε

/-- The raster of the maxima made from the files of a tile. -/
theorem TileAt.maximum (t : TileAt c L B bX bY E EB xm ym gw cat) (q : AsRead N c cf B EB xm ym xmf ymf gw)
    (coords : List ℝ × List ℝ) :
    ∃ tif r, processTile ((tileStepFl N cf EB E).1.asRead N.file coords) = .ok tif ∧ processMaxTile tif = .ok r ∧
      IsM3MaxNear (1 / 2000) c L B xm ym gw cat r := by
  obtain ⟨⟨a0, a1, a2, a3, a4⟩, ⟨b0, b1, b2, b3, b4⟩, -⟩ := t.geometry
  have hrun := (t.runFl q).2
  have hfile : ∀ m d, ∃ g : Grid (Option ℝ), (tileStepFl N cf EB E).1.asRead N.file coords m d =
      some ⟨g.map fun x => toNanNum (x.map fun v => ⟨N.file.rnd v⟩), coords⟩ ∧ _ := fun m d => by
    obtain ⟨g, g1, g2⟩ := hrun m d
    exact ⟨g, by unfold TileFiles.asRead savedFileFl; rw [g1]; rfl, g2⟩
  have hs : TileShape ((tileStepFl N cf EB E).1.asRead N.file coords) (L.x2 - L.x1).toNat (L.y2 - L.y1).toNat := by
    intro m d r hr
    obtain ⟨g, e1, e2, e3, -⟩ := hfile m d
    rw [hr] at e1
    cases e1
    show g.rows = _ ∧ g.cols = _
    omega
  obtain ⟨ge, e1, -⟩ := hfile .ms .e
  obtain ⟨gn, n1, -⟩ := hfile .ms .n
  have hall : (∃ m d, (tileStepFl N cf EB E).1.asRead N.file coords m d = none) → (L.x2 - L.x1).toNat = (L.y2 - L.y1).toNat :=
    fun ⟨m, d, hd⟩ => by obtain ⟨r, e, -⟩ := hfile m d; rw [hd] at e; cases e
  obtain ⟨tif, h1, -, h3, h4⟩ := processTile_ok hs n1 e1 hall
  obtain ⟨tif', r, q1, q2, q3, q4, q5⟩ := processMaxTile_ok hs (by simp [n1]) (by simp [e1]) hall
  rw [h1] at q1
  cases q1
  obtain ⟨tif', w1, -, -, w2⟩ := t.tile q coords
  rw [h1] at w1
  cases w1
  have hband : ∀ d, ∃ g, (d, g) ∈ tif.bands := fun d => by
    have : d ∈ tif.bands.map Prod.fst := by rw [h3]; cases d <;> decide
    simpa using this
  refine ⟨tif, r, h1, q2, by omega, by omega, fun px py hp => ?_⟩
  have hp' := hp
  obtain ⟨p1, p2, p3, p4⟩ := hp'
  have hv : ∀ d, (productAt ((tileStepFl N cf EB E).1.asRead N.file coords) d (py - L.y1.toNat) (px - L.x1.toNat) = .nan ↔
        classMz c.terrainTable (cat.val py px) = 0 ∨
        shieldMean (cat.map (classMs c.shieldTable)) d ⌊100 / gw⌋.toNat py px = none) ∧
      ∀ h s p, M3Value c B xm ym gw cat d px py h s p → ClearPixel c B xm ym gw d px py h s →
        ∃ y, productAt ((tileStepFl N cf EB E).1.asRead N.file coords) d (py - L.y1.toNat) (px - L.x1.toNat) = .num ⟨y⟩ ∧
          |y - p| ≤ 1 / 2000 := by
    intro d
    obtain ⟨g, hg⟩ := hband d
    rw [← (h4 d g hg).2.2 (py - L.y1.toNat) (by omega) (px - L.x1.toNat) (by omega)]
    exact (w2 d g hg).2.2 px py hp
  rw [q5 (py - L.y1.toNat) (by omega) (px - L.x1.toNat) (by omega)]
  have hdir : ∀ d : Dir, d = .e ∨ d ∈ [Dir.n, .ne, .nw, .s, .se, .sw, .w] := by
    intro d; cases d <;> simp
  constructor
  · rw [foldl_max_nan, (hv .e).1]
    constructor
    · rintro ((h | h) | ⟨d, -, h⟩)
      · exact .inl h
      · exact .inr ⟨_, h⟩
      · rcases (hv d).1.mp h with h | h
        · exact .inl h
        · exact .inr ⟨_, h⟩
    · rintro (h | ⟨d, h⟩)
      · exact .inl (.inl h)
      · rcases hdir d with rfl | hd
        · exact .inl (.inr h)
        · exact .inr ⟨d, hd, (hv d).1.mpr (.inr h)⟩
  · intro h s p hp3 hc
    choose y y1 y2 using fun d => (hv d).2 h s (p d) (hp3 d) (hc d)
    obtain ⟨z, z1, z2, z3, z4⟩ := foldl_max_fl
      (fun d => productAt ((tileStepFl N cf EB E).1.asRead N.file coords) d (py - L.y1.toNat) (px - L.x1.toNat)) y
      [Dir.n, .ne, .nw, .s, .se, .sw, .w] (fun d _ => y1 d) (y .e)
    have zle : ∀ d, y d ≤ z := fun d => by
      rcases hdir d with rfl | hd
      · exact z2
      · exact z3 d hd
    obtain ⟨d1, hd1⟩ : ∃ d, z = y d := by
      rcases z4 with e | ⟨d, -, e⟩
      · exact ⟨_, e⟩
      · exact ⟨_, e⟩
    obtain ⟨d, -, hd⟩ := Set.exists_max_image Set.univ p
      (Set.Finite.subset (List.finite_toSet Dir.convertOrder) (fun d _ => by cases d <;> simp [Dir.convertOrder]))
      ⟨.n, trivial⟩
    have hd := fun d' => hd d' trivial
    refine ⟨z, d, by rw [y1 .e]; exact z1, hd, ?_⟩
    have u1 := abs_le.mp (y2 d1)
    have u2 := abs_le.mp (y2 d)
    have u3 := zle d
    have u4 := hd d1
    rw [abs_le]
    constructor <;> linarith

/-- **C117** (maximum) The maximum raster of the tile in rounded arithmetic: NaN exactly where a band is, and within
0.0005 of the largest documented value where none of the eight is borderline. -/
theorem C117_maximum (t : TileCase c up k L B E EB xm ym gw cat) (q : AsRead N c cf B EB xm ym xmf ymf gw) :
    ∃ tif r, processTile (tileFilesFl N cf EB E) = .ok tif ∧ processMaxTile tif = .ok r ∧
      IsM3MaxNear (1 / 2000) c L B xm ym gw cat r := by
  rw [tileFilesFl_eq]
  exact t.toAt.maximum q _

/-! ### The hypotheses can be met -/

/-- A tree that adds up the first `n + 1` cells of a row from left to right. -/
def rowTree (i : ℕ) : ℕ → SumTree
  | 0 => .cell i 0
  | n + 1 => .add (rowTree i n) (.cell i (n + 1))

/-- A tree that adds up `m + 1` rows of `n + 1` cells, row by row. -/
def rowsTree (n : ℕ) : ℕ → SumTree
  | 0 => rowTree 0 n
  | m + 1 => .add (rowsTree n m) (rowTree (m + 1) n)

theorem rowTree_cells (i n : ℕ) : (rowTree i n).cells = (List.range (n + 1)).map fun j => (i, j) := by
  induction n with
  | zero => rfl
  | succ n ih => rw [rowTree, SumTree.cells, ih, List.range_succ (n := n + 1), List.map_append]; rfl

theorem rowsTree_covers (n m : ℕ) : (rowsTree n m).Covers (m + 1) (n + 1) := by
  unfold SumTree.Covers
  have : (rowsTree n m).cells = (List.range (m + 1)).flatMap fun i => (List.range (n + 1)).map fun j => (i, j) := by
    induction m with
    | zero => simp [rowsTree, rowTree_cells]
    | succ m ih =>
      rw [rowsTree, SumTree.cells, ih, rowTree_cells, List.range_succ (n := m + 1), List.flatMap_append]
      simp
  rw [this]

theorem rowTree_depth (i n : ℕ) : (rowTree i n).depth = n := by
  induction n with
  | zero => rfl
  | succ n ih => rw [rowTree, SumTree.depth, ih, SumTree.depth]; omega

theorem rowsTree_depth (n m : ℕ) : (rowsTree n m).depth ≤ n + m := by
  induction m with
  | zero => rw [rowsTree, rowTree_depth]; omega
  | succ m ih => rw [rowsTree, SumTree.depth, rowTree_depth]; omega

theorem clear_half {q δ : ℝ} {n : ℤ} (h1 : n + δ < q - 1 / 2) (h2 : q - 1 / 2 < n + 1 - δ) (h3 : 0 ≤ δ) (k : ℤ) :
    δ < |q - (k + 1 / 2)| := by
  have := clear_of_floor h1 h2 h3 k
  rwa [show q - (k + 1 / 2) = q - 1 / 2 - (k : ℝ) by ring]

/-- A raster of 30 × 30 pixels of a tenth of a degree and 90 m: ground rising to the south by 9 m per pixel; suburbs in
the west, a category without multiplier in the east. -/
noncomputable def slopeInputs : Inputs where
  r := ⟨30, 30, 150, 1 / 10, -30, -(1 / 10)⟩
  dem := ⟨30, 30, fun i _ => some (9 * i)⟩
  lr := ⟨30, 30, 150, 1 / 10, -30, -(1 / 10)⟩
  lcv := ⟨30, 30, fun i j => if i = 0 then none else some (if j < 15 then 1 else 2)⟩
  terrainTable := [⟨1, 0.2⟩]
  shieldTable := [(1, 80)]
  pixelSizes := fun _ => .ok (⟨28, 28, fun _ _ => 90⟩, ⟨28, 28, fun _ _ => 90⟩)
  checksum := fun _ => 1

/-- The same as a run has it: the roughness length 0.2 is not a binary fraction. -/
noncomputable def slopeRead : Inputs :=
  { slopeInputs with
    terrainTable := [⟨1, roundDigits 53 0.2⟩]
    pixelSizes := fun _ => .ok ((⟨28, 28, fun _ _ => 90⟩ : Grid ℝ).map (roundDigits 24),
      (⟨28, 28, fun _ _ => 90⟩ : Grid ℝ).map (roundDigits 24)) }

/-- Single precision for arrays and files, double precision for the formulas, sums row by row. -/
noncomputable def slopeFp : TileFp where
  terr := exampleFp
  ms := digits 24
  wide := digits 53
  trig := exactTrig _ (by positivity)
  P := 24
  file := digits 24
  tree := fun rows cols => rowsTree (cols - 1) (rows - 1)

theorem slopeGrid : TileGrid.init (9 / 10) slopeInputs.r =
    { xDim := 30, yDim := 30, xLeft := 150, yUpper := 30, pixelwidth := 1 / 10, pixelheight := 1 / 10
      xStep := 10, yStep := 10, xBuffer := 9, yBuffer := 9
      tiles := tileGridLoop 3 3 10 10 9 9 30 30 } := by
  have h1 : ⌈(1 : ℝ) / (1 / 10)⌉ = 10 := by
    rw [Int.ceil_eq_iff]; norm_num
  have h2 : pyInt ((9 / 10 : ℝ) / (1 / 10)) = 9 := by
    unfold pyInt
    rw [if_pos (by norm_num), Int.floor_eq_iff]; norm_num
  have h3 : ⌈((30 : ℕ) : ℝ) / ((10 : ℤ) : ℝ)⌉ = 3 := by
    rw [Int.ceil_eq_iff]; norm_num
  simp only [TileGrid.init, slopeInputs, neg_neg, h1, h2, h3]
  rfl

theorem slope_class : classMz slopeInputs.terrainTable 1 = roughnessMz 0.2 ∧ 0.62 ≤ roughnessMz 0.2 := by
  refine ⟨rfl, ?_⟩
  rw [← mzFormula_eq]
  exact (mzFormula_bounds (by norm_num) (by norm_num)).1

theorem slopeCase : TileCase slopeInputs (9 / 10) 4 ⟨10, 20, 10, 20⟩ ⟨1, 29, 1, 29⟩
    ⟨151, -31, 152, -32⟩ ⟨150 + 1 / 10, -(30 + 1 / 10), 150 + 29 / 10, -(30 + 29 / 10)⟩
    ⟨28, 28, fun _ _ => 90⟩ ⟨28, 28, fun _ _ => 90⟩ 90 sampleLand where
  pw := by norm_num [slopeInputs]
  ph := by norm_num [slopeInputs]
  lw := by norm_num [slopeInputs]
  lh := by norm_num [slopeInputs]
  upPos := by norm_num
  limits := by rw [slopeGrid]; rfl
  limitsB := by rw [slopeGrid]; rfl
  extent := by
    rw [slopeGrid]
    show Except.ok (TileGrid.extentOf _ ⟨10, 20, 10, 20⟩) = _
    norm_num [TileGrid.extentOf]
  extentB := by
    rw [slopeGrid]
    show Except.ok (TileGrid.extentOf _ ⟨1, 29, 1, 29⟩) = _
    norm_num [TileGrid.extentOf]
  land := sampleCase.land
  sizes := rfl
  width := by
    unfold gridWidth
    rw [mean_const 28 28 90 (by norm_num) (by norm_num)]
    norm_num
  gwPos := by norm_num
  sizesPos := fun _ _ _ _ => ⟨by norm_num, by norm_num⟩
  gwFine := by norm_num
  bufferX := by rw [slopeGrid]; norm_num
  bufferY := by rw [slopeGrid]; norm_num
  height := by norm_num [slopeInputs]
  notEmpty := one_ne_zero
  someLand := by
    refine ⟨5, 5, by simp [Limits.Has], ?_⟩
    have := slope_class
    have e : sampleLand.val 5 5 = 1 := rfl
    rw [e, this.1]
    exact lt_of_lt_of_le (by norm_num) this.2
  roughness := by
    intro row hrow
    simp only [slopeInputs, List.mem_singleton] at hrow
    subst hrow
    refine ⟨by norm_num, ?_⟩
    have := (mz_bounds (z := 0.2) (by norm_num) (by norm_num)).2.1
    norm_num at this ⊢
    linarith

theorem slopeAsRead : AsRead slopeFp slopeInputs slopeRead ⟨1, 29, 1, 29⟩
    ⟨150 + 1 / 10, -(30 + 1 / 10), 150 + 29 / 10, -(30 + 29 / 10)⟩
    ⟨28, 28, fun _ _ => 90⟩ ⟨28, 28, fun _ _ => 90⟩ ((⟨28, 28, fun _ _ => 90⟩ : Grid ℝ).map (roundDigits 24))
    ((⟨28, 28, fun _ _ => 90⟩ : Grid ℝ).map (roundDigits 24)) 90 where
  rasters := ⟨rfl, rfl, rfl, rfl, rfl⟩
  terrain := by
    refine .cons ⟨rfl, by norm_num, by norm_num, ?_⟩ .nil
    exact (roundDigits_near 53 0.2).trans (by norm_num [abs_of_pos])
  shield := .cons ⟨rfl, by norm_num, by norm_num, by norm_num⟩ .nil
  sizes := rfl
  stored :=
    { shape := ⟨rfl, rfl, rfl, rfl, rfl, rfl⟩
      nonneg := fun _ _ _ _ => ⟨by norm_num, by norm_num⟩
      stored := fun _ _ _ _ => ⟨⟨90, by norm_num, rfl⟩, 90, by norm_num, rfl⟩ }
  shape := ⟨by norm_num, by norm_num⟩
  sums := rowsTree_covers 27 27
  depth := (rowsTree_depth 27 27).trans (by norm_num)
  digits := le_rfl
  gwOne := by norm_num
  clear500 := ⟨clear_half (n := 5) (by norm_num) (by norm_num) (by norm_num),
    clear_of_floor (n := 3) (by norm_num) (by norm_num) (by norm_num)⟩
  clear200 := ⟨clear_half (n := 1) (by norm_num) (by norm_num) (by norm_num),
    clear_of_floor (n := 1) (by norm_num) (by norm_num) (by norm_num)⟩
  clear100 := clear_of_floor (n := 1) (by norm_num) (by norm_num) (by norm_num)
  elevations := by
    intro i hi j hj
    simp only [slopeInputs, Inputs.elevation] at hi hj ⊢
    have : (i : ℝ) < 30 := by exact_mod_cast hi
    rw [Option.getD_some, abs_of_nonneg (by positivity)]
    linarith
  side := ⟨by norm_num, by norm_num⟩

/-- A pixel in the suburbs, with wind from the north up the slope. -/
theorem slope_clear : ClearPixel slopeInputs ⟨1, 29, 1, 29⟩ ⟨28, 28, fun _ _ => 90⟩ ⟨28, 28, fun _ _ => 90⟩ 90
    .n 12 15 0 (Real.arctan (1 / 10) * (180 / Real.pi)) where
  gradient := by
    intro a h1 h2
    have hc : a = -1 ∨ a = 0 ∨ a = 1 := by omega
    rcases hc with rfl | rfl | rfl <;> norm_num [Grid.clamped, Inputs.elevation, slopeInputs] <;>
      norm_num [show Int.toNat 16 = 16 from rfl, show Int.toNat 14 = 14 from rfl, abs_of_pos]
  heading := by
    intro _ n
    rcases le_or_gt 0 n with h | h
    · have : (0 : ℝ) ≤ n := by exact_mod_cast h
      rw [abs_of_neg (by linarith)]
      norm_num
      linarith
    · have : (n : ℝ) ≤ -1 := by exact_mod_cast (by omega : n ≤ -1)
      rw [abs_of_pos (by linarith)]
      norm_num
      linarith
  hills := by
    intro i j hi hj h1 h2 s n hT
    obtain ⟨g1, g2, g3, g4⟩ := hT
    have a := g2 0 (by omega)
    have b := g2 (n - 1) (by omega)
    simp only [InRaster, Dir.rowUp, Dir.colUp, Dir.north, Dir.east, Grid.window, Grid.map] at a b g3 g4
    have h1 := abs_le.mp h1
    dsimp only at hi hj h1
    have hs : s = i := by omega
    have hn : n = 28 := by omega
    subst hs hn
    refine ⟨by omega, fun v r hh => ?_⟩
    obtain ⟨-, -, hvr, hr, -⟩ := hh
    have hr : r < 28 := hr
    have hval : ∀ t < 28, (transectLine ((slopeInputs.elevation.window ⟨1, 29, 1, 29⟩).map some) .n (s : ℤ) (j : ℤ) s
        28).floored.val t = 9 * (t + 1) := by
      intro t ht
      have ht0 : (Dir.n.rowUp (s : ℤ) ((s : ℤ) - t)).toNat = t := by
        simp only [Dir.rowUp, Dir.north]; omega
      simp only [transectLine, Line.floored, if_pos ht, ht0, Grid.map, Grid.window, Inputs.elevation, slopeInputs,
        Option.getD_some]
      have : (9 * ((1 : ℤ).toNat + t : ℕ) : ℝ) = ((9 * (t + 1) : ℤ) : ℝ) := by push_cast; ring
      rw [this, Int.floor_intCast]
      push_cast; ring
    unfold Line.ClearHill
    dsimp only
    rw [hval r hr, hval v (by omega)]
    intro _ _
    have hpos : (0 : ℝ) < (r - v : ℕ) := by exact_mod_cast Nat.sub_pos_of_lt hvr
    have hsl : (9 * ((r : ℝ) + 1) - 9 * (v + 1)) / (2 * halfWidth v r (stepLength Dir.n 90)) = 1 / 10 := by
      have : stepLength Dir.n 90 = 90 := by simp [stepLength, Dir.east]
      rw [this, halfWidth]
      have e : (r : ℝ) = v + (r - v : ℕ) := by rw [Nat.cast_sub hvr.le]; ring
      rw [e]
      field_simp
      ring
    rw [hsl]
    refine ⟨by norm_num [abs_of_pos], by norm_num [abs_of_neg], fun _ h => absurd h (by norm_num)⟩

/-- The multiplier of that pixel in the GeoTIFF is within 0.0005 of a documented value. -/
example : ∃ p, M3Value slopeInputs ⟨1, 29, 1, 29⟩ ⟨28, 28, fun _ _ => 90⟩ ⟨28, 28, fun _ _ => 90⟩ 90 sampleLand
      .n 12 15 0 (Real.arctan (1 / 10) * (180 / Real.pi)) p ∧
    ∃ tif, processTile (tileFilesFl slopeFp slopeRead
      ⟨150 + 1 / 10, -(30 + 1 / 10), 150 + 29 / 10, -(30 + 29 / 10)⟩ ⟨151, -31, 152, -32⟩) = .ok tif ∧
    ∀ g, (Dir.n, g) ∈ tif.bands → ∃ y, g.val 5 2 = .num ⟨y⟩ ∧ |y - p| ≤ 1 / 2000 := by
  have h0 : classMz slopeInputs.terrainTable (sampleLand.val 15 12) ≠ 0 := by
    have := slope_class
    have e : sampleLand.val 15 12 = 1 := rfl
    rw [e, this.1]
    exact (lt_of_lt_of_le (by norm_num) this.2).ne'
  obtain ⟨m, hm⟩ : ∃ m, shieldMean (sampleLand.map (classMs slopeInputs.shieldTable)) .n
      ⌊(100 : ℝ) / 90⌋.toNat (15 : ℕ) (12 : ℕ) = some m := by
    rw [← Option.ne_none_iff_exists']
    intro h
    unfold shieldMean at h
    rw [ite_eq_left_iff] at h
    by_cases hex : ∃ o ∈ shieldCells .n ⌊(100 : ℝ) / 90⌋.toNat, (sampleLand.map
        (classMs slopeInputs.shieldTable)).cellOrOne ((15 : ℕ) + o.1) ((12 : ℕ) + o.2) = none
    · obtain ⟨o, -, ho⟩ := hex
      unfold Grid.cellOrOne at ho
      split_ifs at ho
      have hnone : ∀ x : ℤ, x ≠ -99 → classMs slopeInputs.shieldTable x ≠ none := by
        intro x hx
        unfold classMs
        rw [if_neg hx]
        split <;> simp
      refine hnone _ ?_ ho
      simp only [sampleLand]
      split_ifs <;> norm_num
    · exact absurd (h hex) (by simp)
  obtain ⟨r, r1, -⟩ := (C81_tile_completes slopeCase).2 .mt .n
  obtain ⟨x, x1, -⟩ := C84_topographic_pixel slopeCase .n r r1 12 15 (by simp [Limits.Has])
  have hpi := Real.pi_pos
  obtain ⟨p, hval⟩ : ∃ p, M3Value slopeInputs ⟨1, 29, 1, 29⟩ ⟨28, 28, fun _ _ => 90⟩ ⟨28, 28, fun _ _ => 90⟩ 90
      sampleLand .n 12 15 0 (Real.arctan (1 / 10) * (180 / Real.pi)) p := by
    refine ⟨_, h0, ⟨le_rfl, by norm_num, ?_, ?_, ?_, ?_⟩, m, x, Classical.dec _, hm, x1, rfl⟩
    · have := Real.arctan_nonneg.mpr (show (0 : ℝ) ≤ 1 / 10 by norm_num)
      positivity
    · have := Real.arctan_lt_pi_div_two (1 / 10)
      calc Real.arctan (1 / 10) * (180 / Real.pi) < Real.pi / 2 * (180 / Real.pi) := by gcongr
        _ = 90 := by field_simp; norm_num
    · norm_num [riseEast, Grid.clamped, Inputs.elevation, slopeInputs]
    · rw [show Real.arctan (1 / 10) * (180 / Real.pi) * (Real.pi / 180) = Real.arctan (1 / 10) by field_simp,
        Real.tan_arctan]
      norm_num [riseNorth, Grid.clamped, Inputs.elevation, slopeInputs]
      norm_num [show Int.toNat 16 = 16 from rfl, show Int.toNat 14 = 14 from rfl]
  obtain ⟨-, tif, h1, -, -, h2⟩ := C117_tile slopeCase slopeAsRead
  refine ⟨_, hval, tif, h1, fun g hg => ?_⟩
  exact ((h2 .n g hg).2.2 12 15 (by simp [Limits.Has])).2 _ _ _ hval slope_clear

end WindMult
