import Verif.Spec.CoverStorage
import Verif.Props.LargerMap
import Verif.Props.SameRuns

/-!
# C149: how the land-cover map is stored
-/

set_option autoImplicit false
set_option linter.unusedSectionVars false

namespace WindMult
open Spec

/-! ### Only the pixel centres matter -/

theorem pixelAt_floor (lr : RasterInfo ℝ) (hlw : 0 < lr.gt1) (hlh : lr.gt5 < 0) (x y : ℝ) (col row : ℤ) :
    lr.PixelAt x y col row ↔ ⌊(x - lr.gt0) / lr.gt1⌋ = col ∧ ⌊(y - lr.gt3) / lr.gt5⌋ = row := by
  unfold RasterInfo.PixelAt RasterInfo.lonEdge RasterInfo.latEdge
  rw [Int.floor_eq_iff, Int.floor_eq_iff, le_div_iff₀ hlw, div_lt_iff₀ hlw, le_div_iff_of_neg hlh,
    div_lt_iff_of_neg hlh]
  push_cast
  constructor
  · rintro ⟨h1, h2, h3, h4⟩
    refine ⟨⟨?_, ?_⟩, ?_, ?_⟩ <;> linarith
  · rintro ⟨⟨h1, h2⟩, h3, h4⟩
    refine ⟨?_, ?_, ?_, ?_⟩ <;> linarith

theorem classAt_iff (lr : RasterInfo ℝ) (lcv : Grid (Option ℤ)) (x y : ℝ) (v : ℤ) :
    ClassAt lr lcv x y v ↔ ∃ col row : ℕ, col < lr.xDim ∧ row < lr.yDim ∧ lr.PixelAt x y col row ∧
      lcv.val row col = some v := by
  unfold ClassAt RasterInfo.PixelAt RasterInfo.lonEdge RasterInfo.latEdge
  push_cast
  simp only [and_assoc]

/-- Maps that show the same classes at the pixel centres give the same land cover on the grid of the DEM. -/
theorem isLandcover_cover {c : Inputs} {cat : Grid ℤ} {lr : RasterInfo ℝ} {lcv : Grid (Option ℤ)}
    (hlw : 0 < lr.gt1) (hlh : lr.gt5 < 0)
    (hsame : ∀ px py : ℕ, px < c.r.xDim → py < c.r.yDim → ∀ v, v ≠ 0 →
      (ClassAt lr lcv (c.r.lonCentre px) (c.r.latCentre py) v ↔
        ClassAt c.lr c.lcv (c.r.lonCentre px) (c.r.latCentre py) v))
    (h : IsLandcover c cat) : IsLandcover (withCover c lr lcv) cat := by
  obtain ⟨h1, h2, h3⟩ := h
  refine ⟨h1, h2, fun px py hx hy => ?_⟩
  obtain ⟨a, b⟩ := h3 px py hx hy
  have hs := hsame px py hx hy
  simp only [classAt_iff] at hs
  -- a class other than 0 in the old map is the class in the new one
  have zero : (∀ v, v ≠ 0 → ¬ ∃ col row : ℕ, col < lr.xDim ∧ row < lr.yDim ∧
      lr.PixelAt (c.r.lonCentre px) (c.r.latCentre py) col row ∧ lcv.val row col = some v) → cat.val py px = 0 := by
    intro hno
    by_cases hcell : ∃ col row : ℕ, col < c.lr.xDim ∧ row < c.lr.yDim ∧
        c.lr.PixelAt (c.r.lonCentre px) (c.r.latCentre py) col row
    · obtain ⟨col, row, k1, k2, k3⟩ := hcell
      rw [a col row k1 k2 k3]
      cases hv : c.lcv.val row col with
      | none => rfl
      | some v =>
        by_contra hne
        exact hno v hne ((hs v hne).mpr ⟨col, row, k1, k2, k3, hv⟩)
    · push Not at hcell
      exact b hcell
  refine ⟨fun col row hc hr hp => ?_, fun hno => zero fun v _ ⟨col, row, k1, k2, k3, _⟩ => hno col row k1 k2 k3⟩
  have hc' : col < lr.xDim := hc
  have hr' : row < lr.yDim := hr
  have hp' : lr.PixelAt (c.r.lonCentre px) (c.r.latCentre py) col row := hp
  show cat.val py px = (lcv.val row col).getD 0
  have only : ∀ v, v ≠ 0 → (∃ col row : ℕ, col < lr.xDim ∧ row < lr.yDim ∧
      lr.PixelAt (c.r.lonCentre px) (c.r.latCentre py) col row ∧ lcv.val row col = some v) →
      lcv.val row col = some v := by
    rintro v - ⟨col', row', -, -, k3, k4⟩
    obtain ⟨e1, e2⟩ := (pixelAt_floor lr hlw hlh _ _ _ _).mp hp'
    obtain ⟨f1, f2⟩ := (pixelAt_floor lr hlw hlh _ _ _ _).mp k3
    have g1 : col' = col := by exact_mod_cast f1.symm.trans e1
    have g2 : row' = row := by exact_mod_cast f2.symm.trans e2
    rw [g1, g2] at k4
    exact k4
  by_cases hv : ∃ v, v ≠ 0 ∧ lcv.val row col = some v
  · obtain ⟨v, v0, hv⟩ := hv
    obtain ⟨col', row', k1, k2, k3, k4⟩ := (hs v v0).mp ⟨col, row, hc', hr', hp', hv⟩
    rw [a col' row' k1 k2 k3, k4, hv]
  · push Not at hv
    rw [zero fun v v0 hex => hv v v0 (only v v0 hex)]
    cases hl : lcv.val row col with
    | none => rfl
    | some v =>
      by_contra hne
      exact hv v (fun e => hne (by rw [e]; rfl)) hl

theorem tileCase_cover {c : Inputs} {up : ℝ} {k : ℕ} {L B : Limits} {E EB : Extent ℝ} {xm ym : Grid ℝ} {gw : ℝ}
    {cat : Grid ℤ} (t : TileCase c up k L B E EB xm ym gw cat) {lr : RasterInfo ℝ} {lcv : Grid (Option ℤ)}
    (hlw : 0 < lr.gt1) (hlh : lr.gt5 < 0) (hl : IsLandcover (withCover c lr lcv) cat) :
    TileCase (withCover c lr lcv) up k L B E EB xm ym gw cat :=
  { pw := t.pw, ph := t.ph, lw := hlw, lh := hlh, upPos := t.upPos, limits := t.limits, limitsB := t.limitsB,
    extent := t.extent, extentB := t.extentB, land := hl, sizes := t.sizes, width := t.width, gwPos := t.gwPos,
    sizesPos := t.sizesPos, gwFine := t.gwFine, bufferX := t.bufferX, bufferY := t.bufferY, height := t.height,
    notEmpty := t.notEmpty, someLand := t.someLand, roughness := t.roughness }

variable {c : Inputs} {up : ℝ} {cat : Grid ℤ} {str : ℝ → List Char} {out out' : List Char}
  {tiles : List (List Char × Extent ℝ × Extent ℝ)}

/-- The run with the other map meets the conditions as well. -/
theorem runCase_cover (h : RunCase c up cat str out tiles) (hout : ¬ ['/', '/'] <:+ out') {lr : RasterInfo ℝ}
    {lcv : Grid (Option ℤ)} (hlw : 0 < lr.gt1) (hlh : lr.gt5 < 0)
    (hsame : ∀ px py : ℕ, px < c.r.xDim → py < c.r.yDim → ∀ v, v ≠ 0 →
      (ClassAt lr lcv (c.r.lonCentre px) (c.r.latCentre py) v ↔
        ClassAt c.lr c.lcv (c.r.lonCentre px) (c.r.latCentre py) v)) :
    RunCase (withCover c lr lcv) up cat str out' tiles :=
  { renders := h.renders, plain := h.plain, outPath := hout, pw := h.pw, ph := h.ph, upPos := h.upPos,
    wide := h.wide, high := h.high, disjoint := h.disjoint, listed := h.listed
    each := fun k hk => by
      rcases h.each k hk with h1 | ⟨L, B, E, EB, xm, ym, gw, t⟩
      · exact .inl h1
      · exact .inr ⟨L, B, E, EB, xm, ym, gw,
          tileCase_cover t hlw hlh (isLandcover_cover hlw hlh hsame t.land)⟩ }

/-- **C149** Of the land-cover map only the classes at the centres of the DEM's pixels matter: if two rasters of any
extent and resolution show the same classes there (no class being as good as class 0), completed runs with the one and
the other leave, for every pixel, both no GeoTIFF or the same values in all bands and in the maxima. -/
theorem C149_centres (h : RunCase c up cat str out tiles) (hout : ¬ ['/', '/'] <:+ out')
    (lr : RasterInfo ℝ) (lcv : Grid (Option ℤ)) (hlw : 0 < lr.gt1) (hlh : lr.gt5 < 0)
    (hsame : ∀ px py : ℕ, px < c.r.xDim → py < c.r.yDim → ∀ v, v ≠ 0 →
      (ClassAt lr lcv (c.r.lonCentre px) (c.r.latCentre py) v ↔
        ClassAt c.lr c.lcv (c.r.lonCentre px) (c.r.latCentre py) v))
    (hcells : ∀ g g' : Grid ℝ, g.Same g' → c.checksum g = c.checksum g') (nW nW' : ℕ)
    (st0 st0' : Store (NanNum ℝ) (List ℝ × List ℝ)) (j j' : ℕ) (s s' : RunState (NanNum ℝ) (List ℝ × List ℝ))
    (hrun : RunSteps (c.runCfg out nW tiles) j ((c.runCfg out nW tiles).start st0) s)
    (hdone : (c.runCfg out nW tiles).Done s)
    (hrun' : RunSteps ((withCover c lr lcv).runCfg out' nW' tiles) j'
      (((withCover c lr lcv).runCfg out' nW' tiles).start st0') s')
    (hdone' : ((withCover c lr lcv).runCfg out' nW' tiles).Done s') (px py : ℕ) (hx : px < c.r.xDim)
    (hy : py < c.r.yDim) :
    ∃ k L n, (TileGrid.init up c.r).getGridlimit k = .ok L ∧ L.Has px py ∧
      (TileGrid.init up c.r).getTilename str k = .ok n ∧
      ((s.store (pjoin out (m3File n)) = none ∧ s'.store (pjoin out' (m3File n)) = none ∧
          s.store (pjoin out (m3MaxFile n)) = none ∧ s'.store (pjoin out' (m3MaxFile n)) = none) ∨
        ∃ tif mx tif' mx', s.store (pjoin out (m3File n)) = some (.tif tif) ∧
          s'.store (pjoin out' (m3File n)) = some (.tif tif') ∧
          s.store (pjoin out (m3MaxFile n)) = some (.maxTif mx) ∧
          s'.store (pjoin out' (m3MaxFile n)) = some (.maxTif mx') ∧
          tif'.transform = tif.transform ∧ (∀ d, ∃ g g', (d, g) ∈ tif.bands ∧ (d, g') ∈ tif'.bands) ∧
          (∀ d g g', (d, g) ∈ tif.bands → (d, g') ∈ tif'.bands →
            g'.val (py - L.y1.toNat) (px - L.x1.toNat) = g.val (py - L.y1.toNat) (px - L.x1.toNat)) ∧
          mx'.band.val (py - L.y1.toNat) (px - L.x1.toNat) =
            mx.band.val (py - L.y1.toNat) (px - L.x1.toNat)) := by
  have h' := runCase_cover h hout hlw hlh hsame
  obtain ⟨k, L, B, n, hL, hp, -, hn, hcase⟩ := C103_local h h' rfl rfl rfl hcells rfl rfl nW nW' st0 st0' j j' s s'
    hrun hdone hrun' hdone' px py hx hy
  exact ⟨k, L, n, hL, hp, hn, hcase fun _ _ _ => ⟨rfl, rfl⟩⟩

/-! ### Finer cells, and a margin without data -/

theorem tile_cover (c : Inputs) (lr : RasterInfo ℝ) (lcv : Grid (Option ℤ)) (EB E : Extent ℝ)
    (h : cutLandcover lr lcv (clipInfo c.r EB) 0 = cutLandcover c.lr c.lcv (clipInfo c.r EB) 0) :
    tileStep (withCover c lr lcv) EB E = tileStep c EB E ∧ tileFiles (withCover c lr lcv) EB E = tileFiles c EB E := by
  refine tileStep_of_class _ _ _ _ rfl rfl rfl rfl ?_ ?_
  · show terrainClass2mz _ (cutLandcover lr lcv _ 0) _ = _
    rw [h]; rfl
  · show class2ms _ _ (cutLandcover lr lcv _ 0) = _
    rw [h]; rfl

theorem floor_finer (q : ℝ) (m : ℕ) (hm : 0 < m) : ⌊q⌋ = ⌊q * m⌋ / (m : ℤ) := by
  rw [← Int.floor_div_natCast, mul_div_assoc, div_self (by positivity), mul_one]

theorem finer_index (x : ℝ) (m N : ℕ) (hm : 0 < m) :
    (0 ≤ ⌊x * m⌋ ∧ ⌊x * m⌋ < ((N * m : ℕ) : ℤ) ↔ 0 ≤ ⌊x⌋ ∧ ⌊x⌋ < (N : ℤ)) ∧ ⌊x * m⌋.toNat / m = ⌊x⌋.toNat := by
  rw [floor_finer x m hm]
  generalize ⌊x * m⌋ = z
  have hm' : (0 : ℤ) < m := by exact_mod_cast hm
  refine ⟨and_congr ?_ ?_, ?_⟩
  · exact (Int.ediv_nonneg_iff_of_pos hm').symm
  · rw [Int.ediv_lt_iff_lt_mul hm']
    push_cast
    exact Iff.rfl
  · rcases le_or_gt 0 z with hz | hz
    · obtain ⟨n, rfl⟩ := Int.eq_ofNat_of_zero_le hz
      rw [Int.toNat_natCast, ← Int.natCast_ediv, Int.toNat_natCast]
    · rw [Int.toNat_of_nonpos hz.le, Int.toNat_of_nonpos (Int.ediv_neg_of_neg_of_pos hz hm').le, Nat.zero_div]

theorem cut_finer (lr : RasterInfo ℝ) (lcv : Grid (Option ℤ)) (m n : ℕ) (hm : 0 < m) (hn : 0 < n)
    (dst : RasterInfo ℝ) :
    cutLandcover (finerInfo m n lr) (finerCells m n lcv) dst 0 = cutLandcover lr lcv dst 0 := by
  unfold cutLandcover reprojectNearest
  simp only [Grid.mk.injEq, true_and, finerInfo, finerCells]
  funext i j
  have e : ∀ z w : ℝ, ∀ k : ℕ, z / (w / k) = z / w * k := fun z w k => by
    rw [div_div_eq_mul_div, mul_div_right_comm]
  simp only [e]
  obtain ⟨a1, a2⟩ := finer_index ((dst.gt0 + (↑j + 1 / 2) * dst.gt1 - lr.gt0) / lr.gt1) m lr.xDim hm
  obtain ⟨b1, b2⟩ := finer_index ((dst.gt3 + (↑i + 1 / 2) * dst.gt5 - lr.gt3) / lr.gt5) n lr.yDim hn
  rw [a2, b2]
  refine if_congr ?_ rfl rfl
  rw [← and_assoc, ← and_assoc, a1]
  constructor
  · rintro ⟨⟨h1, h2⟩, h3⟩
    have := b1.mp ⟨h2, h3⟩
    tauto
  · rintro ⟨h1, h2, h3, h4⟩
    have := b1.mpr ⟨h3, h4⟩
    tauto

/-- **C149** (finer cells) Cutting every cell of the land-cover raster into `m` columns and `n` rows changes nothing,
for any tile. -/
theorem C149_finer (c : Inputs) (m n : ℕ) (hm : 0 < m) (hn : 0 < n) (EB E : Extent ℝ) :
    tileStep (withCover c (finerInfo m n c.lr) (finerCells m n c.lcv)) EB E = tileStep c EB E ∧
      tileFiles (withCover c (finerInfo m n c.lr) (finerCells m n c.lcv)) EB E = tileFiles c EB E :=
  tile_cover c _ _ EB E (cut_finer _ _ m n hm hn _)

theorem cut_margin (lr : RasterInfo ℝ) (lcv : Grid (Option ℤ)) (hw : lr.gt1 ≠ 0) (hh : lr.gt5 ≠ 0)
    (west east north south : ℕ) (dst : RasterInfo ℝ) :
    cutLandcover (marginInfo west east north south lr) (marginCells west east north south lr lcv) dst 0 =
      cutLandcover lr lcv dst 0 := by
  unfold cutLandcover reprojectNearest
  simp only [Grid.mk.injEq, true_and, marginInfo, marginCells]
  funext i j
  have e1 : ∀ x : ℝ, ⌊(x - (lr.gt0 - west * lr.gt1)) / lr.gt1⌋ = ⌊(x - lr.gt0) / lr.gt1⌋ + west := by
    intro x
    rw [← Int.floor_add_natCast]
    congr 1
    field_simp
    ring
  have e2 : ∀ y : ℝ, ⌊(y - (lr.gt3 - north * lr.gt5)) / lr.gt5⌋ = ⌊(y - lr.gt3) / lr.gt5⌋ + north := by
    intro y
    rw [← Int.floor_add_natCast]
    congr 1
    field_simp
    ring
  simp only [e1, e2]
  generalize ⌊(dst.gt0 + (↑j + 1 / 2) * dst.gt1 - lr.gt0) / lr.gt1⌋ = a
  generalize ⌊(dst.gt3 + (↑i + 1 / 2) * dst.gt5 - lr.gt3) / lr.gt5⌋ = b
  push_cast
  by_cases h : 0 ≤ a ∧ a < lr.xDim ∧ 0 ≤ b ∧ b < lr.yDim
  · obtain ⟨h1, h2, h3, h4⟩ := h
    rw [if_pos (by omega), if_pos (by omega), if_pos (by omega)]
    congr 2 <;> omega
  · rw [if_neg h]
    split_ifs with g1 g2
    · exact absurd ⟨by omega, by omega, by omega, by omega⟩ h
    · rfl
    · rfl

/-- **C149** (margin) A margin of cells without data around the land-cover raster changes nothing, for any tile. -/
theorem C149_margin (c : Inputs) (hw : c.lr.gt1 ≠ 0) (hh : c.lr.gt5 ≠ 0) (west east north south : ℕ)
    (EB E : Extent ℝ) :
    tileStep (withCover c (marginInfo west east north south c.lr)
        (marginCells west east north south c.lr c.lcv)) EB E = tileStep c EB E ∧
      tileFiles (withCover c (marginInfo west east north south c.lr)
        (marginCells west east north south c.lr c.lcv)) EB E = tileFiles c EB E :=
  tile_cover c _ _ EB E (cut_margin _ _ hw hh west east north south _)

/-- **C149** (whole runs) Neither finer cells nor a margin without data change the result of a run: all files are the
same, but for the order in the virtual rasters. -/
theorem C149_run (h : RunCase c up cat str out tiles) (nW nW' : ℕ) (hw : c.lr.gt1 ≠ 0) (hh : c.lr.gt5 ≠ 0)
    (m n : ℕ) (hm : 0 < m) (hn : 0 < n) (west east north south : ℕ) :
    SameRuns (c.runCfg out nW tiles)
      ((withCover c (finerInfo m n c.lr) (finerCells m n c.lcv)).runCfg out nW' tiles) ∧
    SameRuns (c.runCfg out nW tiles)
      ((withCover c (marginInfo west east north south c.lr)
        (marginCells west east north south c.lr c.lcv)).runCfg out nW' tiles) :=
  ⟨sameRuns_of_tiles (h.good nW) fun _ EB E _ => ⟨Iff.rfl, C149_finer c m n hm hn EB E⟩,
    sameRuns_of_tiles (h.good nW) fun _ EB E _ => ⟨Iff.rfl, C149_margin c hw hh west east north south EB E⟩⟩

/-! ### The hypotheses can be met -/

/-- The two tiles of C97 with cells of a third and half the size, or with a margin. -/
example (str : ℝ → List Char) (hstr : RendersDecimal str) : ∃ cat tiles,
    RunCase standardInputs 0.01 cat str ['/', 'o'] tiles ∧
    SameRuns (standardInputs.runCfg ['/', 'o'] 3 tiles)
      ((withCover standardInputs (finerInfo 3 2 standardInputs.lr)
        (finerCells 3 2 standardInputs.lcv)).runCfg ['/', 'o'] 0 tiles) ∧
    SameRuns (standardInputs.runCfg ['/', 'o'] 3 tiles)
      ((withCover standardInputs (marginInfo 1 2 3 4 standardInputs.lr)
        (marginCells 1 2 3 4 standardInputs.lr standardInputs.lcv)).runCfg ['/', 'o'] 0 tiles) := by
  obtain ⟨cat, tiles, h, -⟩ := standardRun str hstr
  exact ⟨cat, tiles, h, C149_run h 3 0 (by norm_num [standardInputs]) (by norm_num [standardInputs]) 3 2
    (by norm_num) (by norm_num) 1 2 3 4⟩

/-- Land cover in cells as large as 5 columns and 100 rows of that of C97. -/
noncomputable def coarseInfo : RasterInfo ℝ := ⟨260, 1, 149, 40 / 10000, -35, -(800 / 10000)⟩
/-- The classes of these cells. -/
def coarseCells : Grid (Option ℤ) := ⟨1, 260, fun _ j => some (if j < 249 then 1 else 2)⟩

theorem coarse_same (px py : ℕ) (hx : px < standardInputs.r.xDim) (hy : py < standardInputs.r.yDim) (v : ℤ) :
    ClassAt coarseInfo coarseCells (standardInputs.r.lonCentre px) (standardInputs.r.latCentre py) v ↔
      ClassAt standardInputs.lr standardInputs.lcv (standardInputs.r.lonCentre px)
        (standardInputs.r.latCentre py) v := by
  have hx' : px < 1300 := hx
  have hy' : py < 100 := hy
  have left : ClassAt coarseInfo coarseCells (standardInputs.r.lonCentre px) (standardInputs.r.latCentre py) v ↔
      v = if px < 1245 then 1 else 2 := by
    unfold ClassAt RasterInfo.lonCentre RasterInfo.latCentre
    simp only [coarseInfo, coarseCells, standardInputs, Int.cast_natCast]
    constructor
    · rintro ⟨col, row, -, -, h1, h2, -, -, h⟩
      have k1 : 5 * col < px + 1 := by
        have : (5 * col : ℝ) < px + 1 := by linarith
        exact_mod_cast this
      have k2 : px < 5 * col + 5 := by
        have : (px : ℝ) < 5 * col + 5 := by linarith
        exact_mod_cast this
      rw [← Option.some.inj h]
      exact if_congr (by omega) rfl rfl
    · rintro rfl
      have k1 : (5 * (px / 5 : ℕ) : ℝ) ≤ px := by exact_mod_cast Nat.mul_div_le px 5
      have k2 : (px : ℝ) + 1 ≤ 5 * (px / 5 : ℕ) + 5 := by
        have : px + 1 ≤ 5 * (px / 5) + 5 := by omega
        exact_mod_cast this
      have k3 : (py : ℝ) + 1 ≤ 100 := by exact_mod_cast hy'
      refine ⟨px / 5, 0, by omega, by omega, by linarith, by linarith, ?_, ?_, ?_⟩
      · push_cast; linarith
      · push_cast; linarith [(Nat.cast_nonneg py : (0 : ℝ) ≤ py)]
      · exact congrArg some (if_congr (by omega) rfl rfl)
  have right : ClassAt standardInputs.lr standardInputs.lcv (standardInputs.r.lonCentre px)
      (standardInputs.r.latCentre py) v ↔ v = if px < 1245 then 1 else 2 := by
    unfold ClassAt RasterInfo.lonCentre RasterInfo.latCentre
    simp only [standardInputs, Int.cast_natCast]
    constructor
    · rintro ⟨col, row, -, -, h1, h2, -, -, h⟩
      have k1 : col < px + 1 := by
        have : (col : ℝ) < px + 1 := by linarith
        exact_mod_cast this
      have k2 : px < col + 1 := by
        have : (px : ℝ) < col + 1 := by linarith
        exact_mod_cast this
      rw [← Option.some.inj h]
      exact if_congr (by omega) rfl rfl
    · rintro rfl
      exact ⟨px, py, hx', hy', by linarith, by linarith, by linarith, by linarith, rfl⟩
  rw [left, right]

/-- The runs of C149 with the two maps, into different folders. -/
example (str : ℝ → List Char) (hstr : RendersDecimal str) : ∃ cat tiles,
    RunCase standardInputs 0.01 cat str ['/', 'o'] tiles ∧ 0 < coarseInfo.gt1 ∧ coarseInfo.gt5 < 0 ∧
    ∃ j s j' s', RunSteps (standardInputs.runCfg ['/', 'o'] 3 tiles) j
        ((standardInputs.runCfg ['/', 'o'] 3 tiles).start fun _ => none) s ∧
      (standardInputs.runCfg ['/', 'o'] 3 tiles).Done s ∧
      RunSteps ((withCover standardInputs coarseInfo coarseCells).runCfg ['/', 'p'] 1 tiles) j'
        (((withCover standardInputs coarseInfo coarseCells).runCfg ['/', 'p'] 1 tiles).start fun _ => none) s' ∧
      ((withCover standardInputs coarseInfo coarseCells).runCfg ['/', 'p'] 1 tiles).Done s' := by
  obtain ⟨cat, tiles, h, -⟩ := standardRun str hstr
  have p1 : 0 < coarseInfo.gt1 := by norm_num [coarseInfo]
  have p2 : coarseInfo.gt5 < 0 := by norm_num [coarseInfo]
  have h' := runCase_cover h (out' := ['/', 'p']) (by decide) p1 p2 (fun px py hx hy v _ => coarse_same px py hx hy v)
  obtain ⟨j, s, h1, -, h2⟩ := C94_completes _ (h.good 3) (h.shapes 3) (fun _ => none) 0 _ (.refl _)
  obtain ⟨j', s', h1', -, h2'⟩ := C94_completes _ (h'.good 1) (h'.shapes 1) (fun _ => none) 0 _ (.refl _)
  exact ⟨cat, tiles, h, p1, p2, j, s, j', s', h1, h2, h1', h2'⟩

end WindMult
