import Verif.Model.RunInputs
import Verif.Props.Run
import Verif.Props.TileNames
import Verif.Props.PixelSize

/-!
# C96, C97: from the input rasters to the GeoTIFFs of a parallel run
-/

set_option autoImplicit false
set_option linter.unusedSectionVars false

namespace WindMult
open Spec

/-! ### The list of tiles -/

theorem mapM_forall₂ {α β : Type} {f : α → Except PyErr β} : ∀ {xs : List α} {l : List β},
    xs.mapM f = .ok l → List.Forall₂ (fun x y => f x = .ok y) xs l
  | [], l, h => by
    rw [List.mapM_nil] at h
    cases h
    exact .nil
  | x :: xs, l, h => by
    rw [List.mapM_cons] at h
    match hx : f x, hxs : xs.mapM f with
    | .error e, _ => rw [hx] at h; cases h
    | .ok y, .error e => rw [hx, hxs] at h; cases h
    | .ok y, .ok ys =>
      rw [hx, hxs] at h
      cases h
      exact .cons hx (mapM_forall₂ hxs)

variable {K : Type} [Field K] [LinearOrder K] [IsStrictOrderedRing K] [FloorRing K]

theorem getTiles_ok {str : K → List Char} {g : TileGrid K}
    {l : List (List Char × Extent K × Extent K)} (h : g.getTiles str = .ok l) :
    l.length = g.numTiles ∧ ∀ k n EB E, l[k]? = some (n, EB, E) ↔
      k < g.numTiles ∧ g.getTilename str k = .ok n ∧ g.getTileExtentBuffer k = .ok EB ∧
        g.getTileExtent k = .ok E := by
  have hf := mapM_forall₂ h
  have hlen : l.length = g.numTiles := by rw [← hf.length_eq, List.length_range]
  refine ⟨hlen, fun k n EB E => ?_⟩
  have key : ∀ k (hk : k < g.numTiles), ∃ n EB E, l[k]? = some (n, EB, E) ∧
      g.getTilename str k = .ok n ∧ g.getTileExtentBuffer k = .ok EB ∧
      g.getTileExtent k = .ok E := by
    intro k hk
    have := hf.get (i := k) (by rw [List.length_range]; exact hk) (by omega)
    simp only [List.get_eq_getElem, List.getElem_range] at this
    match h1 : g.getTilename str k, h2 : g.getTileExtentBuffer k, h3 : g.getTileExtent k with
    | .error e, _, _ => rw [h1] at this; cases this
    | .ok n, .error e, _ => rw [h1, h2] at this; cases this
    | .ok n, .ok EB, .error e => rw [h1, h2, h3] at this; cases this
    | .ok n, .ok EB, .ok E =>
      rw [h1, h2, h3] at this
      exact ⟨n, EB, E, by rw [List.getElem?_eq_getElem (by omega)]; exact congrArg some (Except.ok.inj this).symm,
        rfl, rfl, rfl⟩
  constructor
  · intro hk
    have hlt : k < g.numTiles := by
      rw [← hlen]
      exact (List.getElem?_eq_some_iff.mp hk).1
    obtain ⟨n', EB', E', h0, h1, h2, h3⟩ := key k hlt
    rw [hk] at h0
    cases h0
    exact ⟨hlt, h1, h2, h3⟩
  · rintro ⟨hlt, h1, h2, h3⟩
    obtain ⟨n', EB', E', h0, h1', h2', h3'⟩ := key k hlt
    rw [h1] at h1'; rw [h2] at h2'; rw [h3] at h3'
    cases h1'; cases h2'; cases h3'
    exact h0

theorem name_ok {str : K → List Char} (hstr : RendersDecimal str) {x y : K} (p1 : PlainCoord x) (p2 : PlainCoord y) :
    TileName (['e'] ++ (str x).take 8 ++ ['s'] ++ (str y).take 7) := by
  obtain ⟨f1, hf1, e1⟩ := rendered_take hstr p1 (by norm_num : 7 ≤ 8)
  obtain ⟨f2, hf2, e2⟩ := rendered_take hstr p2 (by norm_num : 7 ≤ 7)
  have hch : ∀ ch : Char, ch.isDigit = false → ch ≠ '-' → ch ≠ '.' → ch ≠ 'e' → ch ≠ 's' →
      ch ∉ ['e'] ++ (str x).take 8 ++ ['s'] ++ (str y).take 7 := by
    intro ch hd h1 h2 h3 h4 hmem
    rw [e1, e2] at hmem
    have hdig : ∀ (x : K), ch ∉ (if x < 0 then ['-'] else []) ++ Nat.toDigits 10 ⌊|x|⌋.toNat := by
      intro x hx
      rcases List.mem_append.mp hx with hx | hx
      · split_ifs at hx
        · exact h1 (List.mem_singleton.mp hx)
        · exact absurd hx List.not_mem_nil
      · exact not_mem_digits hd _ hx
    have hfr : ∀ f : List Char, (∀ c ∈ f, c.isDigit = true) → ch ∉ '.' :: f := by
      intro f hf hx
      rcases List.mem_cons.mp hx with hx | hx
      · exact h2 hx
      · rw [hf _ hx] at hd; cases hd
    rcases List.mem_append.mp hmem with hm | hm
    · rcases List.mem_append.mp hm with hm | hm
      · rcases List.mem_append.mp hm with hm | hm
        · exact h3 (List.mem_singleton.mp hm)
        · rcases List.mem_append.mp hm with hm | hm
          · exact hdig _ hm
          · exact hfr _ hf1 hm
      · exact h4 (List.mem_singleton.mp hm)
    · rcases List.mem_append.mp hm with hm | hm
      · exact hdig _ hm
      · exact hfr _ hf2 hm
  refine ⟨hch _ (by decide) (by decide) (by decide) (by decide) (by decide),
    hch _ (by decide) (by decide) (by decide) (by decide) (by decide), 'e', ?_, by decide⟩
  simp

/-- The names of tiles are as assumed of file names. -/
theorem tilename_ok {str : K → List Char} (hstr : RendersDecimal str) {g : TileGrid K} {k : ℕ}
    {n : List Char} (hplain : ∀ c, g.getStartcord k = .ok c → PlainCoord c.1 ∧ PlainCoord c.2)
    (h : g.getTilename str k = .ok n) : TileName n := by
  unfold TileGrid.getTilename at h
  match hs : g.getStartcord k with
  | .error e => rw [hs] at h; cases h
  | .ok p =>
    rw [hs] at h
    simp only [bind, Except.bind, pure, Except.pure, Except.ok.injEq] at h
    obtain ⟨p1, p2⟩ := hplain p hs
    rw [← h]
    exact name_ok hstr p1 p2

theorem lookup_of_getElem {α β : Type} [BEq α] [LawfulBEq α] : ∀ {l : List (α × β)} {k : ℕ} {a : α}
    {b : β}, (l.map Prod.fst).Nodup → l[k]? = some (a, b) → l.lookup a = some b
  | [], k, a, b, _, h => by simp at h
  | (a', b') :: l, 0, a, b, _, h => by
    simp only [List.getElem?_cons_zero, Option.some.injEq, Prod.mk.injEq] at h
    obtain ⟨rfl, rfl⟩ := h
    simp
  | (a', b') :: l, k + 1, a, b, hn, h => by
    rw [List.getElem?_cons_succ] at h
    rw [List.map_cons, List.nodup_cons] at hn
    have hne : (a == a') = false := by
      rw [beq_eq_false_iff_ne]
      rintro rfl
      exact hn.1 (List.mem_map.mpr ⟨(a, b), List.mem_of_getElem? h, rfl⟩)
    rw [List.lookup_cons, hne]
    exact lookup_of_getElem hn.2 h


/-! ### Runs -/

/-- The tile grid and the tiles of a run, with what has to hold: the coordinates of tile corners are
printed without exponent, tiles do not overlap (C02), and each tile is either empty or meets the
conditions of C81–C85. -/
structure RunCase (c : Inputs) (up : ℝ) (cat : Grid ℤ) (str : ℝ → List Char) (out : List Char)
    (tiles : List (List Char × Extent ℝ × Extent ℝ)) : Prop where
  renders : RendersDecimal str
  plain : ∀ k p, (TileGrid.init up c.r).getStartcord k = .ok p → PlainCoord p.1 ∧ PlainCoord p.2
  outPath : ¬ ['/', '/'] <:+ out
  pw : 0 < c.r.gt1
  ph : c.r.gt5 < 0
  upPos : 0 ≤ up
  wide : 0 < c.r.xDim
  high : 0 < c.r.yDim
  disjoint : TilesDisjoint (TileGrid.init up c.r)
  listed : (TileGrid.init up c.r).getTiles str = .ok tiles
  each : ∀ k < (TileGrid.init up c.r).numTiles,
    (∃ EB, (TileGrid.init up c.r).getTileExtentBuffer k = .ok EB ∧
      c.checksum (cutDem c.r c.dem EB 0) = 0) ∨
    ∃ L B E EB xm ym gw, TileCase c up k L B E EB xm ym gw cat

/-- What the GeoTIFF of a tile is to hold: one band per direction on the pixel centres of the tile.  A
pixel is NaN exactly if its category has no terrain multiplier or a shielding cell is unknown, and
otherwise the product of shielding (mean over the upwind shielding cells of the whole raster, adjusted
to slope and aspect), terrain (mean over the upwind cells of the whole raster) and topographic
multiplier (mean over the 9 cells around the pixel in the buffered tile). -/
def IsM3 (c : Inputs) (L B : Limits) (xm ym : Grid ℝ) (gw : ℝ) (cat : Grid ℤ)
    (tif : TileTif (NanNum ℝ) (List ℝ × List ℝ)) : Prop :=
  tif.transform = L.centres c.r ∧ (∀ d, (tif.bands.map Prod.fst).count d = 1) ∧
  ∀ d g, (d, g) ∈ tif.bands → (g.rows : ℤ) = L.y2 - L.y1 ∧ (g.cols : ℤ) = L.x2 - L.x1 ∧
    ∀ px py : ℕ, L.Has px py →
    (g.val (py - L.y1.toNat) (px - L.x1.toNat) = .nan ↔
      classMz c.terrainTable (cat.val py px) = 0 ∨
      shieldMean (cat.map (classMs c.shieldTable)) d ⌊100 / gw⌋.toNat py px = none) ∧
    ∀ m h s, ∀ _ : Decidable (InSector d h), classMz c.terrainTable (cat.val py px) ≠ 0 →
      shieldMean (cat.map (classMs c.shieldTable)) d ⌊100 / gw⌋.toNat py px = some m →
      FallsTowards
        (riseEast c.elevation py px / xm.val (py - B.y1.toNat) (px - B.x1.toNat))
        (riseNorth c.elevation py px / ym.val (py - B.y1.toNat) (px - B.x1.toNat)) h s →
      ∃ x : ℤ → ℤ → ℝ,
        (∀ a b, IsRawMt (c.elevation.window B) d (stepLength d gw)
          (143 < c.r.lonEdge B.x1 ∧ c.r.latEdge B.y1 < -40) (py - B.y1 + a) (px - B.x1 + b)
          (x a b)) ∧
        g.val (py - L.y1.toNat) (px - L.x1.toNat) =
          .num (finalMs (slopeAdjusted (InSector d h) m (some s)) *
            upwindMean (waterMz c.terrainTable cat) d (terrainWidths d gw).1.toNat
              (terrainWidths d gw).2.toNat py px *
            ((∑ a ∈ {-1, 0, 1}, ∑ b ∈ {-1, 0, 1}, x a b) / 9))

/-- What the GeoTIFF of the maxima is to hold, given that of the directions: NaN where a direction has
NaN, and otherwise the largest value of a direction. -/
def IsM3Max (L : Limits) (tif : TileTif (NanNum ℝ) (List ℝ × List ℝ))
    (r : Raster (NanNum ℝ) (List ℝ × List ℝ)) : Prop :=
  (r.band.rows : ℤ) = L.y2 - L.y1 ∧ (r.band.cols : ℤ) = L.x2 - L.x1 ∧
  ∀ px py : ℕ, L.Has px py →
  (r.band.val (py - L.y1.toNat) (px - L.x1.toNat) = .nan ↔
    ∃ d g, (d, g) ∈ tif.bands ∧ g.val (py - L.y1.toNat) (px - L.x1.toNat) = .nan) ∧
  ∀ p : Dir → ℝ,
    (∀ d g, (d, g) ∈ tif.bands → g.val (py - L.y1.toNat) (px - L.x1.toNat) = .num (p d)) →
    ∃ d, r.band.val (py - L.y1.toNat) (px - L.x1.toNat) = .num (p d) ∧ ∀ d', p d' ≤ p d

section
variable {c : Inputs} {up : ℝ} {cat : Grid ℤ} {str : ℝ → List Char} {out : List Char}
  {tiles : List (List Char × Extent ℝ × Extent ℝ)}

theorem RunCase.nodup (h : RunCase c up cat str out tiles) : (tiles.map Prod.fst).Nodup := by
  obtain ⟨hlen, hget⟩ := getTiles_ok h.listed
  rw [List.nodup_iff_getElem?_ne_getElem?]
  intro i j hij hj e
  rw [List.length_map] at hj
  have hi : i < tiles.length := by omega
  rw [List.getElem?_map, List.getElem?_map, List.getElem?_eq_getElem hi,
    List.getElem?_eq_getElem hj] at e
  simp only [Option.map_some, Option.some.injEq] at e
  have a := (hget i _ _ _).mp (List.getElem?_eq_getElem hi)
  have b := (hget j _ _ _).mp (List.getElem?_eq_getElem hj)
  have := C04_names_distinct_partial str h.renders up c.r h.pw h.ph h.upPos h.wide h.high h.disjoint
    h.plain i j _ a.2.1 (by
      rw [show (tiles.get ⟨i, hi⟩).1 = (tiles.get ⟨j, hj⟩).1 from e]; exact b.2.1)
  omega

theorem RunCase.mem (h : RunCase c up cat str out tiles) {n : List Char}
    (hn : n ∈ tiles.map Prod.fst) : ∃ k EB E, k < (TileGrid.init up c.r).numTiles ∧
      (TileGrid.init up c.r).getTilename str k = .ok n ∧
      (TileGrid.init up c.r).getTileExtentBuffer k = .ok EB ∧
      (TileGrid.init up c.r).getTileExtent k = .ok E ∧ tiles.lookup n = some (EB, E) := by
  obtain ⟨hlen, hget⟩ := getTiles_ok h.listed
  obtain ⟨⟨n', EB, E⟩, hmem, rfl⟩ := List.mem_map.mp hn
  obtain ⟨k, hk⟩ := List.mem_iff_getElem?.mp hmem
  obtain ⟨h1, h2, h3, h4⟩ := (hget k n' EB E).mp hk
  exact ⟨k, EB, E, h1, h2, h3, h4, lookup_of_getElem h.nodup hk⟩

theorem RunCase.good (h : RunCase c up cat str out tiles) (nW : ℕ) : (c.runCfg out nW tiles).Good where
  out := h.outPath
  names := by
    intro t ht
    obtain ⟨k, EB, E, h1, h2, -⟩ := h.mem ht
    exact tilename_ok h.renders (h.plain k) h2
  nodup := h.nodup

variable {k : ℕ} {L B : Limits} {E EB : Extent ℝ} {xm ym : Grid ℝ} {gw : ℝ}

theorem RunCase.lookup (h : RunCase c up cat str out tiles)
    (t : TileCase c up k L B E EB xm ym gw cat) {n : List Char}
    (hn : (TileGrid.init up c.r).getTilename str k = .ok n) :
    n ∈ tiles.map Prod.fst ∧ tiles.lookup n = some (EB, E) := by
  have hk := ((getTiles_ok h.listed).2 k n EB E).mpr ⟨t.tile_lt, hn, t.extentB, t.extent⟩
  exact ⟨List.mem_map.mpr ⟨_, List.mem_of_getElem? hk, rfl⟩, lookup_of_getElem h.nodup hk⟩

/-- The run sees of a tile what the pipeline computes for it. -/
theorem TileCase.seen (t : TileCase c up k L B E EB xm ym gw cat) (nW : ℕ) {n : List Char} (hl : tiles.lookup n = some (EB, E)) :
    (c.runCfg out nW tiles).empty n = false ∧ (c.runCfg out nW tiles).noLand n = false ∧
      (c.runCfg out nW tiles).seen n = tileFiles c EB E := by
  obtain ⟨-, hfile⟩ := C81_tile_completes t
  have h1 : (c.runCfg out nW tiles).empty n = false := by
    simp only [Inputs.runCfg, hl, decide_eq_false_iff_not]
    exact t.notEmpty
  have h2 : (c.runCfg out nW tiles).noLand n = false := by
    simp only [Inputs.runCfg, hl]
    obtain ⟨r, hr, -⟩ := hfile .mz .e
    cases hmz : (tileStep c EB E).1.mz with
    | nil =>
      simp only [tileFiles, savedFile, hmz, List.lookup_nil, Option.map_none] at hr
      cases hr
    | cons => rfl
  refine ⟨h1, h2, ?_⟩
  funext m d
  obtain ⟨r, hr, -⟩ := hfile m d
  unfold RunCfg.seen
  rw [if_pos ⟨h1, fun _ => h2⟩]
  simp only [Inputs.runCfg, hl, hr, Option.getD_some]

theorem RunCase.shapes (h : RunCase c up cat str out tiles) (nW : ℕ) :
    (c.runCfg out nW tiles).Shapes := by
  intro n hn he
  obtain ⟨k, EB, E, h1, h2, h3, h4, hl⟩ := h.mem hn
  rcases h.each k h1 with ⟨EB', e1, e2⟩ | ⟨L, B, E', EB', xm, ym, gw, t⟩
  · rw [h3] at e1
    cases e1
    simp only [Inputs.runCfg, hl, decide_eq_false_iff_not] at he
    exact absurd e2 he
  · have e1 := t.extent
    have e2 := t.extentB
    rw [h4] at e1
    rw [h3] at e2
    cases e1
    cases e2
    obtain ⟨-, hfile⟩ := C81_tile_completes t
    have hno := (t.seen (out := out) nW hl).2.1
    refine ⟨(L.x2 - L.x1).toNat, (L.y2 - L.y1).toNat, ?_, fun m d => ?_⟩
    · intro hc
      rw [hno] at hc
      cases hc
    obtain ⟨r, hr, r1, r2, -⟩ := hfile m d
    simp only [Inputs.runCfg, hl, hr, Option.getD_some]
    omega

/-- **C96** A run on inputs all of whose tiles are empty or meet the conditions of C81–C85 never
deadlocks or fails, finishes after a bounded number of steps, and then the GeoTIFF of every non-empty
tile and that of its maxima hold the documented values – with any number of processes and however
these are interleaved. -/
theorem C96_run (h : RunCase c up cat str out tiles) (nW : ℕ)
    (st0 : Store (NanNum ℝ) (List ℝ × List ℝ)) (j : ℕ) (s : RunState (NanNum ℝ) (List ℝ × List ℝ))
    (hrun : RunSteps (c.runCfg out nW tiles) j ((c.runCfg out nW tiles).start st0) s) :
    j ≤ 45 * (TileGrid.init up c.r).numTiles + 9 * nW + 9 ∧
    (¬ (c.runCfg out nW tiles).Done s → ∃ s', RunStep (c.runCfg out nW tiles) s s') ∧
    ((c.runCfg out nW tiles).Done s → ∀ k L B E EB xm ym gw n,
      TileCase c up k L B E EB xm ym gw cat → (TileGrid.init up c.r).getTilename str k = .ok n →
      ∃ tif mx, s.store (pjoin out (m3File n)) = some (.tif tif) ∧ IsM3 c L B xm ym gw cat tif ∧
        s.store (pjoin out (m3MaxFile n)) = some (.maxTif mx) ∧ IsM3Max L tif mx) := by
  obtain ⟨b1, b2⟩ := C94_finishes _ (h.good nW) (h.shapes nW) st0 j s hrun
  refine ⟨?_, b2, fun hdone k L B E EB xm ym gw n t hn => ?_⟩
  · have : (c.runCfg out nW tiles).tiles.length = (TileGrid.init up c.r).numTiles := by
      show (tiles.map Prod.fst).length = _
      rw [List.length_map, (getTiles_ok h.listed).1]
    rw [this] at b1
    exact b1
  · obtain ⟨hmem, hl⟩ := h.lookup t hn
    obtain ⟨q1, -, q3⟩ := t.seen (out := out) nW hl
    obtain ⟨-, hout, -⟩ := C93_outcome _ (h.good nW) st0 j s hrun hdone
    obtain ⟨x, mx, e1, e2, e3, e4⟩ := hout n hmem q1
    rw [q3] at e1
    obtain ⟨tif, p1, p2, p3, p4⟩ := C85_combined t
    obtain ⟨tif', r, m1, m2, m3, m4, m5⟩ := C85_maximum t
    have ex : tif = x := Except.ok.inj (p1.symm.trans e1)
    have ex' : tif' = x := Except.ok.inj (m1.symm.trans e1)
    subst ex
    subst ex'
    have em : r = mx := Except.ok.inj (m2.symm.trans e2)
    subst em
    refine ⟨tif', r, e3, ⟨p2, p3, p4⟩, e4, m3, m4, fun px py hp => ⟨?_, (m5 px py hp).2⟩⟩
    rw [(m5 px py hp).1]
    have hband : ∀ d, ∃ g, (d, g) ∈ tif'.bands := fun d => by
      have : d ∈ tif'.bands.map Prod.fst := by
        rw [← List.count_pos_iff, p3 d]
        exact one_pos
      obtain ⟨⟨d', g⟩, hg, rfl⟩ := List.mem_map.mp this
      exact ⟨g, hg⟩
    constructor
    · rintro (h0 | ⟨d, hd⟩)
      · obtain ⟨g, hg⟩ := hband .n
        exact ⟨.n, g, hg, ((p4 .n g hg).2.2 px py hp).1.mpr (.inl h0)⟩
      · obtain ⟨g, hg⟩ := hband d
        exact ⟨d, g, hg, ((p4 d g hg).2.2 px py hp).1.mpr (.inr hd)⟩
    · rintro ⟨d, g, hg, hn⟩
      rcases ((p4 d g hg).2.2 px py hp).1.mp hn with h0 | h0
      · exact .inl h0
      · exact .inr ⟨d, h0⟩

/-- An empty tile has no GeoTIFF after a run. -/
theorem no_geotiff_of_empty {K T : Type} [Zero K] [One K] [Mul K] [Max K] (c : RunCfg K T) (hg : c.Good) (st0 : Store K T)
    (j : ℕ) (s : RunState K T) (hrun : RunSteps c j (c.start st0) s) (hdone : c.Done s) (n : List Char)
    (hemp : c.empty n = true) :
    s.store (pjoin c.out (m3File n)) = none ∧ s.store (pjoin c.out (m3MaxFile n)) = none := by
  obtain ⟨-, -, -, hno, -⟩ := C93_outcome _ hg st0 j s hrun hdone
  have hnone : ∀ p, (c.m3 n = p ∨ c.m3Max n = p) →
      s.store p = none := by
    intro p hpp
    by_contra hne
    have hbelow : c.below <+: p := by
      rw [below_eq]
      rcases hpp with rfl | rfl
      · rw [m3_eq]; exact List.prefix_append _ _
      · rw [m3Max_eq]; exact List.prefix_append _ _
    rcases hno p hbelow hne with ⟨t, ht, he, ⟨m, d, hq⟩ | hq | hq⟩ | hq | hq
    · rw [← savedNc_eq_openedNc hg.out (hg.names t ht)] at hq
      have ho : Owned c.out t p := ⟨hg.names t ht, .inr (.inr (.inr ⟨_, _, hq⟩))⟩
      rcases hpp with rfl | rfl
      · exact m3_not_owned _ hg.out n t ho
      · exact m3Max_not_owned _ hg.out n t ho
    · rcases hpp with rfl | rfl
      · rw [m3_inj _ hq] at hemp
        rw [he] at hemp
        cases hemp
      · exact m3_ne_m3Max _ _ _ hq.symm
    · rcases hpp with rfl | rfl
      · exact m3_ne_m3Max _ _ _ hq
      · rw [m3Max_inj _ hq] at hemp
        rw [he] at hemp
        cases hemp
    · rcases hpp with rfl | rfl
      · exact (m3_ne_vrt _ _).1 hq
      · exact (m3Max_ne_vrt _ _).1 hq
    · rcases hpp with rfl | rfl
      · exact (m3_ne_vrt _ _).2 hq
      · exact (m3Max_ne_vrt _ _).2 hq
  exact ⟨hnone _ (.inl rfl), hnone _ (.inr rfl)⟩

/-- **C96** (every pixel) After the run, every pixel of the DEM is in exactly one tile; either the DEM
is empty around it and there is no GeoTIFF of the tile, or it has the documented values. -/
theorem C96_every_pixel (h : RunCase c up cat str out tiles) (nW : ℕ)
    (st0 : Store (NanNum ℝ) (List ℝ × List ℝ)) (j : ℕ) (s : RunState (NanNum ℝ) (List ℝ × List ℝ))
    (hrun : RunSteps (c.runCfg out nW tiles) j ((c.runCfg out nW tiles).start st0) s)
    (hdone : (c.runCfg out nW tiles).Done s) (px py : ℕ) (hx : px < c.r.xDim) (hy : py < c.r.yDim) :
    ∃ k L n, (TileGrid.init up c.r).getGridlimit k = .ok L ∧ L.Has px py ∧
      (∀ k' L', (TileGrid.init up c.r).getGridlimit k' = .ok L' → L'.Has px py → k' = k) ∧
      (TileGrid.init up c.r).getTilename str k = .ok n ∧
      ((∃ EB, (TileGrid.init up c.r).getTileExtentBuffer k = .ok EB ∧
          c.checksum (cutDem c.r c.dem EB 0) = 0 ∧ s.store (pjoin out (m3File n)) = none ∧
          s.store (pjoin out (m3MaxFile n)) = none) ∨
        ∃ B E EB xm ym gw tif mx, TileCase c up k L B E EB xm ym gw cat ∧
          s.store (pjoin out (m3File n)) = some (.tif tif) ∧ IsM3 c L B xm ym gw cat tif ∧
          s.store (pjoin out (m3MaxFile n)) = some (.maxTif mx) ∧ IsM3Max L tif mx) := by
  obtain ⟨k, hk, L, hL, hp⟩ := C01_tiles_cover up c.r h.pw h.ph h.upPos px py (by positivity)
    (by exact_mod_cast hx) (by positivity) (by exact_mod_cast hy)
  obtain ⟨hlen, hget⟩ := getTiles_ok h.listed
  obtain ⟨⟨n, EB, E⟩, hk'⟩ : ∃ i, tiles[k]? = some i := ⟨_, List.getElem?_eq_getElem (by omega)⟩
  obtain ⟨-, g1, g2, g3⟩ := (hget k n EB E).mp hk'
  have hl := lookup_of_getElem h.nodup hk'
  refine ⟨k, L, n, hL, hp, fun k' L' hL' hp' => h.disjoint k' k L' L hL' hL ⟨px, py, hp', hp⟩, g1, ?_⟩
  rcases h.each k hk with ⟨EB', e1, e2⟩ | ⟨L', B, E', EB', xm, ym, gw, t⟩
  · rw [g2] at e1
    cases e1
    left
    have hemp : (c.runCfg out nW tiles).empty n = true := by
      simp only [Inputs.runCfg, hl, decide_eq_true_eq]
      exact e2
    exact ⟨EB, g2, e2, no_geotiff_of_empty _ (h.good nW) st0 j s hrun hdone n hemp⟩
  · right
    have e1 := t.extent
    have e2 := t.extentB
    have e3 := t.limits
    rw [g3] at e1
    rw [g2] at e2
    rw [hL] at e3
    cases e1
    cases e2
    cases e3
    obtain ⟨tif, mx, f1, f2, f3, f4⟩ :=
      (C96_run h nW st0 j s hrun).2.2 hdone k L B E EB xm ym gw n t g1
    exact ⟨B, E, EB, xm, ym, gw, tif, mx, t, f1, f2, f3, f4⟩

end

/-! ### The standard configuration -/

theorem mapM_exists {α β : Type} {f : α → Except PyErr β} : ∀ {xs : List α},
    (∀ x ∈ xs, ∃ y, f x = .ok y) → ∃ l, xs.mapM f = .ok l
  | [], _ => ⟨[], rfl⟩
  | x :: xs, h => by
    obtain ⟨y, hy⟩ := h x List.mem_cons_self
    obtain ⟨l, hl⟩ := mapM_exists fun x hx => h x (List.mem_cons_of_mem _ hx)
    refine ⟨y :: l, ?_⟩
    rw [List.mapM_cons, hy, hl]
    rfl

theorem getTiles_exists (str : K → List Char) (up : K) (r : RasterInfo K) (hpw : 0 < r.gt1)
    (hph : r.gt5 < 0) (hup : 0 ≤ up) : ∃ l, (TileGrid.init up r).getTiles str = .ok l := by
  refine mapM_exists fun k hk => ?_
  obtain ⟨L, B, h1, h2, -⟩ :=
    C03_buffer_surrounds_core up r hpw hph hup k (List.mem_range.mp hk)
  simp only [TileGrid.getTilename, TileGrid.getStartcord, TileGrid.getTileExtentBuffer,
    TileGrid.getTileExtent, h1, h2]
  exact ⟨_, rfl⟩

/-- **C97** The standard configuration on a DEM in the south-east quadrant down to 43.9° S with square
pixels of at most 0.00085° that extends over at least 0.01° each way and whose tiles do not overlap:
the tiles can be listed, and if every tile whose DEM is not empty has land, the run is as described by
C96.  (Buffer `upwind_length = 0.01`; pixel sizes by the modelled Vincenty computation.) -/
theorem C97_standard_run (fuel : ℕ) (hfuel : 8 ≤ fuel) (c : Inputs) (cat : Grid ℤ)
    (str : ℝ → List Char) (hstr : RendersDecimal str) (out : List Char) (ho : ¬ ['/', '/'] <:+ out)
    (hsizes : c.pixelSizes = pixelSizes fuel)
    (hp0 : 1 / 1000000 ≤ c.r.gt1) (hp1 : c.r.gt1 ≤ 0.00085) (hsq : c.r.gt5 = -c.r.gt1)
    (hx : 0.01 ≤ c.r.xDim * c.r.gt1) (hy : 0.01 ≤ c.r.yDim * c.r.gt1)
    (hw : 0.0001 ≤ c.r.gt0) (he : c.r.gt0 + c.r.xDim * c.r.gt1 ≤ 180)
    (hn : c.r.gt3 ≤ -0.0001) (hs : -43.9 ≤ c.r.gt3 + c.r.yDim * c.r.gt5)
    (hlw : 0 < c.lr.gt1) (hlh : c.lr.gt5 < 0)
    (hdisj : TilesDisjoint (TileGrid.init 0.01 c.r)) (hcat : IsLandcover c cat)
    (hland : ∀ k B EB, (TileGrid.init 0.01 c.r).getGridlimitBuffer k = .ok B →
      (TileGrid.init 0.01 c.r).getTileExtentBuffer k = .ok EB →
      c.checksum (cutDem c.r c.dem EB 0) ≠ 0 →
      ∃ px py : ℕ, B.Has px py ∧ 0 < classMz c.terrainTable (cat.val py px))
    (htable : ∀ row ∈ c.terrainTable, 0 < row.roughness ∧
      0 < 3.734 + 0.4554 * Real.log row.roughness) :
    ∃ tiles, (TileGrid.init 0.01 c.r).getTiles str = .ok tiles ∧
      RunCase c 0.01 cat str out tiles := by
  have hpw : 0 < c.r.gt1 := by linarith
  have hph : c.r.gt5 < 0 := by linarith
  have hup : (0 : ℝ) ≤ 0.01 := by norm_num
  have pos : ∀ n : ℕ, 0.01 ≤ (n : ℝ) * c.r.gt1 → 0 < n := by
    intro n h
    rcases Nat.eq_zero_or_pos n with rfl | h0
    · norm_num at h
    · exact h0
  obtain ⟨tiles, ht⟩ := getTiles_exists str 0.01 c.r hpw hph hup
  refine ⟨tiles, ht, hstr, ?_, ho, hpw, hph, hup, pos _ hx, pos _ hy, hdisj, ht, ?_⟩
  · intro k p hp
    have hk : k < (TileGrid.init 0.01 c.r).numTiles := by
      by_contra hk
      have : ¬ ∃ L, (TileGrid.init 0.01 c.r).getGridlimit k = .ok L := fun h =>
        hk ((C01_gridlimit_defined_iff 0.01 c.r k).mp h)
      unfold TileGrid.getStartcord at hp
      match hL : (TileGrid.init 0.01 c.r).getGridlimit k with
      | .ok L => exact this ⟨L, hL⟩
      | .error e => rw [hL] at hp; cases hp
    obtain ⟨L, B, h1, -, ⟨a0, a1, a2, a3, a4⟩, ⟨b0, b1, b2, b3, b4⟩, -⟩ :=
      C03_buffer_surrounds_core 0.01 c.r hpw hph hup k hk
    unfold TileGrid.getStartcord at hp
    rw [h1] at hp
    cases hp
    have x0 : (0 : ℝ) ≤ L.x1 := by exact_mod_cast a0.trans a1
    have x1 : (L.x1 : ℝ) ≤ c.r.xDim := by exact_mod_cast (a2.le.trans a3).trans a4
    have y0 : (0 : ℝ) ≤ L.y1 := by exact_mod_cast b0.trans b1
    have y1 : (L.y1 : ℝ) ≤ c.r.yDim := by exact_mod_cast (b2.le.trans b3).trans b4
    have ex : (TileGrid.init 0.01 c.r).xLeft + L.x1 * (TileGrid.init 0.01 c.r).pixelwidth =
      c.r.gt0 + L.x1 * c.r.gt1 := rfl
    have ey : (TileGrid.init 0.01 c.r).yUpper + L.y1 * (TileGrid.init 0.01 c.r).pixelheight =
      -c.r.gt3 + L.y1 * -c.r.gt5 := rfl
    have l1 : 0.0001 ≤ c.r.gt0 + L.x1 * c.r.gt1 := by nlinarith
    have l2 : c.r.gt0 + L.x1 * c.r.gt1 ≤ 180 := by nlinarith
    have l3 : 0.0001 ≤ -c.r.gt3 + L.y1 * -c.r.gt5 := by nlinarith
    have l4 : -c.r.gt3 + L.y1 * -c.r.gt5 ≤ 43.9 := by nlinarith
    constructor
    · show PlainCoord ((TileGrid.init 0.01 c.r).xLeft + L.x1 * (TileGrid.init 0.01 c.r).pixelwidth)
      rw [ex]
      unfold PlainCoord
      rw [abs_of_pos (by linarith)]
      exact ⟨.inr (by linarith), by linarith⟩
    · show PlainCoord ((TileGrid.init 0.01 c.r).yUpper + L.y1 * (TileGrid.init 0.01 c.r).pixelheight)
      rw [ey]
      unfold PlainCoord
      rw [abs_of_pos (by linarith)]
      exact ⟨.inr (by linarith), by linarith⟩
  · intro k hk
    obtain ⟨L, B, h1, h2, -⟩ := C03_buffer_surrounds_core 0.01 c.r hpw hph hup k hk
    have hE : (TileGrid.init 0.01 c.r).getTileExtent k =
        .ok ((TileGrid.init 0.01 c.r).extentOf L) := by
      unfold TileGrid.getTileExtent; rw [h1]; rfl
    have hEB : (TileGrid.init 0.01 c.r).getTileExtentBuffer k =
        .ok ((TileGrid.init 0.01 c.r).extentOf B) := by
      unfold TileGrid.getTileExtentBuffer; rw [h2]; rfl
    by_cases hem : c.checksum (cutDem c.r c.dem ((TileGrid.init 0.01 c.r).extentOf B) 0) = 0
    · exact .inl ⟨_, hEB, hem⟩
    · obtain ⟨xm, ym, gw, t⟩ := C88_standard_tile fuel hfuel c k L B _ _ cat hsizes hp0 hp1 hsq hx hy
        (by linarith) hs hlw hlh h1 h2 hE hEB hcat hem (hland k B _ h2 hEB hem) htable
      exact .inr ⟨L, B, _, _, xm, ym, gw, t⟩

/-! ### The hypotheses can be met -/

theorem standardDisjoint : TilesDisjoint (TileGrid.init 0.01 standardInputs.r) := by
  refine (C02_tiles_disjoint_iff 0.01 standardInputs.r (by norm_num [standardInputs])
    (by norm_num [standardInputs]) (by norm_num) (by norm_num [standardInputs])
    (by norm_num [standardInputs])).mpr ?_
  rw [standardGrid]
  exact ⟨.inr (by norm_num [standardInputs]), .inl (by norm_num [standardInputs])⟩

theorem standardLand : 0 < classMz standardInputs.terrainTable 1 := by
  have : classMz standardInputs.terrainTable 1 = roughnessMz 1 := rfl
  rw [this, roughnessMz, Real.log_one]
  have := Real.log_le_sub_one_of_pos (show (0 : ℝ) < 3.734 + 0.4554 * 0 by norm_num)
  norm_num at this ⊢
  linarith

/-- A raster of two tiles meets the hypotheses of C97. -/
theorem standardRun (str : ℝ → List Char) (hstr : RendersDecimal str) :
    ∃ cat tiles, RunCase standardInputs 0.01 cat str ['/', 'o'] tiles ∧ tiles.length = 2 := by
  have hpw : 0 < standardInputs.r.gt1 := by norm_num [standardInputs]
  have hph : standardInputs.r.gt5 < 0 := by norm_num [standardInputs]
  obtain ⟨tiles, h1, h2⟩ := C97_standard_run 20 (by norm_num) standardInputs _ str hstr ['/', 'o']
    (by decide) rfl (by norm_num [standardInputs]) (by norm_num [standardInputs]) rfl
    (by norm_num [standardInputs]) (by norm_num [standardInputs]) (by norm_num [standardInputs])
    (by norm_num [standardInputs]) (by norm_num [standardInputs]) (by norm_num [standardInputs])
    hpw hph standardDisjoint (isLandcover_same standardInputs rfl hpw hph) (by
      intro k B EB hB _ _
      rw [standardGrid] at hB
      have hk : k < 2 := by
        by_contra hk
        have : (tileGridLoop 2 1 1250 1250 12 12 1300 100)[k]? = none :=
          List.getElem?_eq_none (by
            have : (tileGridLoop 2 1 1250 1250 12 12 1300 100).length = 2 := rfl
            omega)
        simp only [TileGrid.getGridlimitBuffer, TileGrid.idx, this] at hB
        cases hB
      refine ⟨1240, 5, ?_, standardLand⟩
      interval_cases k
      · cases hB
        decide
      · cases hB
        decide) (by
      intro row hrow
      simp only [standardInputs, List.mem_singleton] at hrow
      subst hrow
      norm_num [Real.log_one])
  refine ⟨_, tiles, h2, ?_⟩
  rw [(getTiles_ok h1).1, standardGrid]
  rfl

/-- A run with three workers on this raster, completed: there is a GeoTIFF for the pixel in row 40 and
column 1270. -/
example (str : ℝ → List Char) (hstr : RendersDecimal str) : ∃ cat tiles j s,
    RunCase standardInputs 0.01 cat str ['/', 'o'] tiles ∧
    RunSteps (standardInputs.runCfg ['/', 'o'] 3 tiles) j
      ((standardInputs.runCfg ['/', 'o'] 3 tiles).start fun _ => none) s ∧
    (standardInputs.runCfg ['/', 'o'] 3 tiles).Done s ∧
    ∃ k n tif, (TileGrid.init 0.01 standardInputs.r).getTilename str k = .ok n ∧
      s.store (pjoin ['/', 'o'] (m3File n)) = some (.tif tif) := by
  obtain ⟨cat, tiles, h, -⟩ := standardRun str hstr
  obtain ⟨j, s, h1, -, h2⟩ := C94_completes _ (h.good 3) (h.shapes 3) (fun _ => none) 0 _ (.refl _)
  refine ⟨cat, tiles, j, s, h, h1, h2, ?_⟩
  obtain ⟨k, L, n, -, -, -, hn, h3⟩ := C96_every_pixel h 3 _ j s h1 h2 1270 40
    (by norm_num [standardInputs]) (by norm_num [standardInputs])
  rcases h3 with ⟨EB, -, h4, -⟩ | ⟨B, E, EB, xm, ym, gw, tif, mx, -, h4, -⟩
  · cases h4
  · exact ⟨k, n, tif, hn, h4⟩

end WindMult
