import Verif.Proofs.FloatWhole

/-!
# C119: a whole run with rounded arithmetic, also in the geometry of the tiles
-/

set_option autoImplicit false
set_option linter.unusedSectionVars false

namespace WindMult
open Spec

/-! ### The list of tiles -/

theorem getTilesFl_ok {R : Rounding} {str : ℝ → List Char} {g : TileGrid ℝ}
    {l : List (List Char × Extent ℝ × Extent ℝ)} (h : g.getTilesFl R str = .ok l) :
    l.length = g.numTiles ∧ ∀ k n EB E, l[k]? = some (n, EB, E) ↔
      k < g.numTiles ∧ g.getTilenameFl R str k = .ok n ∧ g.getTileExtentBufferFl R k = .ok EB ∧
        g.getTileExtentFl R k = .ok E := by
  have hf := mapM_forall₂ h
  have hlen : l.length = g.numTiles := by rw [← hf.length_eq, List.length_range]
  refine ⟨hlen, fun k n EB E => ?_⟩
  have key : ∀ k (hk : k < g.numTiles), ∃ n EB E, l[k]? = some (n, EB, E) ∧
      g.getTilenameFl R str k = .ok n ∧ g.getTileExtentBufferFl R k = .ok EB ∧
      g.getTileExtentFl R k = .ok E := by
    intro k hk
    have := hf.get (i := k) (by rw [List.length_range]; exact hk) (by omega)
    simp only [List.get_eq_getElem, List.getElem_range] at this
    match h1 : g.getTilenameFl R str k, h2 : g.getTileExtentBufferFl R k, h3 : g.getTileExtentFl R k with
    | .error e, _, _ => rw [h1] at this; cases this
    | .ok n, .error e, _ => rw [h1, h2] at this; cases this
    | .ok n, .ok EB, .error e => rw [h1, h2, h3] at this; cases this
    | .ok n, .ok EB, .ok E =>
      rw [h1, h2, h3] at this
      refine ⟨n, EB, E, ?_, rfl, rfl, rfl⟩
      rw [List.getElem?_eq_getElem (by omega)]
      exact congrArg some (Except.ok.inj this).symm
  constructor
  · intro hk
    have hlt : k < g.numTiles := by
      rw [← hlen]
      exact (List.getElem?_eq_some_iff.mp hk).1
    obtain ⟨n', EB', E', h0, h1, h2, h3⟩ := key k hlt
    rw [hk] at h0
    cases h0
    exact ⟨hlt, h1, h2, h3⟩
  · rintro ⟨hlt, h1, h2, h3⟩
    obtain ⟨n', EB', E', h0, h1', h2', h3'⟩ := key k hlt
    rw [h1] at h1'; rw [h2] at h2'; rw [h3] at h3'
    cases h1'; cases h2'; cases h3'
    exact h0

/-- Computed corners of different tiles are far apart. -/
theorem stepFl_separates (R : Rounding) {a pw : ℝ} (hpw : 0 < pw) {i j : ℕ} {s : ℤ} (hs : s = ⌈R.rnd (1 / pw)⌉)
    (hi : |a| + (((i : ℤ) * s : ℤ) : ℝ) * pw ≤ 2 ^ 40 * pw) (hj : |a| + (((j : ℤ) * s : ℤ) : ℝ) * pw ≤ 2 ^ 40 * pw)
    (h : |R.rnd (a + R.rnd ((((i : ℤ) * s : ℤ) : ℝ) * pw)) - R.rnd (a + R.rnd ((((j : ℤ) * s : ℤ) : ℝ) * pw))| < 1 / 5) :
    i = j := by
  have hs1 : 1 ≤ s := by rw [hs]; exact Int.one_le_ceil_iff.mpr (R.pos (by positivity))
  have hsR : (1 : ℝ) ≤ s := by exact_mod_cast hs1
  have h1 : 3 / 4 ≤ (s : ℝ) * pw := by
    have e1 : R.rnd (1 / pw) ≤ s := by rw [hs]; exact Int.le_ceil _
    have e2 := (abs_le.mp (R.near (1 / pw))).1
    rw [abs_of_pos (by positivity : 0 < 1 / pw)] at e2
    have e3 : (1 / pw) * (1 - 1 / 2 ^ 53) ≤ s := by linarith
    have e4 := mul_le_mul_of_nonneg_right e3 hpw.le
    rw [mul_right_comm, one_div_mul_cancel hpw.ne'] at e4
    refine le_trans ?_ e4
    norm_num
  have n1 := edge_near R hpw (by positivity : 0 ≤ (i : ℤ) * s) hi
  have n2 := edge_near R hpw (by positivity : 0 ≤ (j : ℤ) * s) hj
  by_contra hij
  have h2 : (1 : ℤ) ≤ |(i : ℤ) - j| := Int.one_le_abs (by omega)
  have h3 : (1 : ℝ) ≤ |(i : ℝ) - j| := by exact_mod_cast h2
  generalize R.rnd (a + R.rnd ((((i : ℤ) * s : ℤ) : ℝ) * pw)) = x at *
  generalize R.rnd (a + R.rnd ((((j : ℤ) * s : ℤ) : ℝ) * pw)) = y at *
  push_cast at n1 n2
  have h4 : |((i : ℝ) - j) * (s * pw)| < 1 / 5 + pw / 512 := by
    have e : ((i : ℝ) - j) * (s * pw) = (x - y) - (x - (a + i * s * pw)) + (y - (a + j * s * pw)) := by ring
    rw [abs_lt] at h n1 n2
    rw [e, abs_lt]
    constructor <;> linarith [h.1, h.2, n1.1, n1.2, n2.1, n2.2]
  have h5 : pw ≤ s * pw := le_mul_of_one_le_left hpw.le hsR
  rw [abs_mul, abs_of_pos (by linarith : 0 < (s : ℝ) * pw)] at h4
  have h6 : s * pw ≤ |(i : ℝ) - j| * (s * pw) := le_mul_of_one_le_left (by linarith) h3
  linarith

section
variable {R : Rounding} {N : TileFp} {c cf : Inputs} {up : ℝ} {cat : Grid ℤ} {str : ℝ → List Char} {out : List Char}
  {tiles : List (List Char × Extent ℝ × Extent ℝ)} {k : ℕ} {L B : Limits} {xm ym xmf ymf : Grid ℝ} {gw : ℝ}

theorem Spec.RunCaseFl.dims (h : RunCaseFl R c up cat str out tiles) : c.r.xDim < 2 ^ 53 ∧ c.r.yDim < 2 ^ 53 := by
  obtain ⟨dx, dy⟩ := moderate_dim h.pw h.ph h.moderate
  constructor
  · exact_mod_cast (by omega : (c.r.xDim : ℤ) < 2 ^ 53)
  · exact_mod_cast (by omega : (c.r.yDim : ℤ) < 2 ^ 53)

theorem Spec.RunCaseFl.disjoint (h : RunCaseFl R c up cat str out tiles) :
    TilesDisjoint (TileGrid.initFl R up c.r) :=
  C101_disjoint R up c.r h.pw h.ph h.upPos h.dims.1 h.dims.2 h.wide h.high h.disjointX h.disjointY

/-- The corner whose coordinates are the name of a tile. -/
theorem Spec.RunCaseFl.startcord (h : RunCaseFl R c up cat str out tiles) {n : List Char}
    (hn : (TileGrid.initFl R up c.r).getTilenameFl R str k = .ok n) : k < nColsFl R c.r * nRowsFl R c.r ∧
    (TileGrid.initFl R up c.r).getStartcordFl R k = .ok
      (R.rnd (c.r.gt0 + R.rnd ((((k / nRowsFl R c.r : ℕ) : ℤ) * (TileGrid.initFl R up c.r).xStep : ℤ) * c.r.gt1)),
       R.rnd (-c.r.gt3 + R.rnd ((((k % nRowsFl R c.r : ℕ) : ℤ) * (TileGrid.initFl R up c.r).yStep : ℤ) * -c.r.gt5))) ∧
    ((((k / nRowsFl R c.r : ℕ) : ℤ) * (TileGrid.initFl R up c.r).xStep : ℤ) ≤ c.r.xDim ∧
     (((k % nRowsFl R c.r : ℕ) : ℤ) * (TileGrid.initFl R up c.r).yStep : ℤ) ≤ c.r.yDim) := by
  have aX := axisXFl (R := R) (r := c.r) h.pw h.upPos h.dims.1
  have aY := axisYFl (R := R) (r := c.r) h.ph h.upPos h.dims.2
  have hcond : ∀ a b : ℤ, a < b + 1 ↔ a ≤ b := fun a b => Int.lt_add_one_iff
  have hgx := (axisGood_iff aX (by exact_mod_cast h.wide)).mpr (by simpa only [hcond] using h.disjointX)
  have hgy := (axisGood_iff aY (by exact_mod_cast h.high)).mpr (by simpa only [hcond] using h.disjointY)
  obtain ⟨L, hL⟩ : ∃ L, (TileGrid.initFl R up c.r).getGridlimit k = .ok L := by
    match hL : (TileGrid.initFl R up c.r).getGridlimit k with
    | .ok L => exact ⟨L, rfl⟩
    | .error e =>
      unfold TileGrid.getTilenameFl TileGrid.getStartcordFl at hn
      rw [hL] at hn
      cases hn
  have hk := gridlimitFl_lt hL
  have hrow : 0 < nRowsFl R c.r := Nat.pos_of_ne_zero (by rintro h; simp [h] at hk)
  have hi : k / nRowsFl R c.r < nColsFl R c.r := Nat.div_lt_of_lt_mul (by rwa [Nat.mul_comm])
  have hj := Nat.mod_lt k hrow
  obtain ⟨e1, e1'⟩ := core_exact aX hgx hi
  obtain ⟨e2, e2'⟩ := core_exact aY hgy hj
  have l1 := coreLo_lt_coreHi aX hi
  have l2 := coreLo_lt_coreHi aY hj
  refine ⟨hk, ?_, ?_, ?_⟩
  · unfold TileGrid.getStartcordFl
    rw [gridlimitFl_ok hk]
    simp only [bind, Except.bind, pure, Except.pure, e1, e2]
    rfl
  · rw [e1, e1'] at l1
    exact (l1.trans_le (min_le_right _ _)).le
  · rw [e2, e2'] at l2
    exact (l2.trans_le (min_le_right _ _)).le

theorem Spec.RunCaseFl.name_inj (h : RunCaseFl R c up cat str out tiles) {k' : ℕ} {n : List Char}
    (hn : (TileGrid.initFl R up c.r).getTilenameFl R str k = .ok n)
    (hn' : (TileGrid.initFl R up c.r).getTilenameFl R str k' = .ok n) : k = k' := by
  obtain ⟨hk, s, b1, b2⟩ := h.startcord hn
  obtain ⟨hk', s', b1', b2'⟩ := h.startcord hn'
  obtain ⟨⟨p1, p1'⟩, p2, p2'⟩ := h.plain k _ s
  obtain ⟨⟨q1, q1'⟩, q2, q2'⟩ := h.plain k' _ s'
  unfold TileGrid.getTilenameFl at hn hn'
  rw [s] at hn
  rw [s'] at hn'
  simp only [bind, Except.bind, pure, Except.pure, Except.ok.injEq] at hn hn'
  rw [← hn'] at hn
  simp only [List.cons_append, List.nil_append, List.append_assoc, List.cons.injEq, true_and] at hn
  obtain ⟨m1, m2⟩ := split_at hn (no_s_in_rendered h.renders p1) (no_s_in_rendered h.renders q1)
  have m1 := congrArg (List.take 7) m1
  rw [List.take_take, List.take_take] at m1
  have hx : ∀ n : ℤ, n ≤ c.r.xDim → |c.r.gt0| + (n : ℝ) * c.r.gt1 ≤ 2 ^ 40 * c.r.gt1 := by
    intro n hn
    have hn : (n : ℝ) ≤ c.r.xDim := by exact_mod_cast hn
    have := mul_le_mul_of_nonneg_right hn h.pw.le
    linarith [h.moderate.1]
  have h5 : 0 < -c.r.gt5 := by linarith [h.ph]
  have hy : ∀ n : ℤ, n ≤ c.r.yDim → |-c.r.gt3| + (n : ℝ) * -c.r.gt5 ≤ 2 ^ 40 * -c.r.gt5 := by
    intro n hn
    rw [abs_neg]
    have hn : (n : ℝ) ≤ c.r.yDim := by exact_mod_cast hn
    have := mul_le_mul_of_nonneg_right hn h5.le
    linarith [h.moderate.2]
  have d1 := stepFl_separates R h.pw rfl (hx _ b1) (hx _ b1') (h.fine _ _ p1 q1 p1' q1' m1)
  have d2 := stepFl_separates R h5 rfl (hy _ b2) (hy _ b2') (h.fine _ _ p2 q2 p2' q2' m2)
  rw [← Nat.div_add_mod k (nRowsFl R c.r), ← Nat.div_add_mod k' (nRowsFl R c.r), d1, d2]

theorem Spec.RunCaseFl.nodup (h : RunCaseFl R c up cat str out tiles) : (tiles.map Prod.fst).Nodup := by
  obtain ⟨hlen, hget⟩ := getTilesFl_ok h.listed
  rw [List.nodup_iff_getElem?_ne_getElem?]
  intro i j hij hj e
  rw [List.length_map] at hj
  have hi : i < tiles.length := by omega
  rw [List.getElem?_map, List.getElem?_map, List.getElem?_eq_getElem hi, List.getElem?_eq_getElem hj] at e
  simp only [Option.map_some, Option.some.injEq] at e
  have a := (hget i _ _ _).mp (List.getElem?_eq_getElem hi)
  have b := (hget j _ _ _).mp (List.getElem?_eq_getElem hj)
  have := h.name_inj a.2.1 (by
    rw [show (tiles.get ⟨i, hi⟩).1 = (tiles.get ⟨j, hj⟩).1 from e]; exact b.2.1)
  omega

theorem extentFl_ok {M : Limits} (h : (TileGrid.initFl R up c.r).getGridlimit k = .ok M) :
    (TileGrid.initFl R up c.r).getTileExtentFl R k = .ok (extFl R c up M) := by
  unfold TileGrid.getTileExtentFl
  rw [h]
  rfl

theorem extentBufferFl_ok {M : Limits} (h : (TileGrid.initFl R up c.r).getGridlimitBuffer k = .ok M) :
    (TileGrid.initFl R up c.r).getTileExtentBufferFl R k = .ok (extFl R c up M) := by
  unfold TileGrid.getTileExtentBufferFl
  rw [h]
  rfl

theorem Spec.RunCaseFl.mem (h : RunCaseFl R c up cat str out tiles) {n : List Char} (hn : n ∈ tiles.map Prod.fst) :
    ∃ k EB E, k < (TileGrid.initFl R up c.r).numTiles ∧
      (TileGrid.initFl R up c.r).getTilenameFl R str k = .ok n ∧
      (TileGrid.initFl R up c.r).getTileExtentBufferFl R k = .ok EB ∧
      (TileGrid.initFl R up c.r).getTileExtentFl R k = .ok E ∧ tiles.lookup n = some (EB, E) := by
  obtain ⟨hlen, hget⟩ := getTilesFl_ok h.listed
  obtain ⟨⟨n', EB, E⟩, hmem, rfl⟩ := List.mem_map.mp hn
  obtain ⟨k, hk⟩ := List.mem_iff_getElem?.mp hmem
  obtain ⟨h1, h2, h3, h4⟩ := (hget k n' EB E).mp hk
  exact ⟨k, EB, E, h1, h2, h3, h4, lookup_of_getElem h.nodup hk⟩

/-- The names of tiles are as assumed of file names. -/
theorem Spec.RunCaseFl.tileName (h : RunCaseFl R c up cat str out tiles) {n : List Char}
    (hn : (TileGrid.initFl R up c.r).getTilenameFl R str k = .ok n) : TileName n := by
  obtain ⟨-, s, -⟩ := h.startcord hn
  obtain ⟨⟨p1, -⟩, p2, -⟩ := h.plain k _ s
  unfold TileGrid.getTilenameFl at hn
  rw [s] at hn
  simp only [bind, Except.bind, pure, Except.pure, Except.ok.injEq] at hn
  rw [← hn]
  exact name_ok h.renders p1 p2

theorem Spec.RunCaseFl.good (h : RunCaseFl R c up cat str out tiles) (nW : ℕ) :
    (cf.runCfgGeo R N out nW tiles).Good where
  out := h.outPath
  names := by
    intro t ht
    obtain ⟨k, EB, E, h1, h2, -⟩ := h.mem ht
    exact h.tileName h2
  nodup := h.nodup

/-! ### A tile -/

theorem tileFilesGeo_eq (R : Rounding) (N : TileFp) (c : Inputs) (EB E : Extent ℝ) : tileFilesGeo R N c EB E =
    (tileStepGeo R N c EB E).1.asRead N.file
      (getLatLonFl R E (clipInfoFl R c.r EB).gt1 (-(clipInfoFl R c.r EB).gt5)) := by
  funext m d
  cases m <;> rfl

theorem Spec.TileCaseFl.step (t : TileCaseFl R c up k L B xm ym gw cat) (hr : cf.r = c.r) :
    tileStepGeo R N cf (extFl R c up B) (extFl R c up L) = tileStepFl N cf (extFl R c up B) (extFl R c up L) ∧
    cutDemFl R cf.r cf.dem (extFl R c up B) 0 = cutDem cf.r cf.dem (extFl R c up B) 0 := by
  have := tileStepGeo_eq R (up := up) (k := k) (L := L) (B := B) N cf (by rw [hr]; exact t.pw) (by rw [hr]; exact t.ph)
    t.upPos (by rw [hr]; exact t.moderate) (by rw [hr]; exact t.limits) (by rw [hr]; exact t.limitsB)
  dsimp only at this
  rw [hr] at this ⊢
  exact this

/-- **C119** (tile) The whole computation of a tile in rounded arithmetic, from the limits and corners of the tile to
the combined multipliers and their coordinates: it ends without error, and the GeoTIFF has the coordinates of the
pixel centres up to rounding, NaN where exact arithmetic has, and other values within 0.0005 of the documented ones
(as in C117). -/
theorem C119_tile (t : TileCaseFl R c up k L B xm ym gw cat)
    (q : AsRead N c cf B (extFl R c up B) xm ym xmf ymf gw) :
    (tileStepGeo R N cf (extFl R c up B) (extFl R c up L)).2 = .ok () ∧
    ∃ tif mx, processTile (tileFilesGeo R N cf (extFl R c up B) (extFl R c up L)) = .ok tif ∧
      CentresNear c.r L tif.transform ∧ BandsNear (1 / 2000) c L B xm ym gw cat tif ∧
      processMaxTile tif = .ok mx ∧ IsM3MaxNear (1 / 2000) c L B xm ym gw cat mx := by
  have hs := (t.step (N := N) q.rasters.1).1
  rw [tileFilesGeo_eq, hs]
  refine ⟨(t.toAt.runFl q).1, ?_⟩
  generalize hc : getLatLonFl R (extFl R c up L) (clipInfoFl R cf.r (extFl R c up B)).gt1
    (-(clipInfoFl R cf.r (extFl R c up B)).gt5) = coords
  obtain ⟨tif, h1, h2, h3⟩ := t.toAt.tile q coords
  obtain ⟨tif', mx, m1, m2, m3⟩ := t.toAt.maximum q coords
  have ex : tif' = tif := Except.ok.inj (m1.symm.trans h1)
  subst ex
  refine ⟨tif', mx, h1, ?_, h3, m2, m3⟩
  rw [h2, ← hc, q.rasters.1]
  have := C101_coordinates R up c.r t.pw t.ph t.upPos t.moderate k L t.limits
  have e5 : -(clipInfoFl R c.r (extFl R c up B)).gt5 = -c.r.gt5 := neg_neg _
  rw [e5]
  exact this

/-! ### The run -/

/-- The run sees of a tile what the pipeline computes for it. -/
theorem Spec.TileCaseFl.seen (t : TileCaseFl R c up k L B xm ym gw cat)
    (q : AsRead N c cf B (extFl R c up B) xm ym xmf ymf gw) (nW : ℕ) {n : List Char}
    (hl : tiles.lookup n = some (extFl R c up B, extFl R c up L)) :
    (cf.runCfgGeo R N out nW tiles).empty n = false ∧ (cf.runCfgGeo R N out nW tiles).noLand n = false ∧
      (cf.runCfgGeo R N out nW tiles).seen n = tileFilesGeo R N cf (extFl R c up B) (extFl R c up L) := by
  obtain ⟨hs, hd⟩ := t.step (N := N) q.rasters.1
  obtain ⟨hmz, hfile⟩ := t.toAt.filesFl q (getLatLonFl R (extFl R c up L) (clipInfoFl R cf.r (extFl R c up B)).gt1
    (-(clipInfoFl R cf.r (extFl R c up B)).gt5))
  have h1 : (cf.runCfgGeo R N out nW tiles).empty n = false := by
    simp only [Inputs.runCfgGeo, hl, decide_eq_false_iff_not]
    rw [q.rasters.1, q.rasters.2.1, q.rasters.2.2.2.2]
    exact t.notEmpty
  have h2 : (cf.runCfgGeo R N out nW tiles).noLand n = false := by
    simp only [Inputs.runCfgGeo, hl, hs]
    exact hmz
  refine ⟨h1, h2, ?_⟩
  funext m d
  obtain ⟨r, hr, -⟩ := hfile m d
  unfold RunCfg.seen
  rw [if_pos ⟨h1, fun _ => h2⟩]
  simp only [Inputs.runCfgGeo, hl, tileFilesGeo_eq, hs, hr, Option.getD_some]

theorem Spec.RunCaseFl.shapes (h : RunCaseFl R c up cat str out tiles) (hr : RunReadFl R N c cf up cat) (nW : ℕ) :
    (cf.runCfgGeo R N out nW tiles).Shapes := by
  intro n hn he
  obtain ⟨k, EB, E, h1, h2, h3, h4, hl⟩ := h.mem hn
  rcases h.each k h1 with ⟨B, e1, e2⟩ | ⟨L, B, xm, ym, gw, t⟩
  · rw [extentBufferFl_ok e1] at h3
    cases h3
    simp only [Inputs.runCfgGeo, hl, decide_eq_false_iff_not] at he
    rw [hr.rasters.1, hr.rasters.2.1, hr.rasters.2.2] at he
    exact absurd e2 he
  · rw [extentBufferFl_ok t.limitsB] at h3
    rw [extentFl_ok t.limits] at h4
    cases h3
    cases h4
    obtain ⟨xmf, ymf, q⟩ := hr.read _ _ _ _ _ _ t
    obtain ⟨-, hfile⟩ := t.toAt.filesFl q (getLatLonFl R (extFl R c up L) (clipInfoFl R cf.r (extFl R c up B)).gt1
      (-(clipInfoFl R cf.r (extFl R c up B)).gt5))
    have hno := (t.seen (out := out) q nW hl).2.1
    refine ⟨(L.x2 - L.x1).toNat, (L.y2 - L.y1).toNat, ?_, fun m d => ?_⟩
    · intro hc
      rw [hno] at hc
      cases hc
    obtain ⟨r, hr', g1, g2⟩ := hfile m d
    simp only [Inputs.runCfgGeo, hl, tileFilesGeo_eq, (t.step (N := N) q.rasters.1).1, hr', Option.getD_some]
    omega

/-- **C119** A run in which the geometry of the tiles, too, is computed with rounding, on inputs all of whose tiles are
empty or meet the conditions: it never deadlocks or fails, finishes after a bounded number of steps, and then the
GeoTIFF of every non-empty tile and that of its maxima hold the documented values up to 0.0005 at the pixel centres up
to rounding – with any number of processes and however these are interleaved. -/
theorem C119_run (h : RunCaseFl R c up cat str out tiles) (hr : RunReadFl R N c cf up cat) (nW : ℕ)
    (st0 : Store (NanNum (Fl N.file)) (List ℝ × List ℝ)) (j : ℕ)
    (s : RunState (NanNum (Fl N.file)) (List ℝ × List ℝ))
    (hrun : RunSteps (cf.runCfgGeo R N out nW tiles) j ((cf.runCfgGeo R N out nW tiles).start st0) s) :
    j ≤ 45 * (TileGrid.initFl R up c.r).numTiles + 9 * nW + 9 ∧
    (¬ (cf.runCfgGeo R N out nW tiles).Done s → ∃ s', RunStep (cf.runCfgGeo R N out nW tiles) s s') ∧
    ((cf.runCfgGeo R N out nW tiles).Done s → ∀ k L B xm ym gw n,
      TileCaseFl R c up k L B xm ym gw cat → (TileGrid.initFl R up c.r).getTilenameFl R str k = .ok n →
      ∃ tif mx, s.store (pjoin out (m3File n)) = some (.tif tif) ∧ CentresNear c.r L tif.transform ∧
        BandsNear (1 / 2000) c L B xm ym gw cat tif ∧
        s.store (pjoin out (m3MaxFile n)) = some (.maxTif mx) ∧ IsM3MaxNear (1 / 2000) c L B xm ym gw cat mx) := by
  obtain ⟨b1, b2⟩ := C94_finishes _ (h.good (N := N) (cf := cf) nW) (h.shapes hr nW) st0 j s hrun
  refine ⟨?_, b2, fun hdone k L B xm ym gw n t hn => ?_⟩
  · have : (cf.runCfgGeo R N out nW tiles).tiles.length = (TileGrid.initFl R up c.r).numTiles := by
      show (tiles.map Prod.fst).length = _
      rw [List.length_map, (getTilesFl_ok h.listed).1]
    rw [this] at b1
    exact b1
  · have hk := ((getTilesFl_ok h.listed).2 k n _ _).mpr ⟨by
      rw [numTilesFl]; exact gridlimitFl_lt t.limits, hn, extentBufferFl_ok t.limitsB, extentFl_ok t.limits⟩
    have hmem : n ∈ tiles.map Prod.fst := List.mem_map.mpr ⟨_, List.mem_of_getElem? hk, rfl⟩
    have hl := lookup_of_getElem h.nodup hk
    obtain ⟨xmf, ymf, q⟩ := hr.read _ _ _ _ _ _ t
    obtain ⟨q1, -, q3⟩ := t.seen (out := out) q nW hl
    obtain ⟨-, hout, -⟩ := C93_outcome _ (h.good (N := N) (cf := cf) nW) st0 j s hrun hdone
    obtain ⟨x, mx, e1, e2, e3, e4⟩ := hout n hmem q1
    rw [q3] at e1
    obtain ⟨-, tif, r, p1, p2, p3, p4, p5⟩ := C119_tile t q
    have ex : tif = x := Except.ok.inj (p1.symm.trans e1)
    subst ex
    have em : r = mx := Except.ok.inj (p4.symm.trans e2)
    subst em
    exact ⟨tif, r, e3, p2, p3, e4, p5⟩

/-- **C119** (every pixel) After the run, every pixel of the DEM is in exactly one tile; either the DEM is empty around
it and there is no GeoTIFF of the tile, or it has the documented values up to 0.0005. -/
theorem C119_every_pixel (h : RunCaseFl R c up cat str out tiles) (hr : RunReadFl R N c cf up cat) (nW : ℕ)
    (st0 : Store (NanNum (Fl N.file)) (List ℝ × List ℝ)) (j : ℕ)
    (s : RunState (NanNum (Fl N.file)) (List ℝ × List ℝ))
    (hrun : RunSteps (cf.runCfgGeo R N out nW tiles) j ((cf.runCfgGeo R N out nW tiles).start st0) s)
    (hdone : (cf.runCfgGeo R N out nW tiles).Done s) (px py : ℕ) (hx : px < c.r.xDim) (hy : py < c.r.yDim) :
    ∃ k L n, (TileGrid.initFl R up c.r).getGridlimit k = .ok L ∧ L.Has px py ∧
      (∀ k' L', (TileGrid.initFl R up c.r).getGridlimit k' = .ok L' → L'.Has px py → k' = k) ∧
      (TileGrid.initFl R up c.r).getTilenameFl R str k = .ok n ∧
      ((∃ B, (TileGrid.initFl R up c.r).getGridlimitBuffer k = .ok B ∧
          c.checksum (cutDemFl R c.r c.dem (extFl R c up B) 0) = 0 ∧ s.store (pjoin out (m3File n)) = none ∧
          s.store (pjoin out (m3MaxFile n)) = none) ∨
        ∃ B xm ym gw tif mx, TileCaseFl R c up k L B xm ym gw cat ∧
          s.store (pjoin out (m3File n)) = some (.tif tif) ∧ CentresNear c.r L tif.transform ∧
          BandsNear (1 / 2000) c L B xm ym gw cat tif ∧
          s.store (pjoin out (m3MaxFile n)) = some (.maxTif mx) ∧
          IsM3MaxNear (1 / 2000) c L B xm ym gw cat mx) := by
  obtain ⟨i, hi, -, -, h1, h2⟩ := axis_cover (axisXFl (R := R) (r := c.r) h.pw h.upPos h.dims.1) (p := px)
    (by positivity) (by exact_mod_cast hx)
  obtain ⟨i', hj, -, -, h3, h4⟩ := axis_cover (axisYFl (R := R) (r := c.r) h.ph h.upPos h.dims.2) (p := py)
    (by positivity) (by exact_mod_cast hy)
  have hk := index_lt hi hj
  obtain ⟨k, hkk, L, hL, hp⟩ : ∃ k < (TileGrid.initFl R up c.r).numTiles, ∃ L,
      (TileGrid.initFl R up c.r).getGridlimit k = .ok L ∧ L.Has px py := by
    refine ⟨i * nRowsFl R c.r + i', by rwa [numTilesFl], _, gridlimitFl_ok hk, ?_⟩
    simp only [Limits.Has, index_div hj, index_mod hj]
    exact ⟨h1, h2, h3, h4⟩
  obtain ⟨hlen, hget⟩ := getTilesFl_ok h.listed
  obtain ⟨⟨n, EB, E⟩, hk'⟩ : ∃ i, tiles[k]? = some i := ⟨_, List.getElem?_eq_getElem (by omega)⟩
  obtain ⟨-, g1, g2, g3⟩ := (hget k n EB E).mp hk'
  refine ⟨k, L, n, hL, hp, fun k' L' hL' hp' => h.disjoint k' k L' L hL' hL ⟨px, py, hp', hp⟩, g1, ?_⟩
  rcases h.each k hkk with ⟨B, e1, e2⟩ | ⟨L', B, xm, ym, gw, t⟩
  · rw [extentBufferFl_ok e1] at g2
    cases g2
    refine .inl ⟨B, e1, e2, no_geotiff_of_empty _ (h.good (N := N) (cf := cf) nW) st0 j s hrun hdone n ?_⟩
    simp only [Inputs.runCfgGeo, lookup_of_getElem h.nodup hk', decide_eq_true_eq]
    rw [hr.rasters.1, hr.rasters.2.1, hr.rasters.2.2]
    exact e2
  · right
    have e3 := t.limits
    rw [hL] at e3
    cases e3
    obtain ⟨tif, mx, f⟩ := (C119_run h hr nW st0 j s hrun).2.2 hdone k L B xm ym gw n t g1
    exact ⟨B, xm, ym, gw, tif, mx, t, f⟩

end

/-! ### The hypotheses can be met -/

/-- A rendering with one digit after the point. -/
noncomputable def oneDecimal (x : ℝ) : List Char :=
  (if x < 0 then ['-'] else []) ++ Nat.toDigits 10 ⌊|x|⌋.toNat ++
    '.' :: Nat.toDigits 10 (⌊10 * |x|⌋.toNat - 10 * ⌊|x|⌋.toNat)

theorem oneDecimal_renders : RendersDecimal oneDecimal := fun x _ _ =>
  ⟨Nat.toDigits 10 (⌊10 * |x|⌋.toNat - 10 * ⌊|x|⌋.toNat),
    fun _ hc => Nat.isDigit_of_mem_toDigits (by norm_num) (by norm_num) hc, rfl⟩

theorem oneDecimal_fine : RendersFine oneDecimal := by
  intro x y hx hy bx byy h
  have hfl : ∀ z : ℝ, |z| < 1000 → ⌊|z|⌋.toNat < 10 ^ 3 ∧ 10 * ⌊|z|⌋.toNat ≤ ⌊10 * |z|⌋.toNat ∧
      ⌊10 * |z|⌋.toNat - 10 * ⌊|z|⌋.toNat < 10 ^ 1 := by
    intro z hz
    have h0 : 0 ≤ ⌊|z|⌋ := Int.floor_nonneg.mpr (abs_nonneg z)
    have h1 : ⌊|z|⌋ < 1000 := Int.floor_lt.mpr (by exact_mod_cast hz)
    have h2 : 10 * ⌊|z|⌋ ≤ ⌊10 * |z|⌋ := Int.le_floor.mpr (by push_cast; linarith [Int.floor_le |z|])
    have h3 : ⌊10 * |z|⌋ < 10 * ⌊|z|⌋ + 10 := Int.floor_lt.mpr (by push_cast; linarith [Int.lt_floor_add_one |z|])
    omega
  have hlen : ∀ z : ℝ, |z| < 1000 → (oneDecimal z).length ≤ 7 := by
    intro z hz
    obtain ⟨a1, a2, a3⟩ := hfl z hz
    have l1 := Nat.toDigits_length 10 _ 3 (by norm_num) a1
    have l2 := Nat.toDigits_length 10 _ 1 (by norm_num) a3
    unfold oneDecimal
    rw [List.length_append, List.length_append, List.length_cons]
    split_ifs <;> simp only [List.length_cons, List.length_nil] <;> omega
  rw [List.take_of_length_le (hlen x bx), List.take_of_length_le (hlen y byy)] at h
  have h1 := rendered_inj oneDecimal_renders hx hy (le_refl 7)
    (by rw [List.take_of_length_le (hlen x bx), List.take_of_length_le (hlen y byy), h])
  have hdot : ∀ z : ℝ, '.' ∉ (if z < 0 then ['-'] else []) ++ Nat.toDigits 10 ⌊|z|⌋.toNat := by
    intro z hz
    rcases List.mem_append.mp hz with hz | hz
    · split_ifs at hz <;> simp at hz
    · exact not_mem_digits (by decide) _ hz
  obtain ⟨hpre, hfrac⟩ := split_at h (hdot x) (hdot y)
  have hneg : ∀ m n : ℕ, '-' :: Nat.toDigits 10 m ≠ Nat.toDigits 10 n := by
    intro m n he
    exact not_mem_digits (c := '-') (by decide) n (he ▸ List.mem_cons_self)
  have key : ((x < 0) ↔ (y < 0)) ∧ ⌊|x|⌋.toNat = ⌊|y|⌋.toNat := by
    split_ifs at hpre with h1 h2 h2
    · simp at hpre; exact ⟨by simp [h1, h2], toDigits_inj hpre⟩
    · exact absurd (by simpa using hpre) (hneg _ _)
    · exact absurd (by simpa using hpre.symm) (hneg _ _)
    · simp at hpre; exact ⟨by simp [h1, h2], toDigits_inj hpre⟩
  obtain ⟨hsign, hf⟩ := key
  have hd := toDigits_inj hfrac
  have hten : ⌊10 * |x|⌋ = ⌊10 * |y|⌋ := by
    have a := hfl x bx
    have b := hfl y byy
    have h0 : 0 ≤ ⌊10 * |x|⌋ := Int.floor_nonneg.mpr (by positivity)
    have h1 : 0 ≤ ⌊10 * |y|⌋ := Int.floor_nonneg.mpr (by positivity)
    omega
  have habs := Int.abs_sub_lt_one_of_floor_eq_floor hten
  rw [abs_lt] at habs ⊢
  by_cases hx0 : x < 0
  · rw [abs_of_neg hx0, abs_of_neg (hsign.mp hx0)] at habs
    constructor <;> linarith [habs.1, habs.2]
  · have hy0 : ¬ y < 0 := fun h => hx0 (hsign.mpr h)
    rw [abs_of_nonneg (not_lt.mp hx0), abs_of_nonneg (not_lt.mp hy0)] at habs
    constructor <;> linarith [habs.1, habs.2]

/-- A raster of suburbs on a slope, with pixels of 1/16 in four tiles; every pixel is 90 m wide. -/
noncomputable def terrace : Inputs where
  r := ⟨32, 32, 150, 1 / 16, -30, -(1 / 16)⟩
  dem := ⟨32, 32, fun i _ => some (9 * i)⟩
  lr := ⟨32, 32, 150, 1 / 16, -30, -(1 / 16)⟩
  lcv := ⟨32, 32, fun _ _ => some 1⟩
  terrainTable := [⟨1, 0.2⟩]
  shieldTable := [(1, 80)]
  pixelSizes := fun info => .ok (⟨info.yDim, info.xDim, fun _ _ => 90⟩, ⟨info.yDim, info.xDim, fun _ _ => 90⟩)
  checksum := fun _ => 1

/-- The same as a run has it. -/
noncomputable def terraceRead : Inputs :=
  { terrace with
    terrainTable := [⟨1, roundDigits 53 0.2⟩]
    pixelSizes := fun info => .ok ((⟨info.yDim, info.xDim, fun _ _ => 90⟩ : Grid ℝ).map (roundDigits 24),
      (⟨info.yDim, info.xDim, fun _ _ => 90⟩ : Grid ℝ).map (roundDigits 24)) }

noncomputable def terraceCat : Grid ℤ := ⟨32, 32, fun i j => (terrace.lcv.val i j).getD 0⟩

theorem terrace_grid (R : Rounding) : (TileGrid.initFl R (9 / 16) terrace.r).xStep = 16 ∧
    (TileGrid.initFl R (9 / 16) terrace.r).yStep = 16 ∧ (TileGrid.initFl R (9 / 16) terrace.r).xBuffer = 9 ∧
    (TileGrid.initFl R (9 / 16) terrace.r).yBuffer = 9 := by
  have e16 := R.int 16 (by norm_num)
  have e9 := R.int 9 (by norm_num)
  have a16 : (1 : ℝ) / (1 / 16) = ((16 : ℤ) : ℝ) := by norm_num
  have a9 : (9 / 16 : ℝ) / (1 / 16) = ((9 : ℤ) : ℝ) := by norm_num
  have p9 : pyInt ((9 : ℤ) : ℝ) = 9 := by rw [pyInt, if_pos (by norm_num), Int.floor_intCast]
  simp only [TileGrid.initFl, terrace, neg_neg, a16, a9, e16, e9, p9, Int.ceil_intCast, and_self]

theorem terrace_pos : 0 < terrace.r.gt1 ∧ terrace.r.gt5 < 0 ∧ (0 : ℝ) ≤ 9 / 16 ∧ terrace.r.Moderate := by
  unfold RasterInfo.Moderate terrace
  rw [abs_of_pos (by norm_num), abs_of_neg (by norm_num)]
  norm_num

theorem terrace_slack : slackX terrace.r < 1 / 1000 ∧ slackY terrace.r < 1 / 1000 := by
  unfold slackX slackY terrace
  rw [abs_of_pos (by norm_num), abs_of_neg (by norm_num)]
  norm_num

theorem terrace_limits (R : Rounding) {k : ℕ} {L B : Limits}
    (hL : (TileGrid.initFl R (9 / 16) terrace.r).getGridlimit k = .ok L)
    (hB : (TileGrid.initFl R (9 / 16) terrace.r).getGridlimitBuffer k = .ok B) :
    ((0 ≤ B.x1 ∧ B.x1 ≤ L.x1 ∧ L.x1 < L.x2 ∧ L.x2 ≤ B.x2 ∧ B.x2 ≤ 32) ∧
      0 ≤ B.y1 ∧ B.y1 ≤ L.y1 ∧ L.y1 < L.y2 ∧ L.y2 ≤ B.y2 ∧ B.y2 ≤ 32) ∧ B.x2 - B.x1 ≤ 25 ∧ B.y2 - B.y1 ≤ 25 := by
  obtain ⟨p1, p2, p3, p4⟩ := terrace_pos
  obtain ⟨-, h, -⟩ := geoFl R p1 p2 p3 p4 hL hB
  refine ⟨h, ?_⟩
  have hk := gridlimitFl_lt hL
  rw [gridlimitBufferFl_ok hk] at hB
  cases hB
  obtain ⟨g1, g2, g3, g4⟩ := terrace_grid R
  simp only [g1, g2, g3, g4] at h ⊢
  have d1 : (terrace.r.xDim : ℤ) = 32 := rfl
  have d2 : (terrace.r.yDim : ℤ) = 32 := rfl
  rw [d1, d2] at *
  generalize ((k / nRowsFl R terrace.r : ℕ) : ℤ) = i at *
  generalize ((k % nRowsFl R terrace.r : ℕ) : ℤ) = j at *
  omega

theorem terrace_tile (R : Rounding) {k : ℕ} {L B : Limits}
    (hL : (TileGrid.initFl R (9 / 16) terrace.r).getGridlimit k = .ok L)
    (hB : (TileGrid.initFl R (9 / 16) terrace.r).getGridlimitBuffer k = .ok B) :
    TileCaseFl R terrace (9 / 16) k L B ⟨(B.y2 - B.y1).toNat, (B.x2 - B.x1).toNat, fun _ _ => 90⟩
      ⟨(B.y2 - B.y1).toNat, (B.x2 - B.x1).toNat, fun _ _ => 90⟩ 90 terraceCat := by
  obtain ⟨p1, p2, p3, p4⟩ := terrace_pos
  obtain ⟨s1, s2⟩ := terrace_slack
  obtain ⟨g1, g2, g3, g4⟩ := terrace_grid R
  obtain ⟨⟨⟨c0, c1, c2, c3, c4⟩, d0, d1, d2, d3, d4⟩, -⟩ := terrace_limits R hL hB
  refine ⟨p1, p2, p1, p2, p3, p4, hL, hB, isLandcover_same terrace rfl p1 p2, ?_, ?_, rfl,
    (hillside_width _ _ (by omega) (by omega)).symm, by norm_num, fun _ _ _ _ => ⟨by norm_num, by norm_num⟩,
    by norm_num, by rw [g3]; norm_num, by rw [g4]; norm_num, by norm_num [terrace], one_ne_zero, ?_⟩
  · intro px py _ n
    have key : ∀ m : ℤ, (1 : ℝ) / 32 ≤ |(m : ℝ) + 1 / 2| / 16 := by
      intro m
      rcases lt_or_ge m 0 with h | h
      · have : (m : ℝ) ≤ -1 := by exact_mod_cast (by omega : m ≤ -1)
        rw [abs_of_neg (by linarith)]
        linarith
      · have : (0 : ℝ) ≤ m := by exact_mod_cast h
        rw [abs_of_nonneg (by linarith)]
        linarith
    have e : ∀ m : ℤ, |(m : ℝ) + 1 / 2| / 16 = |((m : ℝ) + 1 / 2) * (1 / 16)| := by
      intro m
      rw [abs_mul, abs_of_pos (by norm_num : (0 : ℝ) < 1 / 16)]
      ring
    constructor
    · refine le_trans (by linarith) ((key (px - n)).trans ?_)
      rw [e]
      apply le_of_eq
      congr 1
      simp only [terrace, RasterInfo.lonCentre, RasterInfo.lonEdge]
      push_cast
      ring
    · refine le_trans (by linarith) ((key (py - n)).trans ?_)
      rw [e, ← abs_neg]
      apply le_of_eq
      congr 1
      simp only [terrace, RasterInfo.latCentre, RasterInfo.latEdge]
      push_cast
      ring
  · right; left
    have h1 : (B.y1 : ℝ) ≤ 32 := by exact_mod_cast (by omega : B.y1 ≤ 32)
    have h2 : terrace.r.latEdge B.y1 = -30 + B.y1 * -(1 / 16) := rfl
    rw [h2]
    linarith
  · refine ⟨B.x1.toNat, B.y1.toNat, ⟨by omega, by omega, by omega, by omega⟩, ?_⟩
    have := slope_class
    show 0 < classMz slopeInputs.terrainTable 1
    rw [this.1]
    exact lt_of_lt_of_le (by norm_num) this.2

theorem terrace_read (R : Rounding) : RunReadFl R slopeFp terrace terraceRead (9 / 16) terraceCat where
  rasters := ⟨rfl, rfl, rfl⟩
  read := by
    intro k L B xm ym gw t
    obtain ⟨⟨⟨c0, c1, c2, c3, c4⟩, d0, d1, d2, d3, d4⟩, w1, w2⟩ := terrace_limits R t.limits t.limitsB
    have t' := terrace_tile R t.limits t.limitsB
    have hs := t.sizes
    have hw := t.width
    rw [t'.sizes, Except.ok.injEq, Prod.mk.injEq] at hs
    obtain ⟨rfl, rfl⟩ := hs
    rw [hillside_width _ _ (by omega) (by omega)] at hw
    subst hw
    obtain ⟨h1, h2, -⟩ := t.dem_same
    refine ⟨_, _, ⟨⟨rfl, rfl, rfl, rfl, rfl⟩, slopeAsRead.terrain, slopeAsRead.shield, rfl,
      ⟨⟨rfl, rfl, h1, h2, h1, h2⟩, fun _ _ _ _ => ⟨by norm_num, by norm_num⟩,
        fun _ _ _ _ => ⟨⟨90, by norm_num, rfl⟩, 90, by norm_num, rfl⟩⟩,
      ⟨by show ((B.y2 - B.y1).toNat : ℤ) = _; omega, by show ((B.x2 - B.x1).toNat : ℤ) = _; omega⟩, ?_, ?_, le_rfl,
      by norm_num, slopeAsRead.clear500, slopeAsRead.clear200, slopeAsRead.clear100, ?_,
      ⟨by omega, by omega⟩⟩⟩
    · show (rowsTree ((B.x2 - B.x1).toNat - 1) ((B.y2 - B.y1).toNat - 1)).Covers (B.y2 - B.y1).toNat (B.x2 - B.x1).toNat
      have := rowsTree_covers ((B.x2 - B.x1).toNat - 1) ((B.y2 - B.y1).toNat - 1)
      rwa [Nat.sub_add_cancel (by omega), Nat.sub_add_cancel (by omega)] at this
    · refine (rowsTree_depth _ _).trans ?_
      show (B.x2 - B.x1).toNat - 1 + ((B.y2 - B.y1).toNat - 1) ≤ 60
      omega
    · intro i hi j _
      show |9 * (i : ℝ)| ≤ 4000
      have hi : (i : ℝ) ≤ 32 := by exact_mod_cast hi.le
      rw [abs_of_nonneg (by positivity)]
      linarith

theorem terrace_case (R : Rounding) : ∃ tiles,
    RunCaseFl R terrace (9 / 16) terraceCat oneDecimal ['/', 'o'] tiles := by
  obtain ⟨p1, p2, p3, p4⟩ := terrace_pos
  obtain ⟨g1, g2, g3, g4⟩ := terrace_grid R
  obtain ⟨tiles, ht⟩ : ∃ l, (TileGrid.initFl R (9 / 16) terrace.r).getTilesFl R oneDecimal = .ok l := by
    refine mapM_exists fun k hk => ?_
    have hk : k < nColsFl R terrace.r * nRowsFl R terrace.r := by
      rw [← numTilesFl R (9 / 16)]; exact List.mem_range.mp hk
    simp only [TileGrid.getTilenameFl, TileGrid.getStartcordFl, TileGrid.getTileExtentBufferFl,
      TileGrid.getTileExtentFl, gridlimitFl_ok hk, gridlimitBufferFl_ok hk]
    exact ⟨_, rfl⟩
  refine ⟨tiles, oneDecimal_renders, oneDecimal_fine, ?_, by decide, p1, p2, p3, by norm_num [terrace],
    by norm_num [terrace], p4, ?_, ?_, ht, ?_⟩
  · intro k p hp
    unfold TileGrid.getStartcordFl at hp
    match hL : (TileGrid.initFl R (9 / 16) terrace.r).getGridlimit k with
    | .error e => rw [hL] at hp; cases hp
    | .ok L =>
      rw [hL] at hp
      cases hp
      obtain ⟨⟨⟨c0, c1, c2, c3, c4⟩, d0, d1, d2, d3, d4⟩, -⟩ :=
        terrace_limits R hL (gridlimitBufferFl_ok (gridlimitFl_lt hL))
      have hx : L.x1 < 32 := by omega
      have hy : L.y1 < 32 := by omega
      have hx0 : 0 ≤ L.x1 := by omega
      have hy0 : 0 ≤ L.y1 := by omega
      obtain ⟨n1, n2⟩ := extentFl_corner R (9 / 16) terrace.r p1 p2 L hx0 hx hy0 hy
      obtain ⟨s1, s2⟩ := terrace_slack
      have f1 : (L.x1 : ℝ) ≤ 32 := by exact_mod_cast hx.le
      have f2 : (L.y1 : ℝ) ≤ 32 := by exact_mod_cast hy.le
      have f3 : (0 : ℝ) ≤ L.x1 := by exact_mod_cast hx0
      have f4 : (0 : ℝ) ≤ L.y1 := by exact_mod_cast hy0
      have e1 : terrace.r.lonEdge L.x1 = 150 + L.x1 * (1 / 16) := rfl
      have e2 : terrace.r.latEdge L.y1 = -30 + L.y1 * -(1 / 16) := rfl
      rw [abs_lt] at n1 n2
      rw [e1] at n1
      rw [e2] at n2
      change -slackX terrace.r < R.rnd _ - _ ∧ R.rnd _ - _ < _ at n1
      change -slackY terrace.r < -R.rnd _ - _ ∧ -R.rnd _ - _ < _ at n2
      unfold PlainCoord
      dsimp only
      rw [abs_of_pos (by linarith [n1.1]), abs_of_pos (by linarith [n2.2])]
      refine ⟨⟨⟨.inr ?_, ?_⟩, ?_⟩, ⟨.inr ?_, ?_⟩, ?_⟩ <;> linarith [n1.1, n1.2, n2.1, n2.2]
  · rw [g1, g3]; right; norm_num [terrace]
  · rw [g2, g4]; right; norm_num [terrace]
  · intro k hk
    rw [numTilesFl] at hk
    exact .inr ⟨_, _, _, _, _, terrace_tile R (gridlimitFl_ok hk) (gridlimitBufferFl_ok hk)⟩

/-- A run with three workers on this raster in double precision, completed: there is a GeoTIFF with the multipliers of
the pixel in row 15 and column 20 up to 0.0005. -/
example : ∃ tiles j s,
    RunSteps (terraceRead.runCfgGeo ieee slopeFp ['/', 'o'] 3 tiles) j
      ((terraceRead.runCfgGeo ieee slopeFp ['/', 'o'] 3 tiles).start fun _ => none) s ∧
    (terraceRead.runCfgGeo ieee slopeFp ['/', 'o'] 3 tiles).Done s ∧
    ∃ k n L B xm ym gw tif, (TileGrid.initFl ieee (9 / 16) terrace.r).getTilenameFl ieee oneDecimal k = .ok n ∧
      L.Has 20 15 ∧ s.store (pjoin ['/', 'o'] (m3File n)) = some (.tif tif) ∧
      CentresNear terrace.r L tif.transform ∧ BandsNear (1 / 2000) terrace L B xm ym gw terraceCat tif := by
  obtain ⟨tiles, h⟩ := terrace_case ieee
  have hr := terrace_read ieee
  obtain ⟨j, s, h1, -, h2⟩ := C94_completes _ (h.good (N := slopeFp) (cf := terraceRead) 3)
    (h.shapes hr 3) (fun _ => none) 0 _ (.refl _)
  refine ⟨tiles, j, s, h1, h2, ?_⟩
  obtain ⟨k, L, n, -, hp, -, hn, h3⟩ := C119_every_pixel h hr 3 _ j s h1 h2 20 15
    (by norm_num [terrace]) (by norm_num [terrace])
  rcases h3 with ⟨EB, -, h4, -⟩ | ⟨B, xm, ym, gw, tif, mx, -, h4, h5, h6, -⟩
  · cases h4
  · exact ⟨k, n, L, B, xm, ym, gw, tif, hn, hp, h4, h5, h6⟩

end WindMult
