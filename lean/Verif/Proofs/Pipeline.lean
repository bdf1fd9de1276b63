import Verif.Spec.Pipeline
import Verif.Props.Terrain
import Verif.Props.TerrainDriver
import Verif.Props.ShieldCell
import Verif.Props.ShieldBlur
import Verif.Props.SlopeAspect
import Verif.Props.TopoGrid

/-!
# Lemmas for the end-to-end theorems
-/

set_option linter.unusedSectionVars false
set_option autoImplicit false

namespace WindMult

/-! ### Tables -/

theorem find_reverse_none {α : Type} (p : α → Bool) (l : List α) (h : l.reverse.find? p = none) :
    ∀ x ∈ l, p x = false := by
  intro x hx
  have := List.find?_eq_none.mp h x (List.mem_reverse.mpr hx)
  simpa using this

theorem find_reverse_some {α : Type} (p : α → Bool) (l : List α) (x : α)
    (h : l.reverse.find? p = some x) :
    ∃ before after, l = before ++ x :: after ∧ p x = true ∧ ∀ y ∈ after, p y = false := by
  obtain ⟨hx, as, bs, e, hn⟩ := List.find?_eq_some_iff_append.mp h
  refine ⟨bs.reverse, as.reverse, ?_, hx, fun y hy => by simpa using hn y (List.mem_reverse.mp hy)⟩
  have := congrArg List.reverse e
  simpa using this

theorem mzFormula_eq (z : ℝ) : mzFormula z = roughnessMz z := by
  unfold mzFormula roughnessMz
  rw [show (4554 / 10000 : ℝ) * Real.log z + 3734 / 1000 = 3.734 + 0.4554 * Real.log z from by
    norm_num; ring]
  norm_num
  ring

theorem terrainClass2mz_val (data : Grid ℤ) (table : List (TerrainRow ℤ ℝ)) (i j : ℕ) :
    (terrainClass2mz mzFormula data table).val i j = classMz table (data.val i j) := by
  unfold classMz
  cases h : table.reverse.find? (fun row => row.category = data.val i j) with
  | none =>
    exact C26_unknown_category _ _ _ _ _ fun r hr => by simpa using find_reverse_none _ _ h r hr
  | some row =>
    obtain ⟨b, a, e, h1, h2⟩ := find_reverse_some _ _ _ h
    rw [e]
    show _ = roughnessMz row.roughness
    rw [← mzFormula_eq]
    exact C26_last_matching_row _ _ _ _ _ _ _ (by simpa using h1)
      fun r hr => by simpa using h2 r hr

theorem class2msCell_val (table : List (ℤ × ℝ)) (cat : ℤ) :
    class2msCell none table cat = classMs table cat := by
  unfold classMs
  by_cases h99 : cat = -99
  · simp [class2msCell, h99]
  · rw [if_neg h99]
    cases h : table.reverse.find? (fun row => row.1 = cat) with
    | none =>
      exact C38_unknown_category _ _ _ (by simp) h99
        fun r hr => by simpa using find_reverse_none _ _ h r hr
    | some row =>
      obtain ⟨b, a, e, h1, h2⟩ := find_reverse_some _ _ _ h
      have h1 : row.1 = cat := by simpa using h1
      obtain ⟨r1, r2⟩ := row
      simp only at h1
      subst h1
      rw [e]
      exact C38_last_matching_row _ _ _ _ _ (by simp) h99 fun r hr => by simpa using h2 r hr

theorem lookup_of_map_fst {α : Type} (l : List (Dir × α)) (d : Dir) (h : d ∈ l.map Prod.fst) :
    ∃ g, l.lookup d = some g ∧ (d, g) ∈ l := by
  induction l with
  | nil => simp at h
  | cons x xs ih =>
    obtain ⟨d', g⟩ := x
    by_cases he : d = d'
    · subst he
      exact ⟨g, by simp, by simp⟩
    · obtain ⟨g', h1, h2⟩ := ih (by simpa [he] using h)
      refine ⟨g', ?_, by simp [h2]⟩
      rw [List.lookup_cons, beq_false_of_ne he]
      exact h1

/-! ### Arrays that agree inside their shape -/

theorem upwindMean_same {K : Type} [Field K] (g h : Grid K) (hs : g.Same h) (d : Dir) (w l i j : ℕ)
    (hi : i < g.rows) (hj : j < g.cols) : upwindMean g d w l i j = upwindMean h d w l i j := by
  obtain ⟨hr, hc, hv⟩ := hs
  unfold upwindMean
  rw [← hr, ← hc, hv i hi j hj]
  have : ∀ t ∈ upwindDistances g.rows g.cols d w l i j, g.upwind d i j t = h.upwind d i j t := by
    intro t ht
    obtain ⟨a, b, c, e⟩ := (Finset.mem_filter.mp ht).2
    exact hv _ (by omega) _ (by omega)
  rw [Finset.sum_congr rfl this]

theorem cellOrOne_same {K : Type} [Field K] (g h : Grid (Option K)) (hs : g.Same h) (r c : ℤ) :
    g.cellOrOne r c = h.cellOrOne r c := by
  obtain ⟨hr, hc, hv⟩ := hs
  unfold Grid.cellOrOne
  rw [← hr, ← hc]
  split
  · rename_i hin
    obtain ⟨a, b, c', e⟩ := hin
    exact hv _ (by omega) _ (by omega)
  · rfl

theorem shieldMean_same {K : Type} [Field K] (g h : Grid (Option K)) (hs : g.Same h) (d : Dir)
    (k i j : ℕ) : shieldMean g d k i j = shieldMean h d k i j := by
  unfold shieldMean
  simp only [cellOrOne_same g h hs]

/-! ### Slope and aspect -/

/-- The shielding of a cell with a known initial value. -/
theorem combineCell_ground (d : Dir) (m dx dn h s : ℝ) (f : FallsTowards dx dn h s)
    [Decidable (InSector d h)] :
    combineCell d (some m) (some (slopeDegrees dx (-dn)))
        (reclassifyAspect (some (aspectDegrees dx (-dn)))) =
      some (finalMs (slopeAdjusted (InSector d h) m (some s))) := by
  rw [combine_value, f.slope]
  have key : slopeAdjusted (reclassifyAspect (some (aspectDegrees dx (-dn))) = direAspect d) m (some s)
      = slopeAdjusted (InSector d h) m (some s) := by
    by_cases hs : 0 < s
    · rw [f.aspect hs]
      have := C29_class_iff_sector d h f.1 f.2.1.le
      unfold slopeAdjusted
      simp only [this]
    · have hs : s = 0 := le_antisymm (not_lt.mp hs) f.2.2.1
      have hw : slopeWeight (some s) = 0 := by
        rw [hs]; unfold slopeWeight; norm_num
      unfold slopeAdjusted
      rw [hw]
      split_ifs <;> ring
  rw [key]
  rfl

/-! ### Topography -/

/-- The exact value of every point of a line, the last one included. -/
theorem multiplierCalc_exact (line : Line ℝ) (ds : ℝ) (hds : 0 < ds) :
    ∃ m, multiplierCalc line ds = .ok m ∧ ∀ p < line.size, IsLineMultiplier line.wholeMetres ds p (m.val p) := by
  obtain ⟨m, h1, h2, h3⟩ := multiplierCalc_spec line ds
  refine ⟨m, h1, fun p hp => ?_⟩
  show IsLineMultiplier line.floored ds p (m.val p)
  obtain ⟨a1, a2, a3⟩ := h3 p
  have hval : ∀ v r, line.floored.IsHill v r →
      hillCounts (line.floored.val r - line.floored.val v) (halfWidth v r ds) ds →
      (mhCalc line.floored r v ds).val p =
        if p + 1 = line.floored.size ∧ r < p ∧ line.floored.escarpment v r *
          (4 * max (0.36 * halfWidth v r ds) (0.4 * (line.floored.val r - line.floored.val v))) ≤
            ((p : ℝ) - r) * ds
        then line.floored.hillValue v r ds (-1) else line.floored.hillValue v r ds p := by
    intro v r hh hc
    rw [mhCalc_value line.floored v r ds hds hh.2.2.1 hh.2.2.2.1 (hill_height _ v r hh) hc p hp]
    rw [show (36 / 100 : ℝ) = 0.36 by norm_num, show (4 / 10 : ℝ) = 0.4 by norm_num]
    simp only [and_comm (b := r < p)]
  constructor
  · rcases a3 with h | ⟨v, r, hh, h⟩
    · exact Or.inl h
    · by_cases hc : hillCounts (line.floored.val r - line.floored.val v) (halfWidth v r ds) ds
      · exact Or.inr ⟨v, r, hh, hc, by rw [h, hval v r hh hc]⟩
      · exact Or.inl (by rw [h, mhCalc_small _ v r ds hh.2.2.1 hc])
  · rintro x (rfl | ⟨v, r, hh, hc, rfl⟩)
    · exact a1
    · rw [← hval v r hh hc]
      exact a2 v r hh

theorem adjustedMt_eq (tas : Prop) [Decidable tas] (z x : ℝ) :
    topoCorrected tas (some z) x = adjustedMt tas z x := rfl

theorem lineSpacing_eq (d : Dir) (gw : ℝ) : lineSpacing d gw (√2) = stepLength d gw := by
  cases d <;> simp [lineSpacing, stepLength, Dir.north, Dir.east, mul_comm]

theorem stepLength_pos (d : Dir) (gw : ℝ) (h : 0 < gw) : 0 < stepLength d gw := by
  unfold stepLength
  split_ifs
  · exact h
  · positivity

theorem transectLine_same (g h : Grid ℝ) (hs : g.Same h) (d : Dir) (r c : ℤ) (u n : ℕ)
    (ht : IsTransect g.rows g.cols d r c u n) :
    transectLine (g.map some) d r c u n = transectLine (h.map some) d r c u n := by
  unfold transectLine
  congr 1
  funext t
  split_ifs with h1
  · obtain ⟨a, b, c', e⟩ := ht.2.1 t h1
    show (some _).getD 0 = (some _).getD 0
    rw [hs.2.2 _ (by omega) _ (by omega)]
  · rfl

theorem rawMt_same (g h : Grid ℝ) (hs : g.Same h) (d : Dir) (ds : ℝ) (tas : Prop) [Decidable tas]
    (r c : ℤ) (x : ℝ) (hx : IsRawMt g d ds tas r c x) : IsRawMt h d ds tas r c x := by
  have hs' := hs
  obtain ⟨h1, h2, h3⟩ := hs'
  unfold IsRawMt at *
  rw [← h1, ← h2]
  refine ⟨fun hin => ?_, hx.2⟩
  obtain ⟨u, n, y, e1, e2, e3⟩ := hx.1 hin
  obtain ⟨p1, p2, p3, p4⟩ := hin
  refine ⟨u, n, y, e1, ?_, ?_⟩
  · rw [← transectLine_same g h hs d r c u n e1]
    exact e2
  · rw [e3, h3 _ (by omega) _ (by omega)]

/-- What one direction of `topomult` computes. -/
theorem topoDir_exact (g : Grid ℝ) (hr : 0 < g.rows) (hc : 0 < g.cols) (gw : ℝ) (h0 : 0 < gw)
    (xl yu : ℝ) (d : Dir) :
    ∃ out, topoDir (g.map some) gw (√2) xl yu d = .ok out ∧ out.rows = g.rows ∧ out.cols = g.cols ∧
      ∀ i j : ℕ, i < g.rows → j < g.cols → ∃ x : ℤ → ℤ → ℝ,
        (∀ a b, IsRawMt g d (stepLength d gw) (143 < xl ∧ 40 < yu) (i + a) (j + b) (x a b)) ∧
        out.val i j = some ((∑ a ∈ {-1, 0, 1}, ∑ b ∈ {-1, 0, 1}, x a b) / 9) := by
  obtain ⟨raw, q1, q2, q3, q4⟩ := C54_cell_from_transect (g.map some) hr hc gw (√2) xl yu d
  have q2 : raw.rows = g.rows := q2
  have q3 : raw.cols = g.cols := q3
  refine ⟨_, by unfold topoDir; rw [q1]; rfl, q2, q3, fun i j hi hj => ?_⟩
  refine ⟨fun a b => raw.orZero (i + a) (j + b), fun a b => ⟨fun hin => ?_, fun hout => ?_⟩, ?_⟩
  · have hin' : InRaster raw.rows raw.cols (i + a) (j + b) := by rw [q2, q3]; exact hin
    simp only [orZero_of_in _ _ _ hin']
    obtain ⟨p1, p2, p3, p4⟩ := hin
    obtain ⟨⟨u, n, hT⟩, hall⟩ := q4 (i + a).toNat (j + b).toNat (show _ < g.rows by omega)
      (show _ < g.cols by omega)
    obtain ⟨m, m1, m2⟩ := hall u n hT
    have ec1 : (((i : ℤ) + a).toNat : ℤ) = i + a := by omega
    have ec2 : (((j : ℤ) + b).toNat : ℤ) = j + b := by omega
    rw [ec1, ec2] at hT m1
    obtain ⟨m', m3, m4⟩ := multiplierCalc_exact (transectLine (g.map some) d (i + a) (j + b) u n)
      (stepLength d gw) (stepLength_pos d gw h0)
    rw [lineSpacing_eq, m3] at m1
    cases m1
    refine ⟨u, n, m.val u, hT, m4 u hT.1, ?_⟩
    rw [m2]
    exact adjustedMt_eq _ _ _
  · exact orZero_of_out _ _ _ (by rw [q2, q3]; exact hout)
  · show some (smoothCell raw i j) = _
    rw [smoothCell_eq]
    simp [Finset.sum_insert, sub_eq_add_neg]
    ring

/-! ### The geometry of a tile -/

/-- The means over upwind cells are the same in the tile and in the raster, if the buffer holds them. -/
theorem upwindMean_margin {rows cols : ℕ} {L B : Limits} {bX bY : ℤ}
    (hg : (0 ≤ B.x1 ∧ B.x1 ≤ L.x1 ∧ L.x1 < L.x2 ∧ L.x2 ≤ B.x2 ∧ B.x2 ≤ cols) ∧
      (0 ≤ B.y1 ∧ B.y1 ≤ L.y1 ∧ L.y1 < L.y2 ∧ L.y2 ≤ B.y2 ∧ B.y2 ≤ rows) ∧
      (B.x1 = 0 ∨ L.x1 - B.x1 = bX) ∧ (B.x2 = cols ∨ B.x2 - L.x2 = bX) ∧
      (B.y1 = 0 ∨ L.y1 - B.y1 = bY) ∧ (B.y2 = rows ∨ B.y2 - L.y2 = bY))
    (whole : Grid ℝ) (hrows : whole.rows = rows) (hcols : whole.cols = cols) (d : Dir) (width lag : ℕ)
    (hbx : (lag + width : ℤ) ≤ bX) (hby : (lag + width : ℤ) ≤ bY) (px py : ℕ) (hp : L.Has px py) :
    upwindMean (whole.window B) d width lag (py - B.y1.toNat) (px - B.x1.toNat) =
      upwindMean whole d width lag py px := by
  obtain ⟨⟨a0, a1, a2, a3, a4⟩, ⟨b0, b1, b2, b3, b4⟩, c1, c2, c3, c4⟩ := hg
  obtain ⟨p1, p2, p3, p4⟩ := hp
  have hwr : ((whole.window B).rows : ℤ) = B.y2 - B.y1 := by simp [Grid.window]; omega
  have hwc : ((whole.window B).cols : ℤ) = B.x2 - B.x1 := by simp [Grid.window]; omega
  have hset : upwindDistances (whole.window B).rows (whole.window B).cols d width lag
      (py - B.y1.toNat) (px - B.x1.toNat) = upwindDistances whole.rows whole.cols d width lag py px := by
    unfold upwindDistances
    apply Finset.filter_congr
    intro t ht
    have ht' := Finset.mem_Icc.mp ht
    simp only [InRaster, hwr, hwc]
    cases d <;> simp only [Dir.rowUp, Dir.colUp, Dir.north, Dir.east] <;> omega
  have hval : ∀ t ∈ upwindDistances whole.rows whole.cols d width lag py px,
      (whole.window B).upwind d (py - B.y1.toNat) (px - B.x1.toNat) t = whole.upwind d py px t := by
    intro t ht
    have hmem := ht
    rw [← hset] at hmem
    obtain ⟨q1, q2, q3, q4⟩ := (Finset.mem_filter.mp ht).2
    obtain ⟨r1, r2, r3, r4⟩ := (Finset.mem_filter.mp hmem).2
    simp only [Grid.upwind, Grid.window]
    congr 1
    · cases d <;> simp only [Dir.rowUp, Dir.north] at * <;> omega
    · cases d <;> simp only [Dir.colUp, Dir.east] at * <;> omega
  unfold upwindMean
  rw [hset, Finset.sum_congr rfl hval]
  have hself : (whole.window B).val (py - B.y1.toNat) (px - B.x1.toNat) = whole.val py px := by
    simp only [Grid.window]
    congr 1 <;> omega
  rw [hself]

/-- The same for the cells that shield a pixel. -/
theorem shieldMean_margin {rows cols : ℕ} {L B : Limits} {bX bY : ℤ}
    (hg : (0 ≤ B.x1 ∧ B.x1 ≤ L.x1 ∧ L.x1 < L.x2 ∧ L.x2 ≤ B.x2 ∧ B.x2 ≤ cols) ∧
      (0 ≤ B.y1 ∧ B.y1 ≤ L.y1 ∧ L.y1 < L.y2 ∧ L.y2 ≤ B.y2 ∧ B.y2 ≤ rows) ∧
      (B.x1 = 0 ∨ L.x1 - B.x1 = bX) ∧ (B.x2 = cols ∨ B.x2 - L.x2 = bX) ∧
      (B.y1 = 0 ∨ L.y1 - B.y1 = bY) ∧ (B.y2 = rows ∨ B.y2 - L.y2 = bY))
    (whole : Grid (Option ℝ)) (hrows : whole.rows = rows) (hcols : whole.cols = cols) (d : Dir) (k : ℕ)
    (hbx : (k : ℤ) ≤ bX) (hby : (k : ℤ) ≤ bY) (px py : ℕ) (hp : L.Has px py) :
    shieldMean (whole.window B) d k (py - B.y1.toNat) (px - B.x1.toNat) = shieldMean whole d k py px := by
  obtain ⟨⟨a0, a1, a2, a3, a4⟩, ⟨b0, b1, b2, b3, b4⟩, c1, c2, c3, c4⟩ := hg
  obtain ⟨p1, p2, p3, p4⟩ := hp
  have hcell : ∀ o ∈ shieldCells d k,
      (whole.window B).cellOrOne (((py - B.y1.toNat : ℕ) : ℤ) + o.1) (((px - B.x1.toNat : ℕ) : ℤ) + o.2)
        = whole.cellOrOne (py + o.1) (px + o.2) := by
    intro o ho
    have hb := shieldCells_bounds d k o ho
    unfold Grid.cellOrOne
    have hwr : ((whole.window B).rows : ℤ) = B.y2 - B.y1 := by simp [Grid.window]; omega
    have hwc : ((whole.window B).cols : ℤ) = B.x2 - B.x1 := by simp [Grid.window]; omega
    by_cases hin : InRaster whole.rows whole.cols (py + o.1) (px + o.2)
    · obtain ⟨q1, q2, q3, q4⟩ := hin
      rw [if_pos (show InRaster _ _ (_ + _) (_ + _) from ⟨by omega, by omega, by omega, by omega⟩),
        if_pos ⟨q1, q2, q3, q4⟩]
      simp only [Grid.window]
      congr 1 <;> omega
    · rw [if_neg hin, if_neg]
      rintro ⟨q1, q2, q3, q4⟩
      exact hin ⟨by omega, by omega, by omega, by omega⟩
  unfold shieldMean
  have hex : (∃ o ∈ shieldCells d k, (whole.window B).cellOrOne (((py - B.y1.toNat : ℕ) : ℤ) + o.1)
        (((px - B.x1.toNat : ℕ) : ℤ) + o.2) = none) ↔
      ∃ o ∈ shieldCells d k, whole.cellOrOne (py + o.1) (px + o.2) = none := by
    constructor
    · rintro ⟨o, ho, h⟩; exact ⟨o, ho, (hcell o ho) ▸ h⟩
    · rintro ⟨o, ho, h⟩; exact ⟨o, ho, (hcell o ho).trans h⟩
  by_cases h : ∃ o ∈ shieldCells d k, whole.cellOrOne (py + o.1) (px + o.2) = none
  · rw [if_pos (hex.mpr h), if_pos h]
  · rw [if_neg (fun h' => h (hex.mp h')), if_neg h]
    congr 2
    exact Finset.sum_congr rfl fun o ho => by rw [hcell o ho]

/-- What the computation of a tile depends on, apart from how limits and extents come about: `B` surrounds `L` by
`bX` and `bY` pixels or reaches the edge of the raster, the rasters of the tile are blocks of the whole ones, and
clipping takes the block `L` out of the block `B`. -/
structure TileAt (c : Inputs) (L B : Limits) (bX bY : ℤ) (E EB : Extent ℝ) (xm ym : Grid ℝ) (gw : ℝ)
    (cat : Grid ℤ) : Prop where
  pw : 0 < c.r.gt1
  ph : c.r.gt5 < 0
  geometry : (0 ≤ B.x1 ∧ B.x1 ≤ L.x1 ∧ L.x1 < L.x2 ∧ L.x2 ≤ B.x2 ∧ B.x2 ≤ c.r.xDim) ∧
    (0 ≤ B.y1 ∧ B.y1 ≤ L.y1 ∧ L.y1 < L.y2 ∧ L.y2 ≤ B.y2 ∧ B.y2 ≤ c.r.yDim) ∧
    (B.x1 = 0 ∨ L.x1 - B.x1 = bX) ∧ (B.x2 = c.r.xDim ∨ B.x2 - L.x2 = bX) ∧
    (B.y1 = 0 ∨ L.y1 - B.y1 = bY) ∧ (B.y2 = c.r.yDim ∨ B.y2 - L.y2 = bY)
  dem_same : (cutDem c.r c.dem EB 0).Same (c.elevation.window B)
  land_same : (cutLandcover c.lr c.lcv (clipInfo c.r EB) 0).Same (cat.window B)
  land : cat.rows = c.r.yDim ∧ cat.cols = c.r.xDim
  clip : ∀ {α : Type} (data : Grid α), (data.rows : ℤ) = B.y2 - B.y1 → (data.cols : ℤ) = B.x2 - B.x1 →
    let info := clipInfo c.r EB
    let out := clipArray data info.gt0 (-info.gt3) info.gt1 (-info.gt5) E
    (out.rows : ℤ) = L.y2 - L.y1 ∧ (out.cols : ℤ) = L.x2 - L.x1 ∧
    ∀ px py : ℕ, L.Has px py →
      out.val (py - L.y1.toNat) (px - L.x1.toNat) = data.val (py - B.y1.toNat) (px - B.x1.toNat)
  corner : (143 < EB.xStart ∧ 40 < -EB.yStart) ↔ (143 < c.r.lonEdge B.x1 ∧ c.r.latEdge B.y1 < -40)
  width : gw = gridWidth xm ym
  gwPos : 0 < gw
  sizesPos : ∀ i j : ℕ, (i : ℤ) < B.y2 - B.y1 → (j : ℤ) < B.x2 - B.x1 → 0 < xm.val i j ∧ 0 < ym.val i j
  gwFine : gw ≤ 100
  bufferX : 700 / gw + 1 ≤ bX
  bufferY : 700 / gw + 1 ≤ bY
  height : 700 / gw + 1 ≤ c.r.yDim
  notEmpty : c.checksum (cutDem c.r c.dem EB 0) ≠ 0
  someLand : ∃ px py : ℕ, B.Has px py ∧ 0 < classMz c.terrainTable (cat.val py px)

namespace TileCase
variable {c : Inputs} {up : ℝ} {k : ℕ} {L B : Limits} {E EB : Extent ℝ} {xm ym : Grid ℝ} {gw : ℝ}
  {cat : Grid ℤ}

theorem tile_lt (t : TileCase c up k L B E EB xm ym gw cat) :
    k < (TileGrid.init up c.r).numTiles := (C01_gridlimit_defined_iff up c.r k).mp ⟨L, t.limits⟩

theorem geometry (t : TileCase c up k L B E EB xm ym gw cat) :
    (0 ≤ B.x1 ∧ B.x1 ≤ L.x1 ∧ L.x1 < L.x2 ∧ L.x2 ≤ B.x2 ∧ B.x2 ≤ c.r.xDim) ∧
    (0 ≤ B.y1 ∧ B.y1 ≤ L.y1 ∧ L.y1 < L.y2 ∧ L.y2 ≤ B.y2 ∧ B.y2 ≤ c.r.yDim) ∧
    (B.x1 = 0 ∨ L.x1 - B.x1 = (TileGrid.init up c.r).xBuffer) ∧
    (B.x2 = c.r.xDim ∨ B.x2 - L.x2 = (TileGrid.init up c.r).xBuffer) ∧
    (B.y1 = 0 ∨ L.y1 - B.y1 = (TileGrid.init up c.r).yBuffer) ∧
    (B.y2 = c.r.yDim ∨ B.y2 - L.y2 = (TileGrid.init up c.r).yBuffer) := by
  obtain ⟨L', B', h1, h2, h⟩ := C03_buffer_surrounds_core up c.r t.pw t.ph t.upPos k t.tile_lt
  rw [t.limits] at h1; rw [t.limitsB] at h2
  cases h1; cases h2
  exact h

theorem near_self (t : TileCase c up k L B E EB xm ym gw cat) (X : Extent ℝ) :
    X.Near c.r.gt1 (-c.r.gt5) X := by
  have h1 := t.pw
  have h2 := t.ph
  simp only [Extent.Near, sub_self, abs_zero]
  refine ⟨?_, ?_, ?_, ?_⟩ <;> linarith

/-- The DEM tile. -/
theorem dem_same (t : TileCase c up k L B E EB xm ym gw cat) :
    (cutDem c.r c.dem EB 0).Same (c.elevation.window B) := by
  obtain ⟨⟨a0, a1, a2, a3, a4⟩, ⟨b0, b1, b2, b3, b4⟩, -⟩ := t.geometry
  obtain ⟨h1, h2, h3⟩ := C78_dem_tile_is_block up c.r t.pw t.ph t.upPos c.dem (0 : ℝ) k B EB EB
    t.limitsB t.extentB (t.near_self EB)
  refine ⟨by simp only [Grid.window]; omega, by simp only [Grid.window]; omega, ?_⟩
  intro i hi j hj
  have := h3 (B.x1.toNat + j) (B.y1.toNat + i)
    ⟨by push_cast; omega, by push_cast; omega, by push_cast; omega, by push_cast; omega⟩
  rw [Nat.add_sub_cancel_left, Nat.add_sub_cancel_left] at this
  rw [this]
  rfl

/-- The land-cover tile. -/
theorem land_same (t : TileCase c up k L B E EB xm ym gw cat) :
    (cutLandcover c.lr c.lcv (clipInfo c.r EB) 0).Same (cat.window B) := by
  obtain ⟨⟨a0, a1, a2, a3, a4⟩, ⟨b0, b1, b2, b3, b4⟩, -⟩ := t.geometry
  obtain ⟨h1, h2, h3⟩ := C79_landcover_tile up c.r t.pw t.ph t.upPos c.lr t.lw t.lh c.lcv (0 : ℤ) k
    B EB t.limitsB t.extentB
  obtain ⟨-, -, hcat⟩ := t.land
  refine ⟨by simp only [Grid.window]; omega, by simp only [Grid.window]; omega, ?_⟩
  intro i hi j hj
  obtain ⟨g1, g2⟩ := h3 (B.x1.toNat + j) (B.y1.toNat + i)
    ⟨by push_cast; omega, by push_cast; omega, by push_cast; omega, by push_cast; omega⟩
  obtain ⟨q1, q2⟩ := hcat (B.x1.toNat + j) (B.y1.toNat + i) (by omega) (by omega)
  rw [Nat.add_sub_cancel_left, Nat.add_sub_cancel_left] at g1 g2
  simp only [Grid.window]
  by_cases h : ∃ col row : ℕ, col < c.lr.xDim ∧ row < c.lr.yDim ∧
      c.lr.PixelAt (c.r.lonCentre (B.x1.toNat + j : ℕ)) (c.r.latCentre (B.y1.toNat + i : ℕ)) col row
  · obtain ⟨col, row, p1, p2, p3⟩ := h
    rw [g1 col row p1 p2 p3, q1 col row p1 p2 p3]
  · have h' : ∀ col row : ℕ, col < c.lr.xDim → row < c.lr.yDim →
        ¬ c.lr.PixelAt (c.r.lonCentre (B.x1.toNat + j : ℕ)) (c.r.latCentre (B.y1.toNat + i : ℕ))
          col row := fun col row p1 p2 p3 => h ⟨col, row, p1, p2, p3⟩
    rw [g2 h', q2 h']

/-- Clipping an array of the tile's size. -/
theorem clip (t : TileCase c up k L B E EB xm ym gw cat) {α : Type} (data : Grid α)
    (hr : (data.rows : ℤ) = B.y2 - B.y1) (hc : (data.cols : ℤ) = B.x2 - B.x1) :
    let info := clipInfo c.r EB
    let out := clipArray data info.gt0 (-info.gt3) info.gt1 (-info.gt5) E
    (out.rows : ℤ) = L.y2 - L.y1 ∧ (out.cols : ℤ) = L.x2 - L.x1 ∧
    ∀ px py : ℕ, L.Has px py →
      out.val (py - L.y1.toNat) (px - L.x1.toNat) =
        data.val (py - B.y1.toNat) (px - B.x1.toNat) := by
  obtain ⟨⟨a0, a1, a2, a3, a4⟩, ⟨b0, b1, b2, b3, b4⟩, -⟩ := t.geometry
  have h1 := t.pw
  have h2 := t.ph
  obtain ⟨o1, o2, o3, -⟩ := C06_clip_returns_core up c.r t.pw t.ph t.upPos k
    ⟨0, 0, fun a b => data.val (a - B.y1.toNat) (b - B.x1.toNat)⟩ data L B E EB E EB.xStart
    (-EB.yStart) t.limits t.limitsB t.extent t.extentB hr hc
    (fun i j => by simp) (by simpa using h1) (by simpa using h2) (t.near_self E)
  simp only [clipInfo, neg_neg]
  refine ⟨o1, o2, fun px py hp => ?_⟩
  obtain ⟨p1, p2, p3, p4⟩ := hp
  rw [o3]
  show data.val (L.y1.toNat + (py - L.y1.toNat) - B.y1.toNat)
    (L.x1.toNat + (px - L.x1.toNat) - B.x1.toNat) = _
  rw [Nat.add_sub_cancel' (by omega), Nat.add_sub_cancel' (by omega)]

/-- With exact arithmetic. -/
theorem toAt (t : TileCase c up k L B E EB xm ym gw cat) :
    TileAt c L B (TileGrid.init up c.r).xBuffer (TileGrid.init up c.r).yBuffer E EB xm ym gw cat where
  pw := t.pw
  ph := t.ph
  geometry := t.geometry
  dem_same := t.dem_same
  land_same := t.land_same
  land := ⟨t.land.1, t.land.2.1⟩
  clip := t.clip
  corner := by
    obtain ⟨L', B', E0, EB0, k1, k2, k3, k4, -, ⟨z1, z2, z3, z4⟩, -⟩ :=
      C05_extent_is_corner_coordinates up c.r t.pw t.ph t.upPos k t.tile_lt
    rw [t.limitsB] at k2; rw [t.extentB] at k4
    cases k2; cases k4
    rw [z1, z3]
    constructor <;> rintro ⟨q1, q2⟩ <;> exact ⟨q1, by linarith⟩
  width := t.width
  gwPos := t.gwPos
  sizesPos := t.sizesPos
  gwFine := t.gwFine
  bufferX := t.bufferX
  bufferY := t.bufferY
  height := t.height
  notEmpty := t.notEmpty
  someLand := t.someLand

end TileCase

namespace TileAt
variable {c : Inputs} {L B : Limits} {bX bY : ℤ} {E EB : Extent ℝ} {xm ym : Grid ℝ} {gw : ℝ} {cat : Grid ℤ}

/-- Widths, lags and the kernel fit into the buffer and the tile. -/
theorem fits (t : TileAt c L B bX bY E EB xm ym gw cat) (d : Dir) :
    1 ≤ (terrainWidths d gw).1 ∧ 0 ≤ (terrainWidths d gw).2 ∧
    (terrainWidths d gw).2 + (terrainWidths d gw).1 ≤ bX ∧
    (terrainWidths d gw).2 + (terrainWidths d gw).1 ≤ bY ∧
    (terrainWidths d gw).2 + (terrainWidths d gw).1 ≤ B.y2 - B.y1 := by
  have h0 := t.gwPos
  have hq : (0 : ℝ) < 100 / gw := by positivity
  have e5 : 500 / gw = 5 * (100 / gw) := by ring
  have e2 : 200 / gw = 2 * (100 / gw) := by ring
  have e7 : 700 / gw = 7 * (100 / gw) := by ring
  have key : ((((terrainWidths d gw).2 + (terrainWidths d gw).1 : ℤ)) : ℝ) ≤ 700 / gw + 1 := by
    unfold terrainWidths
    split
    · have r1 := abs_sub_around_le (500 / gw)
      have r2 := abs_sub_around_le (200 / gw)
      push_cast
      rw [abs_le] at r1 r2
      linarith [r1.1, r1.2, r2.1, r2.2]
    · have f5 : 500 / (gw * (1414 / 1000)) ≤ 500 / gw :=
        div_le_div_of_nonneg_left (by norm_num) h0 (by nlinarith)
      have f2 : 200 / (gw * (1414 / 1000)) ≤ 200 / gw :=
        div_le_div_of_nonneg_left (by norm_num) h0 (by nlinarith)
      have p5 : (0 : ℝ) ≤ 500 / (gw * (1414 / 1000)) := by positivity
      have p2 : (0 : ℝ) ≤ 200 / (gw * (1414 / 1000)) := by positivity
      simp only [pyInt, if_pos p5, if_pos p2]
      push_cast
      have := Int.floor_le (500 / (gw * (1414 / 1000)))
      have := Int.floor_le (200 / (gw * (1414 / 1000)))
      linarith
  obtain ⟨⟨a0, a1, a2, a3, a4⟩, ⟨b0, b1, b2, b3, b4⟩, -, -, c3, c4⟩ := t.geometry
  have hx : (terrainWidths d gw).2 + (terrainWidths d gw).1 ≤ bX := by
    exact_mod_cast key.trans t.bufferX
  have hy : (terrainWidths d gw).2 + (terrainWidths d gw).1 ≤ bY := by
    exact_mod_cast key.trans t.bufferY
  have hh : (terrainWidths d gw).2 + (terrainWidths d gw).1 ≤ (c.r.yDim : ℤ) := by
    exact_mod_cast key.trans t.height
  refine ⟨C24_fine_grid_width_pos d gw h0 (by linarith [t.gwFine]), terrainWidths_lag_nonneg d gw h0,
    hx, hy, ?_⟩
  rcases c3 with c3 | c3 <;> rcases c4 with c4 | c4 <;> omega

/-- C23 for the specification's mean. -/
theorem upwindMean_block (t : TileAt c L B bX bY E EB xm ym gw cat) (whole : Grid ℝ)
    (hr : whole.rows = c.r.yDim) (hc : whole.cols = c.r.xDim) (d : Dir) (px py : ℕ)
    (hp : L.Has px py) :
    upwindMean (whole.window B) d (terrainWidths d gw).1.toNat (terrainWidths d gw).2.toNat
        (py - B.y1.toNat) (px - B.x1.toNat) =
      upwindMean whole d (terrainWidths d gw).1.toNat (terrainWidths d gw).2.toNat py px := by
  obtain ⟨f1, f2, f3, f4, f5⟩ := t.fits d
  exact upwindMean_margin t.geometry whole hr hc d _ _ (by omega) (by omega) px py hp

/-- The terrain files of a tile. -/
theorem mz_file (t : TileAt c L B bX bY E EB xm ym gw cat) :
    let info := clipInfo c.r EB
    let clip := fun g : Grid (Option ℝ) =>
      clipArray g info.gt0 (-info.gt3) info.gt1 (-info.gt5) E
    ∃ mz, terrain mzFormula gw (cutLandcover c.lr c.lcv info 0) c.terrainTable clip = (mz, .ok ()) ∧
      ∀ d, ∃ g, mz.lookup d = some g ∧ (g.rows : ℤ) = L.y2 - L.y1 ∧ (g.cols : ℤ) = L.x2 - L.x1 ∧
        ∀ px py : ℕ, L.Has px py → g.val (py - L.y1.toNat) (px - L.x1.toNat) =
          if classMz c.terrainTable (cat.val py px) = 0 then none
          else some (upwindMean (waterMz c.terrainTable cat) d (terrainWidths d gw).1.toNat
            (terrainWidths d gw).2.toNat py px) := by
  intro info clip
  obtain ⟨⟨a0, a1, a2, a3, a4⟩, ⟨b0, b1, b2, b3, b4⟩, -⟩ := t.geometry
  obtain ⟨l1, l2, l3⟩ := t.land_same
  have r1 : ((cat.window B).rows : ℤ) = B.y2 - B.y1 := by simp only [Grid.window]; omega
  have r2 : ((cat.window B).cols : ℤ) = B.x2 - B.x1 := by simp only [Grid.window]; omega
  generalize hland : cutLandcover c.lr c.lcv info 0 = land at *
  have hval := terrainClass2mz_val land c.terrainTable
  obtain ⟨s1, s2⟩ := terrainClass2mz_shape mzFormula land c.terrainTable
  have hcell : ∀ px py : ℕ, B.Has px py →
      land.val (py - B.y1.toNat) (px - B.x1.toNat) = cat.val py px := by
    rintro px py ⟨p1, p2, p3, p4⟩
    rw [l3 _ (by omega) _ (by omega)]
    simp only [Grid.window]
    congr 1 <;> omega
  have hL : ∀ px py : ℕ, L.Has px py → B.Has px py := fun px py ⟨p1, p2, p3, p4⟩ =>
    ⟨by omega, by omega, by omega, by omega⟩
  have h69 := C69_terrain_outputs mzFormula gw t.gwPos (by linarith [t.gwFine]) land c.terrainTable clip
    _ _ rfl rfl
    (by
      obtain ⟨px, py, hb, hpos⟩ := t.someLand
      have hb' := hb
      obtain ⟨p1, p2, p3, p4⟩ := hb'
      exact ⟨py - B.y1.toNat, by omega, px - B.x1.toNat, by omega, by rw [hval, hcell px py hb]; exact hpos⟩)
    (fun d => by have := t.fits d; omega)
  obtain ⟨q1, q2, q3⟩ := h69
  refine ⟨_, Prod.ext rfl q1, fun d => ?_⟩
  obtain ⟨g, h1, h2⟩ := lookup_of_map_fst _ d (by rw [q2]; cases d <;> simp)
  obtain ⟨f1, f2, f3, f4, f5⟩ := t.fits d
  obtain ⟨g', e1, e2, e3, e4⟩ := q3 d g h2 (by omega)
  obtain ⟨c1, c2, c3⟩ := t.clip g' (by omega) (by omega)
  refine ⟨g, h1, by rw [e1]; exact c1, by rw [e1]; exact c2, fun px py hp => ?_⟩
  have hB := hL px py hp
  rw [e1]
  show (clipArray g' _ _ _ _ E).val _ _ = _
  rw [c3 px py hp, e4 _ (by obtain ⟨p1, p2, p3, p4⟩ := hB; omega) _ (by obtain ⟨p1, p2, p3, p4⟩ := hB; omega),
    hval, hcell px py hB]
  have hmin : min (terrainWidths d gw).1 (land.rows - (terrainWidths d gw).2) = (terrainWidths d gw).1 :=
    min_eq_left (by omega)
  rw [hmin, ← t.upwindMean_block (waterMz c.terrainTable cat) t.land.1 t.land.2 d px py hp]
  split_ifs with h0
  · rfl
  · congr 1
    apply upwindMean_same
    · refine ⟨by rw [s1, l1]; rfl, by rw [s2, l2]; rfl, ?_⟩
      intro i hi j hj
      simp only [s1, s2] at hi hj
      simp only [hval, l3 i hi j hj]
      rfl
    · obtain ⟨p1, p2, p3, p4⟩ := hB
      show _ < (terrainClass2mz mzFormula land c.terrainTable).rows
      omega
    · obtain ⟨p1, p2, p3, p4⟩ := hB
      show _ < (terrainClass2mz mzFormula land c.terrainTable).cols
      omega

theorem bufferPos (t : TileAt c L B bX bY E EB xm ym gw cat) :
    1 ≤ bX ∧ 1 ≤ bY := by
  have h := t.fits .n
  omega

/-- The kernel fits into the buffer. -/
theorem kernel (t : TileAt c L B bX bY E EB xm ym gw cat) :
    1 ≤ ⌊100 / gw⌋.toNat ∧ (⌊100 / gw⌋.toNat : ℤ) ≤ bX ∧
    (⌊100 / gw⌋.toNat : ℤ) ≤ bY := by
  have h0 := t.gwPos
  have h1 : (1 : ℝ) ≤ 100 / gw := by rw [le_div_iff₀ h0]; linarith [t.gwFine]
  have hfl : (1 : ℤ) ≤ ⌊100 / gw⌋ := Int.le_floor.mpr (by exact_mod_cast h1)
  have e7 : 700 / gw = 7 * (100 / gw) := by ring
  have hle := Int.floor_le (100 / gw)
  have hx : ⌊100 / gw⌋ ≤ bX := by
    have := t.bufferX
    exact_mod_cast (show (⌊100 / gw⌋ : ℝ) ≤ (bX : ℝ) by linarith)
  have hy : ⌊100 / gw⌋ ≤ bY := by
    have := t.bufferY
    exact_mod_cast (show (⌊100 / gw⌋ : ℝ) ≤ (bY : ℝ) by linarith)
  omega

/-- C33 for the specification's mean. -/
theorem shieldMean_block (t : TileAt c L B bX bY E EB xm ym gw cat) (whole : Grid (Option ℝ))
    (hr : whole.rows = c.r.yDim) (hc : whole.cols = c.r.xDim) (d : Dir) (px py : ℕ)
    (hp : L.Has px py) :
    shieldMean (whole.window B) d ⌊100 / gw⌋.toNat (py - B.y1.toNat) (px - B.x1.toNat) =
      shieldMean whole d ⌊100 / gw⌋.toNat py px := by
  obtain ⟨k1, k2, k3⟩ := t.kernel
  exact shieldMean_margin t.geometry whole hr hc d _ k2 k3 px py hp

/-- Elevations around a pixel of the tile, read from the DEM tile. -/
theorem clamped_block (t : TileAt c L B bX bY E EB xm ym gw cat) (px py : ℕ) (hp : L.Has px py)
    (a b : ℤ) (ha : -1 ≤ a ∧ a ≤ 1) (hb : -1 ≤ b ∧ b ≤ 1) :
    (cutDem c.r c.dem EB 0).clamped ((py - B.y1.toNat : ℕ) + a) ((px - B.x1.toNat : ℕ) + b) =
      c.elevation.clamped (py + a) (px + b) := by
  obtain ⟨g1, g2, c1, c2, c3, c4⟩ := t.geometry
  obtain ⟨a0, a1, a2, a3, a4⟩ := g1
  obtain ⟨b0, b1, b2, b3, b4⟩ := g2
  obtain ⟨u1, u2⟩ := t.bufferPos
  obtain ⟨l1, l2, l3⟩ := t.dem_same
  obtain ⟨p1, p2, p3, p4⟩ := hp
  have r1 : ((c.elevation.window B).rows : ℤ) = B.y2 - B.y1 := by simp only [Grid.window]; omega
  have r2 : ((c.elevation.window B).cols : ℤ) = B.x2 - B.x1 := by simp only [Grid.window]; omega
  have e1 : c.elevation.rows = c.r.yDim := rfl
  have e2 : c.elevation.cols = c.r.xDim := rfl
  unfold Grid.clamped
  rw [l3 _ (by split_ifs <;> omega) _ (by split_ifs <;> omega)]
  show c.elevation.val (B.y1.toNat + _) (B.x1.toNat + _) = _
  congr 1
  · split_ifs <;> omega
  · split_ifs <;> omega

theorem rise_block (t : TileAt c L B bX bY E EB xm ym gw cat) (px py : ℕ) (hp : L.Has px py) :
    riseEast (cutDem c.r c.dem EB 0) (py - B.y1.toNat : ℕ) (px - B.x1.toNat : ℕ) =
      riseEast c.elevation py px ∧
    riseNorth (cutDem c.r c.dem EB 0) (py - B.y1.toNat : ℕ) (px - B.x1.toNat : ℕ) =
      riseNorth c.elevation py px := by
  have h := t.clamped_block px py hp
  have e : ∀ x : ℤ, x = x + 0 := fun x => (add_zero x).symm
  have m : ∀ x : ℤ, x - 1 = x + (-1) := fun x => rfl
  have h00 := h (-1) (-1) (by omega) (by omega)
  have h01 := h (-1) 0 (by omega) (by omega)
  have h02 := h (-1) 1 (by omega) (by omega)
  have h10 := h 0 (-1) (by omega) (by omega)
  have h12 := h 0 1 (by omega) (by omega)
  have h20 := h 1 (-1) (by omega) (by omega)
  have h21 := h 1 0 (by omega) (by omega)
  have h22 := h 1 1 (by omega) (by omega)
  simp only [add_zero, ← m] at h00 h01 h02 h10 h12 h20 h21 h22
  unfold riseEast riseNorth
  rw [h00, h01, h02, h10, h12, h20, h21, h22]
  exact ⟨rfl, rfl⟩

/-- The shielding files of a tile. -/
theorem ms_file (t : TileAt c L B bX bY E EB xm ym gw cat) :
    let info := clipInfo c.r EB
    let clip := fun g : Grid (Option ℝ) =>
      clipArray g info.gt0 (-info.gt3) info.gt1 (-info.gt5) E
    let dem := cutDem c.r c.dem EB 0
    let sa := fun i j => slopeAspect (dem.map some) |info.gt1| |info.gt5| (xm.val i j)
      (ym.val i j) i j
    let ms := convoCombine gw (class2ms none c.shieldTable (cutLandcover c.lr c.lcv info 0))
          ⟨dem.rows, dem.cols, fun i j => (sa i j).1⟩ ⟨dem.rows, dem.cols, fun i j => (sa i j).2⟩ clip
    ∀ d, ∃ g, ms.lookup d = some g ∧ (g.rows : ℤ) = L.y2 - L.y1 ∧ (g.cols : ℤ) = L.x2 - L.x1 ∧
      ∀ px py : ℕ, L.Has px py →
        (shieldMean (cat.map (classMs c.shieldTable)) d ⌊100 / gw⌋.toNat py px = none →
          g.val (py - L.y1.toNat) (px - L.x1.toNat) = none) ∧
        ∀ m h s, ∀ _ : Decidable (InSector d h),
          shieldMean (cat.map (classMs c.shieldTable)) d ⌊100 / gw⌋.toNat py px = some m →
          FallsTowards
            (riseEast c.elevation py px / xm.val (py - B.y1.toNat) (px - B.x1.toNat))
            (riseNorth c.elevation py px / ym.val (py - B.y1.toNat) (px - B.x1.toNat)) h s →
          g.val (py - L.y1.toNat) (px - L.x1.toNat) =
            some (finalMs (slopeAdjusted (InSector d h) m (some s))) := by
  intro info clip dem sa ms d
  obtain ⟨⟨a0, a1, a2, a3, a4⟩, ⟨b0, b1, b2, b3, b4⟩, -⟩ := t.geometry
  obtain ⟨l1, l2, l3⟩ := t.land_same
  obtain ⟨d1, d2, -⟩ := t.dem_same
  have r1 : ((cat.window B).rows : ℤ) = B.y2 - B.y1 := by simp only [Grid.window]; omega
  have r2 : ((cat.window B).cols : ℤ) = B.x2 - B.x1 := by simp only [Grid.window]; omega
  have r3 : ((c.elevation.window B).rows : ℤ) = B.y2 - B.y1 := by simp only [Grid.window]; omega
  have r4 : ((c.elevation.window B).cols : ℤ) = B.x2 - B.x1 := by simp only [Grid.window]; omega
  have hdr : 0 < dem.rows := by show 0 < (cutDem c.r c.dem EB 0).rows; omega
  have hdc : 0 < dem.cols := by show 0 < (cutDem c.r c.dem EB 0).cols; omega
  have hp1 : |info.gt1| ≠ 0 := abs_ne_zero.mpr t.pw.ne'
  have hp5 : |info.gt5| ≠ 0 := by
    rw [abs_ne_zero]
    show -(-c.r.gt5) ≠ 0
    rw [neg_neg]
    exact t.ph.ne
  obtain ⟨result, q1, q2⟩ := C70_directions_independent_partial gw t.gwPos t.gwFine
    (class2ms none c.shieldTable (cutLandcover c.lr c.lcv info 0))
    ⟨dem.rows, dem.cols, fun i j => (sa i j).1⟩ ⟨dem.rows, dem.cols, fun i j => (sa i j).2⟩ clip
  have hms : ms = [Dir.w, .e, .n, .s, .nw, .ne, .se, .sw].map (fun d => (d, clip (result d))) := q1
  have hlook : ms.lookup d = some (clip (result d)) := by
    rw [hms]; cases d <;> rfl
  obtain ⟨s1, s2, s3⟩ := q2 d
  have s1' : (result d).rows = (cutLandcover c.lr c.lcv info 0).rows := s1
  have s2' : (result d).cols = (cutLandcover c.lr c.lcv info 0).cols := s2
  obtain ⟨c1, c2, c3⟩ := t.clip (result d) (by rw [s1', l1]; exact r1) (by rw [s2', l2]; exact r2)
  refine ⟨_, hlook, c1, c2, fun px py hp => ?_⟩
  have hval : (clip (result d)).val (py - L.y1.toNat) (px - L.x1.toNat) =
      combineCell d (shieldMean (cat.map (classMs c.shieldTable)) d ⌊100 / gw⌋.toNat py px)
        (some (slopeDegrees (riseEast c.elevation py px / xm.val (py - B.y1.toNat) (px - B.x1.toNat))
          (-(riseNorth c.elevation py px / ym.val (py - B.y1.toNat) (px - B.x1.toNat)))))
        (reclassifyAspect (some (aspectDegrees
          (riseEast c.elevation py px / xm.val (py - B.y1.toNat) (px - B.x1.toNat))
          (-(riseNorth c.elevation py px / ym.val (py - B.y1.toNat) (px - B.x1.toNat)))))) := by
    rw [show (clip (result d)).val (py - L.y1.toNat) (px - L.x1.toNat) =
      (result d).val (py - B.y1.toNat) (px - B.x1.toNat) from c3 px py hp, s3]
    obtain ⟨re, rn⟩ := t.rise_block px py hp
    show combineCell d _ (sa (py - B.y1.toNat) (px - B.x1.toNat)).1
      (sa (py - B.y1.toNat) (px - B.x1.toNat)).2 = _
    simp only [sa, slopeAspect]
    rw [dzdx_eq dem hdr hdc _ _ hp1, dzdy_eq dem hdr hdc _ _ hp5]
    rw [show riseEast dem (py - B.y1.toNat : ℕ) (px - B.x1.toNat : ℕ) = _ from re,
      show riseNorth dem (py - B.y1.toNat : ℕ) (px - B.x1.toNat : ℕ) = _ from rn]
    simp only [show (dem.map some).val (py - B.y1.toNat) (px - B.x1.toNat) =
      some (dem.val (py - B.y1.toNat) (px - B.x1.toNat)) from rfl, Option.isNone_some]
    rw [← t.shieldMean_block (cat.map (classMs c.shieldTable)) t.land.1 t.land.2 d px py hp]
    rw [shieldMean_same _ ((cat.map (classMs c.shieldTable)).window B)]
    · simp
    · refine ⟨l1, l2, fun i hi j hj => ?_⟩
      show class2msCell none c.shieldTable _ = classMs c.shieldTable _
      rw [class2msCell_val, l3 i hi j hj]
      rfl
  rw [hval]
  constructor
  · intro hn
    rw [hn]
    simp [combineCell]
  · intro m h s _ hm f
    rw [hm]
    exact combineCell_ground d m _ _ h s f

/-- The topographic files of a tile. -/
theorem mt_file (t : TileAt c L B bX bY E EB xm ym gw cat) :
    let info := clipInfo c.r EB
    let clip := fun g : Grid (Option ℝ) =>
      clipArray g info.gt0 (-info.gt3) info.gt1 (-info.gt5) E
    ∃ mt, topomult ((cutDem c.r c.dem EB 0).map some) gw (√2) info.gt0 (-info.gt3) clip
        Dir.topoOrder [] = (mt, .ok ()) ∧
      ∀ d, ∃ g, mt.lookup d = some g ∧ (g.rows : ℤ) = L.y2 - L.y1 ∧ (g.cols : ℤ) = L.x2 - L.x1 ∧
        ∀ px py : ℕ, L.Has px py → ∃ x : ℤ → ℤ → ℝ,
          (∀ a b, IsRawMt (c.elevation.window B) d (stepLength d gw)
            (143 < c.r.lonEdge B.x1 ∧ c.r.latEdge B.y1 < -40) (py - B.y1 + a) (px - B.x1 + b)
            (x a b)) ∧
          g.val (py - L.y1.toNat) (px - L.x1.toNat) =
            some ((∑ a ∈ {-1, 0, 1}, ∑ b ∈ {-1, 0, 1}, x a b) / 9) := by
  intro info clip
  obtain ⟨⟨a0, a1, a2, a3, a4⟩, ⟨b0, b1, b2, b3, b4⟩, -⟩ := t.geometry
  have hsame := t.dem_same
  obtain ⟨d1, d2, -⟩ := t.dem_same
  have r3 : ((c.elevation.window B).rows : ℤ) = B.y2 - B.y1 := by simp only [Grid.window]; omega
  have r4 : ((c.elevation.window B).cols : ℤ) = B.x2 - B.x1 := by simp only [Grid.window]; omega
  generalize hdem : cutDem c.r c.dem EB 0 = dem at *
  have hdr : 0 < dem.rows := by omega
  have hdc : 0 < dem.cols := by omega
  obtain ⟨mt, m1, m2, m3, m4⟩ := C54_eight_outputs (dem.map some) hdr hdc gw (√2) info.gt0 (-info.gt3) clip
  refine ⟨mt, m1, fun d => ?_⟩
  obtain ⟨g, h1, h2⟩ := lookup_of_map_fst mt d (by rw [m2]; exact m3 d)
  obtain ⟨g', e1, e2⟩ := m4 d g h2
  obtain ⟨out, o1, o2, o3, o4⟩ := topoDir_exact dem hdr hdc gw t.gwPos info.gt0 (-info.gt3) d
  rw [e1] at o1
  cases o1
  obtain ⟨c1, c2, c3⟩ := t.clip g' (by omega) (by omega)
  refine ⟨g, h1, by rw [e2]; exact c1, by rw [e2]; exact c2, fun px py hp => ?_⟩
  obtain ⟨p1, p2, p3, p4⟩ := hp
  obtain ⟨x, x1, x2⟩ := o4 (py - B.y1.toNat) (px - B.x1.toNat) (by omega) (by omega)
  refine ⟨x, fun a b => ?_, ?_⟩
  · have h := rawMt_same _ _ hsame _ _ _ _ _ _ (x1 a b)
    have hT : (143 < info.gt0 ∧ 40 < -info.gt3) ↔ (143 < c.r.lonEdge B.x1 ∧ c.r.latEdge B.y1 < -40) := t.corner
    have ey : ((py - B.y1.toNat : ℕ) : ℤ) = py - B.y1 := by omega
    have ex : ((px - B.x1.toNat : ℕ) : ℤ) = px - B.x1 := by omega
    rw [ey, ex] at h
    unfold IsRawMt adjustedMt at h ⊢
    simp only [hT] at h
    exact h
  · rw [e2]
    show (clipArray g' _ _ _ _ E).val _ _ = _
    rw [c3 px py ⟨p1, p2, p3, p4⟩]
    exact x2

end TileAt

namespace TileCase
variable {c : Inputs} {up : ℝ} {k : ℕ} {L B : Limits} {E EB : Extent ℝ} {xm ym : Grid ℝ} {gw : ℝ}
  {cat : Grid ℤ}

theorem upwindMean_block (t : TileCase c up k L B E EB xm ym gw cat) (whole : Grid ℝ)
    (hr : whole.rows = c.r.yDim) (hc : whole.cols = c.r.xDim) (d : Dir) (px py : ℕ)
    (hp : L.Has px py) :
    upwindMean (whole.window B) d (terrainWidths d gw).1.toNat (terrainWidths d gw).2.toNat
        (py - B.y1.toNat) (px - B.x1.toNat) =
      upwindMean whole d (terrainWidths d gw).1.toNat (terrainWidths d gw).2.toNat py px :=
  t.toAt.upwindMean_block whole hr hc d px py hp

theorem shieldMean_block (t : TileCase c up k L B E EB xm ym gw cat) (whole : Grid (Option ℝ))
    (hr : whole.rows = c.r.yDim) (hc : whole.cols = c.r.xDim) (d : Dir) (px py : ℕ)
    (hp : L.Has px py) :
    shieldMean (whole.window B) d ⌊100 / gw⌋.toNat (py - B.y1.toNat) (px - B.x1.toNat) =
      shieldMean whole d ⌊100 / gw⌋.toNat py px :=
  t.toAt.shieldMean_block whole hr hc d px py hp

end TileCase

end WindMult
