import Verif.Proofs.Pipeline
import Verif.Props.TopoMirror
import Verif.Props.TerrainMirror
import Verif.Spec.TileMirror

/-!
# C131: a tile of a mirrored country
-/

set_option linter.unusedSectionVars false
set_option autoImplicit false

namespace WindMult

variable {c : Inputs} {xm ym : Grid ℝ}

/-! ### The steps depend on the cells of the arrays only -/

theorem image_same {α : Type} {g' g : Grid α} (h : g'.Same g) :
    ImageOf g' g id (fun r _ => r) (fun _ c => c) where
  wind := fun d => ⟨fun r c => by rw [h.1, h.2.1], fun _ _ _ => rfl, fun _ _ _ => rfl⟩
  val := fun r c ⟨p1, p2, p3, p4⟩ => h.2.2 _ (by omega) _ (by omega)
  onto := fun r c hin => ⟨r, c, by rw [h.1, h.2.1]; exact hin, rfl, rfl⟩
  turn := fun _ => rfl
  all := fun d => ⟨d, rfl⟩

theorem ImageOf.of_same {α : Type} {g' g k' k : Grid α} {σ : Dir → Dir} {fr fc : ℤ → ℤ → ℤ}
    (h : ImageOf g' g σ fr fc) (e' : k'.Same g') (e : k.Same g) : ImageOf k' k σ fr fc where
  wind := fun d => by rw [e'.1, e'.2.1, e.1, e.2.1]; exact h.wind d
  val := by
    rw [e'.1, e'.2.1]
    intro r c hin
    obtain ⟨q1, q2, q3, q4⟩ := ((h.wind .n).inside r c).1 hin
    have hv := h.val r c hin
    obtain ⟨p1, p2, p3, p4⟩ := hin
    rw [e'.2.2 _ (by rw [e'.1]; omega) _ (by rw [e'.2.1]; omega), hv,
      e.2.2 _ (by rw [e.1]; omega) _ (by rw [e.2.1]; omega)]
  onto := by rw [e'.1, e'.2.1, e.1, e.2.1]; exact h.onto
  turn := h.turn
  all := h.all

theorem lookup_isSome_iff {α : Type} (l : List (Dir × α)) (d : Dir) :
    (l.lookup d).isSome ↔ d ∈ l.map Prod.fst := by
  constructor
  · intro h
    obtain ⟨g, hg⟩ := Option.isSome_iff_exists.mp h
    induction l with
    | nil => cases hg
    | cons x xs ih =>
      obtain ⟨d', g'⟩ := x
      by_cases he : d = d'
      · simp [he]
      · rw [List.lookup_cons, beq_false_of_ne he] at hg h
        exact List.mem_cons_of_mem _ (ih h hg)
  · intro h
    obtain ⟨g, hg, -⟩ := lookup_of_map_fst l d h
    rw [hg]; rfl

theorem mem_of_lookup {α : Type} {l : List (Dir × α)} {d : Dir} {g : α} (h : l.lookup d = some g) : (d, g) ∈ l := by
  obtain ⟨g', h1, h2⟩ := lookup_of_map_fst l d ((lookup_isSome_iff l d).mp (by rw [h]; rfl))
  rw [h] at h1
  cases h1
  exact h2

theorem shieldSaved_all {gw : ℝ} (h0 : 0 < gw) (h100 : gw ≤ 100) (dem xm ym : Grid ℝ) (data : Grid (Option ℝ))
    (px py : ℝ) (d : Dir) : ((shieldSaved gw dem data px py xm ym).lookup d).isSome := by
  obtain ⟨out, ho⟩ := shieldSaved_exists h0 h100 dem xm ym data px py d
  rw [lookup_isSome_iff, List.mem_map]
  exact ⟨_, ho, rfl⟩

theorem terrain_max_or_all {C : Type} [DecidableEq C] (mz : ℝ → ℝ) (gw : ℝ) (data : Grid C)
    (table : List (TerrainRow C ℝ)) (clip : Grid (Option ℝ) → Grid (Option ℝ))
    (hok : (terrain mz gw data table clip).2 = .ok ()) :
    ((terrainClass2mz mz data table).cells.max? = some 0 ∧ (terrain mz gw data table clip).1 = []) ∨
    ((terrainClass2mz mz data table).cells.max? ≠ some 0 ∧
      (terrain mz gw data table clip).1.map Prod.fst = Dir.terrainOrder) := by
  unfold terrain at hok ⊢
  simp only at hok ⊢
  cases hm : (terrainClass2mz mz data table).cells.max? with
  | none => rw [hm] at hok; cases hok
  | some mx =>
    rw [hm] at hok
    simp only at hok ⊢
    by_cases hz : mx = 0
    · left; rw [if_pos hz]; exact ⟨by rw [hz], rfl⟩
    · right
      rw [if_neg hz] at hok ⊢
      obtain ⟨new, n1, -, n3⟩ := terrainLoop_spec gw
        ⟨(terrainClass2mz mz data table).rows, (terrainClass2mz mz data table).cols, fun i j =>
          if decide ((terrainClass2mz mz data table).val i j = 0) then 1
          else (terrainClass2mz mz data table).val i j⟩
        (fun i j => decide ((terrainClass2mz mz data table).val i j = 0)) clip Dir.terrainOrder []
      refine ⟨fun h => hz (Option.some.inj h), ?_⟩
      rw [n1, List.nil_append]
      exact n3 hok

/-- Clipping only changes the arrays that are saved. -/
theorem terrain_clip {C : Type} [DecidableEq C] (mz : ℝ → ℝ) (gw : ℝ) (data : Grid C)
    (table : List (TerrainRow C ℝ)) (clip : Grid (Option ℝ) → Grid (Option ℝ)) :
    terrain mz gw data table clip = ((terrain mz gw data table id).1.map fun p => (p.1, clip p.2),
      (terrain mz gw data table id).2) := by
  have hloop : ∀ (recl : Grid ℝ) (mask : ℕ → ℕ → Bool) (ds : List Dir) (saved : List (Dir × Grid (Option ℝ))),
      terrainLoop gw recl mask clip ds (saved.map fun p => (p.1, clip p.2)) =
        ((terrainLoop gw recl mask id ds saved).1.map fun p => (p.1, clip p.2),
          (terrainLoop gw recl mask id ds saved).2) := by
    intro recl mask ds
    induction ds with
    | nil => intro saved; rfl
    | cons d ds ih =>
      intro saved
      simp only [terrainLoop]
      cases terrainDir d gw recl mask with
      | error e => rfl
      | ok g =>
        have := ih (saved ++ [(d, g)])
        rw [List.map_append] at this
        exact this
  unfold terrain
  simp only
  cases (terrainClass2mz mz data table).cells.max? with
  | none => rfl
  | some mx =>
    simp only
    split_ifs
    · rfl
    · exact hloop _ _ _ []

theorem topoDir_same {dem' dem : Grid (Option ℝ)} (h : dem'.Same dem) (hr : 0 < dem.rows) (hc : 0 < dem.cols)
    (cellsize root2 xLeft yUpper : ℝ) (d : Dir) :
    ∃ out' out, topoDir dem' cellsize root2 xLeft yUpper d = .ok out' ∧
      topoDir dem cellsize root2 xLeft yUpper d = .ok out ∧ out'.Same out ∧ out.rows = dem.rows ∧
      out.cols = dem.cols := by
  obtain ⟨raw', raw, a1, b1, a2, a3, b2, b3, hv⟩ := topoRaw_carried (d' := d) (d := d) ((image_same h).wind d)
    (image_same h).val (by rw [h.1]; exact hr) (by rw [h.2.1]; exact hc) hr hc cellsize root2 xLeft yUpper rfl
  refine ⟨_, _, topoDir_of_raw a1, topoDir_of_raw b1, ⟨by rw [a2, b2, h.1], by rw [a3, b3, h.2.1], ?_⟩, b2, b3⟩
  intro i hi j hj
  simp only at hi hj ⊢
  have hs : smoothCell raw' i j = smoothCell raw i j := by simp only [smoothCell_eq, hv]
  rw [hs, h.2.2 i (by omega) j (by omega)]

theorem tileClamped_same {g' g : Grid ℝ} (h : g'.Same g) (hr : 0 < g.rows) (hc : 0 < g.cols) (r c : ℤ) :
    g'.clamped r c = g.clamped r c := by
  unfold Grid.clamped
  rw [h.1, h.2.1]
  refine h.2.2 _ ?_ _ ?_ <;> (first | rw [h.1] | rw [h.2.1]) <;> split_ifs <;> omega

theorem tileSlope_same {g' g : Grid ℝ} (h : g'.Same g) (hr : 0 < g.rows) (hc : 0 < g.cols) {px py : ℝ}
    (hpx : px ≠ 0) (hpy : py ≠ 0) (x y : ℝ) (i j : ℕ) :
    slopeAspect (g'.map some) px py x y i j = slopeAspect (g.map some) px py x y i j := by
  have hr' : 0 < g'.rows := by rw [h.1]; exact hr
  have hc' : 0 < g'.cols := by rw [h.2.1]; exact hc
  have e1 : riseEast g' i j = riseEast g i j := by simp only [riseEast, tileClamped_same h hr hc]
  have e2 : riseNorth g' i j = riseNorth g i j := by simp only [riseNorth, tileClamped_same h hr hc]
  unfold slopeAspect
  rw [dzdx_eq g' hr' hc' _ _ hpx, dzdy_eq g' hr' hc' _ _ hpy, dzdx_eq g hr hc _ _ hpx, dzdy_eq g hr hc _ _ hpy, e1, e2]
  rfl

/-! ### A raster as its own tile -/

theorem area_info (r : RasterInfo ℝ) (hw : 0 < r.gt1) (hh : r.gt5 < 0) : clipInfo r r.area = r := by
  obtain ⟨xd, yd, g0, g1, g3, g5⟩ := r
  simp only at hw hh
  have := hh.ne
  unfold clipInfo RasterInfo.area
  simp only
  rw [show (g0 + xd * g1 - g0) / g1 = ((xd : ℤ) : ℝ) by field_simp; push_cast; ring,
    show (g3 - (g3 + yd * g5)) / -g5 = ((yd : ℤ) : ℝ) by field_simp; push_cast; ring, around_intCast, around_intCast,
    neg_neg]
  rfl

theorem own_cells {α : Type} (r : RasterInfo ℝ) (hw : 0 < r.gt1) (hh : r.gt5 < 0) (cells : Grid (Option α)) (fill : α) :
    (reprojectNearest r cells r fill).Same ⟨r.yDim, r.xDim, fun i j => (cells.val i j).getD fill⟩ := by
  refine ⟨rfl, rfl, fun i hi j hj => ?_⟩
  have hi : i < r.yDim := hi
  have hj : j < r.xDim := hj
  have := hh.ne
  have e1 : ⌊(r.gt0 + ((j : ℝ) + 1 / 2) * r.gt1 - r.gt0) / r.gt1⌋ = (j : ℤ) := by
    rw [show (r.gt0 + ((j : ℝ) + 1 / 2) * r.gt1 - r.gt0) / r.gt1 = (j : ℝ) + 1 / 2 by field_simp; ring, Int.floor_eq_iff]
    push_cast; constructor <;> linarith
  have e2 : ⌊(r.gt3 + ((i : ℝ) + 1 / 2) * r.gt5 - r.gt3) / r.gt5⌋ = (i : ℤ) := by
    rw [show (r.gt3 + ((i : ℝ) + 1 / 2) * r.gt5 - r.gt3) / r.gt5 = (i : ℝ) + 1 / 2 by field_simp; ring, Int.floor_eq_iff]
    push_cast; constructor <;> linarith
  simp only [reprojectNearest, e1, e2, Int.toNat_natCast]
  rw [if_pos (by omega)]

theorem own_clip {α : Type} (r : RasterInfo ℝ) (hw : 0 < r.gt1) (hh : r.gt5 < 0) (g : Grid α)
    (hr : g.rows = r.yDim) (hc : g.cols = r.xDim) : clipArray g r.gt0 (-r.gt3) r.gt1 (-r.gt5) r.area = g := by
  have := hh.ne
  unfold clipArray RasterInfo.area
  simp only
  rw [show (r.gt0 + r.xDim * r.gt1 - r.gt0) / r.gt1 = ((r.xDim : ℤ) : ℝ) by field_simp; push_cast; ring,
    show (r.gt3 - (r.gt3 + r.yDim * r.gt5)) / -r.gt5 = ((r.yDim : ℤ) : ℝ) by field_simp; push_cast; ring,
    show (r.gt0 - r.gt0) / r.gt1 = ((0 : ℤ) : ℝ) by simp,
    show (- -r.gt3 - r.gt3) / -r.gt5 = ((0 : ℤ) : ℝ) by simp]
  simp only [around_intCast]
  obtain ⟨gr, gc, gv⟩ := g
  simp only at hr hc
  subst hr hc
  simp [Grid.slice, Grid.sliceBound]

namespace OneTile

theorem cut (h : OneTile c xm ym) : (cutDem c.r c.dem c.r.area 0).Same c.elevation := by
  unfold cutDem
  rw [area_info c.r h.pw h.ph]
  exact own_cells c.r h.pw h.ph c.dem 0

theorem cutLand (h : OneTile c xm ym) : (cutLandcover c.lr c.lcv (clipInfo c.r c.r.area) 0).Same c.land := by
  unfold cutLandcover
  rw [area_info c.r h.pw h.ph, h.grid]
  have := own_cells c.r h.pw h.ph c.lcv 0
  exact ⟨this.1.trans h.landRows.symm, this.2.1.trans h.landCols.symm, this.2.2⟩

/-- The steps of the tile. -/
theorem step (h : OneTile c xm ym) :
    let dem := cutDem c.r c.dem c.r.area 0
    let land := cutLandcover c.lr c.lcv (clipInfo c.r c.r.area) 0
    let mz := terrain mzFormula (gridWidth xm ym) land c.terrainTable id
    (tileStep c c.r.area c.r.area).2 = mz.2 ∧
    (tileStep c c.r.area c.r.area).1.mz = mz.1 ∧
    (mz.2 = .ok () →
      (tileStep c c.r.area c.r.area).1.ms = shieldSaved (gridWidth xm ym) dem (class2ms none c.shieldTable land)
        |c.r.gt1| |c.r.gt5| xm ym ∧
      (tileStep c c.r.area c.r.area).1.mt.map Prod.fst = Dir.topoOrder ∧
      ∀ d g, (d, g) ∈ (tileStep c c.r.area c.r.area).1.mt →
        topoDir (dem.map some) (gridWidth xm ym) (√2) c.r.gt0 (-c.r.gt3) d = .ok g) := by
  intro dem land mz
  have hinfo := area_info c.r h.pw h.ph
  have hdr : dem.rows = c.r.yDim := h.cut.1
  have hdc : dem.cols = c.r.xDim := h.cut.2.1
  have hlr : land.rows = c.r.yDim := h.cutLand.1.trans h.landRows
  have hlc : land.cols = c.r.xDim := h.cutLand.2.1.trans h.landCols
  have hclip : ∀ g : Grid (Option ℝ), g.rows = c.r.yDim → g.cols = c.r.xDim →
      clipArray g c.r.gt0 (-c.r.gt3) c.r.gt1 (-c.r.gt5) c.r.area = g := fun g => own_clip c.r h.pw h.ph g
  have hz : terrain mzFormula (gridWidth xm ym) land c.terrainTable
      (fun g => clipArray g c.r.gt0 (-c.r.gt3) c.r.gt1 (-c.r.gt5) c.r.area) = mz := by
    rw [terrain_clip]
    refine Prod.ext ?_ rfl
    conv_rhs => rw [← List.map_id mz.1]
    refine List.map_congr_left fun p hp => ?_
    obtain ⟨s1, s2⟩ := terrain_shape (d := p.1) (out := p.2) hp
    rw [hclip _ (s1.trans hlr) (s2.trans hlc)]
    rfl
  obtain ⟨mt, m1, m2, -, m4⟩ := C54_eight_outputs (dem.map some) (by rw [show (dem.map some).rows = _ from hdr]; exact h.someRows)
    (by rw [show (dem.map some).cols = _ from hdc]; exact h.someCols) (gridWidth xm ym) (√2) c.r.gt0 (-c.r.gt3)
    (fun g => clipArray g c.r.gt0 (-c.r.gt3) c.r.gt1 (-c.r.gt5) c.r.area)
  have hms : convoCombine (gridWidth xm ym) (class2ms none c.shieldTable land)
      ⟨dem.rows, dem.cols, fun i j => (slopeAspect (dem.map some) |c.r.gt1| |c.r.gt5| (xm.val i j) (ym.val i j) i j).1⟩
      ⟨dem.rows, dem.cols, fun i j => (slopeAspect (dem.map some) |c.r.gt1| |c.r.gt5| (xm.val i j) (ym.val i j) i j).2⟩
      (fun g => clipArray g c.r.gt0 (-c.r.gt3) c.r.gt1 (-c.r.gt5) c.r.area) =
      shieldSaved (gridWidth xm ym) dem (class2ms none c.shieldTable land) |c.r.gt1| |c.r.gt5| xm ym := by
    unfold shieldSaved
    obtain ⟨r1, a1, a2⟩ := C70_directions_independent_partial (gridWidth xm ym) h.gwPos h.gwFine
      (class2ms none c.shieldTable land)
      ⟨dem.rows, dem.cols, fun i j => (slopeAspect (dem.map some) |c.r.gt1| |c.r.gt5| (xm.val i j) (ym.val i j) i j).1⟩
      ⟨dem.rows, dem.cols, fun i j => (slopeAspect (dem.map some) |c.r.gt1| |c.r.gt5| (xm.val i j) (ym.val i j) i j).2⟩
      (fun g => clipArray g c.r.gt0 (-c.r.gt3) c.r.gt1 (-c.r.gt5) c.r.area)
    obtain ⟨r2, b1, b2⟩ := C70_directions_independent_partial (gridWidth xm ym) h.gwPos h.gwFine
      (class2ms none c.shieldTable land)
      ⟨dem.rows, dem.cols, fun i j => (slopeAspect (dem.map some) |c.r.gt1| |c.r.gt5| (xm.val i j) (ym.val i j) i j).1⟩
      ⟨dem.rows, dem.cols, fun i j => (slopeAspect (dem.map some) |c.r.gt1| |c.r.gt5| (xm.val i j) (ym.val i j) i j).2⟩
      id
    rw [a1, b1]
    refine List.map_congr_left fun d _ => ?_
    obtain ⟨u1, u2, u3⟩ := a2 d
    obtain ⟨v1, v2, v3⟩ := b2 d
    have e : r1 d = r2 d := by
      cases h1 : r1 d
      cases h2 : r2 d
      rw [h1] at u1 u2 u3
      rw [h2] at v1 v2 v3
      simp only at u1 u2 u3 v1 v2 v3
      rw [Grid.mk.injEq]
      exact ⟨u1.trans v1.symm, u2.trans v2.symm, funext fun i => funext fun j => (u3 i j).trans (v3 i j).symm⟩
    rw [hclip _ (u1.trans hlr) (u2.trans hlc), e]
    rfl
  have hland : cutLandcover c.lr c.lcv c.r 0 = land := by simp only [land, hinfo]
  clear_value mz
  rcases mz with ⟨z, e | u⟩
  · have hstep : tileStep c c.r.area c.r.area = (⟨z, [], []⟩, .error e) := by
      unfold tileStep
      rw [if_neg h.notEmpty]
      simp only [hinfo, h.sizes, hland, hz]
    rw [hstep]
    exact ⟨rfl, rfl, fun h => by cases h⟩
  · have hstep : tileStep c c.r.area c.r.area = (⟨z, shieldSaved (gridWidth xm ym) dem
        (class2ms none c.shieldTable land) |c.r.gt1| |c.r.gt5| xm ym, mt⟩, .ok ()) := by
      unfold tileStep
      rw [if_neg h.notEmpty]
      simp only [hinfo, h.sizes, hland, hz]
      rw [m1, ← hms]
    rw [hstep]
    refine ⟨rfl, rfl, fun _ => ⟨rfl, m2, fun d g hg => ?_⟩⟩
    obtain ⟨g', e1, e2⟩ := m4 d g hg
    obtain ⟨out, o', t1, t2, t3, t4, t5⟩ := topoDir_same (dem' := dem.map some) (dem := dem.map some)
      ⟨rfl, rfl, fun _ _ _ _ => rfl⟩ (by rw [show (dem.map some).rows = _ from hdr]; exact h.someRows)
      (by rw [show (dem.map some).cols = _ from hdc]; exact h.someCols) (gridWidth xm ym) (√2) c.r.gt0 (-c.r.gt3) d
    rw [e1] at t2
    cases t2
    rw [e1, e2, hclip _ (t4.trans hdr) (t5.trans hdc)]

end OneTile


/-! ### C131 -/

/-- **C131** (east-west) *Full statement:* the files of the mirrored country are the mirror images, in the mirrored
directions, of those of the country.  False for the shielding files (`C131_transposed_sizes`).  *Proved:* the tile is
computed for both or neither, the same files are there, terrain and topographic files are mirror images, and so is
every pixel of the shielding files whose size in metres is that of its counterpart and whose ground does not face
exactly the boundary of two sectors; *missing:* the other pixels of the shielding files. -/
theorem C131_mirror_east_west_partial (h : OneTile c xm ym) (h' : OneTile c.mirrorEW xm ym) :
    ((tileStep c.mirrorEW c.r.area c.r.area).2 = .ok () ↔ (tileStep c c.r.area c.r.area).2 = .ok ()) ∧
    ((tileStep c c.r.area c.r.area).2 = .ok () → ∀ m d,
      (tileFiles c.mirrorEW c.r.area c.r.area m d.mirrorEW).isSome = (tileFiles c c.r.area c.r.area m d).isSome ∧
      ∀ r' r, tileFiles c.mirrorEW c.r.area c.r.area m d.mirrorEW = some r' →
        tileFiles c c.r.area c.r.area m d = some r →
        r'.transform = r.transform ∧ r'.band.rows = c.r.yDim ∧ r'.band.cols = c.r.xDim ∧
        r.band.rows = c.r.yDim ∧ r.band.cols = c.r.xDim ∧
        ∀ i < c.r.yDim, ∀ j < c.r.xDim, (m = .ms → SameGround c.elevation xm ym i (c.r.xDim - 1 - j) i j) →
          r'.band.val i j = r.band.val i (c.r.xDim - 1 - j)) := by
  have hgw := h.gwPos
  obtain ⟨s1', s2', s3'⟩ := h'.step
  obtain ⟨s1, s2, s3⟩ := h.step
  have eL := h.cutLand
  have eL' : (cutLandcover c.mirrorEW.lr c.mirrorEW.lcv (clipInfo c.mirrorEW.r c.mirrorEW.r.area) 0).Same
    c.land.mirrorEW := h'.cutLand
  have eD := h.cut
  have eD' : (cutDem c.mirrorEW.r c.mirrorEW.dem c.mirrorEW.r.area 0).Same c.elevation.mirrorEW := by
    have := h'.cut
    refine ⟨this.1, this.2.1, fun i hi j hj => ?_⟩
    rw [this.2.2 i hi j hj]
    show (c.dem.val i (c.dem.cols - 1 - j)).getD 0 = _
    rw [h.demCols]
    rfl
  change (tileStep c.mirrorEW c.r.area c.r.area).2 = _ at s1'
  change (tileStep c.mirrorEW c.r.area c.r.area).1.mz = _ at s2'
  generalize hl : cutLandcover c.lr c.lcv (clipInfo c.r c.r.area) 0 = land at *
  generalize hl' : cutLandcover c.mirrorEW.lr c.mirrorEW.lcv (clipInfo c.mirrorEW.r c.mirrorEW.r.area) 0 = land' at *
  generalize hd : cutDem c.r c.dem c.r.area 0 = dem at *
  generalize hd' : cutDem c.mirrorEW.r c.mirrorEW.dem c.mirrorEW.r.area 0 = dem' at *
  have him := (image_mirrorEW c.land).of_same eL' eL
  have hLr : land.rows = c.r.yDim := eL.1.trans h.landRows
  have hLc : land.cols = c.r.xDim := eL.2.1.trans h.landCols
  have hLr' : land'.rows = c.r.yDim := eL'.1.trans h.landRows
  have hLc' : land'.cols = c.r.xDim := eL'.2.1.trans h.landCols
  have hlc : c.land.cols = c.r.xDim := h.landCols
  have t1 := terrain_carried him mzFormula hgw c.terrainTable (fun d => Or.inl (hLr'.trans hLr.symm))
  refine ⟨by rw [s1, s1']; exact t1.1, fun hok m d => ?_⟩
  rw [s1] at hok
  have hok' : (terrain mzFormula (gridWidth xm ym) land' c.mirrorEW.terrainTable id).2 = .ok () := t1.1.mpr hok
  obtain ⟨a1, a2, a3⟩ := s3 hok
  obtain ⟨a1', a2', a3'⟩ := s3' hok'
  change (tileStep c.mirrorEW c.r.area c.r.area).1.ms = _ at a1'
  change (tileStep c.mirrorEW c.r.area c.r.area).1.mt.map Prod.fst = _ at a2'
  change ∀ d g, (d, g) ∈ (tileStep c.mirrorEW c.r.area c.r.area).1.mt → _ at a3'
  cases m with
  | mz =>
    simp only [tileFiles, savedFile, s2, s2']
    refine ⟨?_, ?_⟩
    · rw [Option.isSome_map, Option.isSome_map, Bool.eq_iff_iff, lookup_isSome_iff, lookup_isSome_iff]
      have hmax := (class2mz_carried him mzFormula c.terrainTable).2
      rcases terrain_max_or_all mzFormula (gridWidth xm ym) land c.terrainTable id hok with ⟨b1, b2⟩ | ⟨b1, b2⟩ <;>
        rcases terrain_max_or_all mzFormula (gridWidth xm ym) land' c.terrainTable id hok' with ⟨b1', b2'⟩ | ⟨b1', b2'⟩
      · rw [b2]; change _ ∈ (terrain mzFormula (gridWidth xm ym) land' c.terrainTable id).1.map _ ↔ _
        rw [b2']; simp
      · exact absurd (hmax.trans b1) b1'
      · exact absurd (hmax.symm.trans b1') b1
      · rw [b2]; change _ ∈ (terrain mzFormula (gridWidth xm ym) land' c.terrainTable id).1.map _ ↔ _
        rw [b2']; simp [mem_terrainOrder]
    · intro r' r e' e
      obtain ⟨g', k', rfl⟩ := Option.map_eq_some_iff.mp e'
      obtain ⟨g, k, rfl⟩ := Option.map_eq_some_iff.mp e
      have m' := mem_of_lookup k'
      have m := mem_of_lookup k
      obtain ⟨r1', c1'⟩ := terrain_shape m'
      obtain ⟨r1, c1⟩ := terrain_shape m
      refine ⟨rfl, r1'.trans hLr', c1'.trans hLc', r1.trans hLr, c1.trans hLc, fun i hi j hj _ => ?_⟩
      have hv := ((t1.2 d g' g m' m).cell (i := i) (j := j) (by omega) (by omega)).1
      show toNanNum (g'.val i j) = toNanNum (g.val i (c.r.xDim - 1 - j))
      rw [hv]
      congr 2
      omega
  | ms =>
    simp only [tileFiles, savedFile, a1, a1']
    refine ⟨?_, ?_⟩
    · rw [Option.isSome_map, Option.isSome_map, shieldSaved_all h.gwPos h.gwFine, shieldSaved_all h.gwPos h.gwFine]
    · intro r' r e' e
      obtain ⟨g', k', rfl⟩ := Option.map_eq_some_iff.mp e'
      obtain ⟨g, k, rfl⟩ := Option.map_eq_some_iff.mp e
      obtain ⟨u1', u2', u3'⟩ := shieldSaved_cell h.gwPos h.gwFine (mem_of_lookup k')
      obtain ⟨u1, u2, u3⟩ := shieldSaved_cell h.gwPos h.gwFine (mem_of_lookup k)
      refine ⟨rfl, u1'.trans hLr', u2'.trans hLc', u1.trans hLr, u2.trans hLc, fun i hi j hj hsame => ?_⟩
      obtain ⟨f1, f2, f3⟩ := hsame trivial
      have hpx : |c.r.gt1| ≠ 0 := abs_ne_zero.mpr h.pw.ne'
      have hpy : |c.r.gt5| ≠ 0 := abs_ne_zero.mpr h.ph.ne
      obtain ⟨out, ho⟩ := shieldSaved_exists h.gwPos h.gwFine c.elevation ⟨c.r.yDim, c.r.xDim, xm.val⟩
        ⟨c.r.yDim, c.r.xDim, ym.val⟩ (class2ms none c.shieldTable c.land) |c.r.gt1| |c.r.gt5| d
      obtain ⟨out', ho'⟩ := shieldSaved_exists h.gwPos h.gwFine c.elevation.mirrorEW
        (⟨c.r.yDim, c.r.xDim, xm.val⟩ : Grid ℝ).mirrorEW (⟨c.r.yDim, c.r.xDim, ym.val⟩ : Grid ℝ).mirrorEW
        (class2ms none c.shieldTable c.land).mirrorEW |c.r.gt1| |c.r.gt5| d.mirrorEW
      have hm := (C126_mirror_east_west_partial (gridWidth xm ym) h.gwPos h.gwFine c.elevation
        ⟨c.r.yDim, c.r.xDim, xm.val⟩ ⟨c.r.yDim, c.r.xDim, ym.val⟩ (class2ms none c.shieldTable c.land) hlc rfl rfl
        |c.r.gt1| |c.r.gt5| hpx hpy d out out' ho ho').2.2 i hi j hj f3
      obtain ⟨v1, v2, v3⟩ := shieldSaved_cell h.gwPos h.gwFine ho
      obtain ⟨v1', v2', v3'⟩ := shieldSaved_cell h.gwPos h.gwFine ho'
      have e1 : out.mirrorEW.val i j = out.val i (c.r.xDim - 1 - j) := by
        simp only [Grid.mirrorEW, v2]
        show out.val i (c.land.cols - 1 - j) = _
        rw [hlc]
      have q : (class2ms none c.shieldTable land).Same (class2ms none c.shieldTable c.land) :=
        ⟨eL.1, eL.2.1, fun a ha b hb => by simp only [class2ms, Grid.map, eL.2.2 a ha b hb]⟩
      have q' : (class2ms none c.shieldTable land').Same (class2ms none c.shieldTable c.land).mirrorEW :=
        ⟨eL'.1, eL'.2.1, fun a ha b hb => by
          show class2msCell none c.shieldTable (land'.val a b) = _
          rw [eL'.2.2 a ha b hb]
          rfl⟩
      show toNanNum (g'.val i j) = toNanNum (g.val i (c.r.xDim - 1 - j))
      congr 1
      rw [e1, v3', v3] at hm
      rw [u3', u3, f1, f2, shieldMean_same _ _ q, tileSlope_same eD h.someRows h.someCols hpx hpy]
      refine Eq.trans ?_ hm
      rw [show shieldMean (class2ms none c.mirrorEW.shieldTable land') d.mirrorEW ⌊100 / gridWidth xm ym⌋.toNat i j = _
        from shieldMean_same _ _ q' _ _ _ _, tileSlope_same (g := c.elevation.mirrorEW) eD' h.someRows h.someCols
        (px := |c.mirrorEW.r.gt1|) (py := |c.mirrorEW.r.gt5|) hpx hpy]
      rfl
  | mt =>
    simp only [tileFiles, savedFile]
    refine ⟨?_, ?_⟩
    · rw [Option.isSome_map, Option.isSome_map, Bool.eq_iff_iff, lookup_isSome_iff, lookup_isSome_iff, a2, a2']
      cases d <;> simp [Dir.topoOrder, Dir.mirrorEW]
    · intro r' r e' e
      obtain ⟨g', k', rfl⟩ := Option.map_eq_some_iff.mp e'
      obtain ⟨g, k, rfl⟩ := Option.map_eq_some_iff.mp e
      have m' := a3' _ _ (mem_of_lookup k')
      have m := a3 _ _ (mem_of_lookup k)
      obtain ⟨o, o', p1, p2, p3⟩ := C125_mirror_east_west (c.elevation.map some) h.someRows h.someCols
        (gridWidth xm ym) (√2) c.r.gt0 (-c.r.gt3) d
      obtain ⟨x, y, q1, q2, q3, q4, q5⟩ := topoDir_same (dem' := dem.map some) (dem := c.elevation.map some)
        ⟨eD.1, eD.2.1, fun a ha b hb => congrArg some (eD.2.2 a ha b hb)⟩ h.someRows h.someCols
        (gridWidth xm ym) (√2) c.r.gt0 (-c.r.gt3) d
      obtain ⟨x', y', q1', q2', q3', q4', q5'⟩ := topoDir_same (dem' := dem'.map some)
        (dem := (c.elevation.map some).mirrorEW)
        ⟨eD'.1, eD'.2.1, fun a ha b hb => congrArg some (eD'.2.2 a ha b hb)⟩ h.someRows h.someCols
        (gridWidth xm ym) (√2) c.r.gt0 (-c.r.gt3) d.mirrorEW
      rw [m] at q1; cases q1
      rw [p1] at q2; cases q2
      obtain rfl := Except.ok.inj (m'.symm.trans q1')
      rw [p2] at q2'; cases q2'
      have hr : o.rows = c.r.yDim := q4
      have hc : o.cols = c.r.xDim := q5
      refine ⟨rfl, q3'.1.trans q4', q3'.2.1.trans q5', q3.1.trans q4, q3.2.1.trans q5, fun i hi j hj _ => ?_⟩
      show toNanNum (g'.val i j) = toNanNum (g.val i (c.r.xDim - 1 - j))
      congr 1
      have w1 : g.rows = c.r.yDim := q3.1.trans hr
      have w2 : g.cols = c.r.xDim := q3.2.1.trans hc
      have w3 : g'.rows = c.r.yDim := q3'.1.trans q4'
      have w4 : g'.cols = c.r.xDim := q3'.2.1.trans q5'
      rw [q3'.2.2 i (by omega) j (by omega), p3.2.2 i (by rw [p3.1]; show i < o.rows; omega) j
        (by rw [p3.2.1]; show j < o.cols; omega), q3.2.2 i (by omega) _ (by omega)]
      simp only [Grid.mirrorEW, hc]

/-- **C131** (north-south) As for east and west. -/
theorem C131_mirror_north_south_partial (h : OneTile c xm ym) (h' : OneTile c.mirrorNS xm ym) :
    ((tileStep c.mirrorNS c.r.area c.r.area).2 = .ok () ↔ (tileStep c c.r.area c.r.area).2 = .ok ()) ∧
    ((tileStep c c.r.area c.r.area).2 = .ok () → ∀ m d,
      (tileFiles c.mirrorNS c.r.area c.r.area m d.mirrorNS).isSome = (tileFiles c c.r.area c.r.area m d).isSome ∧
      ∀ r' r, tileFiles c.mirrorNS c.r.area c.r.area m d.mirrorNS = some r' →
        tileFiles c c.r.area c.r.area m d = some r →
        r'.transform = r.transform ∧ r'.band.rows = c.r.yDim ∧ r'.band.cols = c.r.xDim ∧
        r.band.rows = c.r.yDim ∧ r.band.cols = c.r.xDim ∧
        ∀ i < c.r.yDim, ∀ j < c.r.xDim, (m = .ms → SameGround c.elevation xm ym (c.r.yDim - 1 - i) j i j) →
          r'.band.val i j = r.band.val (c.r.yDim - 1 - i) j) := by
  have hgw := h.gwPos
  obtain ⟨s1', s2', s3'⟩ := h'.step
  obtain ⟨s1, s2, s3⟩ := h.step
  have eL := h.cutLand
  have eL' : (cutLandcover c.mirrorNS.lr c.mirrorNS.lcv (clipInfo c.mirrorNS.r c.mirrorNS.r.area) 0).Same
    c.land.mirrorNS := h'.cutLand
  have eD := h.cut
  have eD' : (cutDem c.mirrorNS.r c.mirrorNS.dem c.mirrorNS.r.area 0).Same c.elevation.mirrorNS := by
    have := h'.cut
    refine ⟨this.1, this.2.1, fun i hi j hj => ?_⟩
    rw [this.2.2 i hi j hj]
    show (c.dem.val (c.dem.rows - 1 - i) j).getD 0 = _
    rw [h.demRows]
    rfl
  change (tileStep c.mirrorNS c.r.area c.r.area).2 = _ at s1'
  change (tileStep c.mirrorNS c.r.area c.r.area).1.mz = _ at s2'
  generalize hl : cutLandcover c.lr c.lcv (clipInfo c.r c.r.area) 0 = land at *
  generalize hl' : cutLandcover c.mirrorNS.lr c.mirrorNS.lcv (clipInfo c.mirrorNS.r c.mirrorNS.r.area) 0 = land' at *
  generalize hd : cutDem c.r c.dem c.r.area 0 = dem at *
  generalize hd' : cutDem c.mirrorNS.r c.mirrorNS.dem c.mirrorNS.r.area 0 = dem' at *
  have him := (image_mirrorNS c.land).of_same eL' eL
  have hLr : land.rows = c.r.yDim := eL.1.trans h.landRows
  have hLc : land.cols = c.r.xDim := eL.2.1.trans h.landCols
  have hLr' : land'.rows = c.r.yDim := eL'.1.trans h.landRows
  have hLc' : land'.cols = c.r.xDim := eL'.2.1.trans h.landCols
  have hlr : c.land.rows = c.r.yDim := h.landRows
  have t1 := terrain_carried him mzFormula hgw c.terrainTable (fun d => Or.inl (hLr'.trans hLr.symm))
  refine ⟨by rw [s1, s1']; exact t1.1, fun hok m d => ?_⟩
  rw [s1] at hok
  have hok' : (terrain mzFormula (gridWidth xm ym) land' c.mirrorNS.terrainTable id).2 = .ok () := t1.1.mpr hok
  obtain ⟨a1, a2, a3⟩ := s3 hok
  obtain ⟨a1', a2', a3'⟩ := s3' hok'
  change (tileStep c.mirrorNS c.r.area c.r.area).1.ms = _ at a1'
  change (tileStep c.mirrorNS c.r.area c.r.area).1.mt.map Prod.fst = _ at a2'
  change ∀ d g, (d, g) ∈ (tileStep c.mirrorNS c.r.area c.r.area).1.mt → _ at a3'
  cases m with
  | mz =>
    simp only [tileFiles, savedFile, s2, s2']
    refine ⟨?_, ?_⟩
    · rw [Option.isSome_map, Option.isSome_map, Bool.eq_iff_iff, lookup_isSome_iff, lookup_isSome_iff]
      have hmax := (class2mz_carried him mzFormula c.terrainTable).2
      rcases terrain_max_or_all mzFormula (gridWidth xm ym) land c.terrainTable id hok with ⟨b1, b2⟩ | ⟨b1, b2⟩ <;>
        rcases terrain_max_or_all mzFormula (gridWidth xm ym) land' c.terrainTable id hok' with ⟨b1', b2'⟩ | ⟨b1', b2'⟩
      · rw [b2]; change _ ∈ (terrain mzFormula (gridWidth xm ym) land' c.terrainTable id).1.map _ ↔ _
        rw [b2']; simp
      · exact absurd (hmax.trans b1) b1'
      · exact absurd (hmax.symm.trans b1') b1
      · rw [b2]; change _ ∈ (terrain mzFormula (gridWidth xm ym) land' c.terrainTable id).1.map _ ↔ _
        rw [b2']; simp [mem_terrainOrder]
    · intro r' r e' e
      obtain ⟨g', k', rfl⟩ := Option.map_eq_some_iff.mp e'
      obtain ⟨g, k, rfl⟩ := Option.map_eq_some_iff.mp e
      have m' := mem_of_lookup k'
      have m := mem_of_lookup k
      obtain ⟨r1', c1'⟩ := terrain_shape m'
      obtain ⟨r1, c1⟩ := terrain_shape m
      refine ⟨rfl, r1'.trans hLr', c1'.trans hLc', r1.trans hLr, c1.trans hLc, fun i hi j hj _ => ?_⟩
      have hv := ((t1.2 d g' g m' m).cell (i := i) (j := j) (by omega) (by omega)).1
      show toNanNum (g'.val i j) = toNanNum (g.val (c.r.yDim - 1 - i) j)
      rw [hv]
      congr 2
      omega
  | ms =>
    simp only [tileFiles, savedFile, a1, a1']
    refine ⟨?_, ?_⟩
    · rw [Option.isSome_map, Option.isSome_map, shieldSaved_all h.gwPos h.gwFine, shieldSaved_all h.gwPos h.gwFine]
    · intro r' r e' e
      obtain ⟨g', k', rfl⟩ := Option.map_eq_some_iff.mp e'
      obtain ⟨g, k, rfl⟩ := Option.map_eq_some_iff.mp e
      obtain ⟨u1', u2', u3'⟩ := shieldSaved_cell h.gwPos h.gwFine (mem_of_lookup k')
      obtain ⟨u1, u2, u3⟩ := shieldSaved_cell h.gwPos h.gwFine (mem_of_lookup k)
      refine ⟨rfl, u1'.trans hLr', u2'.trans hLc', u1.trans hLr, u2.trans hLc, fun i hi j hj hsame => ?_⟩
      obtain ⟨f1, f2, f3⟩ := hsame trivial
      have hpx : |c.r.gt1| ≠ 0 := abs_ne_zero.mpr h.pw.ne'
      have hpy : |c.r.gt5| ≠ 0 := abs_ne_zero.mpr h.ph.ne
      obtain ⟨out, ho⟩ := shieldSaved_exists h.gwPos h.gwFine c.elevation ⟨c.r.yDim, c.r.xDim, xm.val⟩
        ⟨c.r.yDim, c.r.xDim, ym.val⟩ (class2ms none c.shieldTable c.land) |c.r.gt1| |c.r.gt5| d
      obtain ⟨out', ho'⟩ := shieldSaved_exists h.gwPos h.gwFine c.elevation.mirrorNS
        (⟨c.r.yDim, c.r.xDim, xm.val⟩ : Grid ℝ).mirrorNS (⟨c.r.yDim, c.r.xDim, ym.val⟩ : Grid ℝ).mirrorNS
        (class2ms none c.shieldTable c.land).mirrorNS |c.r.gt1| |c.r.gt5| d.mirrorNS
      have hm := (C126_mirror_north_south_partial (gridWidth xm ym) h.gwPos h.gwFine c.elevation
        ⟨c.r.yDim, c.r.xDim, xm.val⟩ ⟨c.r.yDim, c.r.xDim, ym.val⟩ (class2ms none c.shieldTable c.land) hlr rfl rfl
        |c.r.gt1| |c.r.gt5| hpx hpy d out out' ho ho').2.2 i hi j hj f3
      obtain ⟨v1, v2, v3⟩ := shieldSaved_cell h.gwPos h.gwFine ho
      obtain ⟨v1', v2', v3'⟩ := shieldSaved_cell h.gwPos h.gwFine ho'
      have e1 : out.mirrorNS.val i j = out.val (c.r.yDim - 1 - i) j := by
        simp only [Grid.mirrorNS, v1]
        show out.val (c.land.rows - 1 - i) j = _
        rw [hlr]
      have q : (class2ms none c.shieldTable land).Same (class2ms none c.shieldTable c.land) :=
        ⟨eL.1, eL.2.1, fun a ha b hb => by simp only [class2ms, Grid.map, eL.2.2 a ha b hb]⟩
      have q' : (class2ms none c.shieldTable land').Same (class2ms none c.shieldTable c.land).mirrorNS :=
        ⟨eL'.1, eL'.2.1, fun a ha b hb => by
          show class2msCell none c.shieldTable (land'.val a b) = _
          rw [eL'.2.2 a ha b hb]
          rfl⟩
      show toNanNum (g'.val i j) = toNanNum (g.val (c.r.yDim - 1 - i) j)
      congr 1
      rw [e1, v3', v3] at hm
      rw [u3', u3, f1, f2, shieldMean_same _ _ q, tileSlope_same eD h.someRows h.someCols hpx hpy]
      refine Eq.trans ?_ hm
      rw [show shieldMean (class2ms none c.mirrorNS.shieldTable land') d.mirrorNS ⌊100 / gridWidth xm ym⌋.toNat i j = _
        from shieldMean_same _ _ q' _ _ _ _, tileSlope_same (g := c.elevation.mirrorNS) eD' h.someRows h.someCols
        (px := |c.mirrorNS.r.gt1|) (py := |c.mirrorNS.r.gt5|) hpx hpy]
      rfl
  | mt =>
    simp only [tileFiles, savedFile]
    refine ⟨?_, ?_⟩
    · rw [Option.isSome_map, Option.isSome_map, Bool.eq_iff_iff, lookup_isSome_iff, lookup_isSome_iff, a2, a2']
      cases d <;> simp [Dir.topoOrder, Dir.mirrorNS]
    · intro r' r e' e
      obtain ⟨g', k', rfl⟩ := Option.map_eq_some_iff.mp e'
      obtain ⟨g, k, rfl⟩ := Option.map_eq_some_iff.mp e
      have m' := a3' _ _ (mem_of_lookup k')
      have m := a3 _ _ (mem_of_lookup k)
      obtain ⟨o, o', p1, p2, p3⟩ := C125_mirror_north_south (c.elevation.map some) h.someRows h.someCols
        (gridWidth xm ym) (√2) c.r.gt0 (-c.r.gt3) d
      obtain ⟨x, y, q1, q2, q3, q4, q5⟩ := topoDir_same (dem' := dem.map some) (dem := c.elevation.map some)
        ⟨eD.1, eD.2.1, fun a ha b hb => congrArg some (eD.2.2 a ha b hb)⟩ h.someRows h.someCols
        (gridWidth xm ym) (√2) c.r.gt0 (-c.r.gt3) d
      obtain ⟨x', y', q1', q2', q3', q4', q5'⟩ := topoDir_same (dem' := dem'.map some)
        (dem := (c.elevation.map some).mirrorNS)
        ⟨eD'.1, eD'.2.1, fun a ha b hb => congrArg some (eD'.2.2 a ha b hb)⟩ h.someRows h.someCols
        (gridWidth xm ym) (√2) c.r.gt0 (-c.r.gt3) d.mirrorNS
      rw [m] at q1; cases q1
      rw [p1] at q2; cases q2
      obtain rfl := Except.ok.inj (m'.symm.trans q1')
      rw [p2] at q2'; cases q2'
      have hr : o.rows = c.r.yDim := q4
      have hc : o.cols = c.r.xDim := q5
      refine ⟨rfl, q3'.1.trans q4', q3'.2.1.trans q5', q3.1.trans q4, q3.2.1.trans q5, fun i hi j hj _ => ?_⟩
      show toNanNum (g'.val i j) = toNanNum (g.val (c.r.yDim - 1 - i) j)
      congr 1
      have w1 : g.rows = c.r.yDim := q3.1.trans hr
      have w2 : g.cols = c.r.xDim := q3.2.1.trans hc
      have w3 : g'.rows = c.r.yDim := q3'.1.trans q4'
      have w4 : g'.cols = c.r.xDim := q3'.2.1.trans q5'
      rw [q3'.2.2 i (by omega) j (by omega), p3.2.2 i (by rw [p3.1]; show i < o.rows; omega) j
        (by rw [p3.2.1]; show j < o.cols; omega), q3.2.2 _ (by omega) j (by omega)]
      simp only [Grid.mirrorNS, hr]

/-- Four columns of steep ground, half of it built-up, with pixels of 50 m everywhere: C131 in both directions says
that the files of the mirrored tiles are there when those of the tile are. (That the tile is computed, and that the
condition on the ground holds at each of its pixels, is shown in `Props/TileMirrorFalse.lean`.) -/
example : ∃ (c : Inputs) (xm ym : Grid ℝ), OneTile c xm ym ∧
    ((tileStep c.mirrorEW c.r.area c.r.area).2 = .ok () ↔ (tileStep c.mirrorNS c.r.area c.r.area).2 = .ok ()) ∧
    c.elevation.val 0 0 ≠ c.elevation.val 0 3 ∧ c.land.val 0 0 ≠ c.land.val 0 3 := by
  have hg : gridWidth ⟨3, 4, fun _ _ => 50⟩ ⟨3, 4, fun _ _ => 50⟩ = 50 := by
    norm_num [gridWidth, Grid.mean, Grid.cells, List.range_succ]
  have hall : OneTile ⟨⟨4, 3, 150, 1 / 2000, -35, -(1 / 2000)⟩, ⟨3, 4, fun _ j => some (20 * (j : ℝ))⟩,
      ⟨4, 3, 150, 1 / 2000, -35, -(1 / 2000)⟩, ⟨3, 4, fun _ j => if j < 2 then some 1 else some 2⟩, [], [(1, 50)],
      fun _ => .ok (⟨3, 4, fun _ _ => 50⟩, ⟨3, 4, fun _ _ => 50⟩), fun _ => 1⟩ ⟨3, 4, fun _ _ => 50⟩
      ⟨3, 4, fun _ _ => 50⟩ :=
    ⟨by norm_num, by norm_num, by norm_num, by norm_num, rfl, rfl, rfl, rfl, rfl, rfl, by rw [hg]; norm_num,
      by rw [hg]; norm_num, one_ne_zero⟩
  refine ⟨_, _, _, hall, (C131_mirror_east_west_partial hall ?_).1.trans
    (C131_mirror_north_south_partial hall ?_).1.symm, ?_, ?_⟩
  · exact ⟨by norm_num [Inputs.mirrorEW], by norm_num [Inputs.mirrorEW], by norm_num [Inputs.mirrorEW],
      by norm_num [Inputs.mirrorEW], rfl, rfl, rfl, rfl, rfl, rfl, by rw [hg]; norm_num, by rw [hg]; norm_num,
      one_ne_zero⟩
  · exact ⟨by norm_num [Inputs.mirrorNS], by norm_num [Inputs.mirrorNS], by norm_num [Inputs.mirrorNS],
      by norm_num [Inputs.mirrorNS], rfl, rfl, rfl, rfl, rfl, rfl, by rw [hg]; norm_num, by rw [hg]; norm_num,
      one_ne_zero⟩
  · norm_num [Inputs.elevation]
  · norm_num [Inputs.land, Grid.map]

end WindMult
