import Verif.Spec.FloatPipeline
import Verif.Props.FloatSlope
import Verif.Props.Spacing
import Verif.Props.Pipeline
import Verif.Proofs.Range

/-!
# Lemmas for the end-to-end theorems with rounded arithmetic
-/

set_option autoImplicit false
set_option linter.unusedSectionVars false

namespace WindMult
open Spec
variable {u w : ℝ}

/-! ### Shielding values from the table -/

theorem storedPercent_near (S : FpRound (1 / 2 ^ 24)) (W : FpRound (1 / 2 ^ 53)) {p q : ℝ} (h0 : 0 ≤ p)
    (h1 : p ≤ 100) (h : |q - p| ≤ 4 * (1 / 2 ^ 53) * p) :
    0 ≤ p / 100 ∧ p / 100 ≤ 1 ∧ |S.rnd (W.rnd (q / 100)) - p / 100| ≤ 1 / 2 ^ 23 * (p / 100) := by
  refine ⟨by positivity, by linarith, ?_⟩
  have hx : |q / 100 - p / 100| ≤ 4 * (1 / 2 ^ 53) * (p / 100) := by
    rw [← sub_div, abs_div, abs_of_pos (by norm_num : (0 : ℝ) < 100)]
    linarith
  have hp : 0 ≤ p / 100 := by positivity
  generalize p / 100 = x at hx hp
  generalize q / 100 = y at hx
  have hy : |y| ≤ (1 + 4 * (1 / 2 ^ 53)) * x := by
    rw [abs_le] at hx ⊢
    constructor <;> linarith
  have h2 := W.near y
  have h3 := S.near (W.rnd y)
  have h4 : |W.rnd y - x| ≤ 8 / 2 ^ 53 * x := by
    have := abs_sub_le (W.rnd y) y x
    norm_num at *
    linarith
  have h5 : |W.rnd y| ≤ (1 + 8 / 2 ^ 53) * x := by
    rw [abs_le] at h4 ⊢
    constructor <;> linarith
  have := abs_sub_le (S.rnd (W.rnd y)) (W.rnd y) x
  norm_num at *
  linarith

theorem class2msCellFl_near (S : FpRound (1 / 2 ^ 24)) (W : FpRound (1 / 2 ^ 53)) {table read : List (ℤ × ℝ)}
    (ht : ShieldRead (1 / 2 ^ 53) table read) (cat : ℤ) :
    (classMs table cat = none ∧ class2msCellFl S W none read cat = none) ∨
    ∃ x y, classMs table cat = some x ∧ class2msCellFl S W none read cat = some y ∧ 0 ≤ x ∧ x ≤ 1 ∧
      |y - x| ≤ 1 / 2 ^ 23 * x := by
  have key : ∀ x y : ℝ, 0 ≤ x → x ≤ 1 → |y - x| ≤ 1 / 2 ^ 23 * x →
      0 ≤ table.foldl (fun out row => if cat = row.1 then row.2 / 100 else out) x ∧
      table.foldl (fun out row => if cat = row.1 then row.2 / 100 else out) x ≤ 1 ∧
      |read.foldl (fun out row => if cat = row.1 then S.rnd (W.rnd (row.2 / 100)) else out) y -
        table.foldl (fun out row => if cat = row.1 then row.2 / 100 else out) x| ≤
        1 / 2 ^ 23 * table.foldl (fun out row => if cat = row.1 then row.2 / 100 else out) x := by
    induction ht with
    | nil => exact fun x y h0 h1 h => ⟨h0, h1, h⟩
    | @cons p _ _ _ hd _ ih =>
      intro x y h0 h1 h
      rw [List.foldl_cons, List.foldl_cons, hd.1]
      obtain ⟨a, b, c⟩ := storedPercent_near S W hd.2.1 hd.2.2.1 hd.2.2.2
      by_cases he : cat = p.1
      · rw [if_pos he, if_pos he]
        exact ih _ _ a b c
      · rw [if_neg he, if_neg he]
        exact ih _ _ h0 h1 h
  rw [← class2msCell_val]
  unfold class2msCell class2msCellFl
  simp only [reduceCtorEq, if_false]
  by_cases h99 : cat = -99
  · left
    rw [if_pos h99, if_pos h99]
    exact ⟨rfl, rfl⟩
  · right
    rw [if_neg h99, if_neg h99]
    obtain ⟨a, b, c⟩ := key 1 1 zero_le_one le_rfl (by rw [sub_self, abs_zero]; positivity)
    exact ⟨_, _, rfl, rfl, a, b, c⟩

/-! ### Loops over the directions -/

theorem convoCombineLoopFl_pos (S : FpRound u) (W : FpRound w) (ks : ℤ) (hk : 0 < ks) (slope : Grid (Option ℝ))
    (aspect : Grid ℕ) (clip : Grid (Option ℝ) → Grid (Option ℝ)) (ds : List Dir) (data : Grid (Option ℝ)) :
    convoCombineLoopFl S W ks slope aspect clip ds data = ds.map fun d =>
      (d, clip (combineFl S W d (blurImageFl S W data (kernFl W d ks.toNat)) slope aspect)) := by
  induction ds with
  | nil => rfl
  | cons d ds ih =>
    unfold convoCombineLoopFl
    simp only [if_pos hk, List.map_cons, ih]

theorem topomultFl_ok (fl : ℝ → ℝ) (dem : Grid (Option ℝ)) (cellsize xl yu : ℝ)
    (clip : Grid (Option ℝ) → Grid (Option ℝ))
    (hdir : ∀ d, ∃ g, topoDirFl fl dem (spacingFl fl d cellsize) xl yu d = .ok g) (ds : List Dir)
    (acc : List (Dir × Grid (Option ℝ))) :
    ∃ new, topomultFl fl dem cellsize xl yu clip ds acc = (acc ++ new, .ok ()) ∧ new.map Prod.fst = ds ∧
      ∀ d g, (d, g) ∈ new → ∃ g', topoDirFl fl dem (spacingFl fl d cellsize) xl yu d = .ok g' ∧ g = clip g' := by
  induction ds generalizing acc with
  | nil => exact ⟨[], by simp [topomultFl], rfl, by simp⟩
  | cons d ds ih =>
    obtain ⟨g, hg⟩ := hdir d
    obtain ⟨new, a1, a2, a3⟩ := ih (acc ++ [(d, clip g)])
    refine ⟨(d, clip g) :: new, ?_, by simp [a2], ?_⟩
    · unfold topomultFl
      simp only [hg]
      rw [a1]
      simp
    · intro d' g' h
      rcases List.mem_cons.mp h with h | h
      · simp only [Prod.mk.injEq] at h
        obtain ⟨rfl, rfl⟩ := h
        exact ⟨g, hg, rfl⟩
      · exact a3 d' g' h

/-! ### The spacing -/

theorem spacingFl_near (P : ℕ) (hP : 24 ≤ P) (d : Dir) {gw gwf : ℝ} (h0 : 0 < gw)
    (h : |gwf - gw| ≤ 1 / 2 ^ 16 * gw) :
    roundDigits P (spacingFl (roundDigits P) d (roundDigits P gwf)) = spacingFl (roundDigits P) d (roundDigits P gwf) ∧
    |spacingFl (roundDigits P) d (roundDigits P gwf) - lineSpacing d gw (√2)| ≤ 1 / 2 ^ 15 * lineSpacing d gw (√2) := by
  have hu : (1 : ℝ) / 2 ^ P ≤ 1 / 2 ^ 24 :=
    one_div_le_one_div_of_le (by positivity) (pow_le_pow_right₀ (by norm_num) hP)
  have near : ∀ x : ℝ, |roundDigits P x - x| ≤ 1 / 2 ^ 24 * |x| := fun x =>
    (roundDigits_near P x).trans (mul_le_mul_of_nonneg_right hu (abs_nonneg x))
  have h1 : |gwf| ≤ (1 + 1 / 2 ^ 16) * gw := by
    rw [abs_le] at h ⊢
    constructor <;> linarith
  have h2 : |roundDigits P gwf - gw| ≤ (1 / 2 ^ 16 + 1.1 / 2 ^ 24) * gw := by
    have a := near gwf
    have b := abs_sub_le (roundDigits P gwf) gwf gw
    norm_num at *
    linarith
  have hcard : |roundDigits P gwf - gw| ≤ 1 / 2 ^ 15 * gw :=
    h2.trans (mul_le_mul_of_nonneg_right (by norm_num) h0.le)
  have hdiag : |roundDigits P (roundDigits P gwf * roundDigits P (√2)) - gw * √2| ≤ 1 / 2 ^ 15 * (gw * √2) := by
    have hr : (0 : ℝ) < √2 := by positivity
    have a := near (√2)
    rw [abs_of_pos hr] at a
    have b := near (roundDigits P gwf * roundDigits P (√2))
    generalize roundDigits P gwf = x at *
    generalize roundDigits P (√2) = y at *
    have hx : |x| ≤ (1 + (1 / 2 ^ 16 + 1.1 / 2 ^ 24)) * gw := by
      rw [abs_le] at h2 ⊢
      constructor <;> linarith
    have e : |x * y - gw * √2| ≤ (1 / 2 ^ 16 + 2.3 / 2 ^ 24) * (gw * √2) := by
      have s1 : x * y - gw * √2 = x * (y - √2) + (x - gw) * √2 := by ring
      rw [s1]
      refine (abs_add_le _ _).trans ?_
      rw [abs_mul, abs_mul, abs_of_pos hr]
      have m1 : |x| * |y - √2| ≤ (1 + (1 / 2 ^ 16 + 1.1 / 2 ^ 24)) * gw * (1 / 2 ^ 24 * √2) := by gcongr
      have m2 : |x - gw| * √2 ≤ (1 / 2 ^ 16 + 1.1 / 2 ^ 24) * gw * √2 := by gcongr
      have m3 : 0 < gw * √2 := by positivity
      calc _ ≤ (1 + (1 / 2 ^ 16 + 1.1 / 2 ^ 24)) * gw * (1 / 2 ^ 24 * √2) + (1 / 2 ^ 16 + 1.1 / 2 ^ 24) * gw * √2 :=
            add_le_add m1 m2
        _ = ((1 + (1 / 2 ^ 16 + 1.1 / 2 ^ 24)) * (1 / 2 ^ 24) + (1 / 2 ^ 16 + 1.1 / 2 ^ 24)) * (gw * √2) := by ring
        _ ≤ _ := mul_le_mul_of_nonneg_right (by norm_num) m3.le
    have m3 : 0 < gw * √2 := by positivity
    generalize gw * √2 = q at *
    have e2 : |x * y| ≤ (1 + (1 / 2 ^ 16 + 2.3 / 2 ^ 24)) * q := by
      rw [abs_le] at e ⊢
      constructor <;> linarith
    have e3 := abs_sub_le (roundDigits P (x * y)) (x * y) q
    norm_num at *
    linarith
  unfold spacingFl lineSpacing
  cases d <;> simp only [Dir.isCardinal, if_true, Bool.false_eq_true, if_false] <;>
    first
    | exact ⟨roundDigits_idem P (by omega) _, hcard⟩
    | exact ⟨roundDigits_idem P (by omega) _, hdiag⟩

/-! ### The files of a tile -/

theorem topoDirFl_known (fl : ℝ → ℝ) (dem : Grid ℝ) (spacing xl yu : ℝ) (d : Dir) {g : Grid (Option ℝ)}
    (h : topoDirFl fl (dem.map some) spacing xl yu d = .ok g) (i j : ℕ) : g.val i j ≠ none := by
  unfold topoDirFl at h
  cases hr : topoRawFl fl (dem.map some) spacing xl yu d with
  | error e => rw [hr] at h; cases h
  | ok raw =>
    rw [hr] at h
    cases h
    exact Option.some_ne_none _

theorem combineCellFl_none (S : FpRound (1 / 2 ^ 24)) (W : FpRound (1 / 2 ^ 53)) (d : Dir) (slope : Option ℝ)
    (aspect : ℕ) (m : Option ℝ) : combineCellFl S W d m slope aspect = none ↔ m = none := by
  cases m with
  | none => simp [combineCellFl]
  | some m => rw [combineCellFl_value S W (by norm_num)]; simp

namespace TileAt
variable {c cf : Inputs} {L B : Limits} {bX bY : ℤ} {E EB : Extent ℝ} {xm ym xmf ymf : Grid ℝ} {gw : ℝ}
  {cat : Grid ℤ} {N : TileFp}

theorem gw_mean (t : TileAt c L B bX bY E EB xm ym gw cat) (q : AsRead N c cf B EB xm ym xmf ymf gw) :
    gw = meanSize xm ym := by
  rw [t.width, gridWidth_eq xm ym q.stored.shape.1 q.stored.shape.2.1]

theorem gw_tree (q : AsRead N c cf B EB xm ym xmf ymf gw) :
    N.gridWidth xmf ymf = gridWidthFl N.terr.sum N.terr.quot N.terr.store (N.tree xm.rows xm.cols) xmf ymf := by
  obtain ⟨-, -, h1, h2, -⟩ := q.stored.shape
  unfold TileFp.gridWidth
  rw [h1, h2]

theorem gw_near (t : TileAt c L B bX bY E EB xm ym gw cat) (q : AsRead N c cf B EB xm ym xmf ymf gw) :
    |N.gridWidth xmf ymf - gw| ≤ 1 / 2 ^ 16 * gw ∧ kernelSizeFl N.terr.quot (N.gridWidth xmf ymf) = ⌊100 / gw⌋ := by
  have hm := t.gw_mean q
  have h := C114_formats N.terr.sum N.terr.quot N.terr.store N.terr.quot (N.tree xm.rows xm.cols) xm ym xmf ymf
    q.stored q.sums q.depth (hm ▸ t.gwPos)
  rw [← hm] at h
  rw [gw_tree q]
  exact ⟨h.1, h.2.2 q.clear100⟩

/-- The terrain files of a tile. -/
theorem mz_fileFl (t : TileAt c L B bX bY E EB xm ym gw cat) (q : AsRead N c cf B EB xm ym xmf ymf gw) :
    let info := clipInfo c.r EB
    let clip := fun g : Grid (Option ℝ) =>
      clipArray g info.gt0 (-info.gt3) info.gt1 (-info.gt5) E
    ∃ mz, terrainFl N.terr (N.gridWidth xmf ymf) (cutLandcover c.lr c.lcv info 0) cf.terrainTable clip = (mz, .ok ()) ∧
      ∀ d, ∃ g, mz.lookup d = some g ∧ (g.rows : ℤ) = L.y2 - L.y1 ∧ (g.cols : ℤ) = L.x2 - L.x1 ∧
        ∀ px py : ℕ, L.Has px py →
          (classMz c.terrainTable (cat.val py px) = 0 → g.val (py - L.y1.toNat) (px - L.x1.toNat) = none) ∧
          (classMz c.terrainTable (cat.val py px) ≠ 0 → ∃ v, g.val (py - L.y1.toNat) (px - L.x1.toNat) = some v ∧
            |v - upwindMean (waterMz c.terrainTable cat) d (terrainWidths d gw).1.toNat
              (terrainWidths d gw).2.toNat py px| ≤ 505 / 2 ^ 23 *
                upwindMean (waterMz c.terrainTable cat) d (terrainWidths d gw).1.toNat
                  (terrainWidths d gw).2.toNat py px) := by
  intro info clip
  obtain ⟨⟨a0, a1, a2, a3, a4⟩, ⟨b0, b1, b2, b3, b4⟩, -⟩ := t.geometry
  obtain ⟨l1, l2, l3⟩ := t.land_same
  have r1 : ((cat.window B).rows : ℤ) = B.y2 - B.y1 := by simp only [Grid.window]; omega
  have r2 : ((cat.window B).cols : ℤ) = B.x2 - B.x1 := by simp only [Grid.window]; omega
  generalize hland : cutLandcover c.lr c.lcv info 0 = land at *
  have hcell : ∀ px py : ℕ, B.Has px py →
      land.val (py - B.y1.toNat) (px - B.x1.toNat) = cat.val py px := by
    rintro px py ⟨p1, p2, p3, p4⟩
    rw [l3 _ (by omega) _ (by omega)]
    simp only [Grid.window]
    congr 1 <;> omega
  have hL : ∀ px py : ℕ, L.Has px py → B.Has px py := fun px py ⟨p1, p2, p3, p4⟩ =>
    ⟨by omega, by omega, by omega, by omega⟩
  have h115 := C115_terrain N.terr (N.tree xm.rows xm.cols) xm ym xmf ymf q.stored q.sums q.depth gw (t.gw_mean q)
    q.gwOne (by linarith [t.gwFine]) q.clear500 q.clear200 land c.terrainTable cf.terrainTable q.terrain clip
    (by
      obtain ⟨px, py, hb, hpos⟩ := t.someLand
      have hb' := hb
      obtain ⟨p1, p2, p3, p4⟩ := hb'
      exact ⟨py - B.y1.toNat, by omega, px - B.x1.toNat, by omega, by rw [hcell px py hb]; exact hpos.ne'⟩)
    (fun d => by have := t.fits d; omega) _ rfl
  rw [← gw_tree q] at h115
  obtain ⟨q1, q2, q3⟩ := h115
  refine ⟨_, Prod.ext rfl q1, fun d => ?_⟩
  obtain ⟨g, h1, h2⟩ := lookup_of_map_fst _ d (by rw [q2]; cases d <;> simp)
  obtain ⟨f1, f2, f3, f4, f5⟩ := t.fits d
  obtain ⟨g', e1, e2, e3, e4⟩ := q3 d g h2 (by omega)
  obtain ⟨c1, c2, c3⟩ := t.clip g' (by omega) (by omega)
  refine ⟨g, h1, by rw [e1]; exact c1, by rw [e1]; exact c2, fun px py hp => ?_⟩
  have hB := hL px py hp
  have hval : g.val (py - L.y1.toNat) (px - L.x1.toNat) = g'.val (py - B.y1.toNat) (px - B.x1.toNat) := by
    rw [e1]
    exact c3 px py hp
  obtain ⟨v1, v2⟩ := e4 (py - B.y1.toNat) (by obtain ⟨p1, p2, p3, p4⟩ := hB; omega) (px - B.x1.toNat)
    (by obtain ⟨p1, p2, p3, p4⟩ := hB; omega) (terrainWidths d gw).1.toNat (terrainWidths d gw).2.toNat
    (by rw [min_eq_left (by omega)]; omega) (by omega)
  have hmean : upwindMean (waterMz c.terrainTable land) d (terrainWidths d gw).1.toNat (terrainWidths d gw).2.toNat
      (py - B.y1.toNat) (px - B.x1.toNat) = upwindMean (waterMz c.terrainTable cat) d (terrainWidths d gw).1.toNat
        (terrainWidths d gw).2.toNat py px := by
    rw [← t.upwindMean_block (waterMz c.terrainTable cat) t.land.1 t.land.2 d px py hp]
    obtain ⟨p1, p2, p3, p4⟩ := hB
    apply upwindMean_same
    · refine ⟨l1, l2, fun i hi j hj => ?_⟩
      show (if classMz _ (land.val i j) = 0 then 1 else classMz _ (land.val i j)) = _
      rw [l3 i hi j hj]
      rfl
    · show _ < land.rows
      omega
    · show _ < land.cols
      omega
  rw [hcell px py hB] at v1 v2
  rw [hval]
  refine ⟨v1, fun h0 => ?_⟩
  obtain ⟨v, w1, w2⟩ := v2 h0
  rw [hmean] at w2
  refine ⟨v, w1, w2.trans ?_⟩
  have hw := width_le d gw q.gwOne
  have hW : ((terrainWidths d gw).1.toNat : ℝ) ≤ 501 := by
    have : (terrainWidths d gw).1.toNat ≤ 501 := by omega
    exact_mod_cast this
  have hpos : 0 ≤ upwindMean (waterMz c.terrainTable cat) d (terrainWidths d gw).1.toNat
      (terrainWidths d gw).2.toNat py px := by
    have h4 : (0 : ℝ) < ((terrainWidths d gw).1.toNat + 4) / 2 ^ 23 := by positivity
    exact nonneg_of_mul_nonneg_right ((abs_nonneg _).trans w2) h4
  exact mul_le_mul_of_nonneg_right (by gcongr; linarith) hpos

/-- Where the gradient of the whole raster is bounded so is that of the tile. -/
theorem gradient_block (t : TileAt c L B bX bY E EB xm ym gw cat) (px py : ℕ) (hp : L.Has px py) {x y G : ℝ}
    (h : GradientAtMost c.elevation py px x y G) :
    GradientAtMost (cutDem c.r c.dem EB 0) (py - B.y1.toNat : ℕ) (px - B.x1.toNat : ℕ) x y G := by
  have hb := t.clamped_block px py hp
  intro a a1 a2
  obtain ⟨h1, h2⟩ := h a a1 a2
  have m : ∀ x : ℤ, x - 1 = x + (-1) := fun x => rfl
  simp only [m] at h1 h2 ⊢
  rw [hb a 1 ⟨a1, a2⟩ (by omega), hb a (-1) ⟨a1, a2⟩ (by omega), hb 1 a (by omega) ⟨a1, a2⟩,
    hb (-1) a (by omega) ⟨a1, a2⟩]
  exact ⟨h1, h2⟩

/-- The shielding files of a tile. -/
theorem ms_fileFl (t : TileAt c L B bX bY E EB xm ym gw cat) (q : AsRead N c cf B EB xm ym xmf ymf gw) :
    let info := clipInfo c.r EB
    let clip := fun g : Grid (Option ℝ) =>
      clipArray g info.gt0 (-info.gt3) info.gt1 (-info.gt5) E
    let dem := cutDem c.r c.dem EB 0
    let sa := fun i j => slopeAspectFl N.wide N.trig (dem.map some) |info.gt1| |info.gt5| (xmf.val i j)
      (ymf.val i j) i j
    let ms := convoCombineFl N.ms N.wide N.terr.quot (N.gridWidth xmf ymf)
      (class2msFl N.ms N.wide none cf.shieldTable (cutLandcover c.lr c.lcv info 0))
      ⟨dem.rows, dem.cols, fun i j => (sa i j).1⟩ ⟨dem.rows, dem.cols, fun i j => (sa i j).2⟩ clip
    ∀ d, ∃ g, ms.lookup d = some g ∧ (g.rows : ℤ) = L.y2 - L.y1 ∧ (g.cols : ℤ) = L.x2 - L.x1 ∧
      ∀ px py : ℕ, L.Has px py →
        (g.val (py - L.y1.toNat) (px - L.x1.toNat) = none ↔
          shieldMean (cat.map (classMs c.shieldTable)) d ⌊100 / gw⌋.toNat py px = none) ∧
        ∀ m h s, ∀ _ : Decidable (InSector d h),
          shieldMean (cat.map (classMs c.shieldTable)) d ⌊100 / gw⌋.toNat py px = some m →
          FallsTowards
            (riseEast c.elevation py px / xm.val (py - B.y1.toNat) (px - B.x1.toNat))
            (riseNorth c.elevation py px / ym.val (py - B.y1.toNat) (px - B.x1.toNat)) h s →
          ClearPixel c B xm ym gw d px py h s →
          ∃ y, g.val (py - L.y1.toNat) (px - L.x1.toNat) = some y ∧
            |y - finalMs (slopeAdjusted (InSector d h) m (some s))| ≤ 1 / 2 ^ 17 := by
  intro info clip dem sa ms d
  obtain ⟨⟨a0, a1, a2, a3, a4⟩, ⟨b0, b1, b2, b3, b4⟩, -⟩ := t.geometry
  obtain ⟨l1, l2, l3⟩ := t.land_same
  obtain ⟨d1, d2, -⟩ := t.dem_same
  have r1 : ((cat.window B).rows : ℤ) = B.y2 - B.y1 := by simp only [Grid.window]; omega
  have r2 : ((cat.window B).cols : ℤ) = B.x2 - B.x1 := by simp only [Grid.window]; omega
  have r3 : ((c.elevation.window B).rows : ℤ) = B.y2 - B.y1 := by simp only [Grid.window]; omega
  have r4 : ((c.elevation.window B).cols : ℤ) = B.x2 - B.x1 := by simp only [Grid.window]; omega
  have hp1 : 0 < |info.gt1| := abs_pos.mpr t.pw.ne'
  have hp5 : 0 < |info.gt5| := by
    rw [abs_pos]
    show -(-c.r.gt5) ≠ 0
    rw [neg_neg]
    exact t.ph.ne
  obtain ⟨k1, -, -⟩ := t.kernel
  have hks := (t.gw_near q).2
  have hk100 : ⌊100 / gw⌋.toNat ≤ 100 := by
    have h1 : (100 : ℝ) / gw ≤ 100 := div_le_self (by norm_num) q.gwOne
    have h2 : ⌊100 / gw⌋ ≤ 100 := by
      have := (Int.floor_le (100 / gw)).trans h1
      exact_mod_cast this
    omega
  generalize hland : cutLandcover c.lr c.lcv info 0 = land at *
  have hst : StoredShielding (land.map (classMs c.shieldTable)) (class2msFl N.ms N.wide none cf.shieldTable land)
      (1 / 2 ^ 23) := ⟨rfl, rfl, fun i _ j _ => class2msCellFl_near N.ms N.wide q.shield (land.val i j)⟩
  have hsm : ∀ px py : ℕ, L.Has px py → shieldMean (land.map (classMs c.shieldTable)) d ⌊100 / gw⌋.toNat
      (py - B.y1.toNat) (px - B.x1.toNat) =
        shieldMean (cat.map (classMs c.shieldTable)) d ⌊100 / gw⌋.toNat py px := by
    intro px py hp
    rw [← t.shieldMean_block (cat.map (classMs c.shieldTable)) t.land.1 t.land.2 d px py hp]
    apply shieldMean_same
    refine ⟨l1, l2, fun i hi j hj => ?_⟩
    show classMs c.shieldTable _ = classMs c.shieldTable _
    rw [l3 i hi j hj]
    rfl
  have hms : ms = Dir.terrainOrder.map fun d => (d, clip (combineFl N.ms N.wide d (blurImageFl N.ms N.wide
      (class2msFl N.ms N.wide none cf.shieldTable land) (kernFl N.wide d ⌊100 / gw⌋.toNat))
      ⟨dem.rows, dem.cols, fun i j => (sa i j).1⟩ ⟨dem.rows, dem.cols, fun i j => (sa i j).2⟩)) := by
    show convoCombineFl _ _ _ _ _ _ _ _ = _
    unfold convoCombineFl
    rw [hks, convoCombineLoopFl_pos _ _ _ (by omega), hland]
  have hlook : ms.lookup d = some (clip (combineFl N.ms N.wide d (blurImageFl N.ms N.wide
      (class2msFl N.ms N.wide none cf.shieldTable land) (kernFl N.wide d ⌊100 / gw⌋.toNat))
      ⟨dem.rows, dem.cols, fun i j => (sa i j).1⟩ ⟨dem.rows, dem.cols, fun i j => (sa i j).2⟩)) := by
    rw [hms]; cases d <;> rfl
  refine ⟨_, hlook, ?_⟩
  obtain ⟨c1, c2, c3⟩ := t.clip (combineFl N.ms N.wide d (blurImageFl N.ms N.wide
      (class2msFl N.ms N.wide none cf.shieldTable land) (kernFl N.wide d ⌊100 / gw⌋.toNat))
      ⟨dem.rows, dem.cols, fun i j => (sa i j).1⟩ ⟨dem.rows, dem.cols, fun i j => (sa i j).2⟩)
      (show (land.rows : ℤ) = _ by omega) (show (land.cols : ℤ) = _ by omega)
  refine ⟨c1, c2, fun px py hp => ?_⟩
  have hp' := hp
  obtain ⟨p1, p2, p3, p4⟩ := hp'
  constructor
  · show (clipArray _ _ _ _ _ E).val _ _ = none ↔ _
    rw [c3 px py hp]
    show combineCellFl _ _ _ _ _ _ = none ↔ _
    rw [combineCellFl_none, ← hsm px py hp]
    have hn := blurFl_near N.ms N.wide (by positivity) (by positivity) (by norm_num) d ⌊100 / gw⌋.toNat k1 _ _
      hst.1 hst.2.1 (1 / 2 ^ 23) (by positivity) hst.near (py - B.y1.toNat) (px - B.x1.toNat)
    revert hn
    cases shieldMean (land.map (classMs c.shieldTable)) d ⌊100 / gw⌋.toNat (py - B.y1.toNat) (px - B.x1.toNat) <;>
      cases (blurImageFl N.ms N.wide (class2msFl N.ms N.wide none cf.shieldTable land)
        (kernFl N.wide d ⌊100 / gw⌋.toNat)).val (py - B.y1.toNat) (px - B.x1.toNat) <;> simp [NearOpt]
  · intro m h s _ hm f hc
    obtain ⟨s1, s2⟩ := t.sizesPos (py - B.y1.toNat) (px - B.x1.toNat) (by omega) (by omega)
    have hin : py - B.y1.toNat < xm.rows ∧ px - B.x1.toNat < xm.cols := by
      obtain ⟨e1, e2⟩ := q.shape
      omega
    obtain ⟨⟨v, v1, st1⟩, w, w1, st2⟩ := q.stored.stored _ hin.1 _ hin.2
    obtain ⟨re, rn⟩ := t.rise_block px py hp
    have near : ∀ x v : ℝ, 0 < x → |v - x| ≤ 1 / 2 ^ 24 / 2 * x → |N.terr.store.rnd v - x| ≤ 1 / 2 ^ 23 * x := by
      intro x v hx hv
      have h1 := N.terr.store.near v
      obtain ⟨h2, h3⟩ := abs_le.mp hv
      rw [abs_of_pos (by nlinarith : 0 < v)] at h1
      obtain ⟨h4, h5⟩ := abs_le.mp h1
      rw [abs_le]
      constructor <;> linarith
    obtain ⟨y, y1, y2⟩ := C112_formats N.ms N.wide N.trig d ⌊100 / gw⌋.toNat k1 hk100 _ _ hst (dem.map some) dem
      (py - B.y1.toNat) (px - B.x1.toNat) (show _ < (cutDem c.r c.dem EB 0).rows by omega)
      (show _ < (cutDem c.r c.dem EB 0).cols by omega) ⟨rfl, rfl, fun _ _ _ _ _ _ => rfl⟩ _ _
      (xm.val (py - B.y1.toNat) (px - B.x1.toNat)) (ym.val (py - B.y1.toNat) (px - B.x1.toNat)) xmf ymf hp1 hp5 s1 s2
      (by rw [st1]; exact near _ v s1 v1) (by rw [st2]; exact near _ w s2 w1) (t.gradient_block px py hp hc.gradient) h s
      (by
        show FallsTowards (riseEast (cutDem c.r c.dem EB 0) _ _ / _) (riseNorth (cutDem c.r c.dem EB 0) _ _ / _) h s
        rw [re, rn]; exact f) hc.heading m (by rw [hsm px py hp]; exact hm)
    exact ⟨y, (c3 px py hp).trans y1, y2⟩

/-- The topographic files of a tile. -/
theorem mt_fileFl (t : TileAt c L B bX bY E EB xm ym gw cat) (q : AsRead N c cf B EB xm ym xmf ymf gw) :
    let info := clipInfo c.r EB
    let clip := fun g : Grid (Option ℝ) =>
      clipArray g info.gt0 (-info.gt3) info.gt1 (-info.gt5) E
    ∃ mt, topomultFl (roundDigits N.P) ((cutDem c.r c.dem EB 0).map some) (roundDigits N.P (N.gridWidth xmf ymf))
        info.gt0 (-info.gt3) clip Dir.topoOrder [] = (mt, .ok ()) ∧
      ∀ d, ∃ g, mt.lookup d = some g ∧ (g.rows : ℤ) = L.y2 - L.y1 ∧ (g.cols : ℤ) = L.x2 - L.x1 ∧
        ∀ px py : ℕ, L.Has px py → g.val (py - L.y1.toNat) (px - L.x1.toNat) ≠ none ∧
          ∀ h s, ClearPixel c B xm ym gw d px py h s → ∃ x : ℤ → ℤ → ℝ,
            (∀ a b, IsRawMt (c.elevation.window B) d (stepLength d gw)
              (143 < c.r.lonEdge B.x1 ∧ c.r.latEdge B.y1 < -40) (py - B.y1 + a) (px - B.x1 + b) (x a b)) ∧
            ∃ y, g.val (py - L.y1.toNat) (px - L.x1.toNat) = some y ∧
              |y - (∑ a ∈ {-1, 0, 1}, ∑ b ∈ {-1, 0, 1}, x a b) / 9| ≤ 4 / 2 ^ 15 + 252 / 2 ^ 24 := by
  intro info clip
  obtain ⟨⟨a0, a1, a2, a3, a4⟩, ⟨b0, b1, b2, b3, b4⟩, -⟩ := t.geometry
  obtain ⟨d1, d2, d3⟩ := t.dem_same
  have r3 : ((c.elevation.window B).rows : ℤ) = B.y2 - B.y1 := by simp only [Grid.window]; omega
  have r4 : ((c.elevation.window B).cols : ℤ) = B.x2 - B.x1 := by simp only [Grid.window]; omega
  obtain ⟨side1, side2⟩ := q.side
  have hP := q.digits
  have hp22 : (2 : ℤ) ^ 22 ≤ 2 ^ (N.P - 2) := pow_le_pow_right₀ (by norm_num) (by omega)
  have hp23 : (2 : ℤ) ^ 23 ≤ 2 ^ (N.P - 1) := pow_le_pow_right₀ (by norm_num) (by omega)
  have hpP : (2 : ℝ) ^ 24 ≤ 2 ^ N.P := pow_le_pow_right₀ (by norm_num) hP
  have hs := t.dem_same
  generalize hdem : cutDem c.r c.dem EB 0 = dem at *
  have hdr : 0 < dem.rows := by omega
  have hdc : 0 < dem.cols := by omega
  have key := fun d => by
    have hsp := spacingFl_near N.P hP d t.gwPos (t.gw_near q).1
    exact C116_spacing N.P (by omega) (dem.map some) hdr hdc
      (by
        have : (dem.rows : ℤ) ≤ 2 ^ (N.P - 2) := by omega
        exact_mod_cast this)
      (by
        have : (dem.cols : ℤ) ≤ 2 ^ (N.P - 2) := by omega
        exact_mod_cast this)
      (by
        intro i j hi hj z hz
        have e : z = c.elevation.val (B.y1.toNat + i) (B.x1.toNat + j) :=
          (Option.some.inj hz).symm.trans (d3 i hi j hj)
        have hi : i < dem.rows := hi
        have hj : j < dem.cols := hj
        have hz4 := q.elevations (B.y1.toNat + i) (by omega) (B.x1.toNat + j) (by omega)
        rw [← e, abs_le] at hz4
        have f1 : -4000 ≤ ⌊z⌋ := Int.le_floor.mpr (by push_cast; linarith)
        have f2 : ⌊z⌋ ≤ 4000 := by
          have := (Int.floor_le z).trans hz4.2
          exact_mod_cast this
        rw [abs_le]
        constructor <;> linarith)
      gw (√2) info.gt0 (-info.gt3) d (by rw [lineSpacing_eq]; exact stepLength_pos d gw t.gwPos) _ (1 / 2 ^ 15)
      hsp.1 hsp.2 (by norm_num) (by
        refine (div_le_div_of_nonneg_left (by norm_num) (by positivity) hpP).trans ?_
        norm_num)
  obtain ⟨mt, m1, m2, m3⟩ := topomultFl_ok (roundDigits N.P) (dem.map some) (roundDigits N.P (N.gridWidth xmf ymf))
    info.gt0 (-info.gt3) clip (fun d => by obtain ⟨g, gf, -, h, -⟩ := key d; exact ⟨gf, h⟩) Dir.topoOrder []
  rw [List.nil_append] at m1
  refine ⟨mt, m1, fun d => ?_⟩
  obtain ⟨g, h1, h2⟩ := lookup_of_map_fst mt d (by rw [m2]; cases d <;> decide)
  obtain ⟨g', e1, e2⟩ := m3 d g h2
  obtain ⟨ge, gf, k1, k2, k3, k4, k5, k6, k7⟩ := key d
  rw [e1] at k2
  cases k2
  obtain ⟨c1, c2, c3⟩ := t.clip g' (show (g'.rows : ℤ) = _ by rw [k5]; show (dem.rows : ℤ) = _; omega)
    (show (g'.cols : ℤ) = _ by rw [k6]; show (dem.cols : ℤ) = _; omega)
  refine ⟨g, h1, by rw [e2]; exact c1, by rw [e2]; exact c2, fun px py hp => ?_⟩
  have hval : g.val (py - L.y1.toNat) (px - L.x1.toNat) = g'.val (py - B.y1.toNat) (px - B.x1.toNat) := by
    rw [e2]
    exact c3 px py hp
  rw [hval]
  refine ⟨topoDirFl_known _ dem _ _ _ d e1 _ _, fun h s hc => ?_⟩
  obtain ⟨p1, p2, p3, p4⟩ := hp
  have hi : py - B.y1.toNat < dem.rows := by omega
  have hj : px - B.x1.toNat < dem.cols := by omega
  obtain ⟨out, o1, o2, o3, o4⟩ := topoDir_exact dem hdr hdc gw t.gwPos info.gt0 (-info.gt3) d
  rw [k1] at o1
  cases o1
  obtain ⟨x, q1, q2⟩ := o4 _ _ hi hj
  obtain ⟨v, y, v1, v2, v3⟩ := (k7 _ _ hi hj).2 (by
    intro a b ha hb u1 u2 u3 u4
    have ha : a < dem.rows := ha
    have hb : b < dem.cols := hb
    constructor
    · rw [lineSpacing_eq]
      have hcl := hc.hills a b (by omega) (by omega) (by rw [abs_le]; omega) (by rw [abs_le]; omega)
      intro s' n hT
      have hT' : IsTransect (c.elevation.window B).rows (c.elevation.window B).cols d a b s' n := by
        rw [← d1, ← d2]; exact hT
      rw [transectLine_same dem _ hs d a b s' n hT]
      exact hcl s' n hT'
    · intro _ z hz
      have hz4 := q.elevations (B.y1.toNat + a) (by omega) (B.x1.toNat + b) (by omega)
      have e : c.elevation.val (B.y1.toNat + a) (B.x1.toNat + b) = dem.val a b := (d3 a ha b hb).symm
      have e' : dem.val a b = z := Option.some.inj hz
      rw [e, e'] at hz4
      exact (abs_le.mp hz4).2) _ rfl
  rw [q2] at v1
  cases v1
  refine ⟨x, fun a b => ?_, y, v2, v3.trans ?_⟩
  · have h := rawMt_same _ _ hs _ _ _ _ _ _ (q1 a b)
    have hT : (143 < info.gt0 ∧ 40 < -info.gt3) ↔ (143 < c.r.lonEdge B.x1 ∧ c.r.latEdge B.y1 < -40) := t.corner
    have ey : ((py - B.y1.toNat : ℕ) : ℤ) = py - B.y1 := by omega
    have ex : ((px - B.x1.toNat : ℕ) : ℤ) = px - B.x1 := by omega
    rw [ey, ex] at h
    unfold IsRawMt adjustedMt at h ⊢
    simp only [hT] at h
    exact h
  · have : (252 : ℝ) / 2 ^ N.P ≤ 252 / 2 ^ 24 := div_le_div_of_nonneg_left (by norm_num) (by positivity) hpP
    linarith

end TileAt

end WindMult
