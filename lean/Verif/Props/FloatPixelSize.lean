import Verif.Proofs.FloatBlrb
import Verif.Proofs.FloatCoords
import Verif.Props.FloatDriver

/-!
# C120: the pixel-size grids in double precision
-/

set_option autoImplicit false
set_option linter.unusedSectionVars false

namespace WindMult
open Spec Real

variable {u : ℝ} (W : FpRound (1 / 2 ^ 53)) (M : FpMath (1 / 2 ^ 53)) (S : FpRound u)

/-- Interpolation of sizes with a relative error `e` that depend on the second index only, as in `pixelSizeGrid_mem`:
the values have a relative error of at most `d` before they are stored. -/
theorem pixelSizeGridFl_near (ev evf : ℤ → ℤ → Except PyErr ℝ) (X : ℤ → ℝ) (F : ℤ → ℤ → ℝ) (n m : ℕ) (hn : 12 ≤ n)
    (hm : 12 ≤ m) (he : ∀ i < n, ∀ j < m, ev i j = .ok (X j)) (hf : ∀ i < n, ∀ j < m, evf i j = .ok (F i j))
    (lo hi e d : ℝ) (hlo : 0 < lo - (hi - lo) / 10) (hX : ∀ j < m, lo ≤ X j ∧ X j ≤ hi) (he0 : 0 ≤ e) (he1 : e ≤ 1 / 100)
    (hd0 : 0 ≤ d) (hF : ∀ i < n, ∀ j < m, |F i j - X j| ≤ e * X j)
    (hd : (144 / 100 * e + 1 / 10 ^ 14) * hi ≤ d * (lo - (hi - lo) / 10)) :
    ∃ out outf, pixelSizeGrid ev n m = .ok out ∧
      interpolateGridFl W S evf 1 0 0 n m ⟨n, m, fun _ _ => some 0⟩ = .ok outf ∧
      (out.rows = n ∧ out.cols = m) ∧ (outf.rows = n ∧ outf.cols = m) ∧
      ∀ i < n, ∀ j < m, 0 < (out.val i j).getD 0 ∧
        ∃ v, |v - (out.val i j).getD 0| ≤ d * (out.val i j).getD 0 ∧ outf.val i j = some (S.rnd v) := by
  obtain ⟨out, o1, o2, o3, o4⟩ := interpolateGrid_one ev (fun _ j => X j) n m (by omega) (by omega) he
    ⟨n, m, fun _ _ => some 0⟩ rfl rfl
  obtain ⟨out', o1', -, -, o5⟩ := pixelSizeGrid_mem ev X n m (by omega) hm he lo hi hX
  have eo : out' = out := Except.ok.inj (o1'.symm.trans o1)
  subst eo
  obtain ⟨outf, f1, f2, f3, f4⟩ := interpolateGridFl_one W S evf F n m (by omega) (by omega) hf
    ⟨n, m, fun _ _ => some 0⟩ rfl rfl
  refine ⟨out', outf, o1, f1, ⟨o2, o3⟩, ⟨f2, f3⟩, fun i hi' j hj => ?_⟩
  have hpos : lo - (hi - lo) / 10 ≤ (out'.val i j).getD 0 := (o5 i hi' j hj).1
  refine ⟨lt_of_lt_of_le hlo hpos, _, ?_, (f4 i hi' j hj).trans (blockValueFl_eq W S F (by omega) (by omega) _ _ i j
    _ _ rfl rfl)⟩
  refine le_trans ?_ (mul_le_mul_of_nonneg_left hpos hd0)
  refine le_trans ?_ hd
  rw [o4 i hi' j hj, blockValue_eq _ (by omega) (by omega), Option.getD_some]
  obtain ⟨s0, s1⟩ := weight_mem hn hi'
  obtain ⟨t0, t1⟩ := weight_mem hm hj
  have hlh : lo ≤ hi := (hX j hj).1.trans (hX j hj).2
  have hhi : 0 < hi := by linarith
  have inn : ∀ {k : ℕ} (b : Bool), 12 ≤ k → axLo k b < k ∧ axHi k b < k := fun b hk =>
    ⟨lt_of_le_of_lt (axLo_le _ (by omega) b) (axHi_lt _ (by omega) b), axHi_lt _ (by omega) b⟩
  obtain ⟨i0, i1⟩ := inn (lastHalf n i) hn
  obtain ⟨j0, j1⟩ := inn (lastHalf m j) hm
  have key : ∀ a < n, ∀ b < m, |F a b - X b| ≤ e * hi ∧ |X b| ≤ hi := by
    intro a ha b hb
    obtain ⟨x0, x1⟩ := hX b hb
    refine ⟨(hF a ha b hb).trans (by gcongr), ?_⟩
    rw [abs_of_nonneg (by linarith)]
    exact x1
  have := bilinearFl_err W hhi s0 s1 t0 t1 rfl rfl (by nlinarith : e * hi ≤ hi / 100)
    (key _ i1 _ j1).1 (key _ i1 _ j0).1 (key _ i0 _ j1).1 (key _ i0 _ j0).1
    (key _ i1 _ j1).2 (key _ i1 _ j0).2 (key _ i0 _ j1).2 (key _ i0 _ j0).2
  refine this.trans (le_of_eq ?_)
  ring

/-- **C120** The pixel-size grids computed in double precision (with functions `sin`, `atan2`, … good to a unit in the
last place) are found whenever the raster has at least twelve rows and columns, pixels of 1/4000° to 1/2° – and is no
larger than 2° – and lies in latitudes from 2° S to 45° S; and before they are stored all sizes are those of exact
arithmetic up to one part in 2²⁵.  The corner of the raster may be off by rounding. -/
theorem C120_pixel_sizes (S : FpRound (1 / 2 ^ 24)) (fuel : ℕ) (hfuel : 12 ≤ fuel) (r rf : RasterInfo ℝ)
    (hdim : rf.xDim = r.xDim ∧ rf.yDim = r.yDim) (hstep : rf.gt1 = r.gt1 ∧ rf.gt5 = r.gt5)
    (hlon : |rf.gt0| ≤ 200) (hlat : |rf.gt3 - r.gt3| ≤ 5 / 10 ^ 14) (hrows : 12 ≤ r.yDim) (hcols : 12 ≤ r.xDim)
    (hw0 : 1 / 4000 ≤ r.gt1) (hw1 : r.gt1 ≤ 1 / 2) (hh0 : 1 / 4000 ≤ -r.gt5) (hh1 : -r.gt5 ≤ 1 / 2)
    (hx : r.yDim * r.gt1 ≤ 2) (hy : r.xDim * -r.gt5 ≤ 2) (hn : r.gt3 ≤ -2) (hs : -45 ≤ r.gt3 + r.xDim * r.gt5) :
    ∃ xm ym xmf ymf, pixelSizes fuel r = .ok (xm, ym) ∧ pixelSizesFl W M S fuel rf = .ok (xmf, ymf) ∧
      SizesStored S xm ym xmf ymf ∧ xm.rows = r.yDim ∧ xm.cols = r.xDim := by
  have hsize := row_sizes fuel (by omega) r (by linarith) (by linarith) (by linarith) (by linarith) hs
  choose! SX SY hS1 hS2 hS3 using hsize
  have hnear : ∀ i < r.yDim, ∀ j < r.xDim, ∃ sxf syf, getPixelSizeFl W M fuel rf (i : ℕ) (j : ℕ) = .ok (sxf, syf) ∧
      |sxf - SX j| ≤ 9 / 10 ^ 9 * SX j ∧ |syf - SY j| ≤ 1 / 10 ^ 8 * SY j := by
    intro i hi j hj
    have i1 : (((i : ℕ) : ℤ) : ℝ) + 1 ≤ r.yDim := by exact_mod_cast hi
    have j1 : (((j : ℕ) : ℤ) : ℝ) + 1 ≤ r.xDim := by exact_mod_cast hj
    have j0 : (0 : ℝ) ≤ ((j : ℕ) : ℤ) := by exact_mod_cast Nat.zero_le j
    have hw : 0 < r.gt1 := by linarith
    obtain ⟨sxf, syf, sx, sy, h1, h2, h3, h4⟩ := getPixelSizeFl_near W M fuel hfuel r rf i j hstep.1 hstep.2 hlon hlat
      hw0 hw1 hh0 hh1 (by omega) (by nlinarith) (by omega) (by nlinarith)
      (by rw [abs_le]; constructor <;> nlinarith) (by rw [abs_le]; constructor <;> nlinarith)
      (by rw [abs_of_neg (by nlinarith)]; nlinarith)
    have := h2.symm.trans (hS1 j hj i)
    simp only [Except.ok.injEq, Prod.mk.injEq] at this
    obtain ⟨rfl, rfl⟩ := this
    exact ⟨sxf, syf, h1, h3, h4⟩
  choose! FX FY hF1 hF2 hF3 using hnear
  have ha : 0 < earthA := by unfold earthA; norm_num
  have hr : 0 < radPerDeg := by unfold radPerDeg; norm_num
  have hpx : 0 < earthA * (r.gt1 * radPerDeg) := by
    have : 0 < r.gt1 := by linarith
    positivity
  have hpy : 0 < earthA * (-r.gt5 * radPerDeg) := by
    have : 0 < -r.gt5 := by linarith
    positivity
  obtain ⟨gx, gxf, x1, x2, ⟨x3, x3'⟩, ⟨x4, x4'⟩, x5⟩ := pixelSizeGridFl_near W S
    (fun x y => (getPixelSize fuel r x y).map Prod.fst) (fun x y => (getPixelSizeFl W M fuel rf x y).map Prod.fst)
    (fun j => SX j.toNat) (fun i j => FX i.toNat j.toNat) r.yDim r.xDim hrows hcols
    (fun i _ j hj => by simp only [Int.toNat_natCast, hS1 j hj]; rfl)
    (fun i hi j hj => by simp only [Int.toNat_natCast, hF1 i hi j hj]; rfl)
    (0.676 * (earthA * (r.gt1 * radPerDeg))) (1.02 * (earthA * (r.gt1 * radPerDeg))) (9 / 10 ^ 9) (1 / 2 ^ 24 / 2)
    (by norm_num; linarith) (fun j hj => by simpa using hS2 j hj) (by norm_num) (by norm_num) (by norm_num)
    (fun i hi j hj => by simpa using hF2 i hi j hj) (by norm_num; linarith)
  obtain ⟨gy, gyf, y1, y2, ⟨y3, y3'⟩, ⟨y4, y4'⟩, y5⟩ := pixelSizeGridFl_near W S
    (fun x y => (getPixelSize fuel r x y).map Prod.snd) (fun x y => (getPixelSizeFl W M fuel rf x y).map Prod.snd)
    (fun j => SY j.toNat) (fun i j => FY i.toNat j.toNat) r.yDim r.xDim hrows hcols
    (fun i _ j hj => by simp only [Int.toNat_natCast, hS1 j hj]; rfl)
    (fun i hi j hj => by simp only [Int.toNat_natCast, hF1 i hi j hj]; rfl)
    (0.98 * (earthA * (-r.gt5 * radPerDeg))) (1.02 * (earthA * (-r.gt5 * radPerDeg))) (1 / 10 ^ 8) (1 / 2 ^ 24 / 2)
    (by norm_num; linarith) (fun j hj => by simpa using hS3 j hj) (by norm_num) (by norm_num) (by norm_num)
    (fun i hi j hj => by simpa using hF3 i hi j hj) (by norm_num; linarith)
  refine ⟨gx.map (·.getD 0), gy.map (·.getD 0), gxf.map (·.getD 0), gyf.map (·.getD 0), ?_, ?_, ?_, x3, x3'⟩
  · unfold pixelSizes
    rw [x1, y1]
    rfl
  · unfold pixelSizesFl
    rw [hdim.1, hdim.2]
    simp only [x2, y2]
    rfl
  · refine ⟨⟨?_, ?_, ?_, ?_, ?_, ?_⟩, ?_, ?_⟩
    · exact y3.trans x3.symm
    · exact y3'.trans x3'.symm
    · exact x4.trans x3.symm
    · exact x4'.trans x3'.symm
    · exact y4.trans x3.symm
    · exact y4'.trans x3'.symm
    · intro i hi j hj
      have hi' : i < r.yDim := x3 ▸ hi
      have hj' : j < r.xDim := x3' ▸ hj
      exact ⟨(x5 i hi' j hj').1.le, (y5 i hi' j hj').1.le⟩
    · intro i hi j hj
      have hi' : i < r.yDim := x3 ▸ hi
      have hj' : j < r.xDim := x3' ▸ hj
      obtain ⟨-, v, v1, v2⟩ := x5 i hi' j hj'
      obtain ⟨-, w, w1, w2⟩ := y5 i hi' j hj'
      refine ⟨⟨v, v1, ?_⟩, w, w1, ?_⟩
      · show (gxf.val i j).getD 0 = _
        rw [v2]; rfl
      · show (gyf.val i j).getD 0 = _
        rw [w2]; rfl

/-- **C120** In metres: with `e` the size of a pixel on the equator, all stored widths are between 0.639 and 1.061 times
the size in longitude, all stored heights between 0.969 and 1.031 times that in latitude. -/
theorem C120_metres (S : FpRound (1 / 2 ^ 24)) (fuel : ℕ) (hfuel : 12 ≤ fuel) (r : RasterInfo ℝ) (hlon : |r.gt0| ≤ 200)
    (hrows : 12 ≤ r.yDim) (hcols : 12 ≤ r.xDim) (hw0 : 1 / 4000 ≤ r.gt1) (hw1 : r.gt1 ≤ 1 / 2) (hh0 : 1 / 4000 ≤ -r.gt5)
    (hh1 : -r.gt5 ≤ 1 / 2) (hx : r.yDim * r.gt1 ≤ 2) (hy : r.xDim * -r.gt5 ≤ 2) (hn : r.gt3 ≤ -2)
    (hs : -45 ≤ r.gt3 + r.xDim * r.gt5) :
    ∃ xmf ymf, pixelSizesFl W M S fuel r = .ok (xmf, ymf) ∧ (xmf.rows = r.yDim ∧ xmf.cols = r.xDim) ∧
      (ymf.rows = r.yDim ∧ ymf.cols = r.xDim) ∧ ∀ i < r.yDim, ∀ j < r.xDim,
      (0.639 * (earthA * (r.gt1 * radPerDeg)) ≤ xmf.val i j ∧
        xmf.val i j ≤ 1.061 * (earthA * (r.gt1 * radPerDeg))) ∧
      0.969 * (earthA * (-r.gt5 * radPerDeg)) ≤ ymf.val i j ∧
        ymf.val i j ≤ 1.031 * (earthA * (-r.gt5 * radPerDeg)) := by
  obtain ⟨xm, ym, xmf, ymf, h1, h2, h3, h4, h5⟩ := C120_pixel_sizes W M S fuel hfuel r r ⟨rfl, rfl⟩ ⟨rfl, rfl⟩ hlon
    (by rw [sub_self, abs_zero]; norm_num) hrows hcols hw0 hw1 hh0 hh1 hx hy hn hs
  obtain ⟨xm', ym', k1, -, -, k2⟩ := C88_grids fuel (by omega) r (by omega) hcols (by linarith) (by linarith)
    (by linarith) (by linarith) hs
  rw [h1, Except.ok.injEq, Prod.mk.injEq] at k1
  obtain ⟨rfl, rfl⟩ := k1
  obtain ⟨-, -, s1, s2, s3, s4⟩ := h3.shape
  refine ⟨xmf, ymf, h2, ⟨by omega, by omega⟩, ⟨by omega, by omega⟩, fun i hi j hj => ?_⟩
  obtain ⟨⟨v, v1, v2⟩, w, w1, w2⟩ := h3.stored i (by omega) j (by omega)
  obtain ⟨⟨a1, a2⟩, b1, b2⟩ := k2 i hi j hj
  have ha : 0 < earthA := by unfold earthA; norm_num
  have hr : 0 < radPerDeg := by unfold radPerDeg; norm_num
  have hpx : 0 < earthA * (r.gt1 * radPerDeg) := by
    have : 0 < r.gt1 := by linarith
    positivity
  have hpy : 0 < earthA * (-r.gt5 * radPerDeg) := by
    have : 0 < -r.gt5 := by linarith
    positivity
  have near : ∀ {x y : ℝ}, 0 ≤ x → |y - x| ≤ 1 / 2 ^ 24 / 2 * x → |S.rnd y - x| ≤ 1 / 10 ^ 6 * x := by
    intro x y hx h
    have t1 := S.near y
    have t2 := abs_add_le (y - x) x
    have t3 := abs_add_le (S.rnd y - y) (y - x)
    rw [sub_add_cancel, abs_of_nonneg hx] at t2
    rw [sub_add_sub_cancel] at t3
    norm_num at t1 h ⊢
    linarith
  norm_num at a1 a2 b1 b2
  have ev := abs_le.mp (near (by linarith) v1)
  have ew := abs_le.mp (near (by linarith) w1)
  rw [← v2] at ev
  rw [← w2] at ew
  norm_num at ev ew ⊢
  refine ⟨⟨?_, ?_⟩, ?_, ?_⟩ <;> linarith [ev.1, ev.2, ew.1, ew.2]

/-- Functions that are correctly rounded. -/
noncomputable def roundedMath : FpMath (1 / 2 ^ 53) :=
  have near : ∀ x : ℝ, |roundDigits 53 x - x| ≤ 2 * (1 / 2 ^ 53) * |x| := fun x =>
    ((digits 53).near x).trans (mul_le_mul_of_nonneg_right (by norm_num) (abs_nonneg x))
  { sin := fun x => roundDigits 53 (Real.sin x)
    cos := fun x => roundDigits 53 (Real.cos x)
    tan := fun x => roundDigits 53 (Real.tan x)
    atan := fun x => roundDigits 53 (arctan x)
    asin := fun x => roundDigits 53 (arcsin x)
    atan2 := fun y x => roundDigits 53 (atan2 y x)
    sq := fun x => roundDigits 53 (x ^ 2)
    sin_near := fun _ => near _
    cos_near := fun _ => near _
    tan_near := fun _ => near _
    atan_near := fun _ => near _
    asin_near := fun _ _ => near _
    atan2_near := fun _ _ => near _
    sq_near := fun x => by have := near (x ^ 2); rwa [abs_of_nonneg (sq_nonneg x)] at this }

/-- Half a degree near Canberra in pixels of three seconds of arc, with the latitude of the corner rounded. -/
example : ∃ xm ym xmf ymf, pixelSizes 12 ⟨600, 600, 149, 1 / 1200, -35.1, -(1 / 1200)⟩ = .ok (xm, ym) ∧
    pixelSizesFl (digits 53) roundedMath (digits 24) 12 ⟨600, 600, 149, 1 / 1200, roundDigits 53 (-35.1), -(1 / 1200)⟩ =
      .ok (xmf, ymf) ∧ SizesStored (digits 24) xm ym xmf ymf ∧ xm.rows = 600 ∧ xm.cols = 600 := by
  have h := (digits 53).near (-35.1)
  rw [abs_of_neg (by norm_num : (-35.1 : ℝ) < 0)] at h
  refine C120_pixel_sizes (digits 53) roundedMath (digits 24) 12 le_rfl
    ⟨600, 600, 149, 1 / 1200, -35.1, -(1 / 1200)⟩ ⟨600, 600, 149, 1 / 1200, roundDigits 53 (-35.1), -(1 / 1200)⟩
    ⟨rfl, rfl⟩ ⟨rfl, rfl⟩ (by norm_num [abs_of_pos]) (h.trans (by norm_num)) ?_ ?_ ?_ ?_ ?_ ?_ ?_ ?_ ?_ ?_ <;>
  norm_num

end WindMult
