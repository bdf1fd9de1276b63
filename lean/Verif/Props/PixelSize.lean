import Verif.Model.PixelSize
import Verif.Props.VincentyParallel
import Verif.Props.Blrb
import Verif.Props.Pipeline

/-!
# C87, C88: pixel sizes in metres
-/

set_option linter.unusedSectionVars false
set_option autoImplicit false

namespace WindMult
open Real Spec

/-! ### C87 -/

/-- C87: the constant is a degree in radians. -/
theorem C87_constant : |radPerDeg - π / 180| < 1 / 10 ^ 20 := by
  have h1 := pi_gt_d20
  have h2 := pi_lt_d20
  unfold radPerDeg
  rw [abs_lt]
  constructor
  · norm_num at h2 ⊢; linarith
  · norm_num at h1 ⊢; linarith

/-- C87: the ellipsoid is that of WGS 84, whose flattening is 1/298.257223563 by definition. -/
theorem C87_earth : earthA = 6378137 ∧ |earthF - 1 / 298.257223563| < 1 / 10 ^ 11 := by
  unfold earthA earthF
  refine ⟨rfl, ?_⟩
  rw [abs_lt]
  constructor <;> norm_num

theorem earthF_mem : 0 ≤ earthF ∧ earthF ≤ 1 / 200 := by
  unfold earthF; constructor <;> norm_num

/-- Distances depend on the difference of the longitudes only. -/
theorem vincDist_shift (fuel : ℕ) (f a phi1 lam1 phi2 lam2 : ℝ) :
    vincDist fuel f a phi1 lam1 phi2 lam2 = vincDist fuel f a phi1 0 phi2 (lam2 - lam1) := by
  unfold vincDist
  simp only [sub_zero]

theorem lat_lt {y : ℝ} (h : |y| ≤ 89) : |y * radPerDeg| < π / 2 := by
  have hpi := pi_gt_d2
  have hr : (0 : ℝ) < radPerDeg := by unfold radPerDeg; norm_num
  rw [abs_mul, abs_of_pos hr]
  have : |y| * radPerDeg ≤ 89 * radPerDeg := by gcongr
  have h2 : 89 * radPerDeg < 1.56 := by unfold radPerDeg; norm_num
  linarith

/-- The latitude of the centre of row `y`. -/
noncomputable def rowLat (r : RasterInfo ℝ) (y : ℤ) : ℝ := (r.gt3 + (y + 1 / 2) * r.gt5) * radPerDeg

/-- C87: for pixels of a millionth of a degree to 5° in latitudes of at most 89° the size in metres is
found; the width is within 2 % of the arc of the parallel through the centre of the pixel, the height
within 2 % of the arc of the meridian, taken as a circle with the radius of the equator. -/
theorem C87_pixel_size (fuel : ℕ) (hfuel : 8 ≤ fuel) (r : RasterInfo ℝ) (x y : ℤ)
    (hw0 : 1 / 1000000 ≤ r.gt1) (hw1 : r.gt1 ≤ 5) (hh0 : 1 / 1000000 ≤ -r.gt5)
    (hn : |r.gt3 + y * r.gt5| ≤ 89) (hs : |r.gt3 + (y + 1) * r.gt5| ≤ 89) (R z : ℝ)
    (hR : OnMeridian earthF earthA (rowLat r y) R z) :
    ∃ sx sy, getPixelSize fuel r x y = .ok (sx, sy) ∧
      (98 / 100 * (R * (r.gt1 * radPerDeg)) ≤ sx ∧ sx ≤ 102 / 100 * (R * (r.gt1 * radPerDeg))) ∧
      98 / 100 * (earthA * (-r.gt5 * radPerDeg)) ≤ sy ∧
      sy ≤ 102 / 100 * (earthA * (-r.gt5 * radPerDeg)) := by
  obtain ⟨f0, f1⟩ := earthF_mem
  have ha : 0 < earthA := by unfold earthA; norm_num
  have hr : (0.017 : ℝ) < radPerDeg ∧ radPerDeg < 0.018 := by unfold radPerDeg; norm_num
  have hc : |r.gt3 + (y + 1 / 2) * r.gt5| ≤ 89 := by
    rw [abs_le] at hn hs ⊢
    constructor <;> linarith [hn.1, hn.2, hs.1, hs.2]
  have ex : (r.gt0 + ((x : ℝ) + 1) * r.gt1) * radPerDeg - (r.gt0 + x * r.gt1) * radPerDeg =
      r.gt1 * radPerDeg := by ring
  have hy : |(r.gt3 + ((y : ℝ) + 1) * r.gt5) * radPerDeg - (r.gt3 + y * r.gt5) * radPerDeg| =
      -r.gt5 * radPerDeg := by
    rw [show (r.gt3 + ((y : ℝ) + 1) * r.gt5) * radPerDeg - (r.gt3 + y * r.gt5) * radPerDeg =
      -(-r.gt5 * radPerDeg) by ring, abs_neg]
    exact abs_of_pos (mul_pos (by linarith) (by linarith))
  obtain ⟨sx, a1, a2, h1, h2, h3⟩ := C74_parallel fuel hfuel earthF earthA (rowLat r y)
    ((r.gt0 + x * r.gt1) * radPerDeg) ((r.gt0 + (x + 1) * r.gt1) * radPerDeg) R z f0 f1 ha (lat_lt hc)
    (by rw [ex]; nlinarith [hr.1]) (by rw [ex]; nlinarith [hr.2]) hR
  obtain ⟨fuel, rfl⟩ : ∃ n, fuel = n + 1 := ⟨fuel - 1, by omega⟩
  obtain ⟨sy, b1, b2, k1, k2, k3⟩ := C74_meridian fuel earthF earthA
    ((r.gt3 + y * r.gt5) * radPerDeg) ((r.gt3 + (y + 1) * r.gt5) * radPerDeg)
    ((r.gt0 + (x + 1 / 2) * r.gt1) * radPerDeg) f0 f1 ha (lat_lt hn) (lat_lt hs)
    (by rw [hy]; nlinarith [hr.1])
  rw [ex] at h2 h3
  rw [hy] at k2 k3
  refine ⟨sx, sy, ?_, ⟨h2, h3⟩, k2, k3⟩
  unfold rowLat at h1
  simp only [getPixelSize, h1, k1, ended]
  rfl

/-- The size depends on the row only. -/
theorem getPixelSize_column (fuel : ℕ) (r : RasterInfo ℝ) (x x' y : ℤ) :
    getPixelSize fuel r x y = getPixelSize fuel r x' y := by
  simp only [getPixelSize]
  rw [vincDist_shift _ _ _ _ ((r.gt0 + (x : ℝ) * r.gt1) * radPerDeg),
    vincDist_shift _ _ _ _ ((r.gt0 + (x' : ℝ) * r.gt1) * radPerDeg),
    vincDist_shift _ _ _ _ ((r.gt0 + ((x : ℝ) + 1 / 2) * r.gt1) * radPerDeg),
    vincDist_shift _ _ _ _ ((r.gt0 + ((x' : ℝ) + 1 / 2) * r.gt1) * radPerDeg)]
  rw [show (r.gt0 + ((x : ℝ) + 1) * r.gt1) * radPerDeg - (r.gt0 + x * r.gt1) * radPerDeg =
      (r.gt0 + ((x' : ℝ) + 1) * r.gt1) * radPerDeg - (r.gt0 + x' * r.gt1) * radPerDeg by ring,
    sub_self, sub_self]

/-- A pixel of three seconds of arc near Canberra. -/
example : ∃ sx sy, getPixelSize 8 ⟨1200, 1200, 149, 1 / 1200, -35, -(1 / 1200)⟩ 0 600 = .ok (sx, sy) ∧
    0 < sx ∧ 98 / 100 * (earthA * (1 / 1200 * radPerDeg)) ≤ sy := by
  have hr : (0 : ℝ) < radPerDeg := by unfold radPerDeg; norm_num
  obtain ⟨R, z, h⟩ := exists_onMeridian (f := earthF) (a := earthA)
    (phi := rowLat ⟨1200, 1200, 149, 1 / 1200, -35, -(1 / 1200)⟩ 600)
    (by linarith [earthF_mem.2]) (by unfold earthA; norm_num)
    (lat_lt (by rw [abs_le]; constructor <;> norm_num))
  obtain ⟨sx, sy, h1, ⟨h2, -⟩, h3, -⟩ := C87_pixel_size 8 le_rfl
    ⟨1200, 1200, 149, 1 / 1200, -35, -(1 / 1200)⟩ 0 600 (by norm_num) (by norm_num) (by norm_num)
    (by rw [abs_le]; constructor <;> norm_num) (by rw [abs_le]; constructor <;> norm_num) R z h
  refine ⟨sx, sy, h1, lt_of_lt_of_le ?_ h2, ?_⟩
  · have := h.pos; positivity
  · simpa using h3

/-! ### C88 -/

/-- On an axis of at least twelve cells the weights exceed 1 by at most a tenth. -/
theorem weight_mem {m j : ℕ} (hm : 12 ≤ m) (hj : j < m) :
    0 ≤ ((j - axLo m (lastHalf m j) : ℕ) : ℝ) / (axSize m (lastHalf m j) - 1) ∧
      ((j - axLo m (lastHalf m j) : ℕ) : ℝ) / (axSize m (lastHalf m j) - 1) ≤ 11 / 10 := by
  have hm' : (12 : ℝ) ≤ m := by exact_mod_cast hm
  by_cases h : m / 2 ≤ j
  · have e : lastHalf m j = true := by simpa [lastHalf] using h
    rw [e]
    simp only [axLo, axSize, ↓reduceIte]
    have hd : (0 : ℝ) < (m : ℝ) / 2 - 1 := by linarith
    refine ⟨by positivity, ?_⟩
    rw [div_le_iff₀ hd]
    have h5 : 2 * (j - m / 2) + 1 ≤ m := by omega
    have h6 : (2 : ℝ) * ((j - m / 2 : ℕ) : ℝ) + 1 ≤ m := by exact_mod_cast h5
    linarith
  · have e : lastHalf m j = false := by simpa [lastHalf] using h
    rw [e]
    simp only [axLo, axSize, Bool.false_eq_true, ↓reduceIte, Nat.sub_zero]
    have hd : (0 : ℝ) < (m : ℝ) / 2 + 1 - 1 := by linarith
    refine ⟨by positivity, ?_⟩
    rw [div_le_iff₀ hd]
    have h5 : 2 * j ≤ m := by omega
    have h6 : (2 : ℝ) * (j : ℝ) ≤ m := by exact_mod_cast h5
    linarith

/-- Interpolation of sizes that depend on the second index only: at least twelve of them, so the
overshoot (`C56_odd_overshoots`) is at most a tenth of their range. -/
theorem pixelSizeGrid_mem (ev : ℤ → ℤ → Except PyErr ℝ) (X : ℤ → ℝ) (n m : ℕ) (hn : 3 ≤ n)
    (hm : 12 ≤ m) (he : ∀ i < n, ∀ j < m, ev i j = .ok (X j)) (lo hi : ℝ)
    (hX : ∀ j < m, lo ≤ X j ∧ X j ≤ hi) :
    ∃ out, pixelSizeGrid ev n m = .ok out ∧ out.rows = n ∧ out.cols = m ∧
      ∀ i < n, ∀ j < m, lo - (hi - lo) / 10 ≤ (out.val i j).getD 0 ∧
        (out.val i j).getD 0 ≤ hi + (hi - lo) / 10 := by
  obtain ⟨out, h1, h2, h3, h4⟩ := interpolateGrid_one ev (fun _ j => X j) n m (by omega) (by omega) he
    ⟨n, m, fun _ _ => some 0⟩ rfl rfl
  refine ⟨out, h1, h2, h3, fun i hi' j hj => ?_⟩
  rw [h4 i hi' j hj, blockValue_eq _ hn (by omega), Option.getD_some]
  have ht := weight_mem hm hj
  have hlo : axLo m (lastHalf m j) < m := lt_of_le_of_lt (axLo_le m (by omega) _) (axHi_lt m (by omega) _)
  obtain ⟨p0, p1⟩ := hX _ hlo
  obtain ⟨q0, q1⟩ := hX _ (axHi_lt m (by omega) (lastHalf m j))
  generalize ((j - axLo m (lastHalf m j) : ℕ) : ℝ) / (axSize m (lastHalf m j) - 1) = t at *
  generalize ((i - axLo n (lastHalf n i) : ℕ) : ℝ) / (axSize n (lastHalf n i) - 1) = s at *
  generalize X (axLo m (lastHalf m j)) = p at *
  generalize X (axHi m (lastHalf m j)) = q at *
  rw [show s * (t * q + (1 - t) * p) + (1 - s) * (t * q + (1 - t) * p) = p + t * (q - p) by ring]
  obtain ⟨t0, t1⟩ := ht
  constructor
  · rcases le_total p q with h | h
    · nlinarith
    · nlinarith
  · rcases le_total p q with h | h
    · nlinarith
    · nlinarith

/-- The mean lies between bounds of the cells. -/
theorem Grid.mean_mem (g : Grid ℝ) (hr : 0 < g.rows) (hc : 0 < g.cols) (lo hi : ℝ)
    (h : ∀ i < g.rows, ∀ j < g.cols, lo ≤ g.val i j ∧ g.val i j ≤ hi) :
    lo ≤ g.mean ∧ g.mean ≤ hi := by
  have hpos : (0 : ℝ) < ((g.rows * g.cols : ℕ) : ℝ) := by exact_mod_cast Nat.mul_pos hr hc
  have hlen : g.cells.length = g.rows * g.cols := by simp [Grid.cells]
  have hmem : ∀ x ∈ g.cells, lo ≤ x ∧ x ≤ hi := by
    intro x hx
    simp only [Grid.cells, List.mem_flatMap, List.mem_map, List.mem_range] at hx
    obtain ⟨i, hi', j, hj, rfl⟩ := hx
    exact h i hi' j hj
  unfold Grid.mean
  rw [le_div_iff₀ hpos, div_le_iff₀ hpos, ← hlen]
  have a := List.card_nsmul_le_sum g.cells lo (fun x hx => (hmem x hx).1)
  have b := List.sum_le_card_nsmul g.cells hi (fun x hx => (hmem x hx).2)
  rw [nsmul_eq_mul] at a b
  constructor <;> linarith

/-- The reduced latitude is at most the latitude, so its cosine is at least 1 − φ²/2. -/
theorem cos_reduced_ge {phi q : ℝ} (hphi : |phi| < π / 2) (hq : |phi| ≤ q) :
    1 - q ^ 2 / 2 ≤ cos (arctan ((1 - earthF) * tan phi)) := by
  have hU : |arctan ((1 - earthF) * tan phi)| ≤ |phi| := by
    rw [abs_lt] at hphi
    obtain ⟨f0, f1⟩ := earthF_mem
    rcases le_total 0 phi with h | h
    · have ht : 0 ≤ tan phi := tan_nonneg_of_nonneg_of_le_pi_div_two h hphi.2.le
      rw [abs_of_nonneg h, abs_of_nonneg (arctan_nonneg.mpr (by nlinarith))]
      calc arctan ((1 - earthF) * tan phi) ≤ arctan (tan phi) :=
            arctan_strictMono.monotone (by nlinarith)
        _ = phi := arctan_tan hphi.1 hphi.2
    · have ht : 0 ≤ tan (-phi) :=
        tan_nonneg_of_nonneg_of_le_pi_div_two (by linarith) (by linarith [hphi.1])
      rw [tan_neg] at ht
      rw [abs_of_nonpos h, abs_of_nonpos (by
        rw [← arctan_zero]; exact arctan_strictMono.monotone (by nlinarith))]
      have : arctan (tan phi) ≤ arctan ((1 - earthF) * tan phi) :=
        arctan_strictMono.monotone (by nlinarith)
      rw [arctan_tan hphi.1 hphi.2] at this
      linarith
  have h6 := one_sub_sq_div_two_le_cos (x := arctan ((1 - earthF) * tan phi))
  have h7 : arctan ((1 - earthF) * tan phi) ^ 2 ≤ q ^ 2 := by
    rw [← sq_abs]
    have := abs_nonneg (arctan ((1 - earthF) * tan phi))
    have := hU.trans hq
    gcongr
  linarith

/-- The sizes of the pixels of a row whose latitude is at most `q`. -/
theorem row_sizes_le (fuel : ℕ) (hfuel : 8 ≤ fuel) (r : RasterInfo ℝ) (hw0 : 1 / 1000000 ≤ r.gt1) (hw1 : r.gt1 ≤ 5)
    (hh0 : 1 / 1000000 ≤ -r.gt5) (hn : r.gt3 ≤ 45) (hs : -45 ≤ r.gt3 + r.xDim * r.gt5) (j : ℕ) (hj : j < r.xDim)
    (q : ℝ) (hq : |rowLat r j| ≤ q) :
    ∃ sx sy, (∀ x : ℤ, getPixelSize fuel r x j = .ok (sx, sy)) ∧
      (0.98 * (1 - q ^ 2 / 2) * (earthA * (r.gt1 * radPerDeg)) ≤ sx ∧
        sx ≤ 1.02 * (earthA * (r.gt1 * radPerDeg))) ∧
      0.98 * (earthA * (-r.gt5 * radPerDeg)) ≤ sy ∧
        sy ≤ 1.02 * (earthA * (-r.gt5 * radPerDeg)) := by
  have ha : 0 < earthA := by unfold earthA; norm_num
  have hr : (0.017 : ℝ) < radPerDeg ∧ radPerDeg < 0.018 := by unfold radPerDeg; norm_num
  have hlat : |r.gt3 + ((j : ℤ) : ℝ) * r.gt5| ≤ 45 ∧ |r.gt3 + (((j : ℤ) : ℝ) + 1) * r.gt5| ≤ 45 := by
    have h1 : ((j : ℤ) : ℝ) + 1 ≤ r.xDim := by exact_mod_cast hj
    have h0 : (0 : ℝ) ≤ ((j : ℤ) : ℝ) := by exact_mod_cast Nat.zero_le j
    rw [abs_le, abs_le]
    refine ⟨⟨?_, ?_⟩, ?_, ?_⟩ <;> nlinarith
  obtain ⟨l1, l2⟩ := hlat
  have l3 : |r.gt3 + (((j : ℤ) : ℝ) + 1 / 2) * r.gt5| ≤ 45 := by
    rw [abs_le] at l1 l2 ⊢
    constructor <;> linarith [l1.1, l1.2, l2.1, l2.2]
  have hphi : |rowLat r j| < π / 2 := lat_lt (by linarith)
  obtain ⟨R, z, hR⟩ := exists_onMeridian (f := earthF) (a := earthA) (phi := rowLat r j)
    (by linarith [earthF_mem.2]) ha hphi
  have hRa := OnMeridian.radius (by linarith [earthF_mem.2]) ha hphi hR
  obtain ⟨sx, sy, h1, ⟨h2, h3⟩, h4, h5⟩ := C87_pixel_size fuel hfuel r 0 j hw0 hw1 hh0
    (by linarith) (by linarith) R z hR
  have hpos : 0 < earthA * (r.gt1 * radPerDeg) := by
    have : 0 < r.gt1 := by linarith
    have : 0 < radPerDeg := by linarith [hr.1]
    positivity
  have hc := cos_reduced_ge hphi hq
  have hc1 := cos_le_one (arctan ((1 - earthF) * tan (rowLat r j)))
  refine ⟨sx, sy, fun x => by rw [getPixelSize_column fuel r x 0, h1], ⟨?_, ?_⟩, ?_, ?_⟩
  · refine le_trans ?_ h2
    rw [hRa]
    generalize cos (arctan ((1 - earthF) * tan (rowLat r j))) = c at *
    calc 0.98 * (1 - q ^ 2 / 2) * (earthA * (r.gt1 * radPerDeg)) ≤
        0.98 * c * (earthA * (r.gt1 * radPerDeg)) := by gcongr
      _ = _ := by ring
  · refine h3.trans ?_
    rw [hRa]
    generalize cos (arctan ((1 - earthF) * tan (rowLat r j))) = c at *
    calc 102 / 100 * (earthA * c * (r.gt1 * radPerDeg)) =
        c * (102 / 100 * (earthA * (r.gt1 * radPerDeg))) := by ring
      _ ≤ 1 * (102 / 100 * (earthA * (r.gt1 * radPerDeg))) := by gcongr
      _ = _ := by ring
  · norm_num at h4 ⊢; linarith
  · norm_num at h5 ⊢; linarith

/-- The sizes of the pixels of a row in latitudes of at most 45°. -/
theorem row_sizes (fuel : ℕ) (hfuel : 8 ≤ fuel) (r : RasterInfo ℝ) (hw0 : 1 / 1000000 ≤ r.gt1) (hw1 : r.gt1 ≤ 5)
    (hh0 : 1 / 1000000 ≤ -r.gt5) (hn : r.gt3 ≤ 45) (hs : -45 ≤ r.gt3 + r.xDim * r.gt5) (j : ℕ) (hj : j < r.xDim) :
    ∃ sx sy, (∀ x : ℤ, getPixelSize fuel r x j = .ok (sx, sy)) ∧
      (0.676 * (earthA * (r.gt1 * radPerDeg)) ≤ sx ∧ sx ≤ 1.02 * (earthA * (r.gt1 * radPerDeg))) ∧
      0.98 * (earthA * (-r.gt5 * radPerDeg)) ≤ sy ∧
        sy ≤ 1.02 * (earthA * (-r.gt5 * radPerDeg)) := by
  have hr : (0.017 : ℝ) < radPerDeg ∧ radPerDeg < 0.018 := by unfold radPerDeg; norm_num
  have hq : |rowLat r j| ≤ 0.786 := by
    have h1 : ((j : ℤ) : ℝ) + 1 ≤ r.xDim := by exact_mod_cast hj
    have h0 : (0 : ℝ) ≤ ((j : ℤ) : ℝ) := by exact_mod_cast Nat.zero_le j
    have l3 : |r.gt3 + (((j : ℤ) : ℝ) + 1 / 2) * r.gt5| ≤ 45 := by
      rw [abs_le]
      constructor <;> nlinarith
    unfold rowLat
    rw [abs_mul, abs_of_pos (by linarith [hr.1] : 0 < radPerDeg)]
    calc _ ≤ 45 * radPerDeg := by gcongr; linarith [hr.1]
      _ ≤ 0.786 := by unfold radPerDeg; norm_num
  obtain ⟨sx, sy, h1, ⟨h2, h3⟩, h4⟩ := row_sizes_le fuel hfuel r hw0 hw1 hh0 hn hs j hj _ hq
  refine ⟨sx, sy, h1, ⟨le_trans ?_ h2, h3⟩, h4⟩
  have hpos : 0 < earthA * (r.gt1 * radPerDeg) := by
    have : 0 < r.gt1 := by linarith
    have : 0 < radPerDeg := by linarith [hr.1]
    have : 0 < earthA := by unfold earthA; norm_num
    positivity
  gcongr
  norm_num

/-- The grids of the sizes, from bounds on the sizes in every row. -/
theorem grids_mem (fuel : ℕ) (r : RasterInfo ℝ) (hrows : 3 ≤ r.yDim) (hcols : 12 ≤ r.xDim) (lo hi lo' hi' : ℝ)
    (hsize : ∀ j < r.xDim, ∃ sx sy, (∀ x : ℤ, getPixelSize fuel r x j = .ok (sx, sy)) ∧
      (lo ≤ sx ∧ sx ≤ hi) ∧ lo' ≤ sy ∧ sy ≤ hi') :
    ∃ xm ym, pixelSizes fuel r = .ok (xm, ym) ∧ (xm.rows = r.yDim ∧ xm.cols = r.xDim) ∧
      (ym.rows = r.yDim ∧ ym.cols = r.xDim) ∧ ∀ i < r.yDim, ∀ j < r.xDim,
      (lo - (hi - lo) / 10 ≤ xm.val i j ∧ xm.val i j ≤ hi + (hi - lo) / 10) ∧
      lo' - (hi' - lo') / 10 ≤ ym.val i j ∧ ym.val i j ≤ hi' + (hi' - lo') / 10 := by
  choose! SX SY hS1 hS2 hS3 using hsize
  obtain ⟨gx, x1, x2, x3, x4⟩ := pixelSizeGrid_mem (fun x y => (getPixelSize fuel r x y).map Prod.fst)
    (fun j => SX j.toNat) r.yDim r.xDim hrows hcols (by
      intro i _ j hj
      simp only [Int.toNat_natCast, hS1 j hj]
      rfl) _ _ (fun j hj => by simpa using hS2 j hj)
  obtain ⟨gy, y1, y2, y3, y4⟩ := pixelSizeGrid_mem (fun x y => (getPixelSize fuel r x y).map Prod.snd)
    (fun j => SY j.toNat) r.yDim r.xDim hrows hcols (by
      intro i _ j hj
      simp only [Int.toNat_natCast, hS1 j hj]
      rfl) _ _ (fun j hj => by simpa using hS3 j hj)
  refine ⟨gx.map (·.getD 0), gy.map (·.getD 0), ?_, ⟨x2, x3⟩, ⟨y2, y3⟩, ?_⟩
  · unfold pixelSizes
    rw [x1, y1]
    rfl
  · exact fun i hi j hj => ⟨x4 i hi j hj, y4 i hi j hj⟩

/-- C88: for a raster of at least 3 rows and 12 columns in latitudes of at most 45° the grids are
computed.  With `e` the size of a pixel on the equator, all widths are between 0.64 and 1.06 times the
size in longitude, all heights between 0.97 and 1.03 times that in latitude.  (The rows whose sizes are
used are those up to the number of columns, see C57.) -/
theorem C88_grids (fuel : ℕ) (hfuel : 8 ≤ fuel) (r : RasterInfo ℝ) (hrows : 3 ≤ r.yDim)
    (hcols : 12 ≤ r.xDim) (hw0 : 1 / 1000000 ≤ r.gt1) (hw1 : r.gt1 ≤ 5) (hh0 : 1 / 1000000 ≤ -r.gt5)
    (hn : r.gt3 ≤ 45) (hs : -45 ≤ r.gt3 + r.xDim * r.gt5) :
    ∃ xm ym, pixelSizes fuel r = .ok (xm, ym) ∧ (xm.rows = r.yDim ∧ xm.cols = r.xDim) ∧
      (ym.rows = r.yDim ∧ ym.cols = r.xDim) ∧ ∀ i < r.yDim, ∀ j < r.xDim,
      (0.64 * (earthA * (r.gt1 * radPerDeg)) ≤ xm.val i j ∧
        xm.val i j ≤ 1.06 * (earthA * (r.gt1 * radPerDeg))) ∧
      0.97 * (earthA * (-r.gt5 * radPerDeg)) ≤ ym.val i j ∧
        ym.val i j ≤ 1.03 * (earthA * (-r.gt5 * radPerDeg)) := by
  have ha : 0 < earthA := by unfold earthA; norm_num
  have hr : (0.017 : ℝ) < radPerDeg ∧ radPerDeg < 0.018 := by unfold radPerDeg; norm_num
  obtain ⟨xm, ym, h1, h2, h3, h4⟩ := grids_mem fuel r hrows hcols _ _ _ _ (row_sizes fuel hfuel r hw0 hw1 hh0 hn hs)
  refine ⟨xm, ym, h1, h2, h3, ?_⟩
  · intro i hi j hj
    obtain ⟨⟨a0, a1⟩, b0, b1⟩ := h4 i hi j hj
    have hpx : 0 < earthA * (r.gt1 * radPerDeg) := by
      have : 0 < r.gt1 := by linarith
      have : 0 < radPerDeg := by linarith [hr.1]
      positivity
    have hpy : 0 < earthA * (-r.gt5 * radPerDeg) := by
      have : 0 < -r.gt5 := by linarith
      have : 0 < radPerDeg := by linarith [hr.1]
      positivity
    refine ⟨⟨le_trans ?_ a0, a1.trans ?_⟩, le_trans ?_ b0, b1.trans ?_⟩ <;> norm_num <;> linarith

/-- C88: the standard configuration meets the conditions of C81–C86.  The buffer is 0.01°
(`upwind_length` in `multiplier_conf.cfg`), the DEM has square pixels of at most 0.00085°, extends over
at least 0.01° both ways and lies between 45° N and 43.9° S.  Then every tile that is not taken for
empty and has land is a `TileCase`: the pixel sizes are found and positive, their mean is at most 100 m,
and buffer and raster are large enough for the averaging windows of the terrain multiplier. -/
theorem C88_standard_tile (fuel : ℕ) (hfuel : 8 ≤ fuel) (c : Inputs) (k : ℕ) (L B : Limits)
    (E EB : Extent ℝ) (cat : Grid ℤ) (hsizes : c.pixelSizes = pixelSizes fuel)
    (hp0 : 1 / 1000000 ≤ c.r.gt1) (hp1 : c.r.gt1 ≤ 0.00085) (hsq : c.r.gt5 = -c.r.gt1)
    (hx : 0.01 ≤ c.r.xDim * c.r.gt1) (hy : 0.01 ≤ c.r.yDim * c.r.gt1)
    (hn : c.r.gt3 ≤ 45) (hs : -43.9 ≤ c.r.gt3 + c.r.yDim * c.r.gt5)
    (hlw : 0 < c.lr.gt1) (hlh : c.lr.gt5 < 0)
    (hL : (TileGrid.init 0.01 c.r).getGridlimit k = .ok L)
    (hB : (TileGrid.init 0.01 c.r).getGridlimitBuffer k = .ok B)
    (hE : (TileGrid.init 0.01 c.r).getTileExtent k = .ok E)
    (hEB : (TileGrid.init 0.01 c.r).getTileExtentBuffer k = .ok EB)
    (hcat : IsLandcover c cat) (hempty : c.checksum (cutDem c.r c.dem EB 0) ≠ 0)
    (hland : ∃ px py : ℕ, B.Has px py ∧ 0 < classMz c.terrainTable (cat.val py px))
    (htable : ∀ row ∈ c.terrainTable, 0 < row.roughness ∧
      0 < 3.734 + 0.4554 * Real.log row.roughness) :
    ∃ xm ym gw, TileCase c 0.01 k L B E EB xm ym gw cat := by
  have hpw : 0 < c.r.gt1 := by linarith
  have hph : c.r.gt5 < 0 := by linarith
  have hup : (0 : ℝ) ≤ 0.01 := by norm_num
  have hk : k < (TileGrid.init 0.01 c.r).numTiles := (C01_gridlimit_defined_iff _ c.r k).mp ⟨L, hL⟩
  obtain ⟨L', B', h1, h2, ⟨a0, a1, a2, a3, a4⟩, ⟨b0, b1, b2, b3, b4⟩, q1, q2, q3, q4⟩ :=
    C03_buffer_surrounds_core 0.01 c.r hpw hph hup k hk
  rw [hL] at h1; rw [hB] at h2
  cases h1; cases h2
  have hnear : EB.Near c.r.gt1 (-c.r.gt5) EB := by
    simp only [Extent.Near, sub_self, abs_zero]
    refine ⟨?_, ?_, ?_, ?_⟩ <;> linarith
  obtain ⟨-, s1, s2, s3, s4⟩ := clipInfo_size 0.01 c.r hpw hph hup k B EB EB hB hEB hnear
  have hbx : (TileGrid.init 0.01 c.r).xBuffer = ⌊0.01 / c.r.gt1⌋ := by
    show pyInt (0.01 / c.r.gt1) = _
    exact pyInt_of_nonneg (by positivity)
  have hby : (TileGrid.init 0.01 c.r).yBuffer = ⌊0.01 / c.r.gt1⌋ := by
    show pyInt (0.01 / -c.r.gt5) = _
    rw [hsq, neg_neg]
    exact pyInt_of_nonneg (by positivity)
  have hsx : (TileGrid.init 0.01 c.r).xStep = ⌈1 / c.r.gt1⌉ := rfl
  -- the buffered tile has at least 12 rows and columns and is at most 1.03° wide
  have hb11 : 11 ≤ ⌊0.01 / c.r.gt1⌋ := by
    rw [Int.le_floor, le_div_iff₀ hpw]
    norm_num at hp1 ⊢; linarith
  have hdim : ∀ n : ℕ, 0.01 ≤ (n : ℝ) * c.r.gt1 → 12 ≤ (n : ℤ) := by
    intro n h
    have h11 : (11 : ℝ) < n := by
      by_contra hlt
      push Not at hlt
      have : (n : ℝ) * c.r.gt1 ≤ 11 * 0.00085 := by gcongr
      norm_num at this h; linarith
    have : 11 < n := by exact_mod_cast h11
    omega
  have hx12 := hdim _ hx
  have hy12 := hdim _ hy
  have hcols : 12 ≤ (clipInfo c.r EB).xDim := by
    have : 12 ≤ B.x2 - B.x1 := by
      rw [hbx] at q1 q2
      omega
    omega
  have hrows : 3 ≤ (clipInfo c.r EB).yDim := by
    have : 12 ≤ B.y2 - B.y1 := by
      rw [hby] at q3 q4
      omega
    omega
  have hwide : (B.x2 - B.x1 : ℝ) * c.r.gt1 ≤ 1.03 := by
    have hk' := hk
    rw [init_numTiles] at hk'
    have h := gridlimitBuffer_ok (up := 0.01) hk'
    rw [hB] at h
    have hBe := Except.ok.inj h
    have e1 : B.x1 = _ := congrArg Limits.x1 hBe
    have e2 : B.x2 = _ := congrArg Limits.x2 hBe
    simp only at e1 e2
    have h3 : B.x2 - B.x1 ≤ (TileGrid.init 0.01 c.r).xStep + 2 * (TileGrid.init 0.01 c.r).xBuffer := by
      rw [e1, e2]
      generalize ((k / nRows c.r : ℕ) : ℤ) = q
      have := min_le_left ((q + 1) * (TileGrid.init 0.01 c.r).xStep
        + (TileGrid.init 0.01 c.r).xBuffer) (c.r.xDim : ℤ)
      have := le_max_right 0 (q * (TileGrid.init 0.01 c.r).xStep - (TileGrid.init 0.01 c.r).xBuffer)
      linarith
    rw [hsx, hbx] at h3
    have h4 : (B.x2 - B.x1 : ℝ) ≤ (⌈1 / c.r.gt1⌉ : ℝ) + 2 * (⌊0.01 / c.r.gt1⌋ : ℝ) := by
      exact_mod_cast h3
    have h5 := Int.ceil_lt_add_one (1 / c.r.gt1)
    have h6 := Int.floor_le (0.01 / c.r.gt1)
    have h7 : (B.x2 - B.x1 : ℝ) ≤ 1.02 / c.r.gt1 + 1 := by
      have e : (1.02 : ℝ) / c.r.gt1 = 1 / c.r.gt1 + 2 * (0.01 / c.r.gt1) := by ring
      linarith
    calc (B.x2 - B.x1 : ℝ) * c.r.gt1 ≤ (1.02 / c.r.gt1 + 1) * c.r.gt1 := by gcongr
      _ = 1.02 + c.r.gt1 := by field_simp
      _ ≤ 1.03 := by norm_num at hp1 ⊢; linarith
  have hxd : (((clipInfo c.r EB).xDim : ℕ) : ℝ) = B.x2 - B.x1 := by exact_mod_cast s3
  have hg5 : (clipInfo c.r EB).gt5 = -c.r.gt1 := by
    show - -c.r.gt5 = _
    rw [neg_neg, hsq]
  have hg3 : (clipInfo c.r EB).gt3 = c.r.gt3 + B.y1 * c.r.gt5 := s2
  have hy1 : (0 : ℝ) ≤ B.y1 := by exact_mod_cast b0
  have hy1' : (B.y1 : ℝ) ≤ c.r.yDim := by exact_mod_cast (by omega : B.y1 ≤ c.r.yDim)
  obtain ⟨xm, ym, g1, ⟨g2, g3⟩, ⟨g4, g5⟩, g6⟩ := C88_grids fuel hfuel (clipInfo c.r EB) hrows hcols hp0
    (show c.r.gt1 ≤ 5 by norm_num at hp1 ⊢; linarith) (by rw [hg5]; linarith)
    (by rw [hg3]; nlinarith) (by
      rw [hg3, hxd, hg5, hsq]
      rw [hsq] at hs
      have : (B.y1 : ℝ) * c.r.gt1 ≤ c.r.yDim * c.r.gt1 := by gcongr
      norm_num at hs hwide ⊢
      linarith)
  rw [hg5, neg_neg] at g6
  change ∀ i < _, ∀ j < _, (0.64 * (earthA * (c.r.gt1 * radPerDeg)) ≤ _ ∧
    _ ≤ 1.06 * (earthA * (c.r.gt1 * radPerDeg))) ∧ _ at g6
  -- the size of a pixel on the equator
  have he0 : 111319 * c.r.gt1 ≤ earthA * (c.r.gt1 * radPerDeg) := by
    have : (111319 : ℝ) ≤ earthA * radPerDeg := by unfold earthA radPerDeg; norm_num
    calc 111319 * c.r.gt1 ≤ earthA * radPerDeg * c.r.gt1 := by gcongr
      _ = _ := by ring
  have he1 : earthA * (c.r.gt1 * radPerDeg) ≤ 111320 * c.r.gt1 := by
    have : earthA * radPerDeg ≤ (111320 : ℝ) := by unfold earthA radPerDeg; norm_num
    calc earthA * (c.r.gt1 * radPerDeg) = earthA * radPerDeg * c.r.gt1 := by ring
      _ ≤ _ := by gcongr
  generalize earthA * (c.r.gt1 * radPerDeg) = e at *
  have hepos : 0 < e := by linarith
  have mx := Grid.mean_mem xm (by omega) (by omega) (0.64 * e) (1.06 * e) (fun i hi j hj =>
    (g6 i (by omega) j (by omega)).1)
  have my := Grid.mean_mem ym (by omega) (by omega) (0.97 * e) (1.03 * e) (fun i hi j hj =>
    (g6 i (by omega) j (by omega)).2)
  have hgw0 : 0.805 * e ≤ gridWidth xm ym := by unfold gridWidth; norm_num at mx my ⊢; linarith
  have hgw1 : gridWidth xm ym ≤ 1.045 * e := by unfold gridWidth; norm_num at mx my ⊢; linarith
  have hgpos : 0 < gridWidth xm ym := by linarith
  have hbuf : 700 / gridWidth xm ym + 1 ≤ 0.01 / c.r.gt1 - 1 := by
    have h3 : 700 / gridWidth xm ym ≤ 0.0079 / c.r.gt1 := by
      rw [div_le_div_iff₀ hgpos hpw]
      norm_num at hgw0 ⊢
      linarith
    have h4 : 0.01 / c.r.gt1 - 0.0079 / c.r.gt1 ≥ 2 := by
      rw [← sub_div, ge_iff_le, le_div_iff₀ hpw]
      norm_num at hp1 ⊢; linarith
    linarith
  have hfl := Int.lt_floor_add_one (0.01 / c.r.gt1)
  refine ⟨xm, ym, gridWidth xm ym, ⟨hpw, hph, hlw, hlh, hup, hL, hB, hE, hEB, hcat,
    by rw [hsizes, g1], rfl, hgpos, ?_, ?_, ?_, ?_, ?_, hempty, hland, htable⟩⟩
  · intro i j hi hj
    obtain ⟨⟨c1, -⟩, c2, -⟩ := g6 i (by omega) j (by omega)
    exact ⟨by linarith, by linarith⟩
  · norm_num at hgw1 hp1 ⊢; linarith
  · rw [hbx]; linarith
  · rw [hby]; linarith
  · have : 0.01 / c.r.gt1 ≤ c.r.yDim := by rwa [div_le_iff₀ hpw]
    linarith

/-- A raster of 1300 × 100 pixels of 0.0008°, 35° S; land cover on the same grid, of category 1 in the
west. -/
noncomputable def standardInputs : Inputs where
  r := ⟨1300, 100, 149, 8 / 10000, -35, -(8 / 10000)⟩
  dem := ⟨100, 1300, fun i j => some (i + j)⟩
  lr := ⟨1300, 100, 149, 8 / 10000, -35, -(8 / 10000)⟩
  lcv := ⟨100, 1300, fun _ j => some (if j < 1245 then 1 else 2)⟩
  terrainTable := [⟨1, 1⟩]
  shieldTable := [(1, 80)]
  pixelSizes := pixelSizes 20
  checksum := fun _ => 1

theorem standardGrid : TileGrid.init 0.01 standardInputs.r =
    { xDim := 1300, yDim := 100, xLeft := 149, yUpper := 35, pixelwidth := 8 / 10000
      pixelheight := 8 / 10000, xStep := 1250, yStep := 1250, xBuffer := 12, yBuffer := 12
      tiles := tileGridLoop 2 1 1250 1250 12 12 1300 100 } := by
  have h1 : ⌈(1 : ℝ) / (8 / 10000)⌉ = 1250 := by
    rw [Int.ceil_eq_iff]; norm_num
  have h2 : pyInt ((0.01 : ℝ) / (8 / 10000)) = 12 := by
    unfold pyInt
    rw [if_pos (by norm_num), Int.floor_eq_iff]; norm_num
  have h3 : ⌈((1300 : ℕ) : ℝ) / ((1250 : ℤ) : ℝ)⌉ = 2 := by
    rw [Int.ceil_eq_iff]; norm_num
  have h4 : ⌈((100 : ℕ) : ℝ) / ((1250 : ℤ) : ℝ)⌉ = 1 := by
    rw [Int.ceil_eq_iff]; norm_num
  simp only [TileGrid.init, standardInputs, neg_neg, h1, h2, h3, h4]
  rfl

/-- Land cover on the grid of the DEM is taken as it is. -/
theorem isLandcover_same (c : Inputs) (h : c.lr = c.r) (hpw : 0 < c.r.gt1) (hph : c.r.gt5 < 0) :
    IsLandcover c ⟨c.r.yDim, c.r.xDim, fun i j => (c.lcv.val i j).getD 0⟩ := by
  refine ⟨rfl, rfl, fun px py hx hy => ⟨?_, ?_⟩⟩
  · rintro col row h1 h2 ⟨q1, q2, q3, q4⟩
    rw [h] at q1 q2 q3 q4
    simp only [RasterInfo.lonEdge, RasterInfo.latEdge, RasterInfo.lonCentre,
      RasterInfo.latCentre] at q1 q2 q3 q4
    push_cast at q1 q2 q3 q4
    have ec : col = px := by
      have a : (col : ℝ) < px + 1 := by nlinarith
      have b : (px : ℝ) < col + 1 := by nlinarith
      have a : col < px + 1 := by exact_mod_cast a
      have b : px < col + 1 := by exact_mod_cast b
      omega
    have er : row = py := by
      have a : (row : ℝ) < py + 1 := by nlinarith
      have b : (py : ℝ) < row + 1 := by nlinarith
      have a : row < py + 1 := by exact_mod_cast a
      have b : py < row + 1 := by exact_mod_cast b
      omega
    subst ec er
    rfl
  · intro hno
    exfalso
    refine hno px py (by rw [h]; exact hx) (by rw [h]; exact hy) ?_
    rw [h]
    refine ⟨?_, ?_, ?_, ?_⟩ <;>
      simp only [RasterInfo.lonEdge, RasterInfo.latEdge, RasterInfo.lonCentre,
        RasterInfo.latCentre] <;> push_cast <;> nlinarith

/-- Its second tile, of 50 columns, has 62 with the buffer and meets the conditions. -/
example : ∃ E EB xm ym gw cat, TileCase standardInputs 0.01 1 ⟨1250, 1300, 0, 100⟩ ⟨1238, 1300, 0, 100⟩
    E EB xm ym gw cat := by
  have hpw : 0 < standardInputs.r.gt1 := by norm_num [standardInputs]
  have hph : standardInputs.r.gt5 < 0 := by norm_num [standardInputs]
  have hcat := isLandcover_same standardInputs rfl hpw hph
  obtain ⟨xm, ym, gw, t⟩ := C88_standard_tile 20 (by norm_num) standardInputs 1 ⟨1250, 1300, 0, 100⟩
    ⟨1238, 1300, 0, 100⟩ _ _ _ rfl (by norm_num [standardInputs]) (by norm_num [standardInputs]) rfl
    (by norm_num [standardInputs]) (by norm_num [standardInputs]) (by norm_num [standardInputs])
    (by norm_num [standardInputs]) hpw hph (by rw [standardGrid]; rfl) (by rw [standardGrid]; rfl)
    (by rw [standardGrid]; rfl) (by rw [standardGrid]; rfl) hcat one_ne_zero
    ⟨1240, 5, by simp [Limits.Has], by
      show 0 < classMz standardInputs.terrainTable 1
      have : classMz standardInputs.terrainTable 1 = roughnessMz 1 := rfl
      rw [this, roughnessMz, Real.log_one]
      have := Real.log_le_sub_one_of_pos (show (0 : ℝ) < 3.734 + 0.4554 * 0 by norm_num)
      norm_num at this ⊢
      linarith⟩ (by
      intro row hrow
      simp only [standardInputs, List.mem_singleton] at hrow
      subst hrow
      norm_num [Real.log_one])
  exact ⟨_, _, xm, ym, gw, _, t⟩

end WindMult
