import Verif.Proofs.Spacing
import Verif.Props.FloatTopo

/-!
# The spacing of the points in the topographic multipliers (C116)

The spacing that the code uses is the rounded mean of stored pixel sizes (C114), in diagonal directions times a
rounded `sqrt(2)`.  C108–C110 take it as it is; here it is compared with another spacing, the exact one.
-/

set_option autoImplicit false

namespace WindMult

theorem clearCell_scale {ε t u : ℝ} (hε : ε ≤ 1 / 100) (ht : |t - 1| ≤ ε) (hu0 : 0 ≤ u) (hu : 2 * u ≤ ε)
    {dem : Grid (Option ℝ)} {ds : ℝ} (hds : 0 < ds) {d : Dir} {i j : ℕ} (h : ClearCell ε dem ds d i j) :
    ClearCell u dem (ds * t) d i j := by
  intro s n hT
  obtain ⟨h1, h2⟩ := h s n hT
  exact ⟨h1, fun v r hh => (hill_scale hε ht _ hu0 hu hds hh.2.2.1 (hill_height _ v r hh) s (h2 v r hh)).1⟩

/-- The unsmoothed multipliers at two spacings. -/
theorem topoRaw_scale {ε t u : ℝ} (hε : ε ≤ 1 / 100) (ht : |t - 1| ≤ ε) (hu0 : 0 ≤ u) (hu : 2 * u ≤ ε)
    (dem : Grid (Option ℝ)) (hr : 0 < dem.rows) (hc : 0 < dem.cols)
    (cellsize root2 cellsize' root2' xLeft yUpper : ℝ) (d : Dir) (hds : 0 < lineSpacing d cellsize root2)
    (heq : lineSpacing d cellsize' root2' = lineSpacing d cellsize root2 * t) :
    ∃ g g', topoRaw dem cellsize root2 xLeft yUpper d = .ok g ∧
      topoRaw dem cellsize' root2' xLeft yUpper d = .ok g' ∧
      g.rows = dem.rows ∧ g.cols = dem.cols ∧ g'.rows = dem.rows ∧ g'.cols = dem.cols ∧
      ∀ i j, i < dem.rows → j < dem.cols →
        ClearCell ε dem (lineSpacing d cellsize root2) d i j →
        (143 < xLeft ∧ 40 < yUpper → ∀ z, dem.val i j = some z → z ≤ 4000) →
        |g'.val i j - g.val i j| ≤ 4 * ε := by
  have hε0 : 0 ≤ ε := (abs_nonneg _).trans ht
  obtain ⟨g, g1, g2, g3, g4⟩ := C54_cell_from_transect dem hr hc cellsize root2 xLeft yUpper d
  obtain ⟨g', k1, k2, k3, k4⟩ := C54_cell_from_transect dem hr hc cellsize' root2' xLeft yUpper d
  refine ⟨g, g', g1, k1, g2, g3, k2, k3, fun i j hi hj hclear htas => ?_⟩
  obtain ⟨⟨s, n, hT⟩, g5⟩ := g4 i j hi hj
  obtain ⟨m, hm, hv⟩ := g5 s n hT
  obtain ⟨m', hm', hv'⟩ := (k4 i j hi hj).2 s n hT
  rw [heq] at hm'
  obtain ⟨hsn, hhill⟩ := hclear s n hT
  have hmm := multiplierCalc_scale hε ht _ hu0 hu hds hm hm' s hsn hhill
  have hl := (conservatism_lipschitz (m'.val s) (m.val s)).trans hmm
  rw [hv, hv', topoCorrected_eq, topoCorrected_eq]
  by_cases htt : 143 < xLeft ∧ 40 < yUpper
  · simp only [if_pos htt]
    cases hz : dem.val i j with
    | none => simp only [tasmaniaCell]; linarith
    | some z =>
      simp only [tasmaniaCell]
      by_cases h5 : 500 < z
      · rw [if_pos h5, if_pos h5]
        have hz4 := htas htt z hz
        rw [← sub_mul, abs_mul, abs_of_pos (by linarith : 0 < 1 + 15 / 100000 * z)]
        calc _ ≤ 2 * ε * 2 := mul_le_mul hl (by linarith) (by linarith) (by linarith)
          _ = 4 * ε := by ring
      · rw [if_neg h5, if_neg h5]; linarith
  · simp only [if_neg htt]; linarith

theorem nine_close (F G : ℕ → ℕ → ℝ) {c : ℝ} (h : ∀ a b : ℕ, a < 3 → b < 3 → |G a b - F a b| ≤ c) :
    |((List.range 3).map fun a => ((List.range 3).map fun b => G a b * (1 / 9)).sum).sum -
      ((List.range 3).map fun a => ((List.range 3).map fun b => F a b * (1 / 9)).sum).sum| ≤ c := by
  have e : ∀ a b : ℕ, a < 3 → b < 3 → _ := fun a b ha hb => abs_le.mp (h a b ha hb)
  have h00 := e 0 0 (by norm_num) (by norm_num)
  have h01 := e 0 1 (by norm_num) (by norm_num)
  have h02 := e 0 2 (by norm_num) (by norm_num)
  have h10 := e 1 0 (by norm_num) (by norm_num)
  have h11 := e 1 1 (by norm_num) (by norm_num)
  have h12 := e 1 2 (by norm_num) (by norm_num)
  have h20 := e 2 0 (by norm_num) (by norm_num)
  have h21 := e 2 1 (by norm_num) (by norm_num)
  have h22 := e 2 2 (by norm_num) (by norm_num)
  simp only [show List.range 3 = [0, 1, 2] from rfl, List.map_cons, List.map_nil, List.sum_cons, List.sum_nil]
  rw [abs_le]
  constructor <;> linarith [h00.1, h01.1, h02.1, h10.1, h11.1, h12.1, h20.1, h21.1, h22.1,
    h00.2, h01.2, h02.2, h10.2, h11.2, h12.2, h20.2, h21.2, h22.2]

/-- Smoothing does not enlarge differences. -/
theorem smoothCell_close {g g' : Grid ℝ} {i j : ℕ} {c : ℝ}
    (h : ∀ a b : ℕ, a < 3 → b < 3 → |g'.orZero ((i : ℤ) + a - 1) ((j : ℤ) + b - 1) -
      g.orZero ((i : ℤ) + a - 1) ((j : ℤ) + b - 1)| ≤ c) :
    |smoothCell g' i j - smoothCell g i j| ≤ c :=
  nine_close (fun a b => g.orZero ((i : ℤ) + a - 1) ((j : ℤ) + b - 1))
    (fun a b => g'.orZero ((i : ℤ) + a - 1) ((j : ℤ) + b - 1)) h

/-- **C116** One direction of a tile, computed with a spacing that is off by a relative error of at most `ε`: at
a cell where neither the cell nor any of its eight neighbours is within `ε` of being borderline at the exact
spacing, the saved topographic multiplier is within `4 ε + 252 · 2⁻ᴾ` of the exact one at the exact spacing. -/
theorem C116_spacing (P : ℕ) (hP : 15 ≤ P) (dem : Grid (Option ℝ)) (hr : 0 < dem.rows) (hc : 0 < dem.cols)
    (hrows : dem.rows ≤ 2 ^ (P - 2)) (hcols : dem.cols ≤ 2 ^ (P - 2))
    (helev : ∀ i j, i < dem.rows → j < dem.cols → ∀ z, dem.val i j = some z → |⌊z⌋| ≤ 2 ^ (P - 1))
    (cellsize root2 xLeft yUpper : ℝ) (d : Dir) (hds : 0 < lineSpacing d cellsize root2)
    (spacing ε : ℝ) (hfl : roundDigits P spacing = spacing)
    (hsp : |spacing - lineSpacing d cellsize root2| ≤ ε * lineSpacing d cellsize root2)
    (hε : ε ≤ 1 / 100) (hεP : 2 / 2 ^ P ≤ ε) :
    ∃ g gf, topoDir dem cellsize root2 xLeft yUpper d = .ok g ∧
      topoDirFl (roundDigits P) dem spacing xLeft yUpper d = .ok gf ∧
      g.rows = dem.rows ∧ g.cols = dem.cols ∧ gf.rows = dem.rows ∧ gf.cols = dem.cols ∧
      ∀ i j, i < dem.rows → j < dem.cols →
        (dem.val i j = none → g.val i j = none ∧ gf.val i j = none) ∧
        ((∀ a b, a < dem.rows → b < dem.cols → a ≤ i + 1 → i ≤ a + 1 → b ≤ j + 1 → j ≤ b + 1 →
            ClearCell ε dem (lineSpacing d cellsize root2) d a b ∧
            (143 < xLeft ∧ 40 < yUpper → ∀ z, dem.val a b = some z → z ≤ 4000)) →
          ∀ z, dem.val i j = some z → ∃ x y, g.val i j = some x ∧ gf.val i j = some y ∧
            |y - x| ≤ 4 * ε + 252 / 2 ^ P) := by
  obtain ⟨hu0, -⟩ := digits_small P hP
  have hu : 2 * (1 / 2 ^ P : ℝ) ≤ ε := by
    calc 2 * (1 / 2 ^ P : ℝ) = 2 / 2 ^ P := by ring
      _ ≤ ε := hεP
  obtain ⟨t, ht, hspt⟩ : ∃ t, |t - 1| ≤ ε ∧ spacing = lineSpacing d cellsize root2 * t := by
    refine ⟨spacing / lineSpacing d cellsize root2, ?_, by field_simp⟩
    rw [div_sub_one hds.ne', abs_div, abs_of_pos hds, div_le_iff₀ hds]
    exact hsp
  have ht0 : 0 < t := by linarith [(abs_le.mp ht).1]
  have hunit : lineSpacing d spacing 1 = spacing := by cases d <;> simp [lineSpacing]
  have heq : lineSpacing d spacing 1 = lineSpacing d cellsize root2 * t := by rw [hunit, hspt]
  have hds' : 0 < lineSpacing d spacing 1 := by rw [heq]; exact mul_pos hds ht0
  obtain ⟨g1, gf, a1, a2, a3, a4, a5, a6, a7⟩ := C110_raster P hP dem hr hc hrows hcols helev spacing 1
    xLeft yUpper d hds' (by rw [hunit]; exact hfl)
  obtain ⟨raw, raw', b1, b2, b3, b4, b5, b6, b7⟩ := topoRaw_scale hε ht hu0 hu dem hr hc cellsize root2 spacing 1
    xLeft yUpper d hds heq
  rw [hunit] at a2
  refine ⟨_, gf, by unfold topoDir; rw [b1]; rfl, a2, b3, b4, a5, a6, fun i j hi hj => ⟨fun hz => ?_, ?_⟩⟩
  · simp only [hz, true_and]
    exact ((a7 i j hi hj).1 hz).2
  · intro hclear z hz
    obtain ⟨x, y, c1, c2, c3⟩ := (a7 i j hi hj).2 (fun a b h1 h2 h3 h4 h5 h6 => by
      obtain ⟨e1, e2⟩ := hclear a b h1 h2 h3 h4 h5 h6
      refine ⟨?_, e2⟩
      rw [heq]
      exact clearCell_scale hε ht hu0 hu hds e1) z hz
    refine ⟨smoothCell raw i j, y, by simp only [hz], c2, ?_⟩
    have hx : x = smoothCell raw' i j := by
      unfold topoDir at a1
      rw [b2] at a1
      cases a1
      simp only [hz, Option.some.injEq] at c1
      exact c1.symm
    have hsm : |smoothCell raw' i j - smoothCell raw i j| ≤ 4 * ε := by
      apply smoothCell_close
      intro a b ha hb
      unfold Grid.orZero
      rw [b3, b4, b5, b6]
      split_ifs with hin
      · obtain ⟨e1, e2⟩ := hclear (((i : ℤ) + a - 1).toNat) (((j : ℤ) + b - 1).toNat) (by omega) (by omega)
          (by omega) (by omega) (by omega) (by omega)
        exact b7 _ _ (by omega) (by omega) e1 e2
      · have : 0 ≤ ε := (abs_nonneg _).trans ht
        simpa using this
    rw [hx] at c3
    have := abs_sub_le y (smoothCell raw' i j) (smoothCell raw i j)
    linarith

theorem coneGrid_line (i j s n : ℕ) (hT : IsTransect coneGrid.rows coneGrid.cols .n i j s n) :
    transectLine coneGrid .n i j s n = coneLine := by
  obtain ⟨h1, h2, h3, h4⟩ := hT
  have a := h2 0 (by omega)
  have b := h2 (n - 1) (by omega)
  simp only [InRaster, Dir.rowUp, Dir.colUp, Dir.north, Dir.east, coneGrid] at a b h3 h4
  have hs : s = i := by omega
  have hn : n = 7 := by omega
  subst hs hn
  unfold transectLine coneGrid
  show (⟨7, _⟩ : Line ℝ) = ⟨7, coneLine.val⟩
  congr 1
  funext t
  have ht0 : (Dir.n.rowUp (s : ℤ) ((s : ℤ) - t)).toNat = t := by
    simp only [Dir.rowUp, Dir.north]; omega
  simp only [ht0, Option.getD_some]
  by_cases ht : t < 7
  · rw [if_pos ht]
  · rw [if_neg ht]
    unfold coneLine
    dsimp only
    rw [if_neg (by omega), if_neg (by omega)]

/-- With points 250 m apart no hill of `coneLine` is within 1/250 of being borderline. -/
theorem coneLine_clear_coarse (v r p : ℕ) (hh : coneLine.IsHill v r) : coneLine.ClearHill (1 / 250) v r 250 p := by
  obtain ⟨-, -, hvr, hrs, hrise⟩ := hh
  have hup : ∀ i, v ≤ i → i < r → i < 2 := by
    intro i h1 h2
    have := hrise i h1 h2
    by_contra hi
    unfold coneLine at this
    dsimp only at this
    split_ifs at this <;> first | omega | norm_num at this
  have hr2 : r ≤ 2 := by have := hup (r - 1) (by omega) (by omega); omega
  unfold Line.ClearHill
  dsimp only
  intro hH hw
  have hwide : v = 0 ∧ r = 2 := by
    by_contra hne
    have h1 : r - v = 1 := by omega
    unfold halfWidth at hw
    rw [h1] at hw
    norm_num at hw
  obtain ⟨rfl, rfl⟩ := hwide
  have hHe : coneLine.val 2 - coneLine.val 0 = 50 := by simp [coneLine]
  have hse : (50 : ℝ) / (2 * halfWidth 0 2 250) = 1 / 10 := by simp only [halfWidth]; norm_num
  rw [hHe, hse]
  refine ⟨by norm_num [abs_of_pos], by norm_num [abs_of_neg], fun hp h45 => ?_⟩
  norm_num at h45

/-- The ridge in `coneGrid` with cells of 250 m that are taken for 251 m, in single precision. -/
example : |(251 : ℝ) - lineSpacing .n (250 : ℝ) (7 / 5)| ≤ 1 / 250 * lineSpacing .n (250 : ℝ) (7 / 5) ∧
    roundDigits 24 (251 : ℝ) = 251 ∧ (1 : ℝ) / 250 ≤ 1 / 100 ∧ (2 : ℝ) / 2 ^ 24 ≤ 1 / 250 ∧
    (∀ a b, a < coneGrid.rows → b < coneGrid.cols → a ≤ 2 + 1 → 2 ≤ a + 1 → b ≤ 1 + 1 → 1 ≤ b + 1 →
      ClearCell (1 / 250) coneGrid (lineSpacing .n (250 : ℝ) (7 / 5)) .n a b) ∧ coneGrid.val 2 1 = some 50 := by
  refine ⟨by norm_num [lineSpacing], ?_, by norm_num, by norm_num, ?_, by norm_num [coneGrid, coneLine]⟩
  · have := roundDigits_int 24 251 (by norm_num) (by norm_num)
    simpa using this
  · intro i j _ _ hi _ _ _ s n hT
    have hline := coneGrid_line i j s n hT
    obtain ⟨h1, h2, h3, h4⟩ := hT
    have a := h2 0 (by omega)
    have b := h2 (n - 1) (by omega)
    simp only [InRaster, Dir.rowUp, Dir.colUp, Dir.north, Dir.east, coneGrid] at a b h3 h4
    refine ⟨by omega, fun v r hh => ?_⟩
    rw [hline, coneLine_floored] at hh ⊢
    exact coneLine_clear_coarse v r s hh

end WindMult
