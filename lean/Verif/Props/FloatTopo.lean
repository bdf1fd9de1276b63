import Verif.Proofs.FloatLine

/-!
# Rounding in the topographic multipliers (C108–C110)

The number format is `roundDigits P`: every operation gives the nearest number with `P` binary digits (`P = 53`
is double precision, `P = 24` single); there are no limits on the exponent.  `1 / 2 ^ P` is the largest relative
error of one operation.
-/

set_option autoImplicit false

namespace WindMult

/-- A line with one hill, 50 m high: 0, 25, 50, 0, 0, 0, 0. -/
noncomputable def coneLine : Line ℝ := ⟨7, fun i => if i = 1 then 25 else if i = 2 then 50 else 0⟩

/-! ### C108 -/

/-- **C108** The escarpment factor of a hill with the foot at `v` and the crest at `r`: the position behind the
crest that the code finds by dividing two rounded lengths is the mirror image of the foot (or the end of the
line), and the factor is within `32 · 2⁻ᴾ` of the exact one. -/
theorem C108_escarpment (P : ℕ) (hP : 15 ≤ P) (y : Line ℝ) (v r : ℕ) (hv : v < r) (hr : r < y.size)
    (hsize : y.size ≤ 2 ^ (P - 2)) (ds : ℝ) (hds : 0 < ds) (hfl : roundDigits P ds = ds) :
    betaIndFl (roundDigits P) y.size r v ds = ((min (y.size - 1) (2 * r - v) : ℕ) : ℤ) ∧
      |escarpmentFactorFl (roundDigits P) y r v ds - y.escarpment v r| ≤ 32 / 2 ^ P := by
  obtain ⟨hu0, hu⟩ := digits_small P hP
  have hpow : 2 ^ (P - 1) = 2 * 2 ^ (P - 2) := by
    rw [← pow_succ']; congr 1; omega
  have hb := betaIndFl_exact P y.size hv (by omega) (by omega) hds hfl
  refine ⟨by rw [hb]; omega, ?_⟩
  have := escarpmentFl_near hu0 hu (digits P) y hds hv hr hb
  calc _ ≤ 32 * (1 / 2 ^ P : ℝ) := this
    _ = 32 / 2 ^ P := by ring

/-- The hill of `coneLine` with points 25 m apart, in single precision. -/
example : (0 < 2) ∧ 2 < coneLine.size ∧ coneLine.size ≤ 2 ^ (24 - 2) ∧ roundDigits 24 (25 : ℝ) = 25 := by
  refine ⟨by norm_num, by norm_num [coneLine], by norm_num [coneLine], ?_⟩
  have := roundDigits_int 24 25 (by norm_num) (by norm_num)
  simpa using this

/-! ### C109 -/

/-- **C109** The computed multiplier of a point of a line, where no hill is borderline, is within `127 · 2⁻ᴾ` of
the largest of 1 and the contributions of the hills. -/
theorem C109_line (P : ℕ) (hP : 15 ≤ P) (line : Line ℝ) (hsize : line.size ≤ 2 ^ (P - 2))
    (helev : ∀ i, i < line.size → |⌊line.val i⌋| ≤ 2 ^ (P - 1)) (ds : ℝ) (hds : 0 < ds)
    (hfl : roundDigits P ds = ds) :
    ∃ mf, multiplierCalcFl (roundDigits P) line ds = .ok mf ∧ mf.size = line.size ∧
      ∀ p, p + 1 < line.size →
        (∀ v r, line.floored.IsHill v r → line.floored.ClearHill (1 / 2 ^ P) v r ds p) →
        ∃ x, IsGreatest (insert 1 {t | ∃ v r, line.floored.IsHill v r ∧
            hillCounts (line.floored.val r - line.floored.val v) (halfWidth v r ds) ds ∧
            t = line.floored.hillValue v r ds p}) x ∧ |mf.val p - x| ≤ 127 / 2 ^ P := by
  obtain ⟨m, mf, h1, h2, -, h4, h5⟩ := multiplierCalc_digits P hP line hsize helev hds hfl
  obtain ⟨m', k1, -, k3⟩ := C72_largest_hill line ds hds
  rw [h1] at k1
  cases k1
  refine ⟨mf, h2, h4, fun p hp hc => ⟨m.val p, k3 p hp, ?_⟩⟩
  calc _ ≤ 127 * (1 / 2 ^ P : ℝ) := h5 p hp hc
    _ = 127 / 2 ^ P := by ring

theorem coneLine_floored : coneLine.floored = coneLine := by
  unfold Line.floored coneLine
  congr 1
  funext i
  dsimp only
  split_ifs <;> simp

/-- No hill of `coneLine` is borderline anywhere, in single precision. -/
theorem coneLine_clear (v r p : ℕ) (hh : coneLine.IsHill v r) : coneLine.ClearHill (1 / 2 ^ 24) v r 25 p := by
  obtain ⟨-, -, hvr, hrs, hrise⟩ := hh
  have hup : ∀ i, v ≤ i → i < r → i < 2 := by
    intro i h1 h2
    have := hrise i h1 h2
    by_contra hi
    unfold coneLine at this
    dsimp only at this
    split_ifs at this <;> first | omega | norm_num at this
  have hr2 : r ≤ 2 := by have := hup (r - 1) (by omega) (by omega); omega
  unfold Line.ClearHill
  dsimp only
  intro hH hw
  have hwide : v = 0 ∧ r = 2 := by
    by_contra hne
    have h1 : r - v = 1 := by omega
    unfold halfWidth at hw
    rw [h1] at hw
    norm_num at hw
  obtain ⟨rfl, rfl⟩ := hwide
  have hHe : coneLine.val 2 - coneLine.val 0 = 50 := by simp [coneLine]
  have hse : (50 : ℝ) / (2 * halfWidth 0 2 25) = 1 := by simp only [halfWidth]; norm_num
  rw [hHe, hse]
  refine ⟨by norm_num [abs_of_pos], by norm_num [abs_of_pos], fun hp _ => ⟨?_, ?_⟩⟩
  · have : (3 : ℝ) ≤ p := by exact_mod_cast hp
    rw [abs_of_pos (by norm_num; linarith)]
    norm_num
    linarith
  · have : coneLine.escarpment 0 2 = 1 := by
      unfold Line.escarpment coneLine
      norm_num
    rw [this]
    norm_num [abs_of_neg]

/-- `coneLine` at the crest, and behind it. -/
example : (∀ i, i < coneLine.size → |⌊coneLine.val i⌋| ≤ 2 ^ (24 - 1)) ∧ 2 + 1 < coneLine.size ∧
    (∀ v r, coneLine.floored.IsHill v r → coneLine.floored.ClearHill (1 / 2 ^ 24) v r 25 2) ∧
    (∀ v r, coneLine.floored.IsHill v r → coneLine.floored.ClearHill (1 / 2 ^ 24) v r 25 3) := by
  rw [coneLine_floored]
  refine ⟨fun i _ => ?_, by norm_num [coneLine], fun v r h => coneLine_clear v r 2 h,
    fun v r h => coneLine_clear v r 3 h⟩
  unfold coneLine
  dsimp only
  split_ifs <;> norm_num

/-! ### C110 -/

/-- The cell has a next cell downwind of it, and no hill of its transect is borderline at the cell. -/
def ClearCell (u : ℝ) (dem : Grid (Option ℝ)) (spacing : ℝ) (d : Dir) (i j : ℕ) : Prop :=
  ∀ s n, IsTransect dem.rows dem.cols d i j s n → s + 1 < n ∧
    ∀ v r, (transectLine dem d i j s n).floored.IsHill v r →
      (transectLine dem d i j s n).floored.ClearHill u v r spacing s

/-- A transect is not longer than the raster. -/
theorem transect_length {rows cols : ℕ} {d : Dir} {i j : ℤ} {s n : ℕ} (h : IsTransect rows cols d i j s n) :
    n ≤ max rows cols := by
  obtain ⟨h1, h2, -, -⟩ := h
  have a := h2 0 (by omega)
  have b := h2 (n - 1) (by omega)
  have hn : ((n - 1 : ℕ) : ℤ) = (n : ℤ) - 1 := by omega
  rw [hn] at b
  unfold InRaster at a b
  cases d <;> simp only [Dir.rowUp, Dir.colUp, Dir.north, Dir.east] at a b <;> omega

theorem topoLinesFl_eq (fl : ℝ → ℝ) (nr nc : ℕ) (d : Dir) (data : ℕ → Option ℝ) (spacing : ℝ) (ss : List ℕ) :
    ∀ mh, topoLinesFl fl nr nc d data spacing ss mh =
      linesWith (fun l => multiplierCalcFl fl l spacing) nr nc d data ss mh := by
  induction ss with
  | nil => intro mh; rfl
  | cons s ss ih =>
    intro mh
    unfold topoLinesFl linesWith
    simp only [ih]

/-- The grid before smoothing. -/
theorem topoRaw_digits (P : ℕ) (hP : 15 ≤ P) (dem : Grid (Option ℝ)) (hr : 0 < dem.rows) (hc : 0 < dem.cols)
    (hrows : dem.rows ≤ 2 ^ (P - 2)) (hcols : dem.cols ≤ 2 ^ (P - 2))
    (helev : ∀ i j, i < dem.rows → j < dem.cols → ∀ z, dem.val i j = some z → |⌊z⌋| ≤ 2 ^ (P - 1))
    (cellsize root2 xLeft yUpper : ℝ) (d : Dir) (hds : 0 < lineSpacing d cellsize root2)
    (hfl : roundDigits P (lineSpacing d cellsize root2) = lineSpacing d cellsize root2) :
    ∃ g gf, topoRaw dem cellsize root2 xLeft yUpper d = .ok g ∧
      topoRawFl (roundDigits P) dem (lineSpacing d cellsize root2) xLeft yUpper d = .ok gf ∧
      g.rows = dem.rows ∧ g.cols = dem.cols ∧ gf.rows = dem.rows ∧ gf.cols = dem.cols ∧
      ∀ i j, i < dem.rows → j < dem.cols →
        ClearCell (1 / 2 ^ P) dem (lineSpacing d cellsize root2) d i j →
        (143 < xLeft ∧ 40 < yUpper → ∀ z, dem.val i j = some z → z ≤ 4000) →
        |gf.val i j - g.val i j| ≤ 222 * (1 / 2 ^ P) ∧ |g.val i j| ≤ 2.5 := by
  obtain ⟨hu0, hu⟩ := digits_small P hP
  set sp := lineSpacing d cellsize root2 with hsp
  obtain ⟨g, g1, g2, g3, g4⟩ := C54_cell_from_transect dem hr hc cellsize root2 xLeft yUpper d
  obtain ⟨mh, f1, f2⟩ := linesWith_cell (fun l => multiplierCalcFl (roundDigits P) l sp)
    (fun l => by
      obtain ⟨m, h, _⟩ := calcWith_spec (mhCalcFl (roundDigits P)) l sp
      exact ⟨m, by rw [multiplierCalcFl_eq]; exact h⟩) dem hr hc d
  have hraw : topoRawFl (roundDigits P) dem sp xLeft yUpper d =
      .ok ⟨dem.rows, dem.cols, fun i j => if 143 < xLeft ∧ 40 < yUpper then
        tasmaniaCellFl (roundDigits P) (removeConservatismFl (roundDigits P) (mh (j * dem.rows + i))) (dem.val i j)
        else removeConservatismFl (roundDigits P) (mh (j * dem.rows + i))⟩ := by
    unfold topoRawFl
    rw [topoLinesFl_eq, f1]
    show (if 143 < xLeft ∧ 40 < yUpper then Except.ok _ else Except.ok _) = _
    by_cases ht : 143 < xLeft ∧ 40 < yUpper
    · simp only [if_pos ht]
    · simp only [if_neg ht]
  refine ⟨g, _, g1, hraw, g2, g3, rfl, rfl, fun i j hi hj hclear htas => ?_⟩
  obtain ⟨⟨s, n, hT⟩, g5⟩ := g4 i j hi hj
  obtain ⟨m, hm, hv⟩ := g5 s n hT
  obtain ⟨mf, hmf, hvf⟩ := f2 i j s n hT
  obtain ⟨hsn, hhill⟩ := hclear s n hT
  have hlen := transect_length hT
  obtain ⟨m', mf', k1, k2, -, -, k5⟩ := multiplierCalc_digits P hP (transectLine dem d i j s n)
    (le_trans hlen (max_le hrows hcols)) (fun t ht => by
      change t < n at ht
      unfold transectLine
      dsimp only
      rw [if_pos ht]
      have hin := hT.2.1 t ht
      unfold InRaster at hin
      cases hz : dem.val (d.rowUp i ((s : ℤ) - t)).toNat (d.colUp j ((s : ℤ) - t)).toNat with
      | none => simp
      | some z => exact helev _ _ (by omega) (by omega) z hz) hds hfl
  rw [hm] at k1
  cases k1
  rw [hmf] at k2
  cases k2
  have hclose := k5 s hsn hhill
  obtain ⟨m'', q1, -, q3⟩ := C46_range (transectLine dem d i j s n) sp hds
  rw [hm] at q1
  cases q1
  obtain ⟨b1, b2⟩ := q3 s hT.1
  have hcon := (C51_conservatism (m.val s) (m.val s)).1 b1 b2
  have hmf2 : mf.val s ≤ 173 / 100 := by
    have := (abs_le.mp hclose).2
    linarith
  have hrc : |removeConservatismFl (roundDigits P) (mf.val s) - removeConservatism (m.val s)| ≤
      131 * (1 / 2 ^ P) := by
    have e1 := conservatismFl_near hu0 hu (digits P) hmf2
    have e2 := conservatism_lipschitz (mf.val s) (m.val s)
    have e3 := abs_sub_le (removeConservatismFl (roundDigits P) (mf.val s)) (removeConservatism (mf.val s))
      (removeConservatism (m.val s))
    change |removeConservatismFl (roundDigits P) (mf.val s) - _| ≤ _ at e1
    linarith
  rw [hv, topoCorrected_eq]
  dsimp only
  rw [hvf]
  have hplain : |removeConservatism (m.val s)| ≤ 2.5 := by
    rw [abs_of_nonneg (by linarith)]
    linarith
  by_cases ht : 143 < xLeft ∧ 40 < yUpper
  · simp only [if_pos ht]
    cases hz : dem.val i j with
    | none =>
      simp only [tasmaniaCellFl, tasmaniaCell]
      exact ⟨by linarith, hplain⟩
    | some z =>
      simp only [tasmaniaCellFl, tasmaniaCell]
      by_cases h5 : 500 < z
      · rw [if_pos h5, if_pos h5]
        have hz4 := htas ht z hz
        refine ⟨?_, ?_⟩
        · exact tasmaniaFl_near hu0 hu (digits P) hcon.1 (by linarith) hrc (by linarith) hz4
        · rw [abs_of_nonneg (mul_nonneg (by linarith) (by linarith))]
          nlinarith
      · rw [if_neg h5, if_neg h5]
        exact ⟨by linarith, hplain⟩
  · simp only [if_neg ht]
    exact ⟨by linarith, hplain⟩

/-- **C110** One direction of a tile: at a cell where neither the cell nor any of its eight neighbours in the
raster is borderline, the saved topographic multiplier computed with rounded operations is within `252 · 2⁻ᴾ` of
the exact one; it is missing at the same cells. -/
theorem C110_raster (P : ℕ) (hP : 15 ≤ P) (dem : Grid (Option ℝ)) (hr : 0 < dem.rows) (hc : 0 < dem.cols)
    (hrows : dem.rows ≤ 2 ^ (P - 2)) (hcols : dem.cols ≤ 2 ^ (P - 2))
    (helev : ∀ i j, i < dem.rows → j < dem.cols → ∀ z, dem.val i j = some z → |⌊z⌋| ≤ 2 ^ (P - 1))
    (cellsize root2 xLeft yUpper : ℝ) (d : Dir) (hds : 0 < lineSpacing d cellsize root2)
    (hfl : roundDigits P (lineSpacing d cellsize root2) = lineSpacing d cellsize root2) :
    ∃ g gf, topoDir dem cellsize root2 xLeft yUpper d = .ok g ∧
      topoDirFl (roundDigits P) dem (lineSpacing d cellsize root2) xLeft yUpper d = .ok gf ∧
      g.rows = dem.rows ∧ g.cols = dem.cols ∧ gf.rows = dem.rows ∧ gf.cols = dem.cols ∧
      ∀ i j, i < dem.rows → j < dem.cols →
        (dem.val i j = none → g.val i j = none ∧ gf.val i j = none) ∧
        ((∀ a b, a < dem.rows → b < dem.cols → a ≤ i + 1 → i ≤ a + 1 → b ≤ j + 1 → j ≤ b + 1 →
            ClearCell (1 / 2 ^ P) dem (lineSpacing d cellsize root2) d a b ∧
            (143 < xLeft ∧ 40 < yUpper → ∀ z, dem.val a b = some z → z ≤ 4000)) →
          ∀ z, dem.val i j = some z → ∃ x y, g.val i j = some x ∧ gf.val i j = some y ∧
            |y - x| ≤ 252 / 2 ^ P) := by
  obtain ⟨hu0, hu⟩ := digits_small P hP
  obtain ⟨g, gf, h1, h2, h3, h4, h5, h6, h7⟩ := topoRaw_digits P hP dem hr hc hrows hcols helev cellsize root2
    xLeft yUpper d hds hfl
  refine ⟨_, _, by unfold topoDir; rw [h1]; rfl, by unfold topoDirFl; rw [h2]; rfl, h3, h4, h5, h6,
    fun i j hi hj => ⟨?_, ?_⟩⟩
  · intro h; simp only [h, and_self]
  · intro hclear z hz
    refine ⟨smoothCell g i j, smoothCellFl (roundDigits P) gf i j, by simp only [hz], by simp only [hz], ?_⟩
    have := smoothFl_near hu0 hu (digits P) g gf i j (fun a b ha hb => by
      unfold Grid.orZero
      rw [h3, h4, h5, h6]
      split_ifs with hin
      · obtain ⟨c1, c2⟩ := hclear (((i : ℤ) + a - 1).toNat) (((j : ℤ) + b - 1).toNat) (by omega) (by omega)
          (by omega) (by omega) (by omega) (by omega)
        exact h7 _ _ (by omega) (by omega) c1 c2
      · norm_num)
    calc _ ≤ 252 * (1 / 2 ^ P : ℝ) := this
      _ = 252 / 2 ^ P := by ring

/-- The hill of `coneLine` as a ridge across a raster of three columns. -/
noncomputable def coneGrid : Grid (Option ℝ) := ⟨7, 3, fun i _ => some (coneLine.val i)⟩

theorem coneGrid_clear (i j : ℕ) (hi : i < 6) : ClearCell (1 / 2 ^ 24) coneGrid 25 .n i j := by
  intro s n hT
  obtain ⟨h1, h2, h3, h4⟩ := hT
  have a := h2 0 (by omega)
  have b := h2 (n - 1) (by omega)
  simp only [InRaster, Dir.rowUp, Dir.colUp, Dir.north, Dir.east, coneGrid] at a b h3 h4
  have hs : s = i := by omega
  have hn : n = 7 := by omega
  subst hs hn
  refine ⟨by omega, fun v r hh => ?_⟩
  have hline : transectLine coneGrid .n (s : ℤ) (j : ℤ) s 7 = coneLine := by
    unfold transectLine coneGrid
    show (⟨7, _⟩ : Line ℝ) = ⟨7, coneLine.val⟩
    congr 1
    funext t
    have ht0 : (Dir.n.rowUp (s : ℤ) ((s : ℤ) - t)).toNat = t := by
      simp only [Dir.rowUp, Dir.north]; omega
    simp only [ht0, Option.getD_some]
    by_cases ht : t < 7
    · rw [if_pos ht]
    · rw [if_neg ht]
      unfold coneLine
      dsimp only
      rw [if_neg (by omega), if_neg (by omega)]
  rw [hline, coneLine_floored] at hh ⊢
  exact coneLine_clear v r s hh

/-- The crest of the ridge in `coneGrid`, with wind from the north, cells of 25 m, in single precision. -/
example : lineSpacing .n (25 : ℝ) (7 / 5) = 25 ∧ coneGrid.rows ≤ 2 ^ (24 - 2) ∧ coneGrid.cols ≤ 2 ^ (24 - 2) ∧
    (∀ i j, i < coneGrid.rows → j < coneGrid.cols → ∀ z, coneGrid.val i j = some z → |⌊z⌋| ≤ 2 ^ (24 - 1)) ∧
    (∀ a b, a < coneGrid.rows → b < coneGrid.cols → a ≤ 2 + 1 → 2 ≤ a + 1 → b ≤ 1 + 1 → 1 ≤ b + 1 →
      ClearCell (1 / 2 ^ 24) coneGrid 25 .n a b) ∧ coneGrid.val 2 1 = some 50 := by
  refine ⟨rfl, by norm_num [coneGrid], by norm_num [coneGrid], ?_, ?_, by norm_num [coneGrid, coneLine]⟩
  · intro i j _ _ z hz
    simp only [coneGrid, Option.some.injEq] at hz
    rw [← hz]
    unfold coneLine
    dsimp only
    split_ifs <;> norm_num
  · intro a b _ _ h1 _ _ _
    exact coneGrid_clear a b (by omega)

end WindMult
