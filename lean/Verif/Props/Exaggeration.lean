import Verif.Spec.Exaggeration
import Verif.Props.TopoGrid

/-!
# C138: the topographic multipliers of exaggerated relief
-/

set_option linter.unusedSectionVars false
set_option autoImplicit false

namespace WindMult
variable {K : Type} [Field K] [LinearOrder K] [IsStrictOrderedRing K] [FloorRing K]

/-- **C138** for one hill: raised to a height of 4141 m or less, on the same ground plan, its multiplier does
not fall at any point. -/
theorem C138_hill (H H' Lu k x : K) (hH : 0 < H) (hLu : 0 < Lu) (hk : 1 / 2 ≤ k) (hle : H ≤ H')
    (hmod : H' ≤ 4141) : hillMultiplier H Lu k x ≤ hillMultiplier H' Lu k x := by
  have hH' : 0 < H' := by linarith
  have hone := (hillMultiplier_bounds H' Lu k x hH' hk).1
  unfold hillMultiplier at hone ⊢
  simp only at hone ⊢
  set L := max (36 / 100 * Lu) (4 / 10 * H) with hL
  set L' := max (36 / 100 * Lu) (4 / 10 * H') with hL'
  have h1 : 4 / 10 * H ≤ L := le_max_right _ _
  have h2 : 36 / 100 * Lu ≤ L := le_max_left _ _
  have hLL : L ≤ L' := max_le_max le_rfl (by linarith)
  have hLp : 0 < L := by linarith
  have hL'p : 0 < L' := by linarith
  have hA : H / (35 / 10 * (10 + L)) ≤ H' / (35 / 10 * (10 + L')) := by
    rw [div_le_div_iff₀ (by linarith) (by linarith)]
    rcases max_cases (36 / 100 * Lu) (4 / 10 * H') with ⟨e, -⟩ | ⟨e, -⟩
    · rw [← hL'] at e
      have : H * L' ≤ H' * L := by
        rw [e]; exact mul_le_mul hle h2 (by linarith) hH'.le
      nlinarith
    · rw [← hL'] at e
      have : H * L' ≤ H' * L := by
        rw [e]
        nlinarith
      nlinarith
  have hA0 : 0 ≤ H / (35 / 10 * (10 + L)) := div_nonneg hH.le (by linarith)
  have hA1 : H / (35 / 10 * (10 + L)) ≤ 71 / 100 := by
    rw [div_le_iff₀ (by linarith)]
    linarith
  set R := (if 0 ≤ x then 4 * L else k * (4 * L)) with hR
  set R' := (if 0 ≤ x then 4 * L' else k * (4 * L')) with hR'
  have hRR : R ≤ R' := by
    rw [hR, hR']
    split_ifs
    · linarith
    · nlinarith
  by_cases hx : |x| < R
  swap
  · rw [if_neg hx]; exact hone
  have hRp : 0 < R := lt_of_le_of_lt (abs_nonneg _) hx
  rw [if_pos hx, if_pos (lt_of_lt_of_le hx hRR)]
  have ht : 1 - |x| / R ≤ 1 - |x| / R' := by
    have := div_le_div_of_nonneg_left (abs_nonneg x) hRp hRR
    linarith
  have ht0 : 0 ≤ 1 - |x| / R := by
    have := (div_lt_one hRp).mpr hx
    linarith
  have hs : H / (2 * Lu) ≤ H' / (2 * Lu) := div_le_div_of_nonneg_right hle (by linarith)
  split_ifs with a b b
  · linarith
  · exact absurd ⟨a.1, by linarith [a.2.1], by linarith [a.2.2.1], a.2.2.2⟩ b
  · refine le_trans (min_le_right _ _) ?_
    have : H / (35 / 10 * (10 + L)) * (1 - |x| / R) ≤ 71 / 100 * (1 - |x| / R') :=
      mul_le_mul hA1 ht ht0 (by norm_num)
    linarith
  · refine min_le_min le_rfl ?_
    have := mul_le_mul hA ht ht0 (le_trans hA0 hA)
    linarith

/-! ### The hills of exaggerated lines -/

theorem Line.Exaggerated.floored {c : K} {y y' : Line K} (h : y.Exaggerated c y') :
    y.floored.Exaggerated c y'.floored := by
  refine ⟨h.1, fun i hi => ?_⟩
  obtain ⟨h1, ⟨a, ha⟩, b, hb⟩ := h.2 i hi
  have e1 : y.floored.val i = y.val i := by
    show ((⌊y.val i⌋ : ℤ) : K) = _
    rw [ha, Int.floor_intCast]
  have e2 : y'.floored.val i = y'.val i := by
    show ((⌊y'.val i⌋ : ℤ) : K) = _
    rw [hb, Int.floor_intCast]
  rw [e1, e2]
  exact ⟨h1, ⟨a, ha⟩, b, hb⟩

theorem Line.Exaggerated.isHill {c : K} (hc : 0 < c) {y y' : Line K} (h : y.Exaggerated c y') {v r : ℕ}
    (hh : y.IsHill v r) : y'.IsHill v r := by
  have hs := h.1
  have hlt : ∀ i j, i < y.size → j < y.size → y.val i < y.val j → y'.val i < y'.val j := fun i j hi hj hij => by
    rw [(h.2 i hi).1, (h.2 j hj).1]; exact mul_lt_mul_of_pos_left hij hc
  have hle : ∀ i j, i < y.size → j < y.size → y.val i ≤ y.val j → y'.val i ≤ y'.val j := fun i j hi hj hij => by
    rw [(h.2 i hi).1, (h.2 j hj).1]; exact mul_le_mul_of_nonneg_left hij hc.le
  have heq : ∀ i j, i < y.size → j < y.size → y.val i = y.val j → y'.val i = y'.val j := fun i j hi hj hij => by
    rw [(h.2 i hi).1, (h.2 j hj).1, hij]
  obtain ⟨⟨a1, a2, a3⟩, ⟨b1, b2, b3⟩, c1, c2, c3⟩ := hh
  refine ⟨⟨by omega, fun h0 => hle _ _ a1 (by omega) (a2 h0), ?_⟩,
    ⟨by omega, fun h0 => hle _ _ (by omega) b1 (b2 (by omega)), ?_⟩, c1, by omega,
    fun i h1 h2 => hlt _ _ (by omega) (by omega) (c3 i h1 h2)⟩
  · rw [hs]
    split_ifs with h0
    · exfalso; omega
    · rw [if_neg h0] at a3
      exact hlt _ _ a1 (by omega) a3
  · split_ifs with h0
    · exfalso; omega
    · rw [if_neg h0] at b3
      exact hlt _ _ (by omega) b1 b3

theorem Line.Exaggerated.escarpment {c : K} (hc : 0 < c) {y y' : Line K} (h : y.Exaggerated c y') {v r : ℕ}
    (hv : v < y.size) (hr : r < y.size) : y'.escarpment v r = y.escarpment v r := by
  unfold Line.escarpment
  simp only [h.1]
  have hb : min (y.size - 1) (2 * r - v) < y.size := by omega
  have e : ∀ a b m n : K, c * a / m / (c * b / n) = a / m / (b / n) := fun a b m n => by
    rw [mul_div_assoc c a, mul_div_assoc c b, mul_div_mul_left _ _ hc.ne']
  rw [(h.2 _ hr).1, (h.2 _ hv).1, (h.2 _ hb).1, ← mul_sub, ← mul_sub, e]

/-- **C138** (full statement, false: `C138_last_point`, `C138_high`) Multiplying all elevations of a line by a
factor of 1 or more does not lower the topographic multiplier of any of its points.

Partial: for elevations in whole metres (before and after), no more than 4141 m from the lowest to the highest
point, and all points but the last. -/
theorem C138_line_partial (c : K) (hc : 1 ≤ c) (line line' : Line K) (ds : K) (hds : 0 < ds)
    (he : line.Exaggerated c line') (hmod : line'.Moderate) :
    ∃ m m', multiplierCalc line ds = .ok m ∧ multiplierCalc line' ds = .ok m' ∧
      ∀ p, p + 1 < line.size → m.val p ≤ m'.val p := by
  obtain ⟨m, h1, -, h2⟩ := C72_largest_hill line ds hds
  obtain ⟨m', h1', -, h2'⟩ := C72_largest_hill line' ds hds
  refine ⟨m, m', h1, h1', fun p hp => ?_⟩
  obtain ⟨hm, -⟩ := h2 p hp
  obtain ⟨-, hu⟩ := h2' p (by rw [he.1]; exact hp)
  have hf := he.floored
  have hc0 : 0 < c := by linarith
  rcases hm with hm | ⟨v, r, hh, hcount, hm⟩
  · rw [hm]; exact hu (.inl rfl)
  · have hv : v < line.floored.size := hh.1.1
    have hr : r < line.floored.size := hh.2.1.1
    have hpos := hill_height _ v r hh
    have hrise : line'.floored.val r - line'.floored.val v = c * (line.floored.val r - line.floored.val v) := by
      rw [(hf.2 r hr).1, (hf.2 v hv).1]; ring
    have hge : line.floored.val r - line.floored.val v ≤ line'.floored.val r - line'.floored.val v := by
      rw [hrise]; nlinarith
    have hmod' : line'.floored.val r - line'.floored.val v ≤ 4141 := by
      obtain ⟨-, -, a, ha⟩ := he.2 r hr
      obtain ⟨-, -, b, hb⟩ := he.2 v hv
      have := hmod r v (by rw [he.1]; exact hr) (by rw [he.1]; exact hv)
      show ((⌊line'.val r⌋ : ℤ) : K) - ((⌊line'.val v⌋ : ℤ) : K) ≤ 4141
      rw [ha, hb] at this ⊢
      rw [Int.floor_intCast, Int.floor_intCast]
      exact this
    have hLu : 0 < halfWidth v r ds := lt_of_lt_of_le hds hcount.2.2
    rw [hm]
    refine le_trans ?_ (hu (.inr ⟨v, r, hf.isHill hc0 hh, ⟨?_, by linarith [hcount.2.1], hcount.2.2⟩, rfl⟩))
    · unfold Line.hillValue
      rw [hf.escarpment hc0 hv hr]
      exact C138_hill _ _ _ _ _ (by linarith) hLu (escarpment_bounds _ v r).1 hge hmod'
    · exact le_trans hcount.1 (div_le_div_of_nonneg_right hge (by linarith))

/-- C138 is false at the last point: it may get the multiplier of a point before the start of the line (C48),
until the hill is high enough to reach it from the front. -/
theorem C138_last_point : ∃ m m', multiplierCalc (lineOf [40, 90, 140, 60, 0, 0, 0]) 25 = .ok m ∧
    multiplierCalc (lineOf [80, 180, 280, 120, 0, 0, 0]) 25 = .ok m' ∧ m'.val 6 < m.val 6 := by
  have hw : (match multiplierCalc (lineOf [40, 90, 140, 60, 0, 0, 0]) 25,
      multiplierCalc (lineOf [80, 180, 280, 120, 0, 0, 0]) 25 with
    | .ok m, .ok m' => decide (m'.val 6 < m.val 6) | _, _ => false) = true := by decide +kernel
  cases hm : multiplierCalc (lineOf [40, 90, 140, 60, 0, 0, 0]) 25 with
  | error e => rw [hm] at hw; cases hw
  | ok m =>
    cases hm' : multiplierCalc (lineOf [80, 180, 280, 120, 0, 0, 0]) 25 with
    | error e => rw [hm, hm'] at hw; cases hw
    | ok m' => rw [hm, hm'] at hw; exact ⟨m, m', rfl, rfl, of_decide_eq_true hw⟩

/-- C138 is false of hills above 4141 m, also in the middle of a line: the formula for the zone of separation
gives less than the one it replaces. -/
theorem C138_high : ∃ m m', multiplierCalc (lineOf [0, 5000, 10000, 5000, 0]) 2500 = .ok m ∧
    multiplierCalc (lineOf [0, 5050, 10100, 5050, 0]) 2500 = .ok m' ∧ m'.val 3 < m.val 3 := by
  have hw : (match multiplierCalc (lineOf [0, 5000, 10000, 5000, 0]) 2500,
      multiplierCalc (lineOf [0, 5050, 10100, 5050, 0]) 2500 with
    | .ok m, .ok m' => decide (m'.val 3 < m.val 3) | _, _ => false) = true := by decide +kernel
  cases hm : multiplierCalc (lineOf [0, 5000, 10000, 5000, 0]) 2500 with
  | error e => rw [hm] at hw; cases hw
  | ok m =>
    cases hm' : multiplierCalc (lineOf [0, 5050, 10100, 5050, 0]) 2500 with
    | error e => rw [hm, hm'] at hw; cases hw
    | ok m' => rw [hm, hm'] at hw; exact ⟨m, m', rfl, rfl, of_decide_eq_true hw⟩

/-- Both pairs of lines are exaggerated ones, and the lower one is moderate. -/
example : (lineOf [40, 90, 140, 60, 0, 0, 0]).Exaggerated 2 (lineOf [80, 180, 280, 120, 0, 0, 0]) ∧
    (lineOf [80, 180, 280, 120, 0, 0, 0]).Moderate ∧
    (lineOf [0, 5000, 10000, 5000, 0]).Exaggerated (101 / 100) (lineOf [0, 5050, 10100, 5050, 0]) := by
  have h1 : ∀ i < 7, (lineOf [80, 180, 280, 120, 0, 0, 0]).val i = 2 * (lineOf [40, 90, 140, 60, 0, 0, 0]).val i ∧
      (lineOf [40, 90, 140, 60, 0, 0, 0]).val i = (⌊(lineOf [40, 90, 140, 60, 0, 0, 0]).val i⌋ : ℤ) ∧
      (lineOf [80, 180, 280, 120, 0, 0, 0]).val i = (⌊(lineOf [80, 180, 280, 120, 0, 0, 0]).val i⌋ : ℤ) := by
    decide +kernel
  have h2 : ∀ i < 5, (lineOf [0, 5050, 10100, 5050, 0]).val i = 101 / 100 * (lineOf [0, 5000, 10000, 5000, 0]).val i ∧
      (lineOf [0, 5000, 10000, 5000, 0]).val i = (⌊(lineOf [0, 5000, 10000, 5000, 0]).val i⌋ : ℤ) ∧
      (lineOf [0, 5050, 10100, 5050, 0]).val i = (⌊(lineOf [0, 5050, 10100, 5050, 0]).val i⌋ : ℤ) := by
    decide +kernel
  have h3 : ∀ i < 7, ∀ j < 7, (lineOf [80, 180, 280, 120, 0, 0, 0]).val i -
      (lineOf [80, 180, 280, 120, 0, 0, 0]).val j ≤ 4141 := by decide +kernel
  exact ⟨⟨rfl, fun i hi => ⟨(h1 i hi).1, ⟨_, (h1 i hi).2.1⟩, _, (h1 i hi).2.2⟩⟩, fun i j hi hj => h3 i hi j hj,
    rfl, fun i hi => ⟨(h2 i hi).1, ⟨_, (h2 i hi).2.1⟩, _, (h2 i hi).2.2⟩⟩

/-! ### Rasters -/

theorem Grid.Exaggerated.transect {c : K} {dem dem' : Grid (Option K)} (h : Grid.Exaggerated c dem dem') {d : Dir}
    {r q : ℤ} {u n : ℕ} (hT : IsTransect dem.rows dem.cols d r q u n) :
    (transectLine dem d r q u n).Exaggerated c (transectLine dem' d r q u n) := by
  refine ⟨rfl, fun i hi => ?_⟩
  have hi : i < n := hi
  obtain ⟨a1, a2, a3, a4⟩ := hT.2.1 i hi
  simp only [transectLine, if_pos hi]
  rcases h.2.2 (d.rowUp r ((u : ℤ) - i)).toNat (d.colUp q ((u : ℤ) - i)).toNat (by omega) (by omega) with ⟨e1, e2⟩ | ⟨a, b, hab, e1, e2⟩
  · rw [e1, e2]
    exact ⟨by simp, ⟨0, by simp⟩, 0, by simp⟩
  · rw [e1, e2]
    exact ⟨hab, ⟨a, rfl⟩, b, rfl⟩

theorem Grid.Moderate.transect {dem : Grid (Option K)} (h : dem.Moderate) {d : Dir} {r q : ℤ} {u n : ℕ}
    (hT : IsTransect dem.rows dem.cols d r q u n) : (transectLine dem d r q u n).Moderate := by
  intro i j hi hj
  have hi : i < n := hi
  have hj : j < n := hj
  obtain ⟨a1, a2, a3, a4⟩ := hT.2.1 i hi
  obtain ⟨b1, b2, b3, b4⟩ := hT.2.1 j hj
  simp only [transectLine, if_pos hi, if_pos hj]
  exact h _ _ _ _ (by omega) (by omega) (by omega) (by omega)

theorem topoCorrected_mono (tas : Prop) [Decidable tas] {c x x' : K} (hc : 1 ≤ c) (hx1 : 1 ≤ x) (hx : x ≤ x')
    {e e' : Option K} (he : (e = none ∧ e' = none) ∨ ∃ a b : ℤ, (b : K) = c * a ∧ e = some (a : K) ∧ e' = some (b : K)) :
    topoCorrected tas e x ≤ topoCorrected tas e' x' := by
  rw [topoCorrected_eq, topoCorrected_eq]
  have hm := (C51_conservatism x x').2.2.2 hx
  have h1 : 1 ≤ removeConservatism x := by
    have := (C51_conservatism 1 x).2.2.2 hx1
    rwa [(C51_conservatism 1 (1 : K)).2.2.1 le_rfl] at this
  split_ifs with ht
  swap
  · exact hm
  rcases he with ⟨rfl, rfl⟩ | ⟨a, b, hab, rfl, rfl⟩
  · exact hm
  · have hc2 := C52_tasmania (removeConservatism x)
    have hc3 := C52_tasmania (removeConservatism x')
    rcases le_or_gt (a : K) 500 with ha | ha
    · rw [(hc2.2 a).1 ha]
      rcases le_or_gt (b : K) 500 with hb | hb
      · rw [(hc3.2 b).1 hb]; exact hm
      · have := ((hc3.2 b).2 hb).2 (by linarith)
        linarith
    · have hb : (a : K) ≤ b := by rw [hab]; nlinarith
      rw [((hc2.2 a).2 ha).1, ((hc3.2 b).2 (by linarith)).1]
      exact mul_le_mul hm (by linarith) (by linarith) (by linarith)

theorem raw_exaggerated (c : K) (hc : 1 ≤ c) (dem dem' : Grid (Option K)) (hr : 0 < dem.rows) (hcl : 0 < dem.cols)
    (he : Grid.Exaggerated c dem dem') (hmod : dem'.Moderate) (cellsize root2 xLeft yUpper : K) (hcs : 0 < cellsize)
    (hr2 : 0 < root2) (d : Dir) :
    ∃ raw raw', topoRaw dem cellsize root2 xLeft yUpper d = .ok raw ∧
      topoRaw dem' cellsize root2 xLeft yUpper d = .ok raw' ∧
      raw.rows = dem.rows ∧ raw.cols = dem.cols ∧ raw'.rows = dem.rows ∧ raw'.cols = dem.cols ∧
      ∀ i j : ℕ, i < dem.rows → j < dem.cols → InRaster dem.rows dem.cols (d.rowUp i (-1)) (d.colUp j (-1)) →
        raw.val i j ≤ raw'.val i j := by
  obtain ⟨e1, e2, e3⟩ := he
  obtain ⟨raw, h1, h2, h3, h4⟩ := C54_cell_from_transect dem hr hcl cellsize root2 xLeft yUpper d
  obtain ⟨raw', h1', h2', h3', h4'⟩ :=
    C54_cell_from_transect dem' (by omega) (by omega) cellsize root2 xLeft yUpper d
  refine ⟨raw, raw', h1, h1', h2, h3, h2'.trans e1, h3'.trans e2, fun i j hi hj hin => ?_⟩
  obtain ⟨⟨u, n, hT⟩, h5⟩ := h4 i j hi hj
  have hT' : IsTransect dem'.rows dem'.cols d i j u n := by rw [e1, e2]; exact hT
  obtain ⟨m, m1, m2⟩ := h5 u n hT
  obtain ⟨m', m1', m2'⟩ := (h4' i j (by omega) (by omega)).2 u n hT'
  have hsp : 0 < lineSpacing d cellsize root2 := by
    cases d <;> simp only [lineSpacing] <;> first | exact hcs | exact mul_pos hcs hr2
  have hun : u + 1 < n := by
    by_contra hcon
    have : n = u + 1 := by have := hT.1; omega
    have h6 := hT.2.2.2
    rw [this] at h6
    exact h6 (by rw [show (u : ℤ) - ((u + 1 : ℕ) : ℤ) = -1 by push_cast; ring]; exact hin)
  obtain ⟨k, k', k1, k1', k2⟩ := C138_line_partial c hc _ _ _ hsp
    (Grid.Exaggerated.transect ⟨e1, e2, e3⟩ hT) (hmod.transect hT')
  obtain ⟨q, q1, -, q2⟩ := C46_range (transectLine dem d i j u n) _ hsp
  cases m1.symm.trans k1
  cases m1'.symm.trans k1'
  cases m1.symm.trans q1
  rw [m2, m2']
  exact topoCorrected_mono _ hc (q2 u hT.1).1 (k2 u hun) (e3 i j hi hj)

/-- **C138**, partial, for the saved multipliers of a raster: exaggerating the relief does not lower the
multiplier of a cell, if neither it nor one of its neighbours is the last of its line (whole metres, no more than
4141 m between two elevations). -/
theorem C138_raster_partial (c : K) (hc : 1 ≤ c) (dem dem' : Grid (Option K)) (hr : 0 < dem.rows)
    (hcl : 0 < dem.cols) (he : Grid.Exaggerated c dem dem') (hmod : dem'.Moderate)
    (cellsize root2 xLeft yUpper : K) (hcs : 0 < cellsize) (hr2 : 0 < root2) (d : Dir) :
    ∃ g g', topoDir dem cellsize root2 xLeft yUpper d = .ok g ∧
      topoDir dem' cellsize root2 xLeft yUpper d = .ok g' ∧
      ∀ i j : ℕ, i < dem.rows → j < dem.cols →
        (∀ r q : ℤ, InRaster dem.rows dem.cols r q → |r - i| ≤ 1 → |q - j| ≤ 1 →
          InRaster dem.rows dem.cols (d.rowUp r (-1)) (d.colUp q (-1))) →
        (g.val i j = none ∧ g'.val i j = none) ∨
          ∃ x x', g.val i j = some x ∧ g'.val i j = some x' ∧ x ≤ x' := by
  obtain ⟨raw, raw', h1, h1', r1, r2, r1', r2', h2⟩ :=
    raw_exaggerated c hc dem dem' hr hcl he hmod cellsize root2 xLeft yUpper hcs hr2 d
  refine ⟨⟨raw.rows, raw.cols, fun i j => match dem.val i j with
    | none => none
    | some _ => some (smoothCell raw i j)⟩, ⟨raw'.rows, raw'.cols, fun i j => match dem'.val i j with
    | none => none
    | some _ => some (smoothCell raw' i j)⟩, by unfold topoDir; rw [h1]; rfl, by unfold topoDir; rw [h1']; rfl,
    fun i j hi hj hnear => ?_⟩
  rcases he.2.2 i j hi hj with ⟨e1, e2⟩ | ⟨a, b, -, e1, e2⟩
  · exact .inl ⟨by simp only [e1], by simp only [e2]⟩
  · refine .inr ⟨_, _, by simp only [e1]; rfl, by simp only [e2]; rfl, ?_⟩
    rw [C53_value, C53_value]
    refine div_le_div_of_nonneg_right (Finset.sum_le_sum fun r hr => Finset.sum_le_sum fun q hq => ?_) (by norm_num)
    rw [Finset.mem_Icc] at hr hq
    rw [r1, r2, r1', r2']
    split_ifs with hin
    · have hd := hnear r q hin (abs_le.mpr ⟨by omega, by omega⟩) (abs_le.mpr ⟨by omega, by omega⟩)
      obtain ⟨a1, a2, a3, a4⟩ := hin
      refine h2 _ _ (by omega) (by omega) ?_
      rw [Int.toNat_of_nonneg a1, Int.toNat_of_nonneg a3]
      exact hd
    · exact le_rfl

/-- A ridge of 60 m and of 120 m across a raster of 3×7 cells. -/
def ridgeOf (h : ℤ) : Grid (Option ℚ) :=
  ⟨3, 7, fun _ j => some ((if j = 2 then h else if j = 1 ∨ j = 3 then h / 2 else 0 : ℤ) : ℚ)⟩

theorem ridgeOf_exaggerated : Grid.Exaggerated 2 (ridgeOf 60) (ridgeOf 120) := by
  refine ⟨rfl, rfl, fun i j _ _ => .inr ⟨_, _, ?_, rfl, rfl⟩⟩
  split_ifs <;> norm_num

theorem ridgeOf_moderate : (ridgeOf 120).Moderate := by
  intro i j i' j' _ _ _ _
  show ((if j = 2 then 120 else if j = 1 ∨ j = 3 then 120 / 2 else 0 : ℤ) : ℚ) -
    ((if j' = 2 then 120 else if j' = 1 ∨ j' = 3 then 120 / 2 else 0 : ℤ) : ℚ) ≤ 4141
  split_ifs <;> norm_num

/-- Wind from the west across the ridge; the cells in the middle are not next to the end of their lines. -/
example : ∃ g g', topoDir (ridgeOf 60) 25 (7 / 5) 100 30 .w = .ok g ∧
    topoDir (ridgeOf 120) 25 (7 / 5) 100 30 .w = .ok g' ∧
    ∃ x x', g.val 1 3 = some x ∧ g'.val 1 3 = some x' ∧ x ≤ x' := by
  obtain ⟨g, g', h1, h2, h3⟩ := C138_raster_partial 2 (by norm_num) (ridgeOf 60) (ridgeOf 120) (by decide)
    (by decide) ridgeOf_exaggerated ridgeOf_moderate 25 (7 / 5) 100 30 (by norm_num) (by norm_num) .w
  have hn : ∀ r q : ℤ, InRaster 3 7 r q → |r - ((1 : ℕ) : ℤ)| ≤ 1 → |q - ((3 : ℕ) : ℤ)| ≤ 1 →
      InRaster 3 7 (Dir.w.rowUp r (-1)) (Dir.w.colUp q (-1)) := by
    rintro r q ⟨a1, a2, a3, a4⟩ hr hq
    have hq := abs_le.mp hq
    simp only [Dir.rowUp, Dir.colUp, Dir.north, Dir.east]
    exact ⟨by omega, by omega, by omega, by omega⟩
  refine ⟨g, g', h1, h2, ?_⟩
  rcases h3 1 3 (by decide) (by decide) hn with ⟨h, -⟩ | h
  · have hw : (match topoDir (ridgeOf 60) 25 (7 / 5) 100 30 .w with
      | .ok g => (g.val 1 3).isSome | _ => false) = true := by decide +kernel
    rw [h1] at hw
    dsimp only at hw
    rw [h] at hw
    cases hw
  · exact h

end WindMult
