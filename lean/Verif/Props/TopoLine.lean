import Verif.Proofs.HillValue
import Mathlib.Order.Bounds.Basic
import Mathlib.Data.Rat.Floor

/-!
# Properties of the topographic multiplier of a line (C43–C50, C72)
-/

set_option linter.unusedSectionVars false
set_option autoImplicit false

namespace WindMult
variable {K : Type} [Field K] [LinearOrder K] [IsStrictOrderedRing K] [FloorRing K]

/-- A line of rationals given by its entries. -/
def lineOf (l : List ℚ) : Line ℚ := ⟨l.length, fun i => l.getD i 0⟩

/-! ### C43 -/

/-- **C43** On a line that is not flat, `findpeaks` succeeds and returns the ridges – all of them and
nothing else – in increasing order, no two of them adjacent. -/
theorem C43_peaks_are_ridges (y : Line K) (hn : 2 ≤ y.size) (hflat : ¬ y.Flat) :
    ∃ l, findpeaks y = .ok l ∧ l.Pairwise (· < ·) ∧ (∀ i, i ∈ l ↔ y.IsRidge i) ∧
      ∀ i, i ∈ l → i + 1 ∉ l := by
  obtain ⟨l, h1, h2, h3⟩ := findpeaks_spec y hn hflat
  refine ⟨l, h1, h2, h3, fun i hi hi' => ?_⟩
  have a := (h3 i).mp hi
  have b := (h3 (i + 1)).mp hi'
  have h4 := a.2.1 b.1
  have h5 := b.2.2
  rw [if_neg (by omega)] at h5
  simp only [Nat.add_sub_cancel] at h5
  exact absurd h5 (not_lt.mpr h4)

/-- **C43** A flat line of at least two points has no ridge, and a single point is its own ridge. -/
theorem C43_flat_and_short (y : Line K) :
    (2 ≤ y.size → y.Flat → findpeaks y = .ok []) ∧ (y.size = 1 → findpeaks y = .ok [0]) ∧
      (y.size = 0 → findpeaks y = .ok []) := by
  refine ⟨fun hn hf => ?_, fun h => ?_, fun h => ?_⟩
  · unfold findpeaks
    rw [if_neg (by omega), if_neg (by omega), if_pos]
    unfold changes
    rw [List.filter_eq_nil_iff]
    intro i hi
    rw [List.mem_range] at hi
    simp [Line.dy, hf i (by omega)]
  · unfold findpeaks; rw [if_neg (by omega), if_pos h]
  · unfold findpeaks; rw [if_pos h]

/-- A line with a starting plateau (removed), a plateau ridge and a ridge at its end. -/
example : (match findpeaks (lineOf [1, 1, 3, 3, 2, 5]) with | .ok l => l == [2, 5] | _ => false) =
    true := by decide +kernel
example : 2 ≤ (lineOf [1, 1, 3, 3, 2, 5]).size ∧ ¬ (lineOf [1, 1, 3, 3, 2, 5]).Flat :=
  ⟨by decide, fun h => absurd (h 1 (by decide)) (by decide +kernel)⟩

/-! ### C44 -/

/-- **C44** On a line that is not flat, `findvalleys` succeeds and returns the valleys – all of them
and nothing else – in increasing order. -/
theorem C44_valleys (y : Line K) (hn : 2 ≤ y.size) (hflat : ¬ y.Flat) :
    ∃ l, findvalleys y = .ok l ∧ l.Pairwise (· < ·) ∧ ∀ i, i ∈ l ↔ y.IsValley i :=
  findvalleys_spec y hn hflat

/-- Two valleys, the second at the end of the line after a fall and a plateau. -/
example : (match findvalleys (lineOf [4, 1, 3, 3, 2, 2]) with | .ok l => l == [1, 5] | _ => false) =
    true := by decide +kernel
example : 2 ≤ (lineOf [4, 1, 3, 3, 2, 2]).size ∧ ¬ (lineOf [4, 1, 3, 3, 2, 2]).Flat :=
  ⟨by decide, fun h => absurd (h 0 (by decide)) (by decide +kernel)⟩

/-! ### C45 -/

/-- **C45** The `k`-th ridge, not counting one at the very start of the line, and the `k`-th valley
form a hill: the valley exists, lies before the ridge, and the ground rises strictly from one to the
other. -/
theorem C45_pairing (y : Line K) (hn : 2 ≤ y.size) (hflat : ¬ y.Flat) :
    ∃ R V, findpeaks y = .ok R ∧ findvalleys y = .ok V ∧
      ∀ k (hk : k < (R.filter fun r => decide (0 < r)).length),
        ∃ v, V[k]? = some v ∧ y.IsHill v (R.filter fun r => decide (0 < r))[k] := by
  obtain ⟨R, hR1, hR2, hR3⟩ := findpeaks_spec y hn hflat
  obtain ⟨V, hV1, hV2, hV3⟩ := findvalleys_spec y hn hflat
  refine ⟨R, V, hR1, hV1, fun k hk => ?_⟩
  have hV := valleys_eq y hn R V hR2 hV2 hR3 hV3
  refine ⟨footOf y (R.filter fun r => decide (0 < r))[k], ?_, ?_⟩
  · rw [hV, List.getElem?_append_left (by simpa using hk)]
    simp [hk]
  · have hm : (R.filter fun r => decide (0 < r))[k] ∈ R.filter fun r => decide (0 < r) :=
      List.getElem_mem hk
    have hm' := List.mem_filter.mp hm
    exact footOf_spec _ _ (ridge_has_hill _ _ ((hR3 _).mp hm'.1) (by simpa using hm'.2))

/-- **C45** Hence the line calculation raises no error, whatever the line and the spacing, and the
two divisors of the hill calculation – the distance from foot to crest and the slope – are positive
for every hill. -/
theorem C45_no_error (line : Line K) (ds : K) :
    (∃ m, multiplierCalc line ds = .ok m ∧ m.size = line.size) ∧
    ∀ v r, line.IsHill v r → 0 < ds →
      0 < 2 * halfDistance r v ds ∧ 0 < (line.val r - line.val v) / (2 * halfDistance r v ds) := by
  obtain ⟨m, h1, h2, _⟩ := multiplierCalc_spec line ds
  refine ⟨⟨m, h1, h2⟩, fun v r hh hds => ?_⟩
  have hlt := hh.2.2.1
  have hp := halfWidth_pos v r ds hlt hds
  rw [halfDistance_eq v r ds hlt]
  have hrise : ∀ j, v < j → j ≤ r → line.val v < line.val j := by
    intro j
    induction j with
    | zero => intro h; omega
    | succ j ih =>
      intro h1 h2
      have hs := hh.2.2.2.2 j (by omega) (by omega)
      rcases Nat.lt_or_ge v j with h | h
      · exact lt_trans (ih h (by omega)) hs
      · have : v = j := by omega
        subst this; exact hs
  have := hrise r hlt le_rfl
  exact ⟨by linarith, div_pos (by linarith) (by linarith)⟩

/-- A line of two hills (foot 1, crest 2 and foot 4, crest 5) that starts with a fall. -/
example : (lineOf [4, 1, 3, 3, 2, 5]).IsHill 1 2 := by
  refine ⟨⟨by decide, fun _ => by decide +kernel, by rw [if_neg (by decide)]; decide +kernel⟩,
    ⟨by decide, fun _ => by decide +kernel, by rw [if_neg (by decide)]; decide +kernel⟩, by decide, by decide, ?_⟩
  intro i h1 h2
  have : i = 1 := by omega
  subst this
  decide +kernel

/-! ### C47 -/

/-- **C47** For a hill `v`–`r` the escarpment factor is the one of the specification; it lies in
`[0.5, 3]`; it is 1 at the end of the line, 1 if the mirror image of the foot is as low as the foot,
and 2.5 if the ground behind the crest is level. -/
theorem C47_escarpment (y : Line K) (v r : ℕ) (ds : K) (hds : 0 < ds) (h : v < r)
    (hr : r < y.size) (hy : y.val v < y.val r) :
    escarpmentFactor y r v ds = y.escarpment v r ∧
    (1 / 2 ≤ escarpmentFactor y r v ds ∧ escarpmentFactor y r v ds ≤ 3) ∧
    (r + 1 = y.size → escarpmentFactor y r v ds = 1) ∧
    (2 * r - v < y.size → y.val (2 * r - v) = y.val v → escarpmentFactor y r v ds = 1) ∧
    (r + 1 < y.size → y.val (min (y.size - 1) (2 * r - v)) = y.val r →
      escarpmentFactor y r v ds = 5 / 2) := by
  have he := escarpmentFactor_eq y v r ds hds h hr hy
  rw [he]
  refine ⟨rfl, escarpment_bounds y v r, ?_, ?_, ?_⟩
  · intro h1
    unfold Line.escarpment
    simp only
    rw [if_pos (by omega)]
  · intro h1 h2
    unfold Line.escarpment
    simp only
    have hb : min (y.size - 1) (2 * r - v) = 2 * r - v := by omega
    rw [hb, if_neg (by omega), h2]
    have e : 2 * r - v - r = r - v := by omega
    have hd : (0 : K) < ((r - v : ℕ) : K) := by exact_mod_cast Nat.sub_pos_of_lt h
    have hne : (y.val r - y.val v) / ((r - v : ℕ) : K) ≠ 0 :=
      (div_pos (by linarith) hd).ne'
    rw [e, div_self hne]
    norm_num
  · intro h1 h2
    unfold Line.escarpment
    simp only
    rw [if_neg (by omega), h2]
    norm_num

/-- A symmetric hill, a level plateau, and a hill that falls off slowly. -/
example : (lineOf [0, 30, 60, 0, 0]).escarpment 0 2 = 1 := by decide +kernel
example : escarpmentFactor (lineOf [0, 30, 60, 60, 60, 60]) 2 0 25 = 5 / 2 := by decide +kernel
example : escarpmentFactor (lineOf [0, 30, 60, 50, 50]) 2 0 25 = 9 / 4 := by decide +kernel

/-! ### C48 -/

/-- The distance over which a hill acts at point `p`: `L2` in front of its crest, escarpment factor
times `L2` behind. -/
def Line.reach (y : Line K) (v r : ℕ) (ds : K) (p : ℕ) : K :=
  let L2 := 4 * max (36 / 100 * halfWidth v r ds) (4 / 10 * (y.val r - y.val v))
  if p ≤ r then L2 else y.escarpment v r * L2

theorem hillValue_out (y : Line K) (v r : ℕ) (ds : K) (hds : 0 < ds) (p : ℕ)
    (hout : y.reach v r ds p ≤ |((r : K) - (p : K)) * ds|) : y.hillValue v r ds p = 1 := by
  unfold Line.hillValue
  apply hillMultiplier_out
  unfold Line.reach at hout
  simp only at hout
  push_cast
  by_cases hpr : p ≤ r
  · have : (p : K) ≤ r := by exact_mod_cast hpr
    rw [if_pos hpr] at hout
    rw [if_pos (mul_nonneg (by linarith) hds.le)]
    exact not_lt.mpr hout
  · have : (r : K) < p := by exact_mod_cast not_le.mp hpr
    rw [if_neg hpr] at hout
    rw [if_neg (not_le.mpr (mul_neg_of_neg_of_pos (by linarith) hds))]
    exact not_lt.mpr hout

theorem hill_height (y : Line K) (v r : ℕ) (hh : y.IsHill v r) : y.val v < y.val r := by
  have hrise : ∀ j, v < j → j ≤ r → y.val v < y.val j := by
    intro j
    induction j with
    | zero => intro h; omega
    | succ j ih =>
      intro h1 h2
      have hs := hh.2.2.2.2 j (by omega) (by omega)
      rcases Nat.lt_or_ge v j with h | h
      · exact lt_trans (ih h (by omega)) hs
      · have : v = j := by omega
        subst this; exact hs
  exact hrise r hh.2.2.1 le_rfl

/-- **C48**, partial.  A hill leaves at 1 every point out of its reach, *if* the point is not the
last one of the line, or the hill's reach in front of the crest ends inside the line.  Missing: the
last point of the line when the reach extends beyond the start (see `C48_not_local`). -/
theorem C48_local_partial (y : Line K) (v r : ℕ) (ds : K) (hds : 0 < ds) (hh : y.IsHill v r)
    (p : ℕ) (hp : p < y.size)
    (hcase : p + 1 < y.size ∨
      4 * max (36 / 100 * halfWidth v r ds) (4 / 10 * (y.val r - y.val v)) ≤ ((r : K) + 1) * ds)
    (hout : y.reach v r ds p ≤ |((r : K) - (p : K)) * ds|) :
    (mhCalc y r v ds).val p = 1 := by
  by_cases hc : hillCounts (y.val r - y.val v) (halfWidth v r ds) ds
  swap
  · exact mhCalc_small y v r ds hh.2.2.1 hc p
  rw [mhCalc_value y v r ds hds hh.2.2.1 hh.2.2.2.1 (hill_height y v r hh) hc p hp]
  split_ifs with hl
  · rcases hcase with h | h
    · omega
    · unfold Line.hillValue
      apply hillMultiplier_out
      have e : ((r : K) - ((-1 : ℤ) : K)) * ds = ((r : K) + 1) * ds := by push_cast; ring
      have hnn : 0 ≤ ((r : K) + 1) * ds := mul_nonneg (by positivity) hds.le
      rw [e, if_pos hnn, abs_of_nonneg hnn]
      exact not_lt.mpr h
  · exact hillValue_out y v r ds hds p hout

/-- **C48**, what happens instead at the last point: if it is out of reach behind the hill, it gets
the multiplier of a point one step *before the start* of the line. -/
theorem C48_last_point (y : Line K) (v r : ℕ) (ds : K) (hds : 0 < ds) (hh : y.IsHill v r)
    (hc : hillCounts (y.val r - y.val v) (halfWidth v r ds) ds) (hr : r + 1 < y.size)
    (hout : y.reach v r ds (y.size - 1) ≤ |((r : K) - ((y.size - 1 : ℕ) : K)) * ds|) :
    (mhCalc y r v ds).val (y.size - 1) = y.hillValue v r ds (-1) := by
  rw [mhCalc_value y v r ds hds hh.2.2.1 hh.2.2.2.1 (hill_height y v r hh) hc _ (by omega), if_pos]
  refine ⟨by omega, ?_, by omega⟩
  unfold Line.reach at hout
  simp only at hout
  rw [if_neg (by omega)] at hout
  have : (r : K) < ((y.size - 1 : ℕ) : K) := by exact_mod_cast (by omega : r < y.size - 1)
  rw [abs_of_neg (mul_neg_of_neg_of_pos (by linarith) hds)] at hout
  linarith

/-- The line of `C48_not_local`: a 50 m hill at the start, then flat ground. -/
def shortHill : Line ℚ := lineOf [0, 25, 50, 0, 0, 0, 0]

theorem shortHill_isHill : shortHill.IsHill 0 2 := by
  refine ⟨⟨by decide, fun h => absurd h (by decide), by rw [if_neg (by decide)]; decide +kernel⟩,
    ⟨by decide, fun _ => by decide +kernel, by rw [if_neg (by decide)]; decide +kernel⟩, by decide, by decide, ?_⟩
  intro i h1 h2
  have : i = 0 ∨ i = 1 := by omega
  rcases this with rfl | rfl <;> decide +kernel

theorem shortHill_only (v r : ℕ) (h : shortHill.floored.IsHill v r) : v = 0 ∧ r = 2 := by
  obtain ⟨h1, h2, h3, h4, h5⟩ := h
  have hsz : shortHill.floored.size = 7 := rfl
  rw [hsz] at h4
  have hv : v < 2 := by
    by_contra hc
    have := h5 v le_rfl h3
    have hv' : v = 2 ∨ v = 3 ∨ v = 4 ∨ v = 5 := by omega
    rcases hv' with rfl | rfl | rfl | rfl <;> exact absurd this (by decide +kernel)
  have hr : r ≤ 2 := by
    by_contra hc
    have := h5 2 (by omega) (by omega)
    exact absurd this (by decide +kernel)
  have hr2 : r = 2 := by
    by_contra hc
    have : r = 1 := by omega
    subst this
    exact absurd (h2.2.1 (by decide)) (by decide +kernel)
  refine ⟨?_, hr2⟩
  by_contra hc
  have : v = 1 := by omega
  subst this
  exact absurd (h1.2.1 (by decide)) (by decide +kernel)

/-- **C48** is false: the only hill of this line reaches 80 m behind its crest, the last point is
100 m behind it, and yet its multiplier is above 1. -/
theorem C48_not_local :
    ∃ (y : Line ℚ) (m : Line ℚ) (p : ℕ), p < y.size ∧ multiplierCalc y 25 = .ok m ∧
      (∀ v r, y.floored.IsHill v r →
        y.floored.reach v r 25 p < |((r : ℚ) - (p : ℚ)) * 25|) ∧ 1 < m.val p := by
  have hw : (match multiplierCalc shortHill 25 with
    | .ok m => decide (1 < m.val 6) | _ => false) = true := by decide +kernel
  cases hm : multiplierCalc shortHill 25 with
  | error e => rw [hm] at hw; exact absurd hw (by simp)
  | ok m =>
    rw [hm] at hw
    refine ⟨shortHill, m, 6, by decide, hm, ?_, by simpa using hw⟩
    intro v r h
    obtain ⟨rfl, rfl⟩ := shortHill_only v r h
    decide +kernel

/-- The hypotheses of `C48_local_partial` at a point in the middle of that line. -/
example : shortHill.IsHill 0 2 ∧ 5 + 1 < shortHill.size ∧
    ¬ shortHill.reach 0 2 25 5 ≤ |((2 : ℚ) - 5) * 25| ∧
    shortHill.reach 0 2 25 6 ≤ |((2 : ℚ) - 6) * 25| ∧
    hillCounts (shortHill.val 2 - shortHill.val 0) (halfWidth 0 2 25) (25 : ℚ) :=
  ⟨shortHill_isHill, by decide, by decide +kernel, by decide +kernel, by
    refine ⟨?_, ?_, ?_⟩ <;> decide +kernel⟩

/-! ### C72 -/

/-- **C72** The multiplier of a point (other than the last one) is the largest of 1 and the
contributions of the hills that count, computed on elevations rounded down to whole metres. -/
theorem C72_largest_hill (line : Line K) (ds : K) (hds : 0 < ds) :
    ∃ m, multiplierCalc line ds = .ok m ∧ m.size = line.size ∧
      ∀ p, p + 1 < line.size →
        IsGreatest (insert 1 {t | ∃ v r, line.floored.IsHill v r ∧
          hillCounts (line.floored.val r - line.floored.val v) (halfWidth v r ds) ds ∧
          t = line.floored.hillValue v r ds p}) (m.val p) := by
  obtain ⟨m, h1, h2, h3⟩ := multiplierCalc_spec line ds
  refine ⟨m, h1, h2, fun p hp => ?_⟩
  obtain ⟨a1, a2, a3⟩ := h3 p
  have hval : ∀ v r, line.floored.IsHill v r →
      hillCounts (line.floored.val r - line.floored.val v) (halfWidth v r ds) ds →
      (mhCalc line.floored r v ds).val p = line.floored.hillValue v r ds p := by
    intro v r hh hc
    rw [mhCalc_value line.floored v r ds hds hh.2.2.1 hh.2.2.2.1 (hill_height _ v r hh) hc p
      (by show p < line.size; omega)]
    rw [if_neg]
    rintro ⟨h, _⟩
    have : line.floored.size = line.size := rfl
    omega
  constructor
  · rcases a3 with h | ⟨v, r, hh, h⟩
    · exact Or.inl h
    · by_cases hc : hillCounts (line.floored.val r - line.floored.val v) (halfWidth v r ds) ds
      · exact Or.inr ⟨v, r, hh, hc, by rw [h, hval v r hh hc]⟩
      · exact Or.inl (by rw [h, mhCalc_small _ v r ds hh.2.2.1 hc])
  · rintro t (rfl | ⟨v, r, hh, hc, rfl⟩)
    · exact a1
    · rw [← hval v r hh hc]
      exact a2 v r hh

/-- The hill of `shortHill` counts, and gives its crest the multiplier 1.47…. -/
example : shortHill.hillValue 0 2 25 2 = 1 + 10 / 21 := by decide +kernel
example : (match multiplierCalc shortHill 25 with
    | .ok m => decide (m.val 2 = 1 + 10 / 21) | _ => false) = true := by decide +kernel

/-! ### C46 -/

/-- **C46** Every multiplier of a line lies in `[1, 1.71]`. -/
theorem C46_range (line : Line K) (ds : K) (hds : 0 < ds) :
    ∃ m, multiplierCalc line ds = .ok m ∧ m.size = line.size ∧
      ∀ p, p < line.size → 1 ≤ m.val p ∧ m.val p ≤ 171 / 100 := by
  obtain ⟨m, h1, h2, h3⟩ := multiplierCalc_spec line ds
  refine ⟨m, h1, h2, fun p hp => ?_⟩
  obtain ⟨a1, _, a3⟩ := h3 p
  refine ⟨a1, ?_⟩
  rcases a3 with h | ⟨v, r, hh, h⟩
  · rw [h]; norm_num
  · rw [h]
    by_cases hc : hillCounts (line.floored.val r - line.floored.val v) (halfWidth v r ds) ds
    · have hH := hill_height _ v r hh
      rw [mhCalc_value line.floored v r ds hds hh.2.2.1 hh.2.2.2.1 hH hc p hp]
      have hb := fun q : ℤ => (hillMultiplier_bounds (line.floored.val r - line.floored.val v)
        (halfWidth v r ds) (line.floored.escarpment v r) (((r : K) - (q : K)) * ds) (by linarith)
        (escarpment_bounds _ v r).1).2
      split_ifs
      · exact hb (-1)
      · exact hb p
    · rw [mhCalc_small _ v r ds hh.2.2.1 hc]; norm_num

/-- The upper bound is attained: the cap binds only for rises above 4140 m, here
at the crest of a 5000 m rise. -/
example : (match multiplierCalc (lineOf [0, 2500, 5000, 0, 0, 0, 0]) 25 with
    | .ok m => decide (m.val 2 = 171 / 100) | _ => false) = true := by decide +kernel

/-! ### C49 -/

/-- **C49** On a line without hills that count every multiplier is 1. -/
theorem C49_small_hills (line : Line K) (ds : K)
    (hsmall : ∀ v r, line.floored.IsHill v r →
      ¬ hillCounts (line.floored.val r - line.floored.val v) (halfWidth v r ds) ds) :
    ∃ m, multiplierCalc line ds = .ok m ∧ m.size = line.size ∧ ∀ p, m.val p = 1 := by
  obtain ⟨m, h1, h2, h3⟩ := multiplierCalc_spec line ds
  refine ⟨m, h1, h2, fun p => ?_⟩
  rcases (h3 p).2.2 with h | ⟨v, r, hh, h⟩
  · exact h
  · rw [h, mhCalc_small _ v r ds hh.2.2.1 (hsmall v r hh)]

/-- **C49** On a line that never rises every multiplier is 1. -/
theorem C49_never_rising (line : Line K) (ds : K)
    (hfall : ∀ i, i + 1 < line.size → line.val (i + 1) ≤ line.val i) :
    ∃ m, multiplierCalc line ds = .ok m ∧ m.size = line.size ∧ ∀ p, m.val p = 1 := by
  refine C49_small_hills line ds fun v r hh => ?_
  have h1 : line.floored.val v < line.floored.val (v + 1) := hh.2.2.2.2 v le_rfl hh.2.2.1
  have h2 := hfall v (by
    have h3 := hh.2.2.1
    have h4 : r < line.size := hh.2.2.2.1
    omega)
  have h3 : line.floored.val (v + 1) ≤ line.floored.val v := by
    show ((⌊line.val (v + 1)⌋ : ℤ) : K) ≤ ((⌊line.val v⌋ : ℤ) : K)
    exact_mod_cast Int.floor_le_floor h2
  exact absurd h1 (not_lt.mpr h3)

/-- A long falling line with a level stretch. -/
example : ∀ i, i + 1 < (lineOf [9, 7, 7, 3, 1]).size →
    (lineOf [9, 7, 7, 3, 1]).val (i + 1) ≤ (lineOf [9, 7, 7, 3, 1]).val i := by
  intro i h
  have : i = 0 ∨ i = 1 ∨ i = 2 ∨ i = 3 := by
    have : (lineOf [9, 7, 7, 3, 1]).size = 5 := rfl
    omega
  rcases this with rfl | rfl | rfl | rfl <;> decide +kernel

/-! ### C50 -/

theorem findpeaks_congr (y z : Line K) (hs : y.size = z.size) (hd : ∀ i, y.dy i = z.dy i) :
    findpeaks y = findpeaks z := by
  have hc : changes y = changes z := by
    unfold changes
    rw [hs]
    simp only [hd]
  have hp : peakCandidates y = peakCandidates z := by
    unfold peakCandidates
    rw [hs]
    simp only [hd]
  have ht : ∀ l, trimStart y l = trimStart z l := by
    intro l
    cases l with
    | nil => rfl
    | cons a l => simp only [trimStart, hc, hd]
  have he : ∀ l, trimEnd y l = trimEnd z l := by
    intro l
    simp only [trimEnd, hc, hd, hs]
  simp only [findpeaks, hc, hp, hs, ht, he]

/-- The line raised by `c`. -/
def Line.raise (y : Line K) (c : K) : Line K := ⟨y.size, fun i => y.val i + c⟩

theorem escarpmentFactor_raise (y : Line K) (c : K) (r v : ℕ) (ds : K) :
    escarpmentFactor (y.raise c) r v ds = escarpmentFactor y r v ds := by
  unfold escarpmentFactor Line.raise
  simp only [add_sub_add_right_eq_sub]

theorem mhCalc_raise (y : Line K) (c : K) (r v : ℕ) (ds : K) :
    mhCalc (y.raise c) r v ds = mhCalc y r v ds := by
  have he := escarpmentFactor_raise y c r v ds
  unfold mhCalc
  simp only [he]
  unfold Line.raise
  simp only [add_sub_add_right_eq_sub]

theorem multiplierLoop_raise (y : Line K) (c : K) (V : List ℕ) (ds : K) (sh : ℕ) :
    ∀ (rs : List ℕ) (i : ℕ) (m : Line K),
      multiplierLoop (y.raise c) V ds sh i rs m = multiplierLoop y V ds sh i rs m := by
  intro rs
  induction rs with
  | nil => intro i m; rfl
  | cons r rs ih =>
    intro i m
    simp only [multiplierLoop, mhCalc_raise, ih]

/-- **C50** Raising a line by a whole number of metres changes no multiplier. -/
theorem C50_datum (line : Line K) (c : ℤ) (ds : K) :
    multiplierCalc ⟨line.size, fun i => line.val i + (c : K)⟩ ds = multiplierCalc line ds := by
  have hfl : (⟨line.size, fun i => ((⌊line.val i + (c : K)⌋ : ℤ) : K)⟩ : Line K) =
      Line.raise ⟨line.size, fun i => ((⌊line.val i⌋ : ℤ) : K)⟩ (c : K) := by
    unfold Line.raise
    simp only [Int.floor_add_intCast, Int.cast_add]
  have h1 : ∀ y : Line K, findpeaks (y.raise (c : K)) = findpeaks y := fun y =>
    findpeaks_congr _ _ rfl (fun i => by simp [Line.dy, Line.raise])
  have h2 : ∀ y : Line K, findvalleys (y.raise (c : K)) = findvalleys y := by
    intro y
    unfold findvalleys
    have : findpeaks (⟨(y.raise (c : K)).size,
        fun k => - (y.raise (c : K)).val ((y.raise (c : K)).size - 1 - k)⟩ : Line K) =
        findpeaks (⟨y.size, fun k => - y.val (y.size - 1 - k)⟩ : Line K) :=
      findpeaks_congr _ _ rfl (fun i => by simp [Line.dy, Line.raise])
    rw [this]
    rfl
  unfold multiplierCalc
  simp only [hfl, h1, h2, multiplierLoop_raise]

/-- The hill above with its foot 30 m below the datum. -/
example : (match multiplierCalc (lineOf [-30, -5, 20, -30, -30, -30, -30]) 25 with
    | .ok m => decide (m.val 2 = 1 + 10 / 21) | _ => false) = true := by decide +kernel

end WindMult
