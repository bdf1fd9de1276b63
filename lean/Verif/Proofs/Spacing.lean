import Verif.Proofs.FloatLine

/-!
# How far the multiplier of a hill depends on the spacing of the points
-/

set_option linter.unusedSectionVars false
set_option autoImplicit false

namespace WindMult

/-- The formula for a hill without the case distinction on the reach. -/
theorem hillMultiplier_eq {H Lu k x : ℝ} (hH : 0 < H) (hk : 0 < k) :
    hillMultiplier H Lu k x =
      if x < 0 ∧ |x| < H / 4 ∧ 45 / 100 < H / (2 * Lu) ∧ |k - 1| < 2 / 10 then
        1 + 71 / 100 * max 0 (1 - |x| / ((if 0 ≤ x then 4 else k * 4) * max (36 / 100 * Lu) (4 / 10 * H)))
      else min (171 / 100) (1 + H / (35 / 10 * (10 + max (36 / 100 * Lu) (4 / 10 * H))) *
        max 0 (1 - |x| / ((if 0 ≤ x then 4 else k * 4) * max (36 / 100 * Lu) (4 / 10 * H)))) := by
  have hL : 0 < max (36 / 100 * Lu) (4 / 10 * H) := lt_max_of_lt_right (by linarith)
  have hreach : (if 0 ≤ x then 4 * max (36 / 100 * Lu) (4 / 10 * H) else
      k * (4 * max (36 / 100 * Lu) (4 / 10 * H))) =
      (if 0 ≤ x then 4 else k * 4) * max (36 / 100 * Lu) (4 / 10 * H) := by
    split_ifs <;> ring
  unfold hillMultiplier
  simp only
  rw [hreach]
  have hpos : 0 < (if 0 ≤ x then 4 else k * 4) * max (36 / 100 * Lu) (4 / 10 * H) :=
    mul_pos (by split_ifs <;> linarith) hL
  by_cases h : |x| < (if 0 ≤ x then 4 else k * 4) * max (36 / 100 * Lu) (4 / 10 * H)
  · have e := max_eq_right (sub_nonneg.mpr ((div_lt_one hpos).mpr h).le)
    rw [if_pos h, e]
  · have e := max_eq_left (sub_nonpos.mpr ((one_le_div hpos).mpr (not_lt.mp h)))
    rw [if_neg h, e]
    norm_num

section
variable {ε t : ℝ} (hε : ε ≤ 1 / 100) (ht : |t - 1| ≤ ε)
include hε ht

theorem scale_length {Lu H : ℝ} (hH : 0 < H) (hLu : 0 < Lu) :
    (1 - ε) * max (36 / 100 * Lu) (4 / 10 * H) ≤ max (36 / 100 * (Lu * t)) (4 / 10 * H) ∧
    max (36 / 100 * (Lu * t)) (4 / 10 * H) ≤ (1 + ε) * max (36 / 100 * Lu) (4 / 10 * H) ∧
    (1 - ε) * max (36 / 100 * (Lu * t)) (4 / 10 * H) ≤ t * max (36 / 100 * Lu) (4 / 10 * H) ∧
    t * max (36 / 100 * Lu) (4 / 10 * H) ≤ (1 + ε) * max (36 / 100 * (Lu * t)) (4 / 10 * H) := by
  obtain ⟨t1, t2⟩ := abs_le.mp ht
  have hε0 : 0 ≤ ε := (abs_nonneg _).trans ht
  have ht0 : 0 < t := by linarith
  have hm : ∀ a b c : ℝ, 0 ≤ c → c * max a b = max (c * a) (c * b) := fun a b c hc => mul_max_of_nonneg a b hc
  rw [hm _ _ _ (by linarith), hm _ _ _ (by linarith), hm _ _ _ (by linarith), hm _ _ _ (by linarith),
    hm _ _ _ (by linarith)]
  have e1 := mul_le_mul_of_nonneg_left (by linarith : 1 - ε ≤ t) hLu.le
  have e2 := mul_le_mul_of_nonneg_left (by linarith : t ≤ 1 + ε) hLu.le
  have e3 := mul_le_mul_of_nonneg_left (by linarith : 1 - ε ≤ t) hH.le
  have e4 := mul_le_mul_of_nonneg_left (by linarith : t ≤ 1 + ε) hH.le
  have e5 := mul_nonneg hε0 hH.le
  have e6 := mul_nonneg hε0 (mul_pos hLu ht0).le
  refine ⟨max_le_max ?_ ?_, max_le_max ?_ ?_, max_le_max ?_ ?_, max_le_max ?_ ?_⟩ <;> linarith

/-- Scaling a hill and the position of the point together by a factor near 1 changes the multiplier little, if
the case of the formula stays the same. -/
theorem hillMultiplier_scale {H Lu k x : ℝ} (hH : 0 < H) (hLu : 0 < Lu) (hk : 0 < k)
    (hsame : (x < 0 ∧ |x| < H / 4 ∧ 45 / 100 < H / (2 * Lu) ∧ |k - 1| < 2 / 10) ↔
      (x * t < 0 ∧ |x * t| < H / 4 ∧ 45 / 100 < H / (2 * (Lu * t)) ∧ |k - 1| < 2 / 10)) :
    |hillMultiplier H (Lu * t) k (x * t) - hillMultiplier H Lu k x| ≤ 2 * ε := by
  obtain ⟨t1, t2⟩ := abs_le.mp ht
  have hε0 : 0 ≤ ε := (abs_nonneg _).trans ht
  have ht0 : 0 < t := by linarith
  obtain ⟨l1, l2, l3, l4⟩ := scale_length hε ht hH hLu
  rw [hillMultiplier_eq hH hk, hillMultiplier_eq hH hk]
  have hx : (0 ≤ x * t) ↔ 0 ≤ x := mul_nonneg_iff_of_pos_right ht0
  simp only [hx]
  have hLH : 4 / 10 * H ≤ max (36 / 100 * Lu) (4 / 10 * H) := le_max_right _ _
  have hLH' : 4 / 10 * H ≤ max (36 / 100 * (Lu * t)) (4 / 10 * H) := le_max_right _ _
  generalize max (36 / 100 * Lu) (4 / 10 * H) = L at *
  generalize max (36 / 100 * (Lu * t)) (4 / 10 * H) = L' at *
  have hL : 0 < L := by linarith
  have hL' : 0 < L' := by linarith
  have hc : (0 : ℝ) < if 0 ≤ x then 4 else k * 4 := by split_ifs <;> linarith
  generalize (if 0 ≤ x then (4 : ℝ) else k * 4) = c at *
  -- the fall from the crest
  have hρ : |x * t| / (c * L') = |x| / (c * L) * (t * L / L') := by
    rw [abs_mul, abs_of_pos ht0]
    field_simp
  rw [hρ]
  have hρ0 : 0 ≤ |x| / (c * L) := by positivity
  have q1 : 1 - ε ≤ t * L / L' := by rw [le_div_iff₀ hL']; exact l3
  have q2 : t * L / L' ≤ 1 + ε := by rw [div_le_iff₀ hL']; exact l4
  generalize |x| / (c * L) = ρ at *
  generalize t * L / L' = q at *
  have hg : |max 0 (1 - ρ * q) - max 0 (1 - ρ)| ≤ ε := by
    have m1 := mul_le_mul_of_nonneg_left q1 hρ0
    have m2 := mul_le_mul_of_nonneg_left q2 hρ0
    rcases le_or_gt ρ 1 with h | h
    · have h3 : ε * ρ ≤ ε := mul_le_of_le_one_right hε0 h
      rw [max_eq_right (by linarith : 0 ≤ 1 - ρ), abs_le]
      rcases le_total 0 (1 - ρ * q) with h4 | h4
      · rw [max_eq_right h4]; constructor <;> linarith
      · rw [max_eq_left h4]; constructor <;> linarith
    · rw [max_eq_left (by linarith : 1 - ρ ≤ 0), sub_zero, abs_of_nonneg (le_max_left _ _)]
      apply max_le hε0
      nlinarith
  have hg0 : 0 ≤ max 0 (1 - ρ * q) := le_max_left _ _
  have hg1 : max 0 (1 - ρ) ≤ 1 := max_le (by norm_num) (by linarith)
  have hg0' : 0 ≤ max 0 (1 - ρ) := le_max_left _ _
  have hg1' : max 0 (1 - ρ * q) ≤ 1 := max_le (by norm_num) (by
    have : 0 ≤ ρ * q := mul_nonneg hρ0 (by linarith)
    linarith)
  generalize max 0 (1 - ρ * q) = g' at *
  generalize max 0 (1 - ρ) = g at *
  -- the coefficient
  have hA0 : 0 < H / (35 / 10 * (10 + L)) := by positivity
  have hA : H / (35 / 10 * (10 + L)) ≤ 5 / 7 := by
    rw [div_le_div_iff₀ (by positivity) (by norm_num)]
    linarith
  have hA' : |H / (35 / 10 * (10 + L')) - H / (35 / 10 * (10 + L))| ≤ 5 / 7 * (100 / 99 * ε) := by
    have e : H / (35 / 10 * (10 + L')) - H / (35 / 10 * (10 + L)) =
        H / (35 / 10 * (10 + L)) * ((L - L') / (10 + L')) := by
      field_simp
      ring
    rw [e, abs_mul, abs_of_pos hA0]
    refine mul_le_mul hA ?_ (abs_nonneg _) (by norm_num)
    rw [abs_div, abs_of_pos (by linarith : 0 < 10 + L'), div_le_iff₀ (by linarith)]
    have h1 : |L - L'| ≤ ε * L := by rw [abs_le]; constructor <;> linarith
    have h2 : L ≤ 100 / 99 * L' := by
      have := mul_le_mul_of_nonneg_right hε hL.le
      linarith
    calc |L - L'| ≤ ε * L := h1
      _ ≤ ε * (100 / 99 * (10 + L')) := mul_le_mul_of_nonneg_left (by linarith) hε0
      _ = 100 / 99 * ε * (10 + L') := by ring
  generalize H / (35 / 10 * (10 + L)) = A at *
  generalize H / (35 / 10 * (10 + L')) = A' at *
  by_cases hs : x < 0 ∧ |x| < H / 4 ∧ 45 / 100 < H / (2 * Lu) ∧ |k - 1| < 2 / 10
  · rw [if_pos hs, if_pos (hsame.mp hs)]
    have : 1 + 71 / 100 * g' - (1 + 71 / 100 * g) = 71 / 100 * (g' - g) := by ring
    rw [this, abs_mul, abs_of_pos (by norm_num : (0 : ℝ) < 71 / 100)]
    linarith
  · rw [if_neg hs, if_neg (fun h => hs (hsame.mpr h))]
    refine (abs_min_sub_min_le_max _ _ _ _).trans ?_
    rw [sub_self, abs_zero]
    refine max_le (by linarith) ?_
    have e : 1 + A' * g' - (1 + A * g) = (A' - A) * g' + A * (g' - g) := by ring
    rw [e]
    refine (abs_add_le _ _).trans ?_
    rw [abs_mul, abs_mul, abs_of_nonneg hg0, abs_of_pos hA0]
    have m1 : |A' - A| * g' ≤ 5 / 7 * (100 / 99 * ε) * 1 := mul_le_mul hA' hg1' hg0 (by positivity)
    have m2 : A * |g' - g| ≤ 5 / 7 * ε := mul_le_mul hA hg (abs_nonneg _) (by norm_num)
    linarith

omit hε ht in
theorem halfWidth_scale (v r : ℕ) (ds : ℝ) : halfWidth v r (ds * t) = halfWidth v r ds * t := by
  unfold halfWidth; ring

omit hε ht in
/-- A slope, or its inverse, that is clear of a bound stays on the same side of it, and clear. -/
theorem clear_scale {u b s q : ℝ} (hu0 : 0 ≤ u) (hu : 2 * u ≤ ε) (hε1 : ε ≤ 1 / 100) (hb : 0 < b)
    (hs : 0 < s) (q1 : 1 - 2 * ε ≤ q) (q2 : q ≤ 1 + 2 * ε) (h : 8 * ε * b < |s - b|) :
    8 * u * b < |s * q - b| ∧ (b < s * q ↔ b < s) := by
  have hbu := mul_le_mul_of_nonneg_right hu hb.le
  have hε0 : 0 ≤ ε := by linarith
  have hεb := mul_nonneg hε0 hb.le
  rcases lt_abs.mp h with h1 | h1
  · have m1 := mul_le_mul_of_nonneg_left q1 hs.le
    have h2 : b * (1 + 8 * ε) < s := by linarith
    have h3 : b * (1 + 8 * ε) * (1 - 2 * ε) ≤ s * (1 - 2 * ε) :=
      mul_le_mul_of_nonneg_right h2.le (by linarith)
    have h4 : b * (1 + 8 * ε) * (1 - 2 * ε) = b + 6 * (ε * b) - 16 * ε * (ε * b) := by ring
    have h5 : 16 * ε * (ε * b) ≤ 16 / 100 * (ε * b) := mul_le_mul_of_nonneg_right (by linarith) hεb
    have h6 : 8 * u * b ≤ 4 * (ε * b) := by linarith
    have hlt : b < s := by linarith
    rcases hεb.eq_or_lt with h0 | h0
    · have hz : ε = 0 := by
        rcases mul_eq_zero.mp h0.symm with h | h
        · exact h
        · exact absurd h hb.ne'
      subst hz
      have hu' : u = 0 := by linarith
      have hq : q = 1 := by linarith
      subst hu' hq
      rw [mul_one]
      exact ⟨by simpa using h, Iff.rfl⟩
    · refine ⟨lt_of_lt_of_le ?_ (le_abs_self _), ⟨fun _ => hlt, fun _ => by linarith⟩⟩
      linarith
  · have m1 := mul_le_mul_of_nonneg_left q2 hs.le
    have h2 : s < b * (1 - 8 * ε) := by linarith
    have h3 : s * (1 + 2 * ε) ≤ b * (1 - 8 * ε) * (1 + 2 * ε) :=
      mul_le_mul_of_nonneg_right h2.le (by linarith)
    have h4 : b * (1 - 8 * ε) * (1 + 2 * ε) = b - 6 * (ε * b) - 16 * ε * (ε * b) := by ring
    have h5 : 0 ≤ 16 * ε * (ε * b) := by positivity
    have h6 : 8 * u * b ≤ 4 * (ε * b) := by linarith
    have hlt : s < b := by linarith
    rcases hεb.eq_or_lt with h0 | h0
    · have hz : ε = 0 := by
        rcases mul_eq_zero.mp h0.symm with h | h
        · exact h
        · exact absurd h hb.ne'
      subst hz
      have hu' : u = 0 := by linarith
      have hq : q = 1 := by linarith
      subst hu' hq
      rw [mul_one]
      exact ⟨by simpa using h, Iff.rfl⟩
    · refine ⟨lt_of_lt_of_le ?_ (neg_le_abs _), ⟨fun _ => by linarith, fun _ => by linarith⟩⟩
      linarith

/-- A hill that is clear at one spacing is clear at a spacing near it, counts if it counts there, and gives
nearly the same multiplier. -/
theorem hill_scale (y : Line ℝ) {v r : ℕ} {ds u : ℝ} (hu0 : 0 ≤ u) (hu : 2 * u ≤ ε) (hds : 0 < ds) (h : v < r)
    (hy : y.val v < y.val r) (p : ℕ) (hclear : y.ClearHill ε v r ds p) :
    y.ClearHill u v r (ds * t) p ∧
    (hillCounts (y.val r - y.val v) (halfWidth v r (ds * t)) (ds * t) ↔
      hillCounts (y.val r - y.val v) (halfWidth v r ds) ds) ∧
    (hillCounts (y.val r - y.val v) (halfWidth v r ds) ds →
      |y.hillValue v r (ds * t) p - y.hillValue v r ds p| ≤ 2 * ε) := by
  obtain ⟨t1, t2⟩ := abs_le.mp ht
  have hε0 : 0 ≤ ε := (abs_nonneg _).trans ht
  have ht0 : 0 < t := by linarith
  have hH : 0 < y.val r - y.val v := by linarith
  have hLu := halfWidth_pos v r ds h hds
  have hesc := escarpment_bounds y v r
  have hwide : ds * t ≤ halfWidth v r ds * t ↔ ds ≤ halfWidth v r ds := mul_le_mul_iff_left₀ ht0
  have hslope : (y.val r - y.val v) / (2 * (halfWidth v r ds * t)) =
      (y.val r - y.val v) / (2 * halfWidth v r ds) * t⁻¹ := by
    field_simp
  have i1 : 1 - 2 * ε ≤ t⁻¹ := by
    rw [le_inv_comm₀ (by linarith) ht0, ← one_div, le_div_iff₀ (by linarith)]
    nlinarith
  have i2 : t⁻¹ ≤ 1 + 2 * ε := by
    rw [inv_le_comm₀ ht0 (by linarith), ← one_div, div_le_iff₀ (by linarith)]
    nlinarith
  have hs : 0 < (y.val r - y.val v) / (2 * halfWidth v r ds) := by positivity
  have hpos : r < p → 0 < ((p : ℝ) - r) * ds := fun hp => by
    have : (r : ℝ) < p := by exact_mod_cast hp
    exact mul_pos (by linarith) hds
  unfold Line.ClearHill at hclear
  dsimp only at hclear
  refine ⟨?_, ?_, ?_⟩
  · unfold Line.ClearHill
    dsimp only
    rw [halfWidth_scale, hwide, hslope]
    intro h10 hw
    obtain ⟨d1, d2, d3⟩ := hclear h10 hw
    have e2 := clear_scale hu0 hu hε (by norm_num) hs i1 i2 d2
    refine ⟨(clear_scale hu0 hu hε (by norm_num) hs i1 i2 d1).1, e2.1, fun hp h45 => ?_⟩
    obtain ⟨d4, d5⟩ := d3 hp (e2.2.mp h45)
    refine ⟨?_, by linarith⟩
    have := (clear_scale hu0 hu hε (by linarith : 0 < (y.val r - y.val v) / 4) (hpos hp)
      (by linarith : 1 - 2 * ε ≤ t) (by linarith) d4).1
    rw [← mul_assoc ((p : ℝ) - r)]
    exact this
  · unfold hillCounts
    rw [halfWidth_scale, hwide, hslope]
    constructor
    · rintro ⟨c1, c2, c3⟩
      obtain ⟨d1, -, -⟩ := hclear c2 c3
      obtain ⟨f1, f2⟩ := clear_scale hu0 hu hε (by norm_num) hs i1 i2 d1
      refine ⟨?_, c2, c3⟩
      rcases c1.eq_or_lt with e | e
      · rw [← e, sub_self, abs_zero] at f1
        linarith
      · exact (f2.mp e).le
    · rintro ⟨c1, c2, c3⟩
      obtain ⟨d1, -, -⟩ := hclear c2 c3
      obtain ⟨f1, f2⟩ := clear_scale hu0 hu hε (by norm_num) hs i1 i2 d1
      refine ⟨?_, c2, c3⟩
      rcases c1.eq_or_lt with e | e
      · rw [← e, sub_self, abs_zero] at d1
        linarith
      · exact (f2.mpr e).le
  · rintro ⟨c1, c2, c3⟩
    obtain ⟨d1, d2, d3⟩ := hclear c2 c3
    unfold Line.hillValue
    rw [halfWidth_scale, ← mul_assoc]
    apply hillMultiplier_scale hε ht hH hLu (by linarith [hesc.1])
    have e2 := (clear_scale hu0 hu hε (by norm_num) hs i1 i2 d2).2
    have hneg : ((r : ℝ) - ((p : ℤ) : ℝ)) * ds * t < 0 ↔ ((r : ℝ) - ((p : ℤ) : ℝ)) * ds < 0 := by
      have := mul_nonneg_iff_of_pos_right (b := ((r : ℝ) - ((p : ℤ) : ℝ)) * ds) ht0
      rw [← not_le, ← not_le, this]
    rw [hneg, hslope, e2]
    refine and_congr_right fun b1 => ?_
    have hrp : r < p := by
      by_contra hcon
      have h1 : (p : ℝ) ≤ r := by exact_mod_cast not_lt.mp hcon
      push_cast at b1
      have := mul_nonneg (by linarith : (0 : ℝ) ≤ (r : ℝ) - p) hds.le
      linarith
    have habs : |((r : ℝ) - ((p : ℤ) : ℝ)) * ds| = ((p : ℝ) - r) * ds := by
      rw [abs_of_neg b1]
      push_cast
      ring
    rw [abs_mul _ t, habs, abs_of_pos ht0]
    have key : 45 / 100 < (y.val r - y.val v) / (2 * halfWidth v r ds) →
        (((p : ℝ) - r) * ds < (y.val r - y.val v) / 4 ↔ ((p : ℝ) - r) * ds * t < (y.val r - y.val v) / 4) := by
      intro h45
      obtain ⟨d4, -⟩ := d3 hrp h45
      have hb : 0 < (y.val r - y.val v) / 4 := by linarith
      obtain ⟨f1, f2⟩ := clear_scale hu0 hu hε hb (hpos hrp)
        (by linarith : 1 - 2 * ε ≤ t) (by linarith) d4
      have n1 : ((p : ℝ) - r) * ds ≠ (y.val r - y.val v) / 4 := by
        intro e
        rw [e, sub_self, abs_zero] at d4
        have : 0 ≤ 8 * ε * ((y.val r - y.val v) / 4) := by positivity
        linarith
      have n2 : ((p : ℝ) - r) * ds * t ≠ (y.val r - y.val v) / 4 := by
        intro e
        rw [e, sub_self, abs_zero] at f1
        have : 0 ≤ 8 * u * ((y.val r - y.val v) / 4) := by positivity
        linarith
      constructor
      · intro h1
        rcases lt_trichotomy (((p : ℝ) - r) * ds * t) ((y.val r - y.val v) / 4) with h2 | h2 | h2
        · exact h2
        · exact absurd h2 n2
        · linarith [f2.mp h2]
      · intro h1
        rcases lt_trichotomy (((p : ℝ) - r) * ds) ((y.val r - y.val v) / 4) with h2 | h2 | h2
        · exact h2
        · exact absurd h2 n1
        · linarith [f2.mpr h2]
    constructor
    · rintro ⟨b2, b3, b4⟩
      exact ⟨(key b3).mp b2, b3, b4⟩
    · rintro ⟨b2, b3, b4⟩
      exact ⟨(key b3).mpr b2, b3, b4⟩

/-- The multipliers of a line at two spacings. -/
theorem multiplierCalc_scale (line : Line ℝ) {ds u : ℝ} (hu0 : 0 ≤ u) (hu : 2 * u ≤ ε) (hds : 0 < ds)
    {m m' : Line ℝ} (hm : multiplierCalc line ds = .ok m) (hm' : multiplierCalc line (ds * t) = .ok m')
    (p : ℕ) (hp : p + 1 < line.size)
    (hclear : ∀ v r, line.floored.IsHill v r → line.floored.ClearHill ε v r ds p) :
    |m'.val p - m.val p| ≤ 2 * ε := by
  have hε0 : 0 ≤ ε := (abs_nonneg _).trans ht
  have ht0 : 0 < t := by linarith [(abs_le.mp ht).1]
  obtain ⟨m0, h1, -, h3⟩ := multiplierCalc_spec line ds
  obtain ⟨m1, f1, -, f3⟩ := multiplierCalc_spec line (ds * t)
  rw [hm] at h1
  cases h1
  rw [hm'] at f1
  cases f1
  have hlast : ∀ ds' v r, ¬ (p + 1 = line.floored.size ∧ line.floored.escarpment v r *
      (4 * max (36 / 100 * halfWidth v r ds') (4 / 10 * (line.floored.val r - line.floored.val v))) ≤
        ((p : ℝ) - (r : ℝ)) * ds' ∧ r < p) := by
    rintro ds' v r ⟨e, -⟩
    have : line.floored.size = line.size := rfl
    omega
  have hb : ∀ v r, line.floored.IsHill v r →
      -(2 * ε) ≤ (mhCalc line.floored r v (ds * t)).val p - (mhCalc line.floored r v ds).val p ∧
      (mhCalc line.floored r v (ds * t)).val p - (mhCalc line.floored r v ds).val p ≤ 2 * ε := by
    intro v r hh
    have hy := hill_height line.floored v r hh
    obtain ⟨-, k2, k3⟩ := hill_scale hε ht line.floored hu0 hu hds hh.2.2.1 hy p (hclear v r hh)
    have hps : p < line.floored.size := by
      have : line.floored.size = line.size := rfl
      omega
    rw [← abs_le]
    by_cases hc : hillCounts (line.floored.val r - line.floored.val v) (halfWidth v r ds) ds
    · rw [mhCalc_value line.floored v r ds hds hh.2.2.1 hh.2.2.2.1 hy hc p hps, if_neg (hlast _ _ _),
        mhCalc_value line.floored v r (ds * t) (mul_pos hds ht0) hh.2.2.1 hh.2.2.2.1 hy (k2.mpr hc) p hps,
        if_neg (hlast _ _ _)]
      exact k3 hc
    · rw [mhCalc_small line.floored v r ds hh.2.2.1 hc,
        mhCalc_small line.floored v r (ds * t) hh.2.2.1 (fun h => hc (k2.mp h)), sub_self, abs_zero]
      linarith
  obtain ⟨a1, a2, a3⟩ := h3 p
  obtain ⟨b1, b2, b3⟩ := f3 p
  rw [abs_le]
  constructor
  · rcases a3 with h | ⟨v, r, hh, h⟩
    · rw [h]; linarith
    · have := hb v r hh
      have := b2 v r hh
      rw [h]; linarith
  · rcases b3 with h | ⟨v, r, hh, h⟩
    · rw [h]; linarith
    · have := hb v r hh
      have := a2 v r hh
      rw [h]; linarith

end

end WindMult
