import Verif.Proofs.FloatHill
import Verif.Proofs.TopoGrid
import Verif.Spec.TopoClear
import Verif.Props.TopoGrid

/-!
# Rounding errors of the multipliers of a line and of a raster
-/

set_option linter.unusedSectionVars false
set_option autoImplicit false

namespace WindMult

/-! ### A line -/

theorem half_exact (P : ℕ) (hP : 1 ≤ P) (x : ℝ) : roundDigits P (roundDigits P x / 2) = roundDigits P x / 2 := by
  have := roundDigits_scale P (roundDigits P x) (-1)
  rw [roundDigits_idem P hP, zpow_neg_one, ← div_eq_mul_inv] at this
  exact this

/-- The test for hills of at least two cells is exact. -/
theorem half_lt_iff (P : ℕ) (hP : 15 ≤ P) {v r : ℕ} (h : v < r) {ds : ℝ} (hds : 0 < ds)
    (hfl : roundDigits P ds = ds) : halfDistanceFl (roundDigits P) r v ds < ds ↔ halfWidth v r ds < ds := by
  have habs : |(r : ℝ) - v| = ((r - v : ℕ) : ℝ) := by
    have : (v : ℝ) ≤ r := by exact_mod_cast h.le
    rw [Nat.cast_sub h.le, abs_of_nonneg (by linarith)]
  unfold halfDistanceFl halfWidth
  rw [half_exact P (by omega), habs]
  obtain ⟨n, hn⟩ : ∃ n, r - v = n + 1 := ⟨r - v - 1, by omega⟩
  rw [hn]
  rcases n with _ | _ | n
  · norm_num [hfl]
  · have h2 : roundDigits P (((0 + 1 + 1 : ℕ) : ℝ) * ds) = 2 * ds := by
      have := roundDigits_scale P ds 1
      rw [hfl, zpow_one] at this
      push_cast
      rw [mul_comm 2 ds, this]
    rw [h2]
    push_cast
    constructor <;> intro h <;> linarith
  · have hn0 : (0 : ℝ) ≤ n := Nat.cast_nonneg n
    have h3 := roundDigits_near P (((n + 1 + 1 + 1 : ℕ) : ℝ) * ds)
    have hpos : 0 < ((n + 1 + 1 + 1 : ℕ) : ℝ) * ds := by positivity
    rw [abs_of_pos hpos] at h3
    have hsmall : (1 : ℝ) / 2 ^ P ≤ 1 / 100 := by
      have : (2 : ℝ) ^ 15 ≤ 2 ^ P := pow_le_pow_right₀ (by norm_num) hP
      rw [div_le_div_iff₀ (by positivity) (by norm_num)]
      linarith
    have h4 : ((n + 1 + 1 + 1 : ℕ) : ℝ) * ds ≥ 3 * ds := by
      push_cast
      nlinarith
    have h5 := (abs_le.mp (h3.trans (mul_le_mul_of_nonneg_right hsmall hpos.le))).1
    constructor <;> intro h <;> exfalso <;> linarith

theorem digits_small (P : ℕ) (hP : 15 ≤ P) : (0 : ℝ) ≤ 1 / 2 ^ P ∧ (1 : ℝ) / 2 ^ P ≤ 1 / 10000 := by
  refine ⟨by positivity, ?_⟩
  have : (2 : ℝ) ^ 15 ≤ 2 ^ P := pow_le_pow_right₀ (by norm_num) hP
  rw [div_le_div_iff₀ (by positivity) (by norm_num)]
  linarith

/-- The multipliers of a hill, whatever its size. -/
theorem mhCalc_digits (P : ℕ) (hP : 15 ≤ P) (line : Line ℝ) (hsize : line.size ≤ 2 ^ (P - 2))
    (helev : ∀ i, i < line.size → |⌊line.val i⌋| ≤ 2 ^ (P - 1)) {ds : ℝ} (hds : 0 < ds)
    (hfl : roundDigits P ds = ds) {v r : ℕ} (hh : line.floored.IsHill v r) (p : ℕ) (hp : p + 1 < line.size)
    (hclear : line.floored.ClearHill (1 / 2 ^ P) v r ds p) :
    |(mhCalcFl (roundDigits P) line.floored r v ds).val p - (mhCalc line.floored r v ds).val p| ≤
      127 * (1 / 2 ^ P) := by
  obtain ⟨hu0, hu⟩ := digits_small P hP
  have hu1 : (1 : ℝ) / 2 ^ P < 1 := by linarith
  have hvr := hh.2.2.1
  have hrs := hh.2.2.2.1
  have hrs' : r < line.size := hrs
  have hy := hill_height line.floored v r hh
  -- heights are whole metres
  have hexact : roundDigits P (line.floored.val r - line.floored.val v) =
      line.floored.val r - line.floored.val v := by
    have h1 := abs_le.mp (helev r hrs')
    have h2 := abs_le.mp (helev v (by omega))
    have e2 : (2 : ℤ) ^ P = 2 * 2 ^ (P - 1) := by
      rw [← pow_succ']
      congr 1
      omega
    have h3 : |⌊line.val r⌋ - ⌊line.val v⌋| ≤ 2 ^ P := by
      rw [abs_le, e2]
      constructor <;> linarith [h1.1, h1.2, h2.1, h2.2]
    have := roundDigits_int P (⌊line.val r⌋ - ⌊line.val v⌋) h3 (by omega)
    push_cast at this
    exact this
  have hbeta := betaIndFl_exact P line.floored.size hvr (by
    have e2 : (2 : ℕ) ^ (P - 1) = 2 * 2 ^ (P - 2) := by
      rw [← pow_succ']
      congr 1
      omega
    rw [e2]
    omega) (by omega) hds hfl
  set H := line.floored.val r - line.floored.val v with hH
  have hH0 : 0 < H := by rw [hH]; linarith
  have hLu := halfWidth_pos v r ds hvr hds
  have hlu := half_lt_iff P hP hvr hds hfl
  have rs := slopeFl_rel hu0 hu (digits P) hvr ds H _ (RelErr.one hu0 hu1 (digits P) H)
  change RelErr (1 / 2 ^ P) 5 _ (slopeFl (roundDigits P) (roundDigits P H) r v ds) at rs
  rw [hexact] at rs
  by_cases hc : hillCounts H (halfWidth v r ds) ds
  · obtain ⟨c1, c2, c3⟩ := hc
    obtain ⟨d1, d2, d3⟩ := hclear c2 c3
    rw [mhCalc_value line.floored v r ds hds hvr hrs hy ⟨c1, c2, c3⟩ p (by show p < line.size; omega), if_neg (by
      rintro ⟨e, _⟩
      have : line.floored.size = line.size := rfl
      omega)]
    refine mhCalcFl_near hu0 hu (digits P) line.floored hds hvr hrs hy hbeta ?_ p hp d2 d3
    show ¬ (slopeFl (roundDigits P) (roundDigits P H) r v ds < roundDigits P (5 / 100) ∨
      roundDigits P H < 10 ∨ halfDistanceFl (roundDigits P) r v ds < ds)
    rw [hexact]
    push Not
    refine ⟨?_, c2, not_lt.mp (hlu.not.mpr (not_lt.mpr c3))⟩
    rcases clear_compare hu0 hu (by norm_num : 1 + 5 ≤ 7) (by norm_num) rs
      (RelErr.one hu0 hu1 (digits P) (5 / 100)) d1 with ⟨_, t⟩ | ⟨t, _⟩
    · exact t.le
    · linarith
  · rw [mhCalc_small line.floored v r ds hvr hc]
    have hearly : slopeFl (roundDigits P) (roundDigits P H) r v ds < roundDigits P (5 / 100) ∨
        roundDigits P H < 10 ∨ halfDistanceFl (roundDigits P) r v ds < ds := by
      rw [hexact]
      by_contra hcon
      push Not at hcon
      obtain ⟨a1, a2, a3⟩ := hcon
      have a3' := not_lt.mp (hlu.not.mp (not_lt.mpr a3))
      apply hc
      refine ⟨?_, a2, a3'⟩
      obtain ⟨d1, _, _⟩ := hclear a2 a3'
      rcases clear_compare hu0 hu (by norm_num : 1 + 5 ≤ 7) (by norm_num) rs
        (RelErr.one hu0 hu1 (digits P) (5 / 100)) d1 with ⟨t, _⟩ | ⟨_, t⟩
      · exact t.le
      · exact absurd a1 (not_le.mpr t)
    unfold mhCalcFl
    simp only
    rw [if_pos hearly]
    simp

theorem multiplierLoopFl_eq (fl : ℝ → ℝ) (fwd : Line ℝ) (V : List ℕ) (ds : ℝ) (shift : ℕ) (rs : List ℕ) :
    ∀ (i : ℕ) (m : Line ℝ),
      multiplierLoopFl fl fwd V ds shift i rs m = loopWith (mhCalcFl fl) fwd V ds shift i rs m := by
  induction rs with
  | nil => intro i m; rfl
  | cons r rs ih =>
    intro i m
    unfold multiplierLoopFl loopWith
    simp only [ih]
    cases V[i - shift]? <;> rfl

theorem multiplierCalcFl_eq (fl : ℝ → ℝ) (line : Line ℝ) (ds : ℝ) :
    multiplierCalcFl fl line ds = calcWith (mhCalcFl fl) line ds := by
  unfold multiplierCalcFl calcWith
  simp only [multiplierLoopFl_eq]
  rfl

/-- The multipliers of a line at a point where all hills are clear. -/
theorem multiplierCalc_digits (P : ℕ) (hP : 15 ≤ P) (line : Line ℝ) (hsize : line.size ≤ 2 ^ (P - 2))
    (helev : ∀ i, i < line.size → |⌊line.val i⌋| ≤ 2 ^ (P - 1)) {ds : ℝ} (hds : 0 < ds)
    (hfl : roundDigits P ds = ds) :
    ∃ m mf, multiplierCalc line ds = .ok m ∧ multiplierCalcFl (roundDigits P) line ds = .ok mf ∧
      m.size = line.size ∧ mf.size = line.size ∧
      ∀ p, p + 1 < line.size →
        (∀ v r, line.floored.IsHill v r → line.floored.ClearHill (1 / 2 ^ P) v r ds p) →
        |mf.val p - m.val p| ≤ 127 * (1 / 2 ^ P) := by
  obtain ⟨m, h1, h2, h3⟩ := multiplierCalc_spec line ds
  obtain ⟨mf, f1, f2, f3⟩ := calcWith_spec (mhCalcFl (roundDigits P)) line ds
  refine ⟨m, mf, h1, by rw [multiplierCalcFl_eq]; exact f1, h2, f2, fun p hp hclear => ?_⟩
  have hu0 := (digits_small P hP).1
  have hb : ∀ v r, line.floored.IsHill v r → _ := fun v r hh =>
    abs_le.mp (mhCalc_digits P hP line hsize helev hds hfl hh p hp (hclear v r hh))
  obtain ⟨a1, a2, a3⟩ := h3 p
  obtain ⟨b1, b2, b3⟩ := f3 p
  rw [abs_le]
  constructor
  · rcases a3 with h | ⟨v, r, hh, h⟩
    · rw [h]; linarith
    · have := hb v r hh
      have := b2 v r hh
      rw [h]; linarith
  · rcases b3 with h | ⟨v, r, hh, h⟩
    · rw [h]; linarith
    · have := hb v r hh
      have := a2 v r hh
      rw [h]; linarith

/-! ### A raster -/

theorem conservatism_low {x : ℝ} (h : x ≤ 1) : removeConservatism x = x := by
  unfold removeConservatism
  rw [if_neg (by rintro ⟨a, _⟩; linarith), if_neg (by linarith)]

theorem conservatism_mid {x : ℝ} (h : 1 < x) (h' : x < 14 / 10) :
    removeConservatism x = x * (125 / 100 - 25 / 100 * x) := by
  unfold removeConservatism
  rw [if_pos ⟨h, h'⟩]

theorem conservatism_high {x : ℝ} (h : 14 / 10 ≤ x) : removeConservatism x = x * (9 / 10) := by
  unfold removeConservatism
  rw [if_neg (by rintro ⟨_, a⟩; linarith), if_pos h]

theorem conservatism_lipschitz (x y : ℝ) : |removeConservatism x - removeConservatism y| ≤ |x - y| := by
  have key : ∀ a b : ℝ, a ≤ b → |removeConservatism b - removeConservatism a| ≤ |b - a| := by
    intro a b hab
    have hm := (C51_conservatism a b).2.2.2 hab
    rw [abs_of_nonneg (by linarith), abs_of_nonneg (by linarith)]
    rcases le_or_gt a 1 with ha | ha
    · have := (C51_conservatism b b).2.1
      rw [conservatism_low ha]
      rcases le_or_gt b 1 with hb | hb
      · rw [conservatism_low hb]
      · linarith [this hb]
    · rcases lt_or_ge a (14 / 10) with ha' | ha'
      · rw [conservatism_mid ha ha']
        rcases lt_or_ge b (14 / 10) with hb | hb
        · rw [conservatism_mid (by linarith) hb]
          nlinarith
        · rw [conservatism_high hb]
          nlinarith
      · rw [conservatism_high ha', conservatism_high (by linarith)]
        linarith
  rcases le_total x y with h | h
  · rw [abs_sub_comm, abs_sub_comm x y]
    exact key x y h
  · exact key y x h

section
variable {u : ℝ} (hu0 : 0 ≤ u) (hu : u ≤ 1 / 10000) (R : FpRound u)
include hu0 hu

theorem conservatismFl_near {z : ℝ} (h2 : z ≤ 173 / 100) :
    |removeConservatismFl R.rnd z - removeConservatism z| ≤ 4 * u := by
  have hf := R.near (14 / 10)
  rw [abs_of_pos (by norm_num : (0 : ℝ) < 14 / 10)] at hf
  obtain ⟨f1, f2⟩ := abs_le.mp hf
  unfold removeConservatismFl
  rcases le_or_gt z 1 with h1 | h1
  · rw [if_neg (by rintro ⟨a, _⟩; linarith), if_neg (by linarith), conservatism_low h1]
    simp; exact hu0
  have hgap : ∀ w : ℝ, |w - 14 / 10| ≤ u * (14 / 10) → |w * (125 / 100 - 25 / 100 * w) - w * (9 / 10)| ≤ 0.5 * u := by
    intro w hw
    rw [show w * (125 / 100 - 25 / 100 * w) - w * (9 / 10) = -(25 / 100 * w) * (w - 14 / 10) by ring, abs_mul]
    obtain ⟨w1, w2⟩ := abs_le.mp hw
    have : |(-(25 / 100 * w))| ≤ 0.3501 := by rw [abs_le]; constructor <;> linarith
    calc |(-(25 / 100 * w))| * |w - 14 / 10| ≤ 0.3501 * (u * (14 / 10)) :=
          mul_le_mul this hw (abs_nonneg _) (by norm_num)
      _ ≤ 0.5 * u := by linarith
  by_cases hz : z < R.rnd (14 / 10)
  · rw [if_pos ⟨h1, hz⟩]
    have a1 := R.near (25 / 100 * z)
    rw [abs_of_pos (by linarith : 0 < 25 / 100 * z)] at a1
    set a := R.rnd (25 / 100 * z)
    have a2 : |a - 25 / 100 * z| ≤ 0.3501 * u := a1.trans (by nlinarith)
    have b1 := R.near (125 / 100 - a)
    set b := R.rnd (125 / 100 - a)
    obtain ⟨a3, a4⟩ := abs_le.mp a2
    have b2 : |125 / 100 - a| ≤ 1.01 := by rw [abs_le]; constructor <;> linarith
    have b3 : |b - (125 / 100 - a)| ≤ 1.01 * u := b1.trans (by nlinarith)
    obtain ⟨b4, b5⟩ := abs_le.mp b3
    have b6 : |b - (125 / 100 - 25 / 100 * z)| ≤ 1.3602 * u := by rw [abs_le]; constructor <;> linarith
    have c1 : |z * b - z * (125 / 100 - 25 / 100 * z)| ≤ 1.91 * u := by
      rw [← mul_sub, abs_mul, abs_of_pos (by linarith : 0 < z)]
      calc z * |b - (125 / 100 - 25 / 100 * z)| ≤ 1.4002 * (1.3602 * u) :=
            mul_le_mul (by linarith) b6 (abs_nonneg _) (by norm_num)
        _ ≤ 1.91 * u := by linarith
    have hs : |z * (125 / 100 - 25 / 100 * z)| ≤ 1.27 := by rw [abs_le]; constructor <;> nlinarith
    have d1 := R.near (z * b)
    have d2 : |z * b| ≤ 1.28 := by
      obtain ⟨c2, c3⟩ := abs_le.mp c1
      obtain ⟨s1, s2⟩ := abs_le.mp hs
      rw [abs_le]; constructor <;> linarith
    have d3 : |R.rnd (z * b) - z * b| ≤ 1.28 * u := d1.trans (by nlinarith)
    have e1 : |R.rnd (z * b) - z * (125 / 100 - 25 / 100 * z)| ≤ 3.2 * u := by
      rw [show R.rnd (z * b) - z * (125 / 100 - 25 / 100 * z) =
        (R.rnd (z * b) - z * b) + (z * b - z * (125 / 100 - 25 / 100 * z)) by ring]
      refine (abs_add_le _ _).trans ?_
      linarith
    rcases lt_or_ge z (14 / 10) with hz' | hz'
    · rw [conservatism_mid h1 hz']
      linarith
    · rw [conservatism_high hz']
      have g := hgap z (by rw [abs_le]; constructor <;> linarith)
      have := abs_sub_le (R.rnd (z * b)) (z * (125 / 100 - 25 / 100 * z)) (z * (9 / 10))
      linarith
  · push Not at hz
    rw [if_neg (by rintro ⟨_, a⟩; linarith), if_pos hz]
    have a1 := R.near (9 / 10)
    rw [abs_of_pos (by norm_num : (0 : ℝ) < 9 / 10)] at a1
    set c := R.rnd (9 / 10)
    have c1 : |z * c - z * (9 / 10)| ≤ 1.56 * u := by
      rw [← mul_sub, abs_mul, abs_of_pos (by linarith : 0 < z)]
      calc z * |c - 9 / 10| ≤ 1.73 * (u * (9 / 10)) := mul_le_mul (by linarith) a1 (abs_nonneg _) (by norm_num)
        _ ≤ 1.56 * u := by linarith
    have d1 := R.near (z * c)
    have d2 : |z * c| ≤ 1.56 := by
      obtain ⟨c2, c3⟩ := abs_le.mp c1
      rw [abs_le]; constructor <;> linarith
    have d3 : |R.rnd (z * c) - z * c| ≤ 1.56 * u := d1.trans (by nlinarith)
    have e1 : |R.rnd (z * c) - z * (9 / 10)| ≤ 3.2 * u := by
      rw [show R.rnd (z * c) - z * (9 / 10) = (R.rnd (z * c) - z * c) + (z * c - z * (9 / 10)) by ring]
      refine (abs_add_le _ _).trans ?_
      linarith
    rcases lt_or_ge z (14 / 10) with hz' | hz'
    · rw [conservatism_mid h1 hz']
      have g := hgap z (by rw [abs_le]; constructor <;> linarith)
      rw [abs_sub_comm] at g
      have := abs_sub_le (R.rnd (z * c)) (z * (9 / 10)) (z * (125 / 100 - 25 / 100 * z))
      linarith
    · rw [conservatism_high hz']
      linarith

/-- The factor for Tasmania. -/
theorem tasmaniaFl_near {m mf z : ℝ} (hm0 : 1 ≤ m) (hm1 : m ≤ 1.54) (hmf : |mf - m| ≤ 131 * u) (hz0 : 0 ≤ z)
    (hz : z ≤ 4000) :
    |R.rnd (mf * R.rnd (1 + R.rnd (R.rnd (15 / 100000) * z))) - m * (1 + 15 / 100000 * z)| ≤ 222 * u := by
  have hu1 : u < 1 := by linarith
  have r1 := RelErr.rnd hu0 hu1 R (RelErr.mul hu0 hu1 (RelErr.one hu0 hu1 R (15 / 100000)) (RelErr.refl hu0 hu1 z))
  have r2 := RelErr.rnd hu0 hu1 R (RelErr.add hu0 hu1 (by norm_num : (0 : ℝ) ≤ 1) (by positivity)
    (RelErr.mono hu0 hu1 (RelErr.refl hu0 hu1 1) (Nat.zero_le (1 + 0 + 1))) r1)
  set T := 1 + 15 / 100000 * z with hT
  set Tf := R.rnd (1 + R.rnd (R.rnd (15 / 100000) * z)) with hTf
  have hT0 : 1 ≤ T := by rw [hT]; linarith
  have hT1 : T ≤ 1.6 := by rw [hT]; linarith
  have e1 := RelErr.abs_sub_le hu0 hu1 r2 (c := 1.001) (by push_cast; linarith) (by norm_num)
  push_cast at e1
  rw [abs_of_pos (by linarith : 0 < T)] at e1
  have e2 : |Tf - T| ≤ 4.81 * u := e1.trans (by nlinarith)
  obtain ⟨e3, e4⟩ := abs_le.mp e2
  have hTf1 : |Tf| ≤ 1.601 := by rw [abs_le]; constructor <;> linarith
  have p1 : |mf * Tf - m * T| ≤ 217.2 * u := by
    rw [show mf * Tf - m * T = (mf - m) * Tf + m * (Tf - T) by ring]
    refine (abs_add_le _ _).trans ?_
    rw [abs_mul, abs_mul, abs_of_pos (by linarith : 0 < m)]
    have h1 : |mf - m| * |Tf| ≤ 131 * u * 1.601 := mul_le_mul hmf hTf1 (abs_nonneg _) (by positivity)
    have h2 : m * |Tf - T| ≤ 1.54 * (4.81 * u) := mul_le_mul hm1 e2 (abs_nonneg _) (by norm_num)
    linarith
  have hmT0 : 0 ≤ m * T := by positivity
  have hmT1 : m * T ≤ 1.54 * 1.6 := mul_le_mul hm1 hT1 (by linarith) (by norm_num)
  have p2 := R.near (mf * Tf)
  obtain ⟨p3, p4⟩ := abs_le.mp p1
  have p5 : |mf * Tf| ≤ 2.5 := by rw [abs_le]; constructor <;> linarith
  have p6 : |R.rnd (mf * Tf) - mf * Tf| ≤ 2.5 * u := p2.trans (by nlinarith)
  rw [show R.rnd (mf * Tf) - m * T = (R.rnd (mf * Tf) - mf * Tf) + (mf * Tf - m * T) by ring]
  refine (abs_add_le _ _).trans ?_
  linarith

/-- Up to nine terms added one after the other. -/
theorem sumFl_near (L : List (ℝ × ℝ)) : ∀ (k : ℕ) (sf s : ℝ), k + L.length ≤ 9 →
    (∀ q ∈ L, |q.1 - q.2| ≤ 25.4 * u ∧ |q.2| ≤ 0.28) → |sf - s| ≤ k * (28 * u) → |s| ≤ k * 0.28 →
    |(L.map Prod.fst).foldl (fun a b => R.rnd (a + b)) sf - (s + (L.map Prod.snd).sum)| ≤
      (k + L.length : ℕ) * (28 * u) := by
  induction L with
  | nil =>
    intro k sf s _ _ h _
    simpa using h
  | cons q L ih =>
    intro k sf s hk hq h hs
    obtain ⟨q1, q2⟩ := hq q List.mem_cons_self
    rw [List.length_cons] at hk
    have hk9 : (k : ℝ) ≤ 8 := by
      have : k ≤ 8 := by omega
      exact_mod_cast this
    have hr := R.near (sf + q.1)
    have hb : |sf + q.1| ≤ 2.6 := by
      have h1 : (k : ℝ) * (28 * u) ≤ 8 * (28 * u) := by gcongr
      have h2 : (k : ℝ) * 0.28 ≤ 8 * 0.28 := by gcongr
      rw [abs_le] at h hs q1 q2 ⊢
      constructor <;> linarith
    have hr2 : |R.rnd (sf + q.1) - (sf + q.1)| ≤ 2.6 * u := hr.trans (by nlinarith)
    have hnew : |R.rnd (sf + q.1) - (s + q.2)| ≤ ((k + 1 : ℕ) : ℝ) * (28 * u) := by
      push_cast
      rw [abs_le] at h hr2 q1 ⊢
      constructor <;> linarith
    have hs' : |s + q.2| ≤ ((k + 1 : ℕ) : ℝ) * 0.28 := by
      push_cast
      refine (abs_add_le _ _).trans ?_
      linarith
    have := ih (k + 1) (R.rnd (sf + q.1)) (s + q.2) (by omega)
      (fun q' hq' => hq q' (List.mem_cons_of_mem _ hq')) hnew hs'
    rw [List.map_cons, List.map_cons, List.foldl_cons, List.sum_cons, List.length_cons, ← add_assoc]
    rw [show k + (L.length + 1) = k + 1 + L.length by ring]
    exact this

/-- The mean of the nine cells. -/
theorem smoothFl_near (g gf : Grid ℝ) (i j : ℕ)
    (h : ∀ a b : ℕ, a < 3 → b < 3 →
      |gf.orZero ((i : ℤ) + a - 1) ((j : ℤ) + b - 1) - g.orZero ((i : ℤ) + a - 1) ((j : ℤ) + b - 1)| ≤ 222 * u ∧
      |g.orZero ((i : ℤ) + a - 1) ((j : ℤ) + b - 1)| ≤ 2.5) :
    |smoothCellFl R.rnd gf i j - smoothCell g i j| ≤ 252 * u := by
  have hu1 : u < 1 := by linarith
  set L : List (ℝ × ℝ) := (List.range 3).flatMap fun (a : ℕ) => (List.range 3).map fun (b : ℕ) =>
    (R.rnd (gf.orZero ((i : ℤ) + a - 1) ((j : ℤ) + b - 1) * R.rnd (1 / 9)),
      g.orZero ((i : ℤ) + a - 1) ((j : ℤ) + b - 1) * (1 / 9)) with hL
  have hlen : L.length = 9 := by rw [hL]; rfl
  have h1 : smoothCellFl R.rnd gf i j = (L.map Prod.fst).foldl (fun a b => R.rnd (a + b)) 0 := by
    unfold smoothCellFl
    rw [hL, List.map_flatMap]
    simp only [List.map_map]
    rfl
  have h2 : smoothCell g i j = 0 + (L.map Prod.snd).sum := by
    unfold smoothCell
    rw [hL, List.map_flatMap, zero_add, List.flatMap_def, List.sum_flatten, List.map_map]
    simp only [Function.comp_def, List.map_map]
  have := sumFl_near hu0 hu R L 0 0 0 (by omega) ?_ (by simp) (by simp)
  · rw [h1, h2]
    refine this.trans (le_of_eq ?_)
    rw [hlen]
    push_cast
    ring
  · intro q hq
    rw [hL, List.mem_flatMap] at hq
    obtain ⟨a, ha, hq⟩ := hq
    rw [List.mem_map] at hq
    obtain ⟨b, hb, rfl⟩ := hq
    rw [List.mem_range] at ha hb
    obtain ⟨e1, e2⟩ := h a b ha hb
    simp only
    generalize gf.orZero ((i : ℤ) + a - 1) ((j : ℤ) + b - 1) = xf at e1 ⊢
    generalize g.orZero ((i : ℤ) + a - 1) ((j : ℤ) + b - 1) = x at e1 e2 ⊢
    have hr := RelErr.abs_sub_le hu0 hu1 (RelErr.rnd hu0 hu1 R (RelErr.mul hu0 hu1 (RelErr.refl hu0 hu1 xf)
      (RelErr.one hu0 hu1 R (1 / 9)))) (c := 1.001) (by push_cast; linarith) (by norm_num)
    push_cast at hr
    have hxf : |xf * (1 / 9)| ≤ 0.281 := by
      rw [abs_le] at e1 e2 ⊢
      constructor <;> linarith
    have hr2 : |R.rnd (xf * R.rnd (1 / 9)) - xf * (1 / 9)| ≤ 0.57 * u := hr.trans (by nlinarith)
    rw [abs_le] at e1 e2 hr2
    constructor
    · rw [abs_le]; constructor <;> linarith
    · rw [abs_le]; constructor <;> linarith

end

end WindMult
