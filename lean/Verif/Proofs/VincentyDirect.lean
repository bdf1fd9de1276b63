import Verif.Model.VincentyDirect
import Verif.Proofs.VincentyParallel

/-!
# Lemmas about Vincenty's direct formula and great circles
-/

set_option autoImplicit false

namespace WindMult
open Real

/-! ### The iteration -/

theorem directDelta_eq (B s1 s : ℝ) : directDelta B s1 s =
    B * (sin s * cos (2 * s1 + s) + B / 4 * (sin s * cos s * cos (2 * (2 * s1 + s)) +
      B / 6 * (sin (3 * s) * cos s * cos (3 * (2 * s1 + s))))) := by
  unfold directDelta
  simp only
  rw [cos_two_mul, cos_three_mul, sin_three_mul]
  ring

theorem abs_directDelta_le {B : ℝ} (h0 : 0 ≤ B) (h1 : B ≤ 1 / 350) (s1 s : ℝ) :
    |directDelta B s1 s| ≤ 3 / 1000 * |sin s| := by
  have e : directDelta B s1 s = sin s * (B * (cos (2 * s1 + s) + B / 4 * (cos s *
      (cos (2 * (2 * s1 + s)) - B / 6 * ((-3 + 4 * sin s ^ 2) * cos (3 * (2 * s1 + s))))))) := by
    unfold directDelta
    simp only
    rw [cos_two_mul, cos_three_mul]
    ring
  rw [e, abs_mul, mul_comm (3 / 1000 : ℝ)]
  refine mul_le_mul_of_nonneg_left ?_ (abs_nonneg _)
  have c1 := abs_cos_le_one (2 * s1 + s)
  have c2 := abs_cos_le_one (2 * (2 * s1 + s))
  have c3 := abs_cos_le_one (3 * (2 * s1 + s))
  have c4 := abs_cos_le_one s
  have c5 : |-3 + 4 * sin s ^ 2| ≤ 3 := by
    rw [abs_le]; constructor <;> nlinarith [sin_sq_le_one s, sq_nonneg (sin s)]
  generalize cos (2 * (2 * s1 + s)) = x2 at *
  generalize cos (3 * (2 * s1 + s)) = x3 at *
  generalize cos (2 * s1 + s) = x1 at *
  generalize cos s = x4 at *
  generalize -3 + 4 * sin s ^ 2 = x5 at *
  have m1 : |x5 * x3| ≤ 3 := by
    rw [abs_mul]; nlinarith [abs_nonneg x5, abs_nonneg x3]
  have m2 : |x2 - B / 6 * (x5 * x3)| ≤ 2 := by
    rw [abs_le] at *
    constructor <;> nlinarith
  have m3 : |x4 * (x2 - B / 6 * (x5 * x3))| ≤ 2 := by
    rw [abs_mul]
    calc |x4| * |x2 - B / 6 * (x5 * x3)| ≤ 1 * 2 := by gcongr
      _ = 2 := by norm_num
  generalize x4 * (x2 - B / 6 * (x5 * x3)) = w at *
  have m4 : |x1 + B / 4 * w| ≤ 101 / 100 := by
    rw [abs_le] at *
    constructor <;> nlinarith
  rw [abs_mul, abs_of_nonneg h0]
  calc B * |x1 + B / 4 * w| ≤ 1 / 350 * (101 / 100) := by gcongr
    _ ≤ 3 / 1000 := by norm_num

/-- A product of two functions bounded by one. -/
theorem lip_mul {a a' b b' p q d : ℝ} (ha : |a| ≤ 1) (hb : |b'| ≤ 1) (h1 : |a - a'| ≤ p * d)
    (h2 : |b - b'| ≤ q * d) : |a * b - a' * b'| ≤ (p + q) * d := by
  calc |a * b - a' * b'| ≤ |a| * |b - b'| + |b'| * |a - a'| := abs_mul_sub_mul_le ..
    _ ≤ 1 * |b - b'| + 1 * |a - a'| := by gcongr
    _ ≤ (p + q) * d := by linarith

theorem directDelta_lip {B : ℝ} (h0 : 0 ≤ B) (h1 : B ≤ 1 / 350) (s1 x y : ℝ) :
    |directDelta B s1 x - directDelta B s1 y| ≤ 1 / 150 * |x - y| := by
  have a1 := abs_sin_sub_sin_le x y
  have a2 := abs_cos_sub_cos_le x y
  have a3 : |cos (2 * s1 + x) - cos (2 * s1 + y)| ≤ 1 * |x - y| :=
    (abs_cos_sub_cos_le _ _).trans (le_of_eq (by rw [one_mul]; congr 1; ring))
  have a4 : |cos (2 * (2 * s1 + x)) - cos (2 * (2 * s1 + y))| ≤ 2 * |x - y| :=
    (abs_cos_sub_cos_le _ _).trans (le_of_eq (by
      rw [show 2 * (2 * s1 + x) - 2 * (2 * s1 + y) = 2 * (x - y) by ring, abs_mul, abs_two]))
  have a5 : |cos (3 * (2 * s1 + x)) - cos (3 * (2 * s1 + y))| ≤ 3 * |x - y| :=
    (abs_cos_sub_cos_le _ _).trans (le_of_eq (by
      rw [show 3 * (2 * s1 + x) - 3 * (2 * s1 + y) = 3 * (x - y) by ring, abs_mul,
        abs_of_pos (by norm_num : (0 : ℝ) < 3)]))
  have a6 : |sin (3 * x) - sin (3 * y)| ≤ 3 * |x - y| :=
    (abs_sin_sub_sin_le _ _).trans (le_of_eq (by
      rw [← mul_sub, abs_mul, abs_of_pos (by norm_num : (0 : ℝ) < 3)]))
  have b1 := lip_mul (abs_sin_le_one x) (abs_cos_le_one (2 * s1 + y))
    (by rwa [one_mul] : |sin x - sin y| ≤ 1 * |x - y|) a3
  have hsc : |sin x * cos x| ≤ 1 := by
    rw [abs_mul]; exact mul_le_one₀ (abs_sin_le_one _) (abs_nonneg _) (abs_cos_le_one _)
  have hsc3 : |sin (3 * x) * cos x| ≤ 1 := by
    rw [abs_mul]; exact mul_le_one₀ (abs_sin_le_one _) (abs_nonneg _) (abs_cos_le_one _)
  have b2 := lip_mul hsc (abs_cos_le_one (2 * (2 * s1 + y)))
    (lip_mul (abs_sin_le_one x) (abs_cos_le_one y)
      (by rwa [one_mul] : |sin x - sin y| ≤ 1 * |x - y|)
      (by rwa [one_mul] : |cos x - cos y| ≤ 1 * |x - y|)) a4
  have b3 := lip_mul hsc3 (abs_cos_le_one (3 * (2 * s1 + y)))
    (lip_mul (abs_sin_le_one (3 * x)) (abs_cos_le_one y) a6
      (by rwa [one_mul] : |cos x - cos y| ≤ 1 * |x - y|)) a5
  rw [directDelta_eq, directDelta_eq, ← mul_sub, abs_mul, abs_of_nonneg h0]
  generalize sin x * cos (2 * s1 + x) = u1 at *
  generalize sin y * cos (2 * s1 + y) = v1 at *
  generalize sin x * cos x * cos (2 * (2 * s1 + x)) = u2 at *
  generalize sin y * cos y * cos (2 * (2 * s1 + y)) = v2 at *
  generalize sin (3 * x) * cos x * cos (3 * (2 * s1 + x)) = u3 at *
  generalize sin (3 * y) * cos y * cos (3 * (2 * s1 + y)) = v3 at *
  have hd := abs_nonneg (x - y)
  generalize |x - y| = d at *
  have c1 : |u2 + B / 6 * u3 - (v2 + B / 6 * v3)| ≤ 5 * d := by
    rw [abs_le] at *
    constructor <;> nlinarith
  have c2 : |u1 + B / 4 * (u2 + B / 6 * u3) - (v1 + B / 4 * (v2 + B / 6 * v3))| ≤ 21 / 10 * d := by
    generalize u2 + B / 6 * u3 = u at *
    generalize v2 + B / 6 * v3 = v at *
    rw [abs_le] at *
    constructor <;> nlinarith
  calc B * |u1 + B / 4 * (u2 + B / 6 * u3) - (v1 + B / 4 * (v2 + B / 6 * v3))| ≤
        1 / 350 * (21 / 10 * d) := by gcongr
    _ ≤ 1 / 150 * d := by linarith

theorem directDelta_small {B : ℝ} (h0 : 0 ≤ B) (h1 : B ≤ 1 / 350) (s1 : ℝ) {s0 x : ℝ} (hx0 : 0 ≤ x)
    (hx1 : x ≤ 101 / 100 * s0) : |directDelta B s1 x| ≤ 31 / 10000 * s0 := by
  have h2 := abs_directDelta_le h0 h1 s1 x
  have h3 := abs_sin_le_abs (x := x)
  rw [abs_of_nonneg hx0] at h3
  linarith

/-- Once entered the loop ends. -/
theorem directLoop_step {B s1 s0 : ℝ} (h0 : 0 ≤ B) (h1 : B ≤ 1 / 350) (hs : 0 < s0) (fuel : ℕ)
    (last e : ℝ) (hl0 : 99 / 100 * s0 ≤ last) (hl1 : last ≤ 101 / 100 * s0)
    (he : |s0 + directDelta B s1 last - last| ≤ e * s0)
    (hf : e ≤ 99 / 100 / 1000000000 * 150 ^ fuel) :
    ∃ sigma last', directLoop B s1 s0 fuel last (s0 + directDelta B s1 last)
        (some (2 * s1 + last)) = some (.ok (sigma, some (2 * s1 + last'))) ∧
      sigma = s0 + directDelta B s1 last' ∧ |sigma - last'| ≤ 1 / 1000000000 * sigma ∧
      99 / 100 * s0 ≤ sigma ∧ sigma ≤ 101 / 100 * s0 := by
  induction fuel generalizing last e with
  | zero =>
    have hd := directDelta_small h0 h1 s1 (by linarith) hl1
    set sg := s0 + directDelta B s1 last with hsg
    have hd' := abs_le.mp hd
    have hp : 0 < sg := by linarith
    have hle : |sg - last| ≤ 1 / 1000000000 * sg := by nlinarith
    refine ⟨sg, last, ?_, hsg, hle, by linarith, by linarith⟩
    rw [directLoop, if_neg hp.ne', if_neg]
    rw [abs_div, abs_of_pos hp, gt_iff_lt, not_lt, div_le_iff₀ hp, abs_sub_comm]
    exact hle
  | succ fuel ih =>
    have hd := directDelta_small h0 h1 s1 (by linarith) hl1
    have hlip := directDelta_lip h0 h1 s1 (s0 + directDelta B s1 last) last
    have ih' := ih (s0 + directDelta B s1 last) (e / 150)
    set sg := s0 + directDelta B s1 last with hsg
    have hd' := abs_le.mp hd
    have hp : 0 < sg := by linarith
    rw [directLoop, if_neg hp.ne']
    split_ifs with h
    · apply ih' (by linarith) (by linarith)
      · have : s0 + directDelta B s1 sg - sg = directDelta B s1 sg - directDelta B s1 last := by
          rw [hsg]; ring
        rw [this]
        linarith
      · rw [pow_succ] at hf; linarith
    · refine ⟨sg, last, rfl, hsg, ?_, by linarith, by linarith⟩
      rw [abs_div, abs_of_pos hp, gt_iff_lt, not_lt, div_le_iff₀ hp, abs_sub_comm] at h
      exact h

/-- Four iterations suffice. -/
theorem directLoop_ends {B s1 s0 : ℝ} (h0 : 0 ≤ B) (h1 : B ≤ 1 / 350) (hs : 0 < s0) (fuel : ℕ)
    (hf : 4 ≤ fuel) :
    ∃ sigma last', directLoop B s1 s0 fuel (2 * s0 + 2) s0 none =
        some (.ok (sigma, some (2 * s1 + last'))) ∧
      sigma = s0 + directDelta B s1 last' ∧ |sigma - last'| ≤ 1 / 1000000000 * sigma ∧
      99 / 100 * s0 ≤ sigma ∧ sigma ≤ 101 / 100 * s0 := by
  obtain ⟨fuel, rfl⟩ : ∃ n, fuel = n + 1 := ⟨fuel - 1, by omega⟩
  rw [directLoop, if_neg hs.ne', if_pos]
  · apply directLoop_step h0 h1 hs fuel s0 (31 / 10000) (by linarith) (by linarith)
    · rw [add_sub_cancel_left]
      exact directDelta_small h0 h1 s1 hs.le (by linarith)
    · calc (31 / 10000 : ℝ) ≤ 99 / 100 / 1000000000 * 150 ^ 3 := by norm_num
        _ ≤ 99 / 100 / 1000000000 * 150 ^ fuel := by
          gcongr
          · norm_num
          · omega
  · rw [show 2 * s0 + 2 - s0 = s0 + 2 by ring, abs_of_pos (by positivity), gt_iff_lt,
      lt_div_iff₀ hs]
    linarith

/-! ### The coefficients -/

theorem directU2_mem {f a q : ℝ} (hf0 : 0 ≤ f) (hf1 : f ≤ 1 / 200) (ha : 0 < a) (hq0 : 0 ≤ q)
    (hq1 : q ≤ 1) : 0 ≤ directU2 f a q ∧ directU2 f a q ≤ 1 / 90 := by
  have hb : 0 < a * (1 - f) * (a * (1 - f)) := by
    have : 0 < 1 - f := by linarith
    positivity
  have ha2 : 0 < a * a := by positivity
  have e0 : 0 ≤ a * a - a * (1 - f) * (a * (1 - f)) := by
    have : a * a - a * (1 - f) * (a * (1 - f)) = a * a * (f * (2 - f)) := by ring
    rw [this]
    exact mul_nonneg ha2.le (mul_nonneg hf0 (by linarith))
  unfold directU2
  simp only
  refine ⟨div_nonneg (mul_nonneg hq0 e0) hb.le, ?_⟩
  rw [div_le_iff₀ hb]
  calc q * (a * a - a * (1 - f) * (a * (1 - f))) ≤ 1 * (a * a - a * (1 - f) * (a * (1 - f))) := by
        gcongr
    _ = a * a * (1 - (1 - f) ^ 2) := by ring
    _ ≤ a * a * (1 / 90 * (1 - f) ^ 2) := by
        gcongr
        nlinarith
    _ = 1 / 90 * (a * (1 - f) * (a * (1 - f))) := by ring

theorem directA_mem {u : ℝ} (h0 : 0 ≤ u) (h1 : u ≤ 1 / 90) :
    1 ≤ directA u ∧ directA u ≤ 101 / 100 := by
  unfold directA
  have e1 : 0 ≤ 320 - 175 * u := by linarith
  have e2 : u * (320 - 175 * u) ≤ 4 := by nlinarith
  have e3 : 0 ≤ u * (320 - 175 * u) := by positivity
  generalize u * (320 - 175 * u) = w at *
  have e4 : u * (-768 + w) ≤ 0 := by nlinarith
  have e5 : -10 ≤ u * (-768 + w) := by nlinarith
  generalize u * (-768 + w) = v at *
  constructor <;> nlinarith

theorem directB_mem {u : ℝ} (h0 : 0 ≤ u) (h1 : u ≤ 1 / 90) :
    0 ≤ directB u ∧ directB u ≤ 1 / 350 := by
  unfold directB
  have e1 : 0 ≤ 74 - 47 * u := by linarith
  have e2 : u * (74 - 47 * u) ≤ 1 := by nlinarith
  have e3 : 0 ≤ u * (74 - 47 * u) := by positivity
  generalize u * (74 - 47 * u) = w at *
  have e4 : u * (-128 + w) ≤ 0 := by nlinarith
  have e5 : -2 ≤ u * (-128 + w) := by nlinarith
  generalize u * (-128 + w) = v at *
  constructor <;> nlinarith

end WindMult
