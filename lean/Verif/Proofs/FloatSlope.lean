import Verif.Model.FloatSlope
import Verif.Proofs.RelErr
import Verif.Proofs.FloatShield
import Verif.Props.SlopeAspect
import Mathlib.Analysis.Calculus.MeanValue
import Mathlib.Analysis.SpecialFunctions.Trigonometric.ArctanDeriv
import Mathlib.Analysis.SpecialFunctions.Trigonometric.Bounds
import Mathlib.Analysis.Real.Pi.Bounds

/-!
# Errors of slope and aspect
-/

set_option autoImplicit false
set_option linter.unusedSectionVars false

namespace WindMult
variable {w : ℝ} (hw0 : 0 ≤ w) (hw : w ≤ 1 / 10000) (W : FpRound w)
include hw0 hw

theorem arctan_lipschitz (x y : ℝ) : |Real.arctan x - Real.arctan y| ≤ |x - y| := by
  have := Convex.norm_image_sub_le_of_norm_deriv_le (f := Real.arctan) (C := 1) (s := Set.univ) (x := y) (y := x)
    (fun z _ => Real.differentiableAt_arctan z) (fun z _ => by
      rw [Real.deriv_arctan, Real.norm_eq_abs, abs_of_pos (by positivity), div_le_one (by positivity)]
      nlinarith [sq_nonneg z]) convex_univ trivial trivial
  simpa [Real.norm_eq_abs] using this

/-- Three weighted differences, rounded. -/
theorem sobel_sum_near {a b c M : ℝ} (ha : |a| ≤ M) (hb : |b| ≤ M) (hc : |c| ≤ M) :
    |W.rnd (2 * W.rnd b + W.rnd (W.rnd a + W.rnd c)) - (a + 2 * b + c)| ≤ 3.01 * w * (4 * M) := by
  have hM : 0 ≤ M := (abs_nonneg a).trans ha
  have ea := W.near a
  have eb := W.near b
  have ec := W.near c
  have ea' : |W.rnd a - a| ≤ w * M := ea.trans (mul_le_mul_of_nonneg_left ha hw0)
  have eb' : |W.rnd b - b| ≤ w * M := eb.trans (mul_le_mul_of_nonneg_left hb hw0)
  have ec' : |W.rnd c - c| ≤ w * M := ec.trans (mul_le_mul_of_nonneg_left hc hw0)
  generalize W.rnd a = a' at *
  generalize W.rnd b = b' at *
  generalize W.rnd c = c' at *
  have hwM : 0 ≤ w * M := mul_nonneg hw0 hM
  have hwwM : w * (w * M) ≤ 1 / 10000 * (w * M) := mul_le_mul_of_nonneg_right hw hwM
  rw [abs_le] at ha hb hc ea' eb' ec'
  have s1 : |a' + c'| ≤ 2 * M + 2 * (w * M) := by rw [abs_le]; constructor <;> linarith
  have e1 : |W.rnd (a' + c') - (a' + c')| ≤ 2.001 * (w * M) := by
    refine (W.near _).trans ((mul_le_mul_of_nonneg_left s1 hw0).trans ?_)
    nlinarith
  generalize W.rnd (a' + c') = f at *
  rw [abs_le] at e1
  have s2 : |2 * b' + f| ≤ 4 * M + 6.001 * (w * M) := by rw [abs_le]; constructor <;> linarith
  have e2 : |W.rnd (2 * b' + f) - (2 * b' + f)| ≤ 4.001 * (w * M) := by
    refine (W.near _).trans ((mul_le_mul_of_nonneg_left s2 hw0).trans ?_)
    nlinarith
  rw [abs_le] at e2 ⊢
  constructor <;> nlinarith

/-- One derivative: the sum of differences `s` is known up to `3.01 w · 8 G m`, and the pixel size in metres up to
the relative error `ε`. -/
theorem derivFl_near {ε : ℝ} (hε0 : 0 ≤ ε) (hε : ε ≤ 1 / 1000) {p m mf s sf G : ℝ} (hp : 0 < p) (hm : 0 < m)
    (hmf : |mf - m| ≤ ε * m) (hG : 0 ≤ G) (hs : |s| ≤ 8 * (G * m)) (hsf : |sf - s| ≤ 3.01 * w * (8 * (G * m))) :
    |derivFl W p mf sf - s / 8 / m| ≤ (1.1 * ε + 8 * w) * G := by
  have hu1 : w < 1 := by linarith
  have hmf' := abs_le.mp hmf
  have hmf0 : 0 < mf := by nlinarith
  have hd := RelErr.rnd hw0 hu1 W (RelErr.div hw0 hu1 (RelErr.rnd hw0 hu1 W (RelErr.mul hw0 hu1
    (RelErr.rnd hw0 hu1 W (RelErr.div hw0 hu1 (RelErr.refl hw0 hu1 sf) (RelErr.one hw0 hu1 W (8 * p))))
    (RelErr.refl hw0 hu1 p))) (RelErr.refl hw0 hu1 mf))
  have hd' := RelErr.abs_sub_le hw0 hu1 hd (c := 1.01) (by norm_num; linarith) (by norm_num)
  norm_num at hd'
  have e : sf / (8 * p) * p / mf = sf / 8 / mf := by field_simp
  rw [e] at hd'
  change |derivFl W p mf sf - sf / 8 / mf| ≤ _ at hd'
  generalize derivFl W p mf sf = D at *
  -- in units of `G`
  set x := s / 8 / m with hx
  set y := sf / 8 / mf with hy
  have hx1 : |x| ≤ G := by
    rw [hx, abs_div, abs_div, abs_of_pos hm, div_le_iff₀ hm, abs_of_pos (by norm_num : (0 : ℝ) < 8)]
    linarith
  have hyx : |y - x| ≤ (1.01 * ε + 3.1 * w) * G := by
    have h1 : y - x = ((sf - s) / 8 + x * (m - mf)) / mf := by
      rw [hx, hy]; field_simp; ring
    rw [h1, abs_div, abs_of_pos hmf0, div_le_iff₀ hmf0]
    have h2 : |(sf - s) / 8| ≤ 3.01 * w * (G * m) := by
      rw [abs_div, abs_of_pos (by norm_num : (0 : ℝ) < 8)]; linarith
    have h3 : |x * (m - mf)| ≤ G * (ε * m) := by
      rw [abs_mul, abs_sub_comm m]
      exact mul_le_mul hx1 hmf (abs_nonneg _) hG
    refine (abs_add_le _ _).trans ((add_le_add h2 h3).trans ?_)
    have h4 : (1 - ε) * m ≤ mf := by linarith
    have h5 : 0 ≤ (1.01 * ε + 3.1 * w) * G := by positivity
    refine le_trans ?_ (mul_le_mul_of_nonneg_left h4 h5)
    have hGm : 0 ≤ G * m := by positivity
    have h6 : 3.01 * w + ε ≤ (1.01 * ε + 3.1 * w) * (1 - ε) := by nlinarith
    calc _ = (3.01 * w + ε) * (G * m) := by ring
      _ ≤ (1.01 * ε + 3.1 * w) * (1 - ε) * (G * m) := mul_le_mul_of_nonneg_right h6 hGm
      _ = _ := by ring
  have hy1 : |y| ≤ 1.01 * G := by
    have : |y| ≤ |x| + |y - x| := by
      have := abs_add_le x (y - x); rwa [add_sub_cancel] at this
    have : (1.01 * ε + 3.1 * w) * G ≤ 0.01 * G := by gcongr; linarith
    linarith
  have hDy : |D - y| ≤ 4.1 * w * G := by
    refine hd'.trans ?_
    have := mul_le_mul_of_nonneg_left hy1 hw0
    nlinarith [mul_nonneg hw0 hG]
  have := abs_sub_le D y x
  nlinarith [mul_nonneg hw0 hG, mul_nonneg hε0 hG]

theorem radiansPerDegreeFl_near (hw2 : 1 / 2 ^ 64 ≤ w) :
    |radiansPerDegreeFl W - Real.pi / 180| ≤ 2 * w * (Real.pi / 180) := by
  have h1 := Real.pi_gt_d20
  have h2 := Real.pi_lt_d20
  have h3 := W.near (0.01745329251994329576923690768489 : ℝ)
  unfold radiansPerDegreeFl
  generalize W.rnd (0.01745329251994329576923690768489 : ℝ) = r at *
  rw [abs_of_pos (show (0 : ℝ) < 0.01745329251994329576923690768489 by norm_num), abs_le] at h3
  norm_num at h1 h2 h3 hw2
  rw [abs_le]
  constructor <;> nlinarith

/-- Conversion from radians to degrees. -/
theorem degrees_near (hw2 : 1 / 2 ^ 64 ≤ w) (a : ℝ) :
    |W.rnd (a / radiansPerDegreeFl W) - a / (Real.pi / 180)| ≤ 3.1 * w * |a / (Real.pi / 180)| := by
  have h1 := radiansPerDegreeFl_near hw0 hw W hw2
  have hp : 0 < Real.pi / 180 := by positivity
  generalize radiansPerDegreeFl W = r at *
  generalize Real.pi / 180 = q at *
  have h1' := abs_le.mp h1
  have hr : 0 < r := by nlinarith
  have h2 := W.near (a / r)
  have h3 : |a / r - a / q| ≤ 2.001 * w * |a / q| := by
    rw [show a / r - a / q = a / q * ((q - r) / r) by field_simp, abs_mul, mul_comm]
    gcongr
    rw [abs_div, abs_of_pos hr, abs_sub_comm, div_le_iff₀ hr]
    refine h1.trans ?_
    have : (1 - 2 * w) * q ≤ r := by linarith
    have h5 : 0 ≤ 2.001 * w := by positivity
    refine le_trans ?_ (mul_le_mul_of_nonneg_left this h5)
    have : 2 * w ≤ 2.001 * w * (1 - 2 * w) := by nlinarith
    calc 2 * w * q ≤ 2.001 * w * (1 - 2 * w) * q := mul_le_mul_of_nonneg_right this hp.le
      _ = _ := by ring
  have h4 : |a / r| ≤ 1.001 * |a / q| := by
    have := abs_add_le (a / q) (a / r - a / q)
    rw [add_sub_cancel] at this
    nlinarith [abs_nonneg (a / q)]
  have := abs_sub_le (W.rnd (a / r)) (a / r) (a / q)
  have h6 := mul_le_mul_of_nonneg_left h4 hw0
  nlinarith [mul_nonneg hw0 (abs_nonneg (a / q))]

omit hw0 hw in
/-- Two components within `κ`: the hypotenuses are within `1.5 κ`. -/
theorem hypot_sub_le {a b a' b' κ : ℝ} (ha : |a' - a| ≤ κ) (hb : |b' - b| ≤ κ) :
    ‖(⟨a', b'⟩ - ⟨a, b⟩ : ℂ)‖ ≤ 1.5 * κ := by
  have hκ : 0 ≤ κ := (abs_nonneg _).trans ha
  rw [Complex.norm_eq_sqrt_sq_add_sq]
  simp only [Complex.sub_re, Complex.sub_im]
  rw [Real.sqrt_le_left (by positivity)]
  have h1 : (a' - a) ^ 2 ≤ κ ^ 2 := by rw [← sq_abs]; gcongr
  have h2 : (b' - b) ^ 2 ≤ κ ^ 2 := by rw [← sq_abs]; gcongr
  nlinarith

/-- The slope. -/
theorem slopeFl_near (hw2 : 1 / 2 ^ 64 ≤ w) (T : FpTrig w) {ε G : ℝ} (hε0 : 0 ≤ ε) (hε : ε ≤ 1 / 1000) (hG : 0 ≤ G)
    {dx dy dxf dyf : ℝ} (hx : |dx| ≤ G) (hy : |dy| ≤ G) (hxf : |dxf - dx| ≤ (1.1 * ε + 8 * w) * G)
    (hyf : |dyf - dy| ≤ (1.1 * ε + 8 * w) * G) :
    |slopeDegreesFl W T dxf dyf - slopeDegrees dx dy| ≤ (98 * ε + 870 * w) * G + 470 * w := by
  have hd := hypot_sub_le hxf hyf
  have hn : ∀ a b : ℝ, √(a ^ 2 + b ^ 2) = ‖(⟨a, b⟩ : ℂ)‖ := fun a b => by
    rw [Complex.norm_eq_sqrt_sq_add_sq]
  have hH : √(dx ^ 2 + dy ^ 2) ≤ 1.5 * G := by
    have := hypot_sub_le (a := 0) (b := 0) (a' := dx) (b' := dy) (κ := G) (by simpa using hx) (by simpa using hy)
    rw [hn]
    have e0 : (⟨0, 0⟩ : ℂ) = 0 := rfl
    rwa [e0, sub_zero] at this
  have hHf : |√(dxf ^ 2 + dyf ^ 2) - √(dx ^ 2 + dy ^ 2)| ≤ 1.5 * ((1.1 * ε + 8 * w) * G) := by
    rw [hn, hn]
    exact (abs_norm_sub_norm_le _ _).trans hd
  have hhyp := T.hypot_near dxf dyf
  unfold slopeDegreesFl slopeDegrees
  generalize T.hypot dxf dyf = h at *
  generalize √(dxf ^ 2 + dyf ^ 2) = Hf at *
  generalize √(dx ^ 2 + dy ^ 2) = H at *
  have h1 : |h - H| ≤ (1.7 * ε + 15.1 * w) * G := by
    have a1 := abs_sub_le h Hf H
    have a2 : Hf ≤ 1.52 * G := by
      have b := (abs_le.mp hHf).2
      have : 1.5 * (1.1 * ε + 8 * w) ≤ 0.02 := by linarith
      have := mul_le_mul_of_nonneg_right this hG
      linarith
    have a3 : 2 * w * Hf ≤ 2 * w * (1.52 * G) := mul_le_mul_of_nonneg_left a2 (by positivity)
    have hεG : 0 ≤ ε * G := by positivity
    have hwG : 0 ≤ w * G := by positivity
    nlinarith
  have hat := T.arctan_near h
  have h2 : |T.arctan h - Real.arctan H| ≤ 3.2 * w + (1.7 * ε + 15.1 * w) * G := by
    have a1 := abs_sub_le (T.arctan h) (Real.arctan h) (Real.arctan H)
    have a2 := arctan_lipschitz hw0 hw h H
    have a3 : |Real.arctan h| ≤ 1.6 := by
      have := Real.arctan_lt_pi_div_two h
      have := Real.neg_pi_div_two_lt_arctan h
      have := Real.pi_lt_d2
      rw [abs_le]; constructor <;> linarith
    have a4 : 2 * w * |Real.arctan h| ≤ 2 * w * 1.6 := mul_le_mul_of_nonneg_left a3 (by positivity)
    linarith
  generalize T.arctan h = t at *
  have hp1 := Real.pi_gt_d4
  have hp2 := Real.pi_lt_d4
  have hA : |Real.arctan H| ≤ 1.6 := by
    have := Real.arctan_lt_pi_div_two H
    have := Real.neg_pi_div_two_lt_arctan H
    rw [abs_le]; constructor <;> linarith
  generalize Real.arctan H = A at *
  have hdeg := degrees_near hw0 hw W hw2 t
  have hq : ∀ z : ℝ, |z / (Real.pi / 180)| ≤ 57.3 * |z| := by
    intro z
    rw [abs_div, abs_of_pos (by positivity : (0 : ℝ) < Real.pi / 180), div_le_iff₀ (by positivity)]
    nlinarith [abs_nonneg z]
  have h3 : |t / (Real.pi / 180) - A / (Real.pi / 180)| ≤ 57.3 * (3.2 * w + (1.7 * ε + 15.1 * w) * G) := by
    rw [← sub_div]
    refine (hq _).trans ?_
    gcongr
  have ht : |t / (Real.pi / 180)| ≤ 57.3 * 1.6 + 57.3 * (3.2 * w + (1.7 * ε + 15.1 * w) * G) := by
    have := abs_add_le (A / (Real.pi / 180)) (t / (Real.pi / 180) - A / (Real.pi / 180))
    rw [add_sub_cancel] at this
    have := (hq A).trans (mul_le_mul_of_nonneg_left hA (by norm_num : (0 : ℝ) ≤ 57.3))
    linarith
  have h4 := abs_sub_le (W.rnd (t / radiansPerDegreeFl W)) (t / (Real.pi / 180)) (A / (Real.pi / 180))
  refine h4.trans ((add_le_add (hdeg.trans (mul_le_mul_of_nonneg_left ht (by positivity))) h3).trans ?_)
  have hεG : 0 ≤ ε * G := by positivity
  have hwG : 0 ≤ w * G := by positivity
  have hwεG : w * (ε * G) ≤ 1 / 10000 * (ε * G) := mul_le_mul_of_nonneg_right hw hεG
  have hwwG : w * (w * G) ≤ 1 / 10000 * (w * G) := mul_le_mul_of_nonneg_right hw hwG
  have hww : w * w ≤ 1 / 10000 * w := mul_le_mul_of_nonneg_right hw hw0
  nlinarith

/-- The direction of a vector changes little with a small error. -/
theorem arg_near {z z' : ℂ} {ρ : ℝ} (hz : z ≠ 0) (h : ‖z' - z‖ ≤ ρ * ‖z‖) (hρ : ρ ≤ 1 / 10) :
    z' ≠ 0 ∧ ∃ k : ℤ, |Complex.arg z' - (Complex.arg z + 2 * Real.pi * k)| ≤ Real.pi / 2 * (10 / 9 * ρ) := by
  have hz0 : 0 < ‖z‖ := norm_pos_iff.mpr hz
  have hρ0 : 0 ≤ ρ := by
    by_contra hn
    push Not at hn
    have := norm_nonneg (z' - z)
    nlinarith
  set q := z' / z with hq
  have hq1 : ‖q - 1‖ ≤ ρ := by
    rw [hq, div_sub_one hz, norm_div, div_le_iff₀ hz0]
    exact h
  have hre : 9 / 10 ≤ q.re := by
    have := (Complex.abs_re_le_norm (q - 1)).trans hq1
    rw [Complex.sub_re, Complex.one_re] at this
    have := (abs_le.mp this).1
    linarith
  have him : |q.im| ≤ ρ := by
    have := (Complex.abs_im_le_norm (q - 1)).trans hq1
    rwa [Complex.sub_im, Complex.one_im, sub_zero] at this
  have hqn : 9 / 10 ≤ ‖q‖ := hre.trans ((le_abs_self _).trans (Complex.abs_re_le_norm q))
  have hq0 : q ≠ 0 := norm_pos_iff.mp (by linarith)
  have hz' : z' = z * q := by rw [hq]; field_simp
  refine ⟨by rw [hz']; exact mul_ne_zero hz hq0, ?_⟩
  have hang := Complex.arg_mul_coe_angle hz hq0
  rw [← Real.Angle.coe_add, Real.Angle.angle_eq_iff_two_pi_dvd_sub] at hang
  obtain ⟨k, hk⟩ := hang
  refine ⟨k, ?_⟩
  rw [hz', show Complex.arg (z * q) - (Complex.arg z + 2 * Real.pi * k) = Complex.arg q by linarith]
  rw [Complex.arg_of_re_nonneg (by linarith)]
  have hy : |q.im / ‖q‖| ≤ 10 / 9 * ρ := by
    rw [abs_div, abs_of_pos (by linarith : 0 < ‖q‖), div_le_iff₀ (by linarith)]
    nlinarith
  have hy1 : |q.im / ‖q‖| ≤ 1 := by linarith
  generalize q.im / ‖q‖ = y at *
  have hpi := Real.pi_pos
  have key : ∀ v : ℝ, 0 ≤ v → v ≤ 1 → Real.arcsin v ≤ Real.pi / 2 * v := by
    intro v v0 v1
    have := Real.mul_le_sin (Real.arcsin_nonneg.mpr v0) (Real.arcsin_le_pi_div_two v)
    rw [Real.sin_arcsin (by linarith) v1] at this
    calc Real.arcsin v = Real.pi / 2 * (2 / Real.pi * Real.arcsin v) := by field_simp
      _ ≤ _ := by gcongr
  have : |Real.arcsin y| ≤ Real.pi / 2 * |y| := by
    rcases le_total 0 y with h0 | h0
    · rw [abs_of_nonneg h0, abs_of_nonneg (Real.arcsin_nonneg.mpr h0)]
      exact key y h0 ((le_abs_self y).trans hy1)
    · rw [abs_of_nonpos h0, abs_of_nonpos (Real.arcsin_nonpos.mpr h0), ← Real.arcsin_neg]
      exact key (-y) (by linarith) ((neg_le_abs y).trans hy1)
  exact this.trans (by gcongr)

/-- The aspect, up to whole turns. -/
theorem aspectFl_near (hw2 : 1 / 2 ^ 64 ≤ w) (T : FpTrig w) {dx dy dxf dyf ρ : ℝ} (hne : dx ≠ 0 ∨ dy ≠ 0)
    (hd : ‖(⟨-dxf, dyf⟩ - ⟨-dx, dy⟩ : ℂ)‖ ≤ ρ * √(dx ^ 2 + dy ^ 2)) (hρ : ρ ≤ 1 / 10) :
    ∃ k : ℤ, |aspectDegreesFl W T dxf dyf + 360 * k - aspectDegrees dx dy| ≤ 100 * ρ + 1800 * w := by
  have hz : (⟨-dx, dy⟩ : ℂ) ≠ 0 := by
    intro h
    have hre := congrArg Complex.re h
    have him := congrArg Complex.im h
    simp at hre him
    tauto
  have hn : √(dx ^ 2 + dy ^ 2) = ‖(⟨-dx, dy⟩ : ℂ)‖ := by
    rw [Complex.norm_eq_sqrt_sq_add_sq]; simp
  rw [hn] at hd
  obtain ⟨hz', k1, h1⟩ := arg_near hw0 hw hz hd hρ
  have hne' : -dxf ≠ 0 ∨ dyf ≠ 0 := by
    by_contra hc
    push Not at hc
    apply hz'
    rw [hc.1, hc.2]; rfl
  obtain ⟨k2, h2⟩ := T.arctan2_near dyf (-dxf) hne'
  have h3 := T.arctan2_range dyf (-dxf)
  unfold aspectDegreesFl aspectDegrees fmod
  have h4 := degrees_near hw0 hw W hw2 (T.arctan2 dyf (-dxf))
  generalize T.arctan2 dyf (-dxf) = t at *
  generalize Complex.arg ⟨-dxf, dyf⟩ = af at *
  generalize Complex.arg ⟨-dx, dy⟩ = a at *
  generalize W.rnd (t / radiansPerDegreeFl W) = r at *
  have h5 := W.near (450 - r)
  generalize W.rnd (450 - r) = X at *
  generalize ⌊X / 360⌋ = n1
  generalize ⌊(450 - a / (Real.pi / 180)) / 360⌋ = n2
  have hpi := Real.pi_pos
  have hp1 := Real.pi_gt_d4
  have hp2 := Real.pi_lt_d4
  have hq : |t / (Real.pi / 180)| ≤ 229.2 := by
    rw [abs_div, abs_of_pos (by positivity : (0 : ℝ) < Real.pi / 180), div_le_iff₀ (by positivity)]
    nlinarith
  have h6 : |t / (Real.pi / 180) - (a / (Real.pi / 180) + 360 * (k1 + k2))| ≤ 100 * ρ + 360 * w := by
    have e : t / (Real.pi / 180) - (a / (Real.pi / 180) + 360 * (k1 + k2)) =
        ((t - (af + 2 * Real.pi * k2)) + (af - (a + 2 * Real.pi * k1))) / (Real.pi / 180) := by
      field_simp
      ring
    rw [e, abs_div, abs_of_pos (by positivity : (0 : ℝ) < Real.pi / 180), div_le_iff₀ (by positivity)]
    refine (abs_add_le _ _).trans ((add_le_add h2 h1).trans (le_of_eq ?_))
    ring
  have h4' : |r - t / (Real.pi / 180)| ≤ 711 * w := by
    refine h4.trans ?_
    have := mul_le_mul_of_nonneg_left hq (by positivity : 0 ≤ 3.1 * w)
    nlinarith
  have h5' : |X - (450 - r)| ≤ 680 * w := by
    refine h5.trans ?_
    have : |450 - r| ≤ 680 := by
      rw [abs_le] at hq h4' ⊢
      constructor <;> nlinarith
    nlinarith
  refine ⟨n1 - n2 + (k1 + k2), ?_⟩
  push_cast
  rw [abs_le] at h4' h5' h6 ⊢
  constructor <;> nlinarith

omit hw0 hw in
/-- Headings away from the ends of the sectors stay in their sector. -/
theorem sector_of_near {θ h hf : ℝ} (k : ℤ) (hk : |hf + 360 * k - h| ≤ θ)
    (hc : ∀ n : ℤ, θ < |h - (45 / 2 + 45 * n)|) (d : Dir) : InSector d hf ↔ InSector d h := by
  have hb : ∃ b : ℤ, (d.bearing : ℝ) = 45 * b :=
    ⟨((d.bearing / 45 : ℕ) : ℤ), by cases d <;> norm_num [Dir.bearing]⟩
  obtain ⟨b, hb⟩ := hb
  unfold InSector
  rw [hb]
  rw [abs_le] at hk
  have side : ∀ n : ℤ, (45 / 2 + 45 * (n : ℝ) ≤ hf + 360 * k ↔ 45 / 2 + 45 * (n : ℝ) ≤ h) := by
    intro n
    have := hc n
    rw [lt_abs] at this
    rcases this with h1 | h1
    · constructor <;> intro <;> linarith
    · constructor <;> intro <;> linarith
  constructor
  · rintro ⟨t, h1, h2⟩
    refine ⟨t - k, ?_, ?_⟩
    · have := (side (b - 1 - 8 * (t - k))).mp (by push_cast; linarith)
      push_cast at this ⊢
      linarith
    · have := mt (side (b - 8 * (t - k))).mpr (by push_cast; linarith)
      push_cast at this ⊢
      linarith
  · rintro ⟨t, h1, h2⟩
    refine ⟨t + k, ?_, ?_⟩
    · have := (side (b - 1 - 8 * t)).mpr (by push_cast; linarith)
      push_cast at this ⊢
      linarith
    · have := mt (side (b - 8 * t)).mp (by push_cast; linarith)
      push_cast at this ⊢
      linarith

end WindMult
