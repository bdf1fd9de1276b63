import Verif.Proofs.Err
import Verif.Model.FloatPixel
import Verif.Proofs.VincentyParallel
import Verif.Proofs.FloatSlope

/-!
# Errors of Vincenty's formula in double precision
-/

set_option autoImplicit false
set_option linter.unusedSectionVars false

namespace WindMult
open Real

variable (W : FpRound (1 / 2 ^ 53)) (M : FpMath (1 / 2 ^ 53))
variable {L e m x y : ℝ}

theorem rel53 {a b c : ℝ} (h : |a - b| ≤ 2 * (1 / 2 ^ 53) * c) (hc : 0 ≤ c) : |a - b| ≤ 24 / 10 ^ 17 * c :=
  h.trans (mul_le_mul_of_nonneg_right (by norm_num) hc)

theorem Err.sq (h : Err 1 e m x y) {e' : ℝ}
    (he : 2 * m * e + e ^ 2 + 24 / 10 ^ 17 * (m + e) ^ 2 ≤ e') : Err 1 e' (m ^ 2) (x ^ 2) (M.sq y) := by
  have h1 := rel53 (M.sq_near y) (sq_nonneg y)
  have h2 := h.abs_right
  obtain ⟨h3, h4⟩ := h.nonneg one_pos
  obtain ⟨a, b⟩ := h
  rw [mul_one] at a b h2
  constructor
  · have h5 : y ^ 2 ≤ (m + e) ^ 2 := by rw [← sq_abs y]; gcongr
    have h6 : |y ^ 2 - x ^ 2| ≤ 2 * m * e + e ^ 2 := by
      rw [show y ^ 2 - x ^ 2 = (y - x) * (y - x + 2 * x) by ring, abs_mul]
      have : |y - x + 2 * x| ≤ e + 2 * m := by
        refine (abs_add_le _ _).trans ?_
        rw [abs_mul, abs_of_pos (by norm_num : (0 : ℝ) < 2)]
        linarith
      calc |y - x| * |y - x + 2 * x| ≤ e * (e + 2 * m) := by gcongr
        _ = _ := by ring
    have h7 := abs_add_le (M.sq y - y ^ 2) (y ^ 2 - x ^ 2)
    rw [sub_add_sub_cancel] at h7
    rw [mul_one]
    linarith
  · rw [mul_one, abs_of_nonneg (sq_nonneg x), ← sq_abs x]
    gcongr

theorem Err.sin (h : Err L e m x y) {e' : ℝ} (he : e + 24 / 10 ^ 17 * (m + e) ≤ e') (hL : 0 < L := by positivity) :
    Err L e' m (sin x) (M.sin y) := by
  have hb : ∀ v : ℝ, |Real.sin v| ≤ |v| := fun v => by
    have := abs_sin_sub_sin_le v 0
    simpa using this
  refine ⟨?_, (hb x).trans h.2⟩
  have h1 := rel53 (M.sin_near y) (abs_nonneg _)
  have h2 := abs_sin_sub_sin_le y x
  have h3 := (hb y).trans h.abs_right
  have h4 := abs_add_le (M.sin y - Real.sin y) (Real.sin y - Real.sin x)
  rw [sub_add_sub_cancel] at h4
  have h5 : (e + 24 / 10 ^ 17 * (m + e)) * L ≤ e' * L := by gcongr
  nlinarith [h.1]

theorem Err.sin_one (h : |y - x| ≤ e) {e' : ℝ} (he : e + 24 / 10 ^ 17 ≤ e') : Err 1 e' 1 (Real.sin x) (M.sin y) := by
  refine ⟨?_, by rw [mul_one]; exact abs_sin_le_one x⟩
  have h1 := rel53 (M.sin_near y) (abs_nonneg _)
  have h2 := abs_sin_sub_sin_le y x
  have h3 := abs_sin_le_one y
  have h4 := abs_add_le (M.sin y - Real.sin y) (Real.sin y - Real.sin x)
  rw [sub_add_sub_cancel] at h4
  rw [mul_one]
  linarith

theorem Err.cos_one (h : |y - x| ≤ e) {e' : ℝ} (he : e + 24 / 10 ^ 17 ≤ e') : Err 1 e' 1 (Real.cos x) (M.cos y) := by
  refine ⟨?_, by rw [mul_one]; exact abs_cos_le_one x⟩
  have h1 := rel53 (M.cos_near y) (abs_nonneg _)
  have h2 := abs_cos_sub_cos_le y x
  have h3 := abs_cos_le_one y
  have h4 := abs_add_le (M.cos y - Real.cos y) (Real.cos y - Real.cos x)
  rw [sub_add_sub_cancel] at h4
  rw [mul_one]
  linarith

/-- The hypotenuse. -/
theorem hypot_lip (a b a' b' : ℝ) : |√(a' ^ 2 + b' ^ 2) - √(a ^ 2 + b ^ 2)| ≤ |a' - a| + |b' - b| := by
  have e : ∀ p q : ℝ, ‖(⟨p, q⟩ : ℂ)‖ = √(p ^ 2 + q ^ 2) := fun p q => Complex.norm_eq_sqrt_sq_add_sq _
  rw [← e, ← e]
  refine (abs_norm_sub_norm_le _ _).trans ?_
  have := Complex.norm_le_abs_re_add_abs_im (⟨a', b'⟩ - ⟨a, b⟩ : ℂ)
  simpa using this

/-- The sine of the angle and its square, from the two components. -/
theorem sinSigmaFl_err (hL : 0 < L) (hL1 : L ≤ 1 / 10) {a b : ℝ} {P Q Pf Qf : ℝ} (hP : Err L a 1 P Pf)
    (hQ : Err L b 1 Q Qf) (hab : a + b ≤ 1 / 10) (h1 : √(P ^ 2 + Q ^ 2) ≤ L) :
    Err L (a + b + 15 / 10 ^ 16) 1 (√(P ^ 2 + Q ^ 2)) (W.rnd (√(W.rnd (M.sq Pf + M.sq Qf)))) ∧
    Err 1 (a + b + 15 / 10 ^ 16) 1 (P ^ 2 + Q ^ 2) (W.rnd (M.sq Pf + M.sq Qf)) := by
  have a0 := (hP.nonneg hL).1
  have b0 := (hQ.nonneg hL).1
  set v := Pf ^ 2 + Qf ^ 2 with hv
  have v0 : 0 ≤ v := by positivity
  have hlip : |√v - √(P ^ 2 + Q ^ 2)| ≤ (a + b) * L := by
    refine (hypot_lip _ _ _ _).trans ?_
    linarith [hP.1, hQ.1]
  have hvL : √v ≤ 11 / 10 * L := by
    have := (abs_le.mp hlip).2
    nlinarith
  have hn : |W.rnd (M.sq Pf + M.sq Qf) - v| ≤ 37 / 10 ^ 17 * v := by
    have k1 := rel53 (M.sq_near Pf) (sq_nonneg Pf)
    have k2 := rel53 (M.sq_near Qf) (sq_nonneg Qf)
    have k3 : |M.sq Pf + M.sq Qf - v| ≤ 24 / 10 ^ 17 * v := by
      rw [hv, add_sub_add_comm]
      exact (abs_add_le _ _).trans (by linarith)
    have k4 := rnd_rel W (M.sq Pf + M.sq Qf)
    have k5 : |M.sq Pf + M.sq Qf| ≤ |v| + |M.sq Pf + M.sq Qf - v| := by
      have := abs_add_le v (M.sq Pf + M.sq Qf - v)
      rwa [add_sub_cancel] at this
    rw [abs_of_nonneg v0] at k5
    have k6 := abs_add_le (W.rnd (M.sq Pf + M.sq Qf) - (M.sq Pf + M.sq Qf)) (M.sq Pf + M.sq Qf - v)
    rw [sub_add_sub_cancel] at k6
    norm_num at k3 k4 ⊢
    linarith
  generalize W.rnd (M.sq Pf + M.sq Qf) = n at *
  have hn' := abs_le.mp hn
  have n0 : 0 ≤ n := by norm_num at hn'; linarith
  have hss : |√n - √v| ≤ 37 / 10 ^ 17 * √v := by
    rcases v0.eq_or_lt with h | h
    · rw [← h] at hn
      have : n = 0 := by simpa using hn
      rw [this, ← h]; simp
    · have hpos : 0 < √v := sqrt_pos.mpr h
      have e : (√n - √v) * (√n + √v) = n - v := by
        ring_nf; rw [sq_sqrt n0, sq_sqrt h.le]
      have e2 := congrArg abs e
      rw [abs_mul, abs_of_pos (by positivity : 0 < √n + √v)] at e2
      have h3 : |√n - √v| * √v ≤ 37 / 10 ^ 17 * √v * √v := by
        rw [mul_assoc, mul_self_sqrt h.le]
        have : |√n - √v| * √v ≤ |√n - √v| * (√n + √v) := by
          have := sqrt_nonneg n
          gcongr
          linarith
        linarith
      exact le_of_mul_le_mul_right h3 hpos
  have hr := rnd_rel W (√n)
  rw [abs_of_nonneg (sqrt_nonneg n)] at hr
  have hsn : √n ≤ 12 / 10 * L := by
    have := (abs_le.mp hss).2
    norm_num at this; linarith
  have hS0 := sqrt_nonneg (P ^ 2 + Q ^ 2)
  refine ⟨⟨?_, by rw [abs_of_nonneg hS0]; linarith⟩, ?_, ?_⟩
  · have k := abs_add_le (W.rnd √n - √n) (√n - √v)
    rw [sub_add_sub_cancel] at k
    have k' := abs_add_le (W.rnd √n - √v) (√v - √(P ^ 2 + Q ^ 2))
    rw [sub_add_sub_cancel] at k'
    norm_num at hr hss ⊢
    linarith
  · have e1 : v - (P ^ 2 + Q ^ 2) = (√v - √(P ^ 2 + Q ^ 2)) * (√v + √(P ^ 2 + Q ^ 2)) := by
      ring_nf; rw [sq_sqrt v0, sq_sqrt (by positivity)]; ring
    have e2 : |v - (P ^ 2 + Q ^ 2)| ≤ (a + b) * L * (21 / 10 * L) := by
      rw [e1, abs_mul, abs_of_nonneg (a := √v + _) (by positivity)]
      gcongr
      linarith
    have k := abs_add_le (n - v) (v - (P ^ 2 + Q ^ 2))
    rw [sub_add_sub_cancel] at k
    have hv1 : v ≤ 1 := by
      rw [← mul_self_sqrt v0]
      have : √v ≤ 1 := by linarith
      have := sqrt_nonneg v
      nlinarith
    have hLL : L * L ≤ 1 / 100 := by nlinarith
    have e3 : (a + b) * L * (21 / 10 * L) ≤ a + b := by
      have : (a + b) * (L * L) ≤ (a + b) * (1 / 100) := by gcongr
      nlinarith
    norm_num at hn ⊢
    linarith
  · rw [mul_one, abs_of_nonneg (by positivity), ← mul_self_sqrt (by positivity : 0 ≤ P ^ 2 + Q ^ 2)]
    nlinarith

theorem atan2_pos {y x : ℝ} (hx : 0 < x) : atan2 y x = arctan (y / x) := by
  unfold atan2
  have h := Complex.abs_arg_lt_pi_div_two_iff (z := ⟨x, y⟩)
  have h2 := h.mpr (.inl hx)
  have h3 := Complex.tan_arg (⟨x, y⟩ : ℂ)
  rw [abs_lt] at h2
  rw [← arctan_tan h2.1 h2.2, h3]

/-- The angle. -/
theorem sigmaFl_err (hL : 0 < L) {a b : ℝ} {S T Sf Tf : ℝ} (hS : Err L a 1 S Sf) (hT : Err 1 b 1 T Tf)
    (hT1 : 99 / 100 ≤ T) (ha : a ≤ 1 / 10) (hb : b ≤ 1 / 100) {e' : ℝ}
    (he : (a + 102 / 100 * b) / (99 / 100 - b) + 3 / 10 ^ 16 ≤ e') (hm : |arctan (S / T)| ≤ L) :
    Err L e' 1 (arctan (S / T)) (M.atan2 Sf Tf) := by
  have b0 := (hT.nonneg one_pos).1
  have a0 := (hS.nonneg hL).1
  have hTf : 0 < Tf := by
    have := (abs_le.mp hT.1).1
    linarith
  have hq : |S / T| ≤ 102 / 100 * L := by
    have hS2 := hS.2
    rw [abs_div, abs_of_pos (by linarith : 0 < T), div_le_iff₀ (by linarith)]
    nlinarith
  have hdiv := Err.div (L := L) (K := 1) (d := 99 / 100) (e' := (a + 102 / 100 * b) / (99 / 100 - b)) hL one_pos
    (by rw [mul_one]; exact hS) hT (by norm_num) (by linarith) (by linarith) hq le_rfl
  refine ⟨?_, by linarith⟩
  have h1 := rel53 (M.atan2_near Sf Tf) (abs_nonneg _)
  rw [atan2_pos hTf] at h1
  have h2 := arctan_lipschitz (w := 0) le_rfl (by norm_num) (Sf / Tf) (S / T)
  have h3 : |arctan (Sf / Tf)| ≤ |Sf / Tf| := by simpa using arctan_lipschitz (w := 0) le_rfl (by norm_num) (Sf / Tf) 0
  have h4 := hdiv.abs_right
  have h5 : (a + 102 / 100 * b) / (99 / 100 - b) ≤ 2 / 10 := by
    rw [div_le_iff₀ (by linarith)]; linarith
  have h6 : (102 / 100 + (a + 102 / 100 * b) / (99 / 100 - b)) * L ≤ 125 / 100 * L := by gcongr; linarith
  have h7 := abs_add_le (M.atan2 Sf Tf - arctan (Sf / Tf)) (arctan (Sf / Tf) - arctan (S / T))
  rw [sub_add_sub_cancel] at h7
  have h8 := hdiv.1
  have h9 : ((a + 102 / 100 * b) / (99 / 100 - b) + 3 / 10 ^ 16) * L ≤ e' * L := by gcongr
  norm_num at h1 h9 ⊢
  nlinarith

/-- The next value of `lembda`. -/
theorem nextLamFl_err (hL : 0 < L) {f : ℝ} (hf : Err 1 (1 / 10 ^ 15) (1 / 298) earthF f)
    {om z zf al sg sf S T X c2 cf : ℝ} (ho : |om| ≤ 2 * L) (hz : Err 1 (5 / 10 ^ 10) 1 z zf)
    (hs : Err L (2 / 10 ^ 10) 1 sg sf) (hS : Err L (2 / 10 ^ 10) 1 S (M.sin sf))
    (hT : Err 1 (2 / 10 ^ 10) 1 T (M.cos sf)) (hX : Err 1 (3 / 10 ^ 10) 1 X (M.sin al))
    (hc : Err 1 (1 / 10 ^ 6) 1 c2 cf) :
    |nextLamFl W M f om (seriesCFl W f zf) al sf cf - (om + (1 - seriesC earthF z) * earthF * X *
      (sg + seriesC earthF z * S * (c2 + seriesC earthF z * T * (-1 + 2 * c2 ^ 2))))| ≤ 5 / 10 ^ 12 * L := by
  have num : ∀ (c m : ℝ), |c| ≤ m → Err 1 0 m c c := fun c m h => Err.const c h
  have hC : Err 1 (46 / 10 ^ 14) (85 / 10 ^ 5) (seriesC earthF z) (seriesCFl W f zf) := by
    have k1 := (num 3 3 (by norm_num)).mulR W hz (e' := 151 / 10 ^ 11) (m' := 3) (by norm_num) (by norm_num)
    have k2 := (num 4 4 (by norm_num)).subR W k1 (e' := 16 / 10 ^ 10) (m' := 7) (by norm_num) (by norm_num)
    have k3 := hf.mulR W k2 (e' := 6 / 10 ^ 12) (m' := 235 / 10 ^ 4) (by norm_num) (by norm_num)
    have k4 := (num 4 4 (by norm_num)).addR W k3 (e' := 7 / 10 ^ 12) (m' := 403 / 100) (by norm_num) (by norm_num)
    have k5 := hf.divcR W (c := 16) (by norm_num) (e' := 1 / 10 ^ 16) (m' := 21 / 10 ^ 5) (by norm_num)
      (by norm_num)
    have k6 := k5.mulR W hz (e' := 11 / 10 ^ 14) (m' := 21 / 10 ^ 5) (by norm_num) (by norm_num)
    exact k6.mulR W k4 (by norm_num) (by norm_num)
  generalize seriesC earthF z = C at *
  unfold nextLamFl
  generalize seriesCFl W f zf = Cf at *
  have l1 := (num 1 1 (by norm_num)).subR W hC (e' := 5 / 10 ^ 13) (m' := 1001 / 1000) (by norm_num) (by norm_num)
  have l2 := l1.mulR W hf (e' := 3 / 10 ^ 15) (m' := 337 / 10 ^ 5) (by norm_num) (by norm_num)
  have l3 := l2.mulR W hX (e' := 11 / 10 ^ 13) (m' := 337 / 10 ^ 5) (by norm_num) (by norm_num)
  have q1 := hc.sq M (e' := 21 / 10 ^ 7) (by norm_num)
  have q2 := (num (-1) 1 (by norm_num)).addR W ((num 2 2 (by norm_num)).mul one_pos q1) (e' := 43 / 10 ^ 7)
    (m' := 3) (by norm_num) (by norm_num)
  have q3 := hC.mulR W hT (e' := 7 / 10 ^ 13) (m' := 85 / 10 ^ 5) (by norm_num) (by norm_num)
  have q4 := q3.mulR W q2 (e' := 37 / 10 ^ 10) (m' := 256 / 10 ^ 5) (by norm_num) (by norm_num)
  have q5 := hc.addR W q4 (e' := 101 / 10 ^ 8) (m' := 1003 / 1000) (by norm_num) (by norm_num)
  have q6 := hC.mulR W hS (e' := 7 / 10 ^ 13) (m' := 85 / 10 ^ 5) (by norm_num) (by norm_num)
  have q7 := q5.mulR W q6 (e' := 87 / 10 ^ 11) (m' := 86 / 10 ^ 5) (by norm_num) (by norm_num)
  rw [mul_comm (_ + _), mul_comm (W.rnd (cf + _))] at q7
  have q8 := hs.addR W q7 (e' := 108 / 10 ^ 11) (m' := 1001 / 1000) (by norm_num) (by norm_num)
  have q9 := l3.mulR W q8 (e' := 48 / 10 ^ 13) (m' := 34 / 10 ^ 4) (by norm_num) (by norm_num)
  have ho' : Err L 0 2 om om := ⟨by simp, ho⟩
  exact (ho'.addR W q9 (e' := 5 / 10 ^ 12) (m' := 3) (by norm_num) (by norm_num)).1

/-- The length from the values of the last iteration, `s` the error of the angle. -/
theorem vincLengthFl_err (hL : 0 < L) {f s : ℝ} (hf : Err 1 (1 / 10 ^ 15) (1 / 298) earthF f) {st sf : VincState}
    (hz : Err 1 (1 / 10 ^ 8) 1 (cos st.alpha ^ 2) (cosSqFl M sf.alpha))
    (hS : Err L (2 / 10 ^ 8) 1 st.sinSigma sf.sinSigma) (hT : Err 1 (1 / 10 ^ 8) 1 st.cosSigma sf.cosSigma)
    (hq : Err 1 (1 / 10 ^ 8) 1 st.sqrSinSigma sf.sqrSinSigma)
    (hc : Err 1 (1 / 10 ^ 6) 1 st.cos2SigmaM sf.cos2SigmaM) (hs : Err L s 1 st.sigma sf.sigma)
    (hs1 : s ≤ 2 / 10 ^ 8) :
    |vincLengthFl W M f earthA sf - vincLength earthF earthA st| ≤ (644 * 10 ^ 4 * s + 125 / 10000) * L := by
  have hs0 := (hs.nonneg hL).1
  have h1 : Err 1 (2 / 10 ^ 15) (1004 / 1000) (1 - earthF) (W.rnd (1 - f)) :=
    (Err.const (m := 1) 1 (by norm_num)).subR W hf (by norm_num) (by norm_num)
  have hA : Err 1 0 6378137 earthA earthA := Err.const _ (by norm_num [earthA])
  have hb : Err 1 (2 / 10 ^ 8) 6410000 (earthA * (1 - earthF)) (W.rnd (earthA * W.rnd (1 - f))) :=
    hA.mulR W h1 (by norm_num) (by norm_num)
  unfold vincLengthFl vincLength
  simp only
  generalize W.rnd (earthA * W.rnd (1 - f)) = bf at *
  have hbb : Err 1 (3 / 10) (411 * 10 ^ 11) (earthA * (1 - earthF) * (earthA * (1 - earthF)))
      (W.rnd (bf * bf)) := hb.mulR W hb (by norm_num) (by norm_num)
  have haa : Err 1 (1 / 100) (41 * 10 ^ 12) (earthA * earthA) (W.rnd (earthA * earthA)) :=
    hA.mulR W hA (by norm_num) (by norm_num)
  have hd : Err 1 (4 / 10) (273 * 10 ^ 9) (earthA * earthA - earthA * (1 - earthF) * (earthA * (1 - earthF)))
      (W.rnd (W.rnd (earthA * earthA) - W.rnd (bf * bf))) :=
    (haa.subR W hbb (e' := 4 / 10) (by norm_num) le_rfl).mag (by
      rw [abs_le]; unfold earthA earthF; constructor <;> norm_num)
  have hzd : Err 1 2800 (273 * 10 ^ 9) _ (W.rnd (cosSqFl M sf.alpha * _)) :=
    hz.mulR W hd (by norm_num) (by norm_num)
  have hz1 := hz.2
  have hu : Err 1 (71 / 10 ^ 12) (676 / 10 ^ 5)
      (cos st.alpha ^ 2 * (earthA * earthA - earthA * (1 - earthF) * (earthA * (1 - earthF))) /
        (earthA * (1 - earthF) * (earthA * (1 - earthF)))) (u2Fl W earthA bf (cosSqFl M sf.alpha)) := by
    refine Err.rnd W (e := 705 / 10 ^ 13) (Err.div (L := 1) (K := 1) (d := 404 * 10 ^ 11) one_pos one_pos
      (by rw [mul_one]; exact hzd) hbb (by norm_num) ?_ (by norm_num) ?_ (by norm_num)) (by norm_num)
    · unfold earthA earthF; norm_num
    · rw [mul_one] at hz1 ⊢
      rw [abs_div, abs_mul, abs_of_pos (a := _ * _ * (_ * _)) (by unfold earthA earthF; norm_num),
        div_le_iff₀ (by unfold earthA earthF; norm_num)]
      calc _ ≤ 1 * |earthA * earthA - earthA * (1 - earthF) * (earthA * (1 - earthF))| := by gcongr
        _ ≤ _ := by
          rw [abs_of_pos (by unfold earthA earthF; norm_num)]
          unfold earthA earthF; norm_num
  generalize u2Fl W earthA bf (cosSqFl M sf.alpha) = uf at *
  generalize cos st.alpha ^ 2 * (earthA * earthA - earthA * (1 - earthF) * (earthA * (1 - earthF))) /
    (earthA * (1 - earthF) * (earthA * (1 - earthF))) = u at *
  have num : ∀ (c m : ℝ), |c| ≤ m → Err 1 0 m c c := fun c m h => Err.const c h
  -- A
  have hAs : Err 1 (2 / 10 ^ 11) (1002 / 1000) (1 + (u / 16384) * (4096 + u * (-768 + u * (320 - 175 * u))))
      (seriesAFl W uf) := by
    have k1 := (num 175 175 (by norm_num)).mulR W hu (e' := 13 / 10 ^ 9) (m' := 12 / 10) (by norm_num) (by norm_num)
    have k2 := (num 320 320 (by norm_num)).subR W k1 (e' := 14 / 10 ^ 9) (m' := 322) (by norm_num) (by norm_num)
    have k3 := hu.mulR W k2 (e' := 25 / 10 ^ 9) (m' := 22 / 10) (by norm_num) (by norm_num)
    have k4 := (num (-768) 768 (by norm_num)).addR W k3 (e' := 26 / 10 ^ 9) (m' := 771) (by norm_num) (by norm_num)
    have k5 := hu.mulR W k4 (e' := 56 / 10 ^ 9) (m' := 53 / 10) (by norm_num) (by norm_num)
    have k6 := (num 4096 4096 (by norm_num)).addR W k5 (e' := 58 / 10 ^ 9) (m' := 4102) (by norm_num) (by norm_num)
    have k7 := hu.divcR W (c := 16384) (by norm_num) (e' := 44 / 10 ^ 16) (m' := 42 / 10 ^ 8) (by norm_num)
      (by norm_num)
    have k8 := k7.mulR W k6 (e' := 19 / 10 ^ 12) (m' := 18 / 10 ^ 4) (by norm_num) (by norm_num)
    exact (num 1 1 (by norm_num)).addR W k8 (by norm_num) (by norm_num)
  have hBs : Err 1 (19 / 10 ^ 12) (174 / 10 ^ 5) ((u / 1024) * (256 + u * (-128 + u * (74 - 47 * u))))
      (seriesBFl W uf) := by
    have k1 := (num 47 47 (by norm_num)).mulR W hu (e' := 34 / 10 ^ 10) (m' := 32 / 100) (by norm_num) (by norm_num)
    have k2 := (num 74 74 (by norm_num)).subR W k1 (e' := 35 / 10 ^ 10) (m' := 744 / 10) (by norm_num) (by norm_num)
    have k3 := hu.mulR W k2 (e' := 54 / 10 ^ 10) (m' := 51 / 100) (by norm_num) (by norm_num)
    have k4 := (num (-128) 128 (by norm_num)).addR W k3 (e' := 55 / 10 ^ 10) (m' := 1286 / 10) (by norm_num)
      (by norm_num)
    have k5 := hu.mulR W k4 (e' := 93 / 10 ^ 10) (m' := 88 / 100) (by norm_num) (by norm_num)
    have k6 := (num 256 256 (by norm_num)).addR W k5 (e' := 94 / 10 ^ 10) (m' := 257) (by norm_num) (by norm_num)
    have k7 := hu.divcR W (c := 1024) (by norm_num) (e' := 7 / 10 ^ 14) (m' := 67 / 10 ^ 7) (by norm_num)
      (by norm_num)
    exact k7.mulR W k6 (by norm_num) (by norm_num)
  generalize seriesAFl W uf = Af at *
  generalize seriesBFl W uf = Bf at *
  generalize 1 + (u / 16384) * (4096 + u * (-768 + u * (320 - 175 * u))) = A at *
  generalize (u / 1024) * (256 + u * (-128 + u * (74 - 47 * u))) = B at *
  have hδ : Err L (185 / 10 ^ 11) (175 / 10 ^ 5) (B * st.sinSigma * (st.cos2SigmaM + (B / 4) *
      (st.cosSigma * (-1 + 2 * st.cos2SigmaM ^ 2) -
        (B / 6) * st.cos2SigmaM * (-3 + 4 * st.sqrSinSigma) * (-3 + 4 * st.cos2SigmaM ^ 2))))
      (deltaSigmaFl W M Bf sf.sinSigma sf.cosSigma sf.sqrSinSigma sf.cos2SigmaM) := by
    have k1 := hBs.mulR W hS (e' := 55 / 10 ^ 12) (m' := 174 / 10 ^ 5) (by norm_num) (by norm_num)
    have k2 := hc.sq M (e' := 21 / 10 ^ 7) (by norm_num)
    have k3 := (num (-1) 1 (by norm_num)).addR W ((num 2 2 (by norm_num)).mul one_pos k2) (e' := 43 / 10 ^ 7)
      (m' := 3) (by norm_num) (by norm_num)
    have k4 := hT.mulR W k3 (e' := 44 / 10 ^ 7) (m' := 3) (by norm_num) (by norm_num)
    have k5 := hBs.divcR W (c := 6) (by norm_num) (e' := 32 / 10 ^ 13) (m' := 29 / 10 ^ 5) (by norm_num)
      (by norm_num)
    have k6 := k5.mulR W hc (e' := 59 / 10 ^ 11) (m' := 29 / 10 ^ 5) (by norm_num) (by norm_num)
    have k7 := (num (-3) 3 (by norm_num)).addR W ((num 4 4 (by norm_num)).mul one_pos hq) (e' := 41 / 10 ^ 9)
      (m' := 7) (by norm_num) (by norm_num)
    have k8 := k6.mulR W k7 (e' := 42 / 10 ^ 10) (m' := 21 / 10 ^ 4) (by norm_num) (by norm_num)
    have k9 := (num (-3) 3 (by norm_num)).addR W ((num 4 4 (by norm_num)).mul one_pos k2) (e' := 86 / 10 ^ 7)
      (m' := 7) (by norm_num) (by norm_num)
    have k10 := k8.mulR W k9 (e' := 7 / 10 ^ 8) (m' := 15 / 10 ^ 3) (by norm_num) (by norm_num)
    have k11 := k4.subR W k10 (e' := 45 / 10 ^ 7) (m' := 302 / 100) (by norm_num) (by norm_num)
    have k12 := hBs.divcR W (c := 4) (by norm_num) (e' := 48 / 10 ^ 13) (m' := 44 / 10 ^ 5) (by norm_num)
      (by norm_num)
    have k13 := k12.mulR W k11 (e' := 21 / 10 ^ 10) (m' := 14 / 10 ^ 4) (by norm_num) (by norm_num)
    have k14 := hc.addR W k13 (e' := 1003 / 10 ^ 9) (m' := 1002 / 1000) (by norm_num) (by norm_num)
    have k15 := k14.mulR W k1 (e' := 185 / 10 ^ 11) (m' := 175 / 10 ^ 5) (by norm_num) (by norm_num)
    rw [mul_comm (_ + _), mul_comm (W.rnd (_ + _))] at k15
    exact k15
  have k1 := hs.subR W hδ (e' := s + 186 / 10 ^ 11) (m' := 1002 / 1000) (by linarith) (by norm_num)
  have k2 := hb.mulR W hAs (e' := 15 / 10 ^ 5) (m' := 643 * 10 ^ 4) (by norm_num) (by norm_num)
  exact (k2.mulR W k1 (e' := 644 * 10 ^ 4 * s + 125 / 10000) (m' := 645 * 10 ^ 4) (by norm_num; linarith)
    (by norm_num)).1

end WindMult
