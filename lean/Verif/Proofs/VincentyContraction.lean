import Verif.Proofs.VincentyParallel
import Mathlib.Analysis.Calculus.MeanValue
import Mathlib.Analysis.SpecialFunctions.Trigonometric.InverseDeriv
import Mathlib.Analysis.SpecialFunctions.Trigonometric.Bounds
import Mathlib.Analysis.SpecialFunctions.Sqrt

/-!
# The iteration of Vincenty's inverse formula is a contraction

for points less than about 146° of longitude apart.
-/

set_option autoImplicit false

namespace WindMult
open Real

/-- A bound on a function and on `s` times its derivative. -/
structure Nice (s x : ℝ) (g : ℝ → ℝ) (B D : ℝ) : Prop where
  val : |g x| ≤ B
  der : ∃ d, HasDerivAt g d x ∧ |s * d| ≤ D

theorem Nice.mono {s x B D B' D' : ℝ} {g : ℝ → ℝ} (h : Nice s x g B D) (hB : B ≤ B') (hD : D ≤ D') :
    Nice s x g B' D' :=
  ⟨h.val.trans hB, by obtain ⟨d, h1, h2⟩ := h.der; exact ⟨d, h1, h2.trans hD⟩⟩

theorem Nice.const (s x c : ℝ) : Nice s x (fun _ => c) |c| 0 :=
  ⟨le_rfl, 0, hasDerivAt_const x c, by simp⟩

theorem Nice.mul {s x B D B' D' : ℝ} {g g' : ℝ → ℝ} (h : Nice s x g B D) (h' : Nice s x g' B' D') :
    Nice s x (fun y => g y * g' y) (B * B') (D * B' + B * D') := by
  obtain ⟨d, e1, e2⟩ := h.der
  obtain ⟨d', e1', e2'⟩ := h'.der
  have hB := (abs_nonneg _).trans h.val
  have hB' := (abs_nonneg _).trans h'.val
  refine ⟨?_, _, e1.mul e1', ?_⟩
  · rw [abs_mul]; exact mul_le_mul h.val h'.val (abs_nonneg _) hB
  · calc |s * (d * g' x + g x * d')| = |(s * d) * g' x + g x * (s * d')| := by congr 1; ring
      _ ≤ |s * d| * |g' x| + |g x| * |s * d'| := by
        refine (abs_add_le _ _).trans ?_; rw [abs_mul (s * d), abs_mul (g x)]
      _ ≤ D * B' + B * D' := by
        have hD := (abs_nonneg _).trans e2
        have := h.val
        have := h'.val
        gcongr

theorem Nice.add {s x B D B' D' : ℝ} {g g' : ℝ → ℝ} (h : Nice s x g B D) (h' : Nice s x g' B' D') :
    Nice s x (fun y => g y + g' y) (B + B') (D + D') := by
  obtain ⟨d, e1, e2⟩ := h.der
  obtain ⟨d', e1', e2'⟩ := h'.der
  refine ⟨(abs_add_le _ _).trans (add_le_add h.val h'.val), _, e1.add e1', ?_⟩
  rw [mul_add]
  exact (abs_add_le _ _).trans (add_le_add e2 e2')

theorem Nice.sub {s x B D B' D' : ℝ} {g g' : ℝ → ℝ} (h : Nice s x g B D) (h' : Nice s x g' B' D') :
    Nice s x (fun y => g y - g' y) (B + B') (D + D') := by
  obtain ⟨d, e1, e2⟩ := h.der
  obtain ⟨d', e1', e2'⟩ := h'.der
  refine ⟨(abs_sub _ _).trans (add_le_add h.val h'.val), _, e1.sub e1', ?_⟩
  rw [mul_sub]
  exact (abs_sub _ _).trans (add_le_add e2 e2')

/-! ### The sphere -/

section
variable {U1 U2 lam : ℝ}

theorem vSqr_pos (h2 : 0 < cos U2) (h0 : 0 < lam) (h1 : lam < π) : 0 < vSqr U1 U2 lam := by
  have := mul_pos h2 (sin_pos_of_pos_of_lt_pi h0 h1)
  unfold vSqr
  positivity

/-- The points are not nearly antipodal. -/
theorem not_antipodal (h1 : 0 < cos U1) (h2 : 0 < cos U2) (hl0 : 0 < lam) (hl1 : lam < π)
    (hc : -(5 / 6) ≤ cos lam) :
    cos U1 * cos U2 * arccos (vCos U1 U2 lam) ≤ 6 * π * sqrt (vSqr U1 U2 lam) ∧
    |vSinAlpha U1 U2 lam| * arccos (vCos U1 U2 lam) ≤ 6 * π * sqrt (vSqr U1 U2 lam) := by
  have hpi := pi_pos
  have hss := sin_vSigma U1 U2 lam
  have hcs := cos_vSigma U1 U2 lam
  have hs0 : 0 < sqrt (vSqr U1 U2 lam) := sqrt_pos.mpr (vSqr_pos h2 hl0 hl1)
  have hs2 : sqrt (vSqr U1 U2 lam) ^ 2 = 1 - vCos U1 U2 lam ^ 2 := by
    rw [sq_sqrt (vSqr_nonneg _ _ _), vSqr_eq]
  have hs1 : sqrt (vSqr U1 U2 lam) ≤ 1 := by rw [← hss]; exact sin_le_one _
  have hX := abs_sinAlpha_le U1 U2 lam
  have hsig0 := arccos_nonneg (vCos U1 U2 lam)
  have hsig1 := arccos_le_pi (vCos U1 U2 lam)
  have hc1 := cos_le_one U1
  have hc2 := cos_le_one U2
  have hcc : cos U1 * cos U2 ≤ 1 := by nlinarith
  rcases le_total 0 (vCos U1 U2 lam) with hn | hn
  · have hj : 2 / π * arccos (vCos U1 U2 lam) ≤ sqrt (vSqr U1 U2 lam) := by
      rw [← hss]
      exact mul_le_sin hsig0 (arccos_le_pi_div_two.mpr hn)
    have hj' : arccos (vCos U1 U2 lam) ≤ 6 * π * sqrt (vSqr U1 U2 lam) := by
      have e : arccos (vCos U1 U2 lam) = π / 2 * (2 / π * arccos (vCos U1 U2 lam)) := by field_simp
      rw [e]
      calc π / 2 * (2 / π * arccos (vCos U1 U2 lam)) ≤ π / 2 * sqrt (vSqr U1 U2 lam) := by gcongr
        _ ≤ _ := by gcongr; linarith
    exact ⟨(mul_le_of_le_one_left hsig0 hcc).trans hj', (mul_le_of_le_one_left hsig0 hX).trans hj'⟩
  · have hg : cos U1 * cos U2 ≤ 6 * sqrt (vSqr U1 U2 lam) ^ 2 := by
      have h3 : cos U1 * cos U2 ≤ 1 + sin U1 * sin U2 := by
        have := cos_le_one (U1 + U2)
        rw [cos_add] at this
        linarith
      have h4 : cos U1 * cos U2 * (1 / 6) ≤ 1 + vCos U1 U2 lam := by
        unfold vCos
        have : cos U1 * cos U2 * -(5 / 6) ≤ cos U1 * cos U2 * cos lam := by gcongr
        linarith
      have h5 : 1 + vCos U1 U2 lam ≤ 1 - vCos U1 U2 lam ^ 2 := by
        have := (vCos_mem U1 U2 lam).1
        nlinarith
      linarith
    constructor
    · calc cos U1 * cos U2 * arccos (vCos U1 U2 lam) ≤ 6 * sqrt (vSqr U1 U2 lam) ^ 2 * π := by gcongr
        _ = 6 * π * (sqrt (vSqr U1 U2 lam) * sqrt (vSqr U1 U2 lam)) := by ring
        _ ≤ 6 * π * (1 * sqrt (vSqr U1 U2 lam)) := by gcongr
        _ = _ := by ring
    · have hX2 : |vSinAlpha U1 U2 lam| ≤ 6 * sqrt (vSqr U1 U2 lam) := by
        unfold vSinAlpha
        rw [abs_div, abs_of_pos hs0, div_le_iff₀ hs0, abs_mul, abs_of_pos (mul_pos h1 h2)]
        calc cos U1 * cos U2 * |sin lam| ≤ (6 * sqrt (vSqr U1 U2 lam) ^ 2) * 1 := by
              gcongr
              exact abs_sin_le_one _
          _ = _ := by ring
      calc |vSinAlpha U1 U2 lam| * arccos (vCos U1 U2 lam) ≤ 6 * sqrt (vSqr U1 U2 lam) * π := by gcongr
        _ = _ := by ring

theorem hasDerivAt_vCos : HasDerivAt (vCos U1 U2) (-(cos U1 * cos U2 * sin lam)) lam := by
  have h := ((hasDerivAt_cos lam).const_mul (cos U1 * cos U2)).const_add (sin U1 * sin U2)
  rw [mul_neg] at h
  exact h

theorem hasDerivAt_sigma (h : 0 < vSqr U1 U2 lam) :
    HasDerivAt (fun x => arccos (vCos U1 U2 x)) (vSinAlpha U1 U2 lam) lam := by
  rw [vSqr_eq] at h
  have h1 : vCos U1 U2 lam ≠ -1 := by intro e; rw [e] at h; norm_num at h
  have h2 : vCos U1 U2 lam ≠ 1 := by intro e; rw [e] at h; norm_num at h
  have := (hasDerivAt_arccos h1 h2).comp lam (hasDerivAt_vCos (U1 := U1) (U2 := U2))
  refine HasDerivAt.congr_deriv this ?_
  unfold vSinAlpha
  rw [vSqr_eq]
  ring

theorem hasDerivAt_sinSigma (h : 0 < vSqr U1 U2 lam) :
    HasDerivAt (fun x => sqrt (vSqr U1 U2 x)) (vCos U1 U2 lam * vSinAlpha U1 U2 lam) lam := by
  have h1 : HasDerivAt (vSqr U1 U2) (2 * vCos U1 U2 lam * (cos U1 * cos U2 * sin lam)) lam := by
    have := ((hasDerivAt_vCos (U1 := U1) (U2 := U2) (lam := lam)).pow 2).const_sub 1
    have e : vSqr U1 U2 = fun x => 1 - vCos U1 U2 x ^ 2 := by funext x; exact vSqr_eq _ _ _
    rw [e]
    refine HasDerivAt.congr_deriv this ?_
    norm_num
  refine (h1.sqrt h.ne').congr_deriv ?_
  unfold vSinAlpha
  have := sqrt_pos.mpr h
  field_simp

theorem hasDerivAt_vSinAlpha (h : 0 < vSqr U1 U2 lam) :
    HasDerivAt (vSinAlpha U1 U2) ((cos U1 * cos U2 * cos lam - vSinAlpha U1 U2 lam ^ 2 * vCos U1 U2 lam) /
      sqrt (vSqr U1 U2 lam)) lam := by
  have hs := sqrt_pos.mpr h
  have h1 := (hasDerivAt_sin lam).const_mul (cos U1 * cos U2)
  refine HasDerivAt.congr_deriv (h1.div (hasDerivAt_sinSigma h) hs.ne') ?_
  have e : cos U1 * cos U2 * sin lam = vSinAlpha U1 U2 lam * sqrt (vSqr U1 U2 lam) := by
    unfold vSinAlpha; field_simp
  rw [e]
  field_simp

/-! ### The series -/

noncomputable def vQ (U1 U2 lam : ℝ) : ℝ := 1 - vSinAlpha U1 U2 lam * vSinAlpha U1 U2 lam

noncomputable def vK (f U1 U2 lam : ℝ) : ℝ := f / 16 * (4 + f * (4 - 3 * vQ U1 U2 lam))

noncomputable def vW (U1 U2 lam : ℝ) : ℝ := vQ U1 U2 lam * vCos U1 U2 lam - 2 * sin U1 * sin U2

noncomputable def vZ (f U1 U2 lam : ℝ) : ℝ :=
  vK f U1 U2 lam * vW U1 U2 lam + vCos U1 U2 lam *
    (2 * ((vK f U1 U2 lam * vW U1 U2 lam) * (vK f U1 U2 lam * vW U1 U2 lam)) -
      (vK f U1 U2 lam * vQ U1 U2 lam) * (vK f U1 U2 lam * vQ U1 U2 lam))

noncomputable def vG (f U1 U2 lam : ℝ) : ℝ :=
  (1 - vK f U1 U2 lam * vQ U1 U2 lam) * (vSinAlpha U1 U2 lam * arccos (vCos U1 U2 lam) +
    cos U1 * cos U2 * sin lam * vZ f U1 U2 lam)

theorem vNext_eq_vG (f omega : ℝ) (h : 0 < vSqr U1 U2 lam) :
    vNext f omega U1 U2 lam = omega + f * vG f U1 U2 lam := by
  have hs := sqrt_pos.mpr h
  have e : cos U1 * cos U2 * sin lam = vSinAlpha U1 U2 lam * sqrt (vSqr U1 U2 lam) := by
    unfold vSinAlpha; field_simp
  have hq : cos (arcsin (vSinAlpha U1 U2 lam)) ^ 2 = vQ U1 U2 lam := by
    rw [cosSq_vAlpha]; unfold vQ; ring
  have hC : vC f U1 U2 lam = vK f U1 U2 lam * vQ U1 U2 lam := by
    unfold vC vK; rw [hq]; ring
  have hw : vQ U1 U2 lam * vCos2 U1 U2 lam = vW U1 U2 lam := by
    unfold vCos2 vW
    rw [hq]
    by_cases h0 : vQ U1 U2 lam = 0
    · obtain ⟨h1, h2⟩ := equator_of_cosAlpha U1 U2 lam (pow_eq_zero_iff two_ne_zero |>.mp (hq.trans h0))
      rw [h0, h1, h2]; ring
    · field_simp
  unfold vNext vG vZ
  rw [e, hC, ← hw]
  ring

theorem nice_parts {f : ℝ} (hf0 : 0 ≤ f) (hf1 : f ≤ 1 / 200) (h : 0 < vSqr U1 U2 lam) :
    Nice (sqrt (vSqr U1 U2 lam)) lam (fun x => 1 - vK f U1 U2 x * vQ U1 U2 x) (601 / 600) (1 / 100) ∧
    Nice (sqrt (vSqr U1 U2 lam)) lam (vZ f U1 U2) (1 / 100) (1 / 50) := by
  have hs := sqrt_pos.mpr h
  have hs1 : sqrt (vSqr U1 U2 lam) ≤ 1 := by rw [← sin_vSigma]; exact sin_le_one _
  have hc1 := abs_cos_le_one U1
  have hc2 := abs_cos_le_one U2
  have hX1 := abs_sinAlpha_le U1 U2 lam
  have hcos : |vCos U1 U2 lam| ≤ 1 := abs_le.mpr (vCos_mem U1 U2 lam)
  have hX : Nice (sqrt (vSqr U1 U2 lam)) lam (vSinAlpha U1 U2) 1 2 := by
    refine ⟨hX1, _, hasDerivAt_vSinAlpha h, ?_⟩
    rw [mul_div_cancel₀ _ hs.ne']
    refine (abs_sub _ _).trans ?_
    rw [abs_mul, abs_mul, abs_mul, abs_pow]
    have h1 : |cos U1| * |cos U2| * |cos lam| ≤ 1 * 1 * 1 := by
      gcongr; exact abs_cos_le_one lam
    have h2 : |vSinAlpha U1 U2 lam| ^ 2 * |vCos U1 U2 lam| ≤ 1 ^ 2 * 1 := by gcongr
    linarith
  have hcs : Nice (sqrt (vSqr U1 U2 lam)) lam (vCos U1 U2) 1 1 := by
    refine ⟨hcos, _, hasDerivAt_vCos, ?_⟩
    rw [abs_mul, abs_neg, abs_mul, abs_mul, abs_of_pos hs]
    calc sqrt (vSqr U1 U2 lam) * (|cos U1| * |cos U2| * |sin lam|) ≤ 1 * (1 * 1 * 1) := by
          gcongr; exact abs_sin_le_one lam
      _ = 1 := by norm_num
  have hq : Nice (sqrt (vSqr U1 U2 lam)) lam (vQ U1 U2) 1 4 := by
    have := (Nice.const (sqrt (vSqr U1 U2 lam)) lam 1).sub (hX.mul hX)
    refine ⟨?_, ?_⟩
    · unfold vQ
      have h2 : vSinAlpha U1 U2 lam * vSinAlpha U1 U2 lam ≤ 1 := by
        rw [← abs_mul_abs_self]; nlinarith [abs_nonneg (vSinAlpha U1 U2 lam)]
      rw [abs_le]
      constructor <;> nlinarith [mul_self_nonneg (vSinAlpha U1 U2 lam)]
    · exact (this.mono le_rfl (by norm_num)).der
  have hk : Nice (sqrt (vSqr U1 U2 lam)) lam (vK f U1 U2) (1 / 600) (1 / 1000) := by
    have h1 := (Nice.const (sqrt (vSqr U1 U2 lam)) lam (f / 16)).mul
      ((Nice.const (sqrt (vSqr U1 U2 lam)) lam 4).add ((Nice.const (sqrt (vSqr U1 U2 lam)) lam f).mul
        ((Nice.const (sqrt (vSqr U1 U2 lam)) lam 4).sub
          ((Nice.const (sqrt (vSqr U1 U2 lam)) lam 3).mul hq))))
    have e1 : |f| = f := abs_of_nonneg hf0
    have e2 : |f / 16| = f / 16 := abs_of_nonneg (by linarith)
    have e3 : |(4 : ℝ)| = 4 := abs_of_pos (by norm_num)
    have e4 : |(3 : ℝ)| = 3 := abs_of_pos (by norm_num)
    rw [e1, e2, e3, e4] at h1
    refine h1.mono ?_ ?_
    · have : f * f ≤ 1 / 200 * (1 / 200) := by gcongr
      linarith
    · have : f * f ≤ 1 / 200 * (1 / 200) := by gcongr
      linarith
  have hC : Nice (sqrt (vSqr U1 U2 lam)) lam (fun x => vK f U1 U2 x * vQ U1 U2 x) (1 / 600) (1 / 100) :=
    (hk.mul hq).mono (by norm_num) (by norm_num)
  have hss : |2 * sin U1 * sin U2| ≤ 2 := by
    rw [abs_mul, abs_mul, abs_of_pos (by norm_num : (0 : ℝ) < 2)]
    calc 2 * |sin U1| * |sin U2| ≤ 2 * 1 * 1 := by gcongr <;> exact abs_sin_le_one _
      _ = 2 := by norm_num
  have hw : Nice (sqrt (vSqr U1 U2 lam)) lam (vW U1 U2) 3 5 :=
    ((hq.mul hcs).sub (Nice.const _ lam (2 * sin U1 * sin U2))).mono (by linarith) (by norm_num)
  have hkw : Nice (sqrt (vSqr U1 U2 lam)) lam (fun x => vK f U1 U2 x * vW U1 U2 x) (1 / 200) (1 / 80) :=
    (hk.mul hw).mono (by norm_num) (by norm_num)
  refine ⟨((Nice.const _ lam 1).sub hC).mono (by norm_num) (by norm_num), ?_⟩
  have e2 : |(2 : ℝ)| = 2 := abs_of_pos (by norm_num)
  have := hkw.add (hcs.mul (((Nice.const _ lam 2).mul (hkw.mul hkw)).sub (hC.mul hC)))
  rw [e2] at this
  exact this.mono (by norm_num) (by norm_num)

/-- The correction changes slowly. -/
theorem vG_der {f : ℝ} (hf0 : 0 ≤ f) (hf1 : f ≤ 1 / 200) (h1 : 0 < cos U1) (h2 : 0 < cos U2)
    (hl0 : 0 < lam) (hl1 : lam < π) (hc : -(5 / 6) ≤ cos lam) :
    ∃ d, HasDerivAt (vG f U1 U2) d lam ∧ |d| ≤ 40 := by
  have h := vSqr_pos (U1 := U1) h2 hl0 hl1
  have hs := sqrt_pos.mpr h
  obtain ⟨n1, n2⟩ := not_antipodal h1 h2 hl0 hl1 hc
  obtain ⟨⟨a1, dC, a2, a3⟩, ⟨b1, dZ, b2, b3⟩⟩ := nice_parts hf0 hf1 h
  have hX1 := abs_sinAlpha_le U1 U2 lam
  have hcos : |vCos U1 U2 lam| ≤ 1 := abs_le.mpr (vCos_mem U1 U2 lam)
  have hP : HasDerivAt (fun x => cos U1 * cos U2 * sin x) (cos U1 * cos U2 * cos lam) lam :=
    (hasDerivAt_sin lam).const_mul _
  have e : cos U1 * cos U2 * sin lam = vSinAlpha U1 U2 lam * sqrt (vSqr U1 U2 lam) := by
    unfold vSinAlpha; field_simp
  have hd := a2.mul (((hasDerivAt_vSinAlpha h).mul (hasDerivAt_sigma h)).add (hP.mul b2))
  refine ⟨_, hd, ?_⟩
  simp only [Pi.mul_apply, Pi.add_apply]
  rw [e]
  have hcc : |cos U1 * cos U2 * cos lam| ≤ cos U1 * cos U2 := by
    rw [abs_mul, abs_of_pos (mul_pos h1 h2)]
    exact mul_le_of_le_one_right (mul_pos h1 h2).le (abs_cos_le_one _)
  have hcc1 : cos U1 * cos U2 ≤ 1 := by nlinarith [cos_le_one U1, cos_le_one U2]
  have hsig0 := arccos_nonneg (vCos U1 U2 lam)
  have hpi : π ≤ 315 / 100 := by linarith [pi_lt_d2]
  generalize 1 - vK f U1 U2 lam * vQ U1 U2 lam = C at *
  generalize vZ f U1 U2 lam = Z at *
  generalize vSinAlpha U1 U2 lam = X at *
  generalize cos U1 * cos U2 * cos lam = P' at *
  generalize cos U1 * cos U2 = cc at *
  generalize arccos (vCos U1 U2 lam) = sg at *
  generalize vCos U1 U2 lam = cs at *
  generalize sqrt (vSqr U1 U2 lam) = ss at *
  -- first summand
  have t1 : |X * sg + X * ss * Z| ≤ 19 * ss := by
    refine (abs_add_le _ _).trans ?_
    rw [abs_mul, abs_mul, abs_mul, abs_of_pos hs, abs_of_nonneg hsig0]
    have g1 : |X| * ss * |Z| ≤ 1 * ss * (1 / 100) := by gcongr
    have g2 : 6 * π * ss ≤ 6 * (315 / 100) * ss := by gcongr
    linarith
  have t2 : |dC * (X * sg + X * ss * Z)| ≤ 19 / 100 := by
    rw [abs_mul, abs_of_pos hs] at a3
    rw [abs_mul]
    calc |dC| * |X * sg + X * ss * Z| ≤ |dC| * (19 * ss) := by gcongr
      _ = 19 * (ss * |dC|) := by ring
      _ ≤ 19 * (1 / 100) := by gcongr
      _ = _ := by norm_num
  have t3 : |(P' - X ^ 2 * cs) / ss * sg| ≤ 378 / 10 := by
    rw [abs_mul, abs_div, abs_of_pos hs, abs_of_nonneg hsig0, div_mul_eq_mul_div, div_le_iff₀ hs]
    have g1 : |P' - X ^ 2 * cs| ≤ cc + |X| := by
      refine (abs_sub _ _).trans ?_
      rw [abs_mul, abs_pow]
      have : |X| ^ 2 * |cs| ≤ |X| * 1 := by
        rw [pow_two]
        have := mul_le_mul hX1 hcos (abs_nonneg _) zero_le_one
        calc |X| * |X| * |cs| = |X| * (|X| * |cs|) := by ring
          _ ≤ |X| * 1 := by gcongr; linarith
      linarith
    have g2 : 6 * π * ss ≤ 6 * (315 / 100) * ss := by gcongr
    calc |P' - X ^ 2 * cs| * sg ≤ (cc + |X|) * sg := by gcongr
      _ = cc * sg + |X| * sg := by ring
      _ ≤ _ := by linarith
  have t4 : |X * X| ≤ 1 := by
    rw [abs_mul]; nlinarith [abs_nonneg X]
  have t5 : |P' * Z| ≤ 1 / 100 := by
    rw [abs_mul]
    calc |P'| * |Z| ≤ 1 * (1 / 100) := by gcongr; linarith
      _ = _ := by norm_num
  have t6 : |X * ss * dZ| ≤ 1 / 50 := by
    rw [mul_assoc, abs_mul]
    calc |X| * |ss * dZ| ≤ 1 * (1 / 50) := by gcongr
      _ = _ := by norm_num
  have t7 : |(P' - X ^ 2 * cs) / ss * sg + X * X + (P' * Z + X * ss * dZ)| ≤ 3884 / 100 := by
    refine (abs_add_le _ _).trans ?_
    have := abs_add_le ((P' - X ^ 2 * cs) / ss * sg) (X * X)
    have := abs_add_le (P' * Z) (X * ss * dZ)
    linarith
  refine (abs_add_le _ _).trans ?_
  rw [abs_mul C]
  have : |C| * |(P' - X ^ 2 * cs) / ss * sg + X * X + (P' * Z + X * ss * dZ)| ≤
      601 / 600 * (3884 / 100) := by gcongr
  linarith

/-- The correction is small for points of nearly the same longitude. -/
theorem vG_le {f : ℝ} (hf0 : 0 ≤ f) (hf1 : f ≤ 1 / 200) (h1 : 0 < cos U1) (h2 : 0 < cos U2)
    (hl0 : 0 < lam) (hl1 : lam < π) (hc : -(5 / 6) ≤ cos lam) : |vG f U1 U2 lam| ≤ 20 * lam := by
  have h := vSqr_pos (U1 := U1) h2 hl0 hl1
  have hs := sqrt_pos.mpr h
  obtain ⟨n1, -⟩ := not_antipodal h1 h2 hl0 hl1 hc
  obtain ⟨⟨a1, -⟩, ⟨b1, -⟩⟩ := nice_parts hf0 hf1 h
  have hcc1 : cos U1 * cos U2 ≤ 1 := by nlinarith [cos_le_one U1, cos_le_one U2]
  have hcc0 := mul_pos h1 h2
  have hsin := sin_pos_of_pos_of_lt_pi hl0 hl1
  have hsin1 := sin_le hl0.le
  have hsig0 := arccos_nonneg (vCos U1 U2 lam)
  have hpi : π ≤ 315 / 100 := by linarith [pi_lt_d2]
  have t1 : |vSinAlpha U1 U2 lam * arccos (vCos U1 U2 lam)| ≤ 189 / 10 * lam := by
    unfold vSinAlpha
    rw [abs_of_nonneg (by positivity), div_mul_eq_mul_div, div_le_iff₀ hs]
    calc cos U1 * cos U2 * sin lam * arccos (vCos U1 U2 lam)
        = cos U1 * cos U2 * arccos (vCos U1 U2 lam) * sin lam := by ring
      _ ≤ (6 * π * sqrt (vSqr U1 U2 lam)) * lam := by gcongr
      _ ≤ (6 * (315 / 100) * sqrt (vSqr U1 U2 lam)) * lam := by gcongr
      _ = _ := by ring
  have t2 : |cos U1 * cos U2 * sin lam * vZ f U1 U2 lam| ≤ 1 / 100 * lam := by
    rw [abs_mul, abs_of_pos (by positivity)]
    calc cos U1 * cos U2 * sin lam * |vZ f U1 U2 lam| ≤ 1 * lam * (1 / 100) := by gcongr
      _ = _ := by ring
  unfold vG
  rw [abs_mul]
  calc _ ≤ 601 / 600 * (189 / 10 * lam + 1 / 100 * lam) := by
        gcongr
        exact (abs_add_le _ _).trans (add_le_add t1 t2)
    _ ≤ _ := by linarith

end

/-- The range of longitudes. -/
theorem cos_ge_of_le {lam : ℝ} (h0 : 0 ≤ lam) (h1 : lam ≤ 51 / 20) : -(5 / 6) ≤ cos lam := by
  have hp := pi_gt_d2
  have hp' := pi_lt_d2
  have e1 : cos (51 / 20) ≤ cos lam := cos_le_cos_of_nonneg_of_le_pi h0 (by linarith) h1
  have e2 : cos (51 / 20) = -cos (π - 51 / 20) := by rw [cos_pi_sub, neg_neg]
  have e3 : cos (π - 51 / 20) ≤ cos (59 / 100) :=
    cos_le_cos_of_nonneg_of_le_pi (by norm_num) (by linarith) (by linarith)
  have e4 := (abs_le.mp (cos_bound (x := 59 / 100) (by rw [abs_of_pos] <;> norm_num))).2
  rw [abs_of_pos (by norm_num)] at e4
  norm_num at e4
  linarith

/-- The iteration contracts. -/
theorem vNext_contracts_all {f omega U1 U2 x y : ℝ} (hf0 : 0 ≤ f) (hf1 : f ≤ 1 / 200)
    (h1 : 0 < cos U1) (h2 : 0 < cos U2) (hx0 : 0 < x) (hx1 : x ≤ 51 / 20) (hy0 : 0 < y)
    (hy1 : y ≤ 51 / 20) :
    |vNext f omega U1 U2 x - vNext f omega U1 U2 y| ≤ 1 / 5 * |x - y| := by
  have hpi := pi_gt_three
  have hd : ∀ z ∈ Set.Ioc (0 : ℝ) (51 / 20), ∃ d, HasDerivAt (vG f U1 U2) d z ∧ |d| ≤ 40 := fun z hz =>
    vG_der hf0 hf1 h1 h2 hz.1 (by linarith [hz.2]) (cos_ge_of_le hz.1.le hz.2)
  choose! g hg hb using hd
  have := Convex.norm_image_sub_le_of_norm_hasDerivWithin_le
    (fun z hz => (hg z hz).hasDerivWithinAt) (fun z hz => hb z hz) (convex_Ioc (0 : ℝ) (51 / 20))
    ⟨hy0, hy1⟩ ⟨hx0, hx1⟩
  rw [norm_eq_abs, norm_eq_abs] at this
  rw [vNext_eq_vG f omega (vSqr_pos h2 hx0 (by linarith)),
    vNext_eq_vG f omega (vSqr_pos h2 hy0 (by linarith)), add_sub_add_left_eq_sub, ← mul_sub, abs_mul,
    abs_of_nonneg hf0]
  calc f * |vG f U1 U2 x - vG f U1 U2 y| ≤ 1 / 200 * (40 * |x - y|) := by gcongr
    _ = _ := by ring

end WindMult
