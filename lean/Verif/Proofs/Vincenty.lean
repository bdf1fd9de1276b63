import Verif.Model.Vincenty
import Mathlib.Tactic.Linarith
import Mathlib.Tactic.Positivity
import Mathlib.Tactic.Ring
import Mathlib.Tactic.FieldSimp
import Mathlib.Tactic.LinearCombination
import Mathlib.Analysis.Real.Pi.Bounds

/-!
# Lemmas about Vincenty's inverse formula
-/

set_option autoImplicit false

namespace WindMult
open Real

/-- The quantities of one iteration: the square of the sine ... -/
noncomputable def vSqr (U1 U2 lam : ℝ) : ℝ := (cos U2 * sin lam) ^ 2 +
    (cos U1 * sin U2 - sin U1 * cos U2 * cos lam) ^ 2

/-- ... and the cosine of the angle between the points on the auxiliary sphere. -/
noncomputable def vCos (U1 U2 lam : ℝ) : ℝ := sin U1 * sin U2 + cos U1 * cos U2 * cos lam

theorem vSqr_eq (U1 U2 lam : ℝ) : vSqr U1 U2 lam = 1 - vCos U1 U2 lam ^ 2 := by
  unfold vSqr vCos
  have h1 := sin_sq_add_cos_sq U1
  have h2 := sin_sq_add_cos_sq U2
  have h3 := sin_sq_add_cos_sq lam
  have e1 : sin U1 ^ 2 = 1 - cos U1 ^ 2 := by linarith
  have e2 : sin U2 ^ 2 = 1 - cos U2 ^ 2 := by linarith
  have e3 : sin lam ^ 2 = 1 - cos lam ^ 2 := by linarith
  ring_nf
  rw [e1, e2, e3]
  ring

theorem vSqr_nonneg (U1 U2 lam : ℝ) : 0 ≤ vSqr U1 U2 lam := by unfold vSqr; positivity

theorem vCos_mem (U1 U2 lam : ℝ) : -1 ≤ vCos U1 U2 lam ∧ vCos U1 U2 lam ≤ 1 := by
  have h := vSqr_nonneg U1 U2 lam
  rw [vSqr_eq] at h
  constructor <;> nlinarith

theorem vCos_swap (U1 U2 lam : ℝ) : vCos U2 U1 (-lam) = vCos U1 U2 lam := by
  unfold vCos; rw [cos_neg]; ring

theorem vSqr_swap (U1 U2 lam : ℝ) : vSqr U2 U1 (-lam) = vSqr U1 U2 lam := by
  rw [vSqr_eq, vSqr_eq, vCos_swap]

theorem norm_unit {x y : ℝ} (h : x ^ 2 + y ^ 2 = 1) : ‖(⟨x, y⟩ : ℂ)‖ = 1 := by
  rw [Complex.norm_def, Complex.normSq_mk, show x * x + y * y = 1 by linarith, sqrt_one]

/-- `sigma`. -/
theorem vSigma_eq (U1 U2 lam : ℝ) :
    atan2 (sqrt (vSqr U1 U2 lam)) (vCos U1 U2 lam) = arccos (vCos U1 U2 lam) := by
  have hn : ‖(⟨vCos U1 U2 lam, sqrt (vSqr U1 U2 lam)⟩ : ℂ)‖ = 1 := by
    apply norm_unit
    rw [sq_sqrt (vSqr_nonneg _ _ _), vSqr_eq]; ring
  have h0 : (⟨vCos U1 U2 lam, sqrt (vSqr U1 U2 lam)⟩ : ℂ) ≠ 0 := by
    intro h; rw [h, norm_zero] at hn; exact zero_ne_one hn
  unfold atan2
  rw [Complex.arg_of_im_nonneg_of_ne_zero (by exact sqrt_nonneg _) h0, hn, div_one]

theorem sin_vSigma (U1 U2 lam : ℝ) : sin (arccos (vCos U1 U2 lam)) = sqrt (vSqr U1 U2 lam) := by
  rw [sin_arccos, vSqr_eq]

theorem cos_vSigma (U1 U2 lam : ℝ) : cos (arccos (vCos U1 U2 lam)) = vCos U1 U2 lam :=
  cos_arccos (vCos_mem _ _ _).1 (vCos_mem _ _ _).2

/-- The sine of the azimuth at the equator (Clairaut). -/
noncomputable def vSinAlpha (U1 U2 lam : ℝ) : ℝ :=
  cos U1 * cos U2 * sin lam / sqrt (vSqr U1 U2 lam)

theorem vSinAlpha_swap (U1 U2 lam : ℝ) : vSinAlpha U2 U1 (-lam) = -vSinAlpha U1 U2 lam := by
  unfold vSinAlpha; rw [vSqr_swap, sin_neg]; ring

/-- Clairaut's relation: the geodesic does not come nearer to the equator than its points. -/
theorem vSinAlpha_sq_le (U1 U2 lam : ℝ) : vSinAlpha U1 U2 lam ^ 2 ≤ cos U1 ^ 2 := by
  unfold vSinAlpha
  rw [div_pow, sq_sqrt (vSqr_nonneg _ _ _)]
  rcases (vSqr_nonneg U1 U2 lam).eq_or_lt with h | h
  · rw [← h, div_zero]; positivity
  · rw [div_le_iff₀ h]
    have : (cos U2 * sin lam) ^ 2 ≤ vSqr U1 U2 lam := by
      unfold vSqr; nlinarith [sq_nonneg (cos U1 * sin U2 - sin U1 * cos U2 * cos lam)]
    nlinarith [sq_nonneg (cos U1)]

theorem vSinAlpha_sq_le' (U1 U2 lam : ℝ) : vSinAlpha U1 U2 lam ^ 2 ≤ cos U2 ^ 2 := by
  have h := vSinAlpha_sq_le U2 U1 (-lam)
  rwa [vSinAlpha_swap, neg_sq] at h

/-- `math.asin` is never given a number outside `[-1, 1]`. -/
theorem abs_sinAlpha_le (U1 U2 lam : ℝ) : |vSinAlpha U1 U2 lam| ≤ 1 := by
  rw [abs_le]
  have h := vSinAlpha_sq_le U1 U2 lam
  have := cos_sq_le_one U1
  constructor <;> nlinarith

theorem sin_vAlpha (U1 U2 lam : ℝ) : sin (arcsin (vSinAlpha U1 U2 lam)) = vSinAlpha U1 U2 lam := by
  have h := abs_le.mp (abs_sinAlpha_le U1 U2 lam)
  exact sin_arcsin h.1 h.2

theorem cosSq_vAlpha (U1 U2 lam : ℝ) :
    cos (arcsin (vSinAlpha U1 U2 lam)) ^ 2 = 1 - vSinAlpha U1 U2 lam ^ 2 := by
  rw [cos_sq', sin_vAlpha]

/-- The denominator in `Cos2sigma_m` vanishes only if both points lie on the equator. -/
theorem equator_of_cosAlpha (U1 U2 lam : ℝ) (h : cos (arcsin (vSinAlpha U1 U2 lam)) = 0) :
    sin U1 = 0 ∧ sin U2 = 0 := by
  have h1 := cosSq_vAlpha U1 U2 lam
  rw [h] at h1
  have h2 := vSinAlpha_sq_le U1 U2 lam
  have h3 := vSinAlpha_sq_le' U1 U2 lam
  have e1 := sin_sq_add_cos_sq U1
  have e2 := sin_sq_add_cos_sq U2
  constructor <;> nlinarith

noncomputable def vCos2 (U1 U2 lam : ℝ) : ℝ :=
  vCos U1 U2 lam - 2 * sin U1 * sin U2 / cos (arcsin (vSinAlpha U1 U2 lam)) ^ 2

theorem abs_vCos2_le (U1 U2 lam : ℝ) : |vCos2 U1 U2 lam| ≤ 3 := by
  have hc := vCos_mem U1 U2 lam
  have h2 := vSinAlpha_sq_le U1 U2 lam
  have h3 := vSinAlpha_sq_le' U1 U2 lam
  have e1 := sin_sq_add_cos_sq U1
  have e2 := sin_sq_add_cos_sq U2
  have hd := cosSq_vAlpha U1 U2 lam
  have key : |2 * sin U1 * sin U2 / cos (arcsin (vSinAlpha U1 U2 lam)) ^ 2| ≤ 2 := by
    rcases eq_or_ne (cos (arcsin (vSinAlpha U1 U2 lam))) 0 with h0 | h0
    · rw [h0]; norm_num
    · have hp : 0 < cos (arcsin (vSinAlpha U1 U2 lam)) ^ 2 := by positivity
      rw [abs_div, abs_of_pos hp, div_le_iff₀ hp, abs_le, hd]
      constructor <;> nlinarith [sq_nonneg (sin U1 + sin U2), sq_nonneg (sin U1 - sin U2)]
  unfold vCos2
  rw [abs_le] at key ⊢
  constructor <;> linarith [key.1, key.2, hc.1, hc.2]

noncomputable def vC (f U1 U2 lam : ℝ) : ℝ :=
  (f / 16) * cos (arcsin (vSinAlpha U1 U2 lam)) ^ 2 *
    (4 + f * (4 - 3 * cos (arcsin (vSinAlpha U1 U2 lam)) ^ 2))

noncomputable def vNext (f omega U1 U2 lam : ℝ) : ℝ :=
  omega + (1 - vC f U1 U2 lam) * f * vSinAlpha U1 U2 lam *
    (arccos (vCos U1 U2 lam) + vC f U1 U2 lam * sqrt (vSqr U1 U2 lam) * (vCos2 U1 U2 lam +
      vC f U1 U2 lam * vCos U1 U2 lam * (-1 + 2 * vCos2 U1 U2 lam ^ 2)))

/-- One iteration in closed form. -/
theorem vincStep_eq (f omega U1 U2 lam : ℝ) : vincStep f omega U1 U2 lam =
    if vSqr U1 U2 lam = 0 then .error .zeroDivisionError
    else .ok { sqrSinSigma := vSqr U1 U2 lam, sinSigma := sqrt (vSqr U1 U2 lam),
               cosSigma := vCos U1 U2 lam, sigma := arccos (vCos U1 U2 lam),
               alpha := arcsin (vSinAlpha U1 U2 lam), cos2SigmaM := vCos2 U1 U2 lam,
               lam := vNext f omega U1 U2 lam } := by
  unfold vincStep
  simp only
  rw [show (cos U2 * sin lam) ^ 2 + (cos U1 * sin U2 - sin U1 * cos U2 * cos lam) ^ 2 =
    vSqr U1 U2 lam from rfl, show sin U1 * sin U2 + cos U1 * cos U2 * cos lam = vCos U1 U2 lam from
    rfl, vSigma_eq, sin_vSigma, cos_vSigma]
  by_cases h : vSqr U1 U2 lam = 0
  · rw [if_pos h, if_pos (by rw [h, sqrt_zero])]
  · have h' : ¬ sqrt (vSqr U1 U2 lam) = 0 := by rwa [sqrt_eq_zero (vSqr_nonneg _ _ _)]
    rw [if_neg h, if_neg h']
    rw [show cos U1 * cos U2 * sin lam / sqrt (vSqr U1 U2 lam) = vSinAlpha U1 U2 lam from rfl]
    simp only [sin_vAlpha]
    rfl

theorem vC_mem {f : ℝ} (hf0 : 0 ≤ f) (hf1 : f ≤ 1) (U1 U2 lam : ℝ) :
    0 ≤ vC f U1 U2 lam ∧ vC f U1 U2 lam ≤ 1 / 2 := by
  unfold vC
  have hc0 : 0 ≤ cos (arcsin (vSinAlpha U1 U2 lam)) ^ 2 := by positivity
  have hc1 := cos_sq_le_one (arcsin (vSinAlpha U1 U2 lam))
  generalize cos (arcsin (vSinAlpha U1 U2 lam)) ^ 2 = c at *
  have h1 : 0 ≤ f * c := by positivity
  have h2 : f * c ≤ 1 := by nlinarith
  have h3 : 4 ≤ 4 + f * (4 - 3 * c) := by nlinarith
  have h4 : 4 + f * (4 - 3 * c) ≤ 8 := by nlinarith
  constructor
  · positivity
  · nlinarith

/-- The longitude difference stays within 12 radians of its start. -/
theorem abs_vNext_sub_le {f : ℝ} (hf0 : 0 ≤ f) (hf1 : f ≤ 1) (omega U1 U2 lam : ℝ) :
    |vNext f omega U1 U2 lam - omega| ≤ 12 := by
  obtain ⟨c0, c1⟩ := vC_mem hf0 hf1 U1 U2 lam
  have hs := abs_sinAlpha_le U1 U2 lam
  have h2 := abs_vCos2_le U1 U2 lam
  have hcos : |vCos U1 U2 lam| ≤ 1 := abs_le.mpr (vCos_mem U1 U2 lam)
  have hsig0 := arccos_nonneg (vCos U1 U2 lam)
  have hsig1 := arccos_le_pi (vCos U1 U2 lam)
  have hpi := pi_le_four
  have hss0 := sqrt_nonneg (vSqr U1 U2 lam)
  have hss1 : sqrt (vSqr U1 U2 lam) ≤ 1 := by
    rw [sqrt_le_iff, vSqr_eq]
    exact ⟨zero_le_one, by nlinarith [sq_nonneg (vCos U1 U2 lam)]⟩
  unfold vNext
  rw [add_sub_cancel_left]
  generalize vC f U1 U2 lam = C at *
  generalize vSinAlpha U1 U2 lam = sa at *
  generalize vCos2 U1 U2 lam = m at *
  generalize vCos U1 U2 lam = cs at *
  generalize sqrt (vSqr U1 U2 lam) = ss at *
  generalize arccos cs = sig at *
  have hm2 : |-1 + 2 * m ^ 2| ≤ 19 := by
    have : m ^ 2 ≤ 9 := by rw [abs_le] at h2; nlinarith [h2.1, h2.2]
    rw [abs_le]; constructor <;> nlinarith [sq_nonneg m]
  have b1 : |C * cs * (-1 + 2 * m ^ 2)| ≤ 10 := by
    rw [abs_mul, abs_mul, abs_of_nonneg c0]
    calc C * |cs| * |-1 + 2 * m ^ 2| ≤ (1 / 2) * 1 * 19 := by gcongr
      _ ≤ 10 := by norm_num
  have b2 : |m + C * cs * (-1 + 2 * m ^ 2)| ≤ 13 :=
    (abs_add_le _ _).trans (by linarith)
  have b3 : |C * ss * (m + C * cs * (-1 + 2 * m ^ 2))| ≤ 13 / 2 := by
    rw [abs_mul, abs_mul, abs_of_nonneg c0, abs_of_nonneg hss0]
    calc C * ss * |m + C * cs * (-1 + 2 * m ^ 2)| ≤ (1 / 2) * 1 * 13 := by gcongr
      _ ≤ 13 / 2 := by norm_num
  have b4 : |sig + C * ss * (m + C * cs * (-1 + 2 * m ^ 2))| ≤ 12 := by
    refine (abs_add_le _ _).trans ?_
    rw [abs_of_nonneg hsig0]; linarith
  rw [abs_mul, abs_mul, abs_mul, abs_of_nonneg hf0, abs_of_nonneg (show 0 ≤ 1 - C by linarith)]
  calc (1 - C) * f * |sa| * |sig + C * ss * (m + C * cs * (-1 + 2 * m ^ 2))|
      ≤ 1 * 1 * 1 * 12 := by
        have : 1 - C ≤ 1 := by linarith
        gcongr
    _ = 12 := by norm_num

theorem atan2_mem (y x : ℝ) : -π < atan2 y x ∧ atan2 y x ≤ π := Complex.arg_mem_Ioc _

theorem vincNormalise_mem {x : ℝ} (h0 : -π < x) (h1 : x ≤ π) :
    0 ≤ vincNormalise x ∧ vincNormalise x < 2 * π := by
  have hp := pi_pos
  unfold vincNormalise
  simp only
  split_ifs <;> constructor <;> linarith

theorem vincNormalise_mem' {x : ℝ} (h0 : 0 < x) (h1 : x ≤ 2 * π) : vincNormalise x = x := by
  have e : ¬ x < 0 := by linarith
  unfold vincNormalise
  simp only [if_neg e]
  rw [if_neg (by linarith)]

theorem vincLoop_stop (f omega U1 U2 : ℝ) (fuel : ℕ) {last lam : ℝ} (st : Option VincState)
    (h : ¬ vincGoesOn last lam) : vincLoop f omega U1 U2 fuel last lam st = some (.ok st) := by
  cases fuel <;> rw [vincLoop, if_neg h]

/-- Anything the loop returns comes from an iteration. -/
theorem vincLoop_ok {f omega U1 U2 : ℝ} {Q : VincState → Prop}
    (hQ : ∀ lam st, vincStep f omega U1 U2 lam = .ok st → Q st) :
    ∀ (fuel : ℕ) (last lam : ℝ) (st : Option VincState) (r : Option VincState),
      (∀ s, st = some s → Q s) → vincLoop f omega U1 U2 fuel last lam st = some (.ok r) →
      ∀ s, r = some s → Q s := by
  intro fuel
  induction fuel with
  | zero =>
    intro last lam st r hst h
    unfold vincLoop at h
    split_ifs at h with hg
    simp only [Option.some.injEq, Except.ok.injEq] at h
    exact h ▸ hst
  | succ n ih =>
    intro last lam st r hst h
    unfold vincLoop at h
    split_ifs at h with hg
    · simp only at h
      cases hs : vincStep f omega U1 U2 lam with
      | error e => rw [hs] at h; simp at h
      | ok st' =>
        rw [hs] at h
        refine ih _ _ _ _ ?_ h
        rintro s hs'
        rw [Option.some.injEq] at hs'
        exact hQ lam s (hs' ▸ hs)
    · simp only [Option.some.injEq, Except.ok.injEq] at h
      exact h ▸ hst

/-- The state in the opposite direction. -/
def VincState.flip (st : VincState) : VincState := { st with alpha := -st.alpha, lam := -st.lam }

theorem vincStep_flip (f omega U1 U2 lam : ℝ) : vincStep f (-omega) U2 U1 (-lam) =
    (vincStep f omega U1 U2 lam).map VincState.flip := by
  have hC : vC f U2 U1 (-lam) = vC f U1 U2 lam := by
    unfold vC; rw [vSinAlpha_swap, arcsin_neg, cos_neg]
  have h2 : vCos2 U2 U1 (-lam) = vCos2 U1 U2 lam := by
    unfold vCos2; rw [vSinAlpha_swap, arcsin_neg, cos_neg, vCos_swap]; ring
  have hN : vNext f (-omega) U2 U1 (-lam) = -vNext f omega U1 U2 lam := by
    unfold vNext; rw [vSinAlpha_swap, hC, h2, vCos_swap, vSqr_swap]; ring
  rw [vincStep_eq, vincStep_eq, vSqr_swap, vCos_swap, vSinAlpha_swap, h2, hN, arcsin_neg]
  split_ifs <;> rfl

theorem vincGoesOn_neg {last lam : ℝ} (h : |last| ≤ 3000000) :
    vincGoesOn (-last) (-lam) ↔ vincGoesOn last lam := by
  rw [abs_le] at h
  unfold vincGoesOn
  have e : (-last - -lam) / -lam = (last - lam) / lam := by
    rw [show -last - -lam = -(last - lam) by ring, neg_div_neg_eq]
  rw [e, neg_ne_zero]
  constructor
  · rintro (h' | h')
    · linarith
    · exact Or.inr h'
  · rintro (h' | h')
    · linarith
    · exact Or.inr h'

/-- The loop run in the opposite direction, from the second iteration on. -/
theorem vincLoop_flip {f omega : ℝ} (hf0 : 0 ≤ f) (hf1 : f ≤ 1) (ho : |omega| ≤ 1000000)
    (U1 U2 : ℝ) : ∀ (fuel : ℕ) (last lam : ℝ) (st : Option VincState), |last| ≤ 3000000 →
      |lam| ≤ 3000000 →
      vincLoop f (-omega) U2 U1 fuel (-last) (-lam) (st.map VincState.flip) =
        (vincLoop f omega U1 U2 fuel last lam st).map
          (Except.map (Option.map VincState.flip)) := by
  intro fuel
  induction fuel with
  | zero =>
    intro last lam st hl _
    rw [vincLoop, vincLoop]
    by_cases hg : vincGoesOn last lam
    · rw [if_pos hg, if_pos ((vincGoesOn_neg hl).mpr hg)]; rfl
    · rw [if_neg hg, if_neg (fun h => hg ((vincGoesOn_neg hl).mp h))]; rfl
  | succ n ih =>
    intro last lam st hl hlam
    rw [vincLoop, vincLoop]
    by_cases hg : vincGoesOn last lam
    · rw [if_pos hg, if_pos ((vincGoesOn_neg hl).mpr hg)]
      rw [vincStep_flip]
      cases hs : vincStep f omega U1 U2 lam with
      | error e => rfl
      | ok st' =>
        have hb : |st'.lam| ≤ 3000000 := by
          rw [vincStep_eq] at hs
          split_ifs at hs
          rw [Except.ok.injEq] at hs
          rw [← hs]
          have h1 := abs_vNext_sub_le hf0 hf1 omega U1 U2 lam
          have h2 := abs_add_le (vNext f omega U1 U2 lam - omega) omega
          rw [sub_add_cancel] at h2
          simp only
          linarith
        exact ih lam st'.lam (some st') hlam hb
    · rw [if_neg hg, if_neg (fun h => hg ((vincGoesOn_neg hl).mp h))]; rfl

end WindMult
