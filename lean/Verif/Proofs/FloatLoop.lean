import Verif.Proofs.FloatParallel

/-!
# The loop for two points on the same parallel, in double precision
-/

set_option autoImplicit false
set_option linter.unusedSectionVars false

namespace WindMult
open Real

/-- The loop over ℝ: what it returns comes from an iteration after which it stops. -/
theorem vincLoop_exit {f omega U : ℝ} (hf0 : 0 ≤ f) (hf1 : f ≤ 1 / 200) (hU : 0 < cos U)
    (ho0 : 0 < omega) (ho1 : omega ≤ 1 / 2) :
    ∀ (k fuel : ℕ) (last lam : ℝ) (st : VincState), k ≤ fuel → omega ≤ last →
      last * (1 - f) ≤ omega → vincStep f omega U U last = .ok st → lam = vNext f omega U U last → st.lam = lam →
      |last - lam| ≤ 10 ^ k * (1 / 1000000000 * omega) →
      ∃ lam' st', vincLoop f omega U U fuel last lam (some st) = some (.ok (some st')) ∧ omega ≤ lam' ∧
        lam' * (1 - f) ≤ omega ∧ vincStep f omega U U lam' = .ok st' ∧ ¬ vincGoesOn lam' (vNext f omega U U lam') := by
  have hone : ∀ lam, omega ≤ lam → lam * (1 - f) ≤ omega → 0 < lam ∧ lam ≤ 1 := by
    intro lam h1 h2
    exact ⟨by linarith, by nlinarith⟩
  have hnext : ∀ last, omega ≤ last → last * (1 - f) ≤ omega →
      omega ≤ vNext f omega U U last ∧ vNext f omega U U last * (1 - f) ≤ omega := by
    intro last h1 h2
    obtain ⟨a0, a1⟩ := hone last h1 h2
    obtain ⟨b0, b1⟩ := vNext_mem (omega := omega) hf0 hf1 hU a0 a1
    refine ⟨b0, ?_⟩
    have hq : 0 < 1 - f := by linarith
    calc vNext f omega U U last * (1 - f) ≤ (omega + f * last) * (1 - f) := by gcongr
      _ = omega * (1 - f) + f * (last * (1 - f)) := by ring
      _ ≤ omega * (1 - f) + f * omega := by gcongr
      _ = omega := by ring
  intro k
  induction k with
  | zero =>
    intro fuel last lam st _ h1 h2 h2' h3 _ hd
    obtain ⟨a0, a1⟩ := hnext last h1 h2
    have hs : ¬ vincGoesOn last lam := by
      rintro (h | ⟨-, h⟩)
      · linarith
      · rw [← h3] at a0
        rw [abs_div, abs_of_pos (by linarith : 0 < lam), gt_iff_lt, lt_div_iff₀ (by linarith)] at h
        rw [pow_zero, one_mul] at hd
        nlinarith
    exact ⟨last, st, vincLoop_stop _ _ _ _ _ _ hs, h1, h2, h2', h3 ▸ hs⟩
  | succ k ih =>
    intro fuel last lam st hk h1 h2 h2' h3 h4 hd
    obtain ⟨a0, a1⟩ := hnext last h1 h2
    rw [← h3] at a0 a1
    by_cases hg : vincGoesOn last lam
    · obtain ⟨fuel, rfl⟩ : ∃ n, fuel = n + 1 := ⟨fuel - 1, by omega⟩
      obtain ⟨l0, l1⟩ := hone lam a0 a1
      obtain ⟨m0, m1⟩ := hone last h1 h2
      obtain ⟨st', e1, e2, -⟩ := vincStep_parallel (f := f) (omega := omega) hU l0 l1
      rw [vincLoop, if_pos hg]
      simp only [e1]
      refine ih fuel lam st'.lam st' (by omega) a0 a1 e1 e2 rfl ?_
      rw [e2]
      nth_rewrite 1 [h3]
      have := vNext_contracts (omega := omega) hf0 hf1 hU m0 m1 l0 l1
      rw [pow_succ] at hd
      linarith
    · exact ⟨last, st, vincLoop_stop _ _ _ _ _ _ hg, h1, h2, h2', h3 ▸ hg⟩

variable (W : FpRound (1 / 2 ^ 53)) (M : FpMath (1 / 2 ^ 53))

theorem vincLoopFl_stop (f omega U1 U2 : ℝ) (fuel : ℕ) {last lam : ℝ} (st : Option VincState)
    (h : ¬ vincGoesOnFl W last lam) : vincLoopFl W M f omega U1 U2 fuel last lam st = some (.ok st) := by
  cases fuel <;> rw [vincLoopFl, if_neg h]

/-- When the loop stops, the last two values are close. -/
theorem close_of_not_goesOnFl {last lam : ℝ} (h0 : 0 < lam) (h : ¬ vincGoesOnFl W last lam) :
    |last - lam| ≤ 1001 / 10 ^ 12 * lam := by
  unfold vincGoesOnFl at h
  push Not at h
  have h1 := h.2 h0.ne'
  have h2 := rnd_rel W (W.rnd (last - lam) / lam)
  have h3 := rnd_rel W (last - lam)
  have h4 := rnd_rel W (1 / 1000000000)
  rw [abs_of_pos (by norm_num : (0 : ℝ) < 1 / 1000000000)] at h4
  have h5 := (abs_le.mp h4).2
  have h6 : |W.rnd (last - lam) / lam| ≤ 10001 / 10 ^ 13 := by
    have := abs_sub_abs_le_abs_sub (W.rnd (last - lam) / lam) (W.rnd (W.rnd (last - lam) / lam))
    rw [abs_sub_comm] at this
    norm_num at h2 h5 h1 this ⊢
    linarith
  rw [abs_div, abs_of_pos h0, div_le_iff₀ h0] at h6
  have := abs_sub_abs_le_abs_sub (last - lam) (W.rnd (last - lam))
  rw [abs_sub_comm (last - lam) (W.rnd _)] at this
  norm_num at h3 h6 ⊢
  linarith

/-- Close values stop the loop. -/
theorem not_goesOnFl {last lam : ℝ} (h0 : 0 < lam) (hl : 0 ≤ last) (h : |last - lam| ≤ 6 / 10 ^ 10 * lam) :
    ¬ vincGoesOnFl W last lam := by
  rintro (h1 | ⟨-, h1⟩)
  · linarith
  have h2 := rnd_rel W (W.rnd (last - lam) / lam)
  have h3 := rnd_rel W (last - lam)
  have h4 := rnd_rel W (1 / 1000000000)
  rw [abs_of_pos (by norm_num : (0 : ℝ) < 1 / 1000000000)] at h4
  have h5 := (abs_le.mp h4).1
  have h6 : |W.rnd (last - lam) / lam| ≤ 7 / 10 ^ 10 := by
    rw [abs_div, abs_of_pos h0, div_le_iff₀ h0]
    have := abs_add_le (last - lam) (W.rnd (last - lam) - (last - lam))
    rw [add_sub_cancel] at this
    norm_num at h h3 ⊢
    linarith
  have := abs_add_le (W.rnd (last - lam) / lam) (W.rnd (W.rnd (last - lam) / lam) - W.rnd (last - lam) / lam)
  rw [add_sub_cancel] at this
  norm_num at h2 h5 h6 h1
  linarith

variable {f U Uf om : ℝ}

theorem earthF_range : 0 ≤ earthF ∧ earthF ≤ 1 / 298 := by
  unfold earthF; constructor <;> norm_num

/-- The loop in double precision: what it returns comes from an iteration after which it stops. -/
theorem vincLoopFl_exit (hf : Err 1 (1 / 10 ^ 15) (1 / 298) earthF f)
    (hU : |Uf - U| ≤ 6 / 10 ^ 15) (hc0 : 69 / 100 ≤ cos U) (hs0 : 12 / 10 ^ 4 ≤ sin U ^ 2)
    (h0 : 41 / 10 ^ 7 ≤ om) (h1 : om ≤ 99 / 10 ^ 4) :
    ∀ (k fuel : ℕ) (last : ℝ) (st : VincState), k ≤ fuel → (1 - 1 / 10 ^ 11) * om ≤ last →
      last ≤ 1004 / 1000 * om → vincStepFl W M f om Uf Uf last = .ok st →
      |last - st.lam| ≤ 5 ^ k * (5 / 10 ^ 10 * om) →
      ∃ lam st', vincLoopFl W M f om Uf Uf fuel last st.lam (some st) = some (.ok (some st')) ∧
        (1 - 1 / 10 ^ 11) * om ≤ lam ∧ lam ≤ 1004 / 1000 * om ∧
        vincStepFl W M f om Uf Uf lam = .ok st' ∧ |lam - st'.lam| ≤ 101 / 10 ^ 11 * om := by
  have ho : 0 < om := lt_of_lt_of_le (by norm_num) h0
  obtain ⟨e0, e1⟩ := earthF_range
  have hcU : 0 < cos U := by linarith
  have hone : ∀ lam, (1 - 1 / 10 ^ 11) * om ≤ lam → lam ≤ 1004 / 1000 * om →
      4 / 10 ^ 6 ≤ lam ∧ lam ≤ 1 / 100 ∧ |om| ≤ 2 * lam := by
    intro lam a b
    rw [abs_of_pos ho]
    refine ⟨?_, ?_, ?_⟩ <;> norm_num at a b h0 h1 ⊢ <;> linarith
  have hnext : ∀ last st, (1 - 1 / 10 ^ 11) * om ≤ last → last ≤ 1004 / 1000 * om →
      vincStepFl W M f om Uf Uf last = .ok st → |st.lam - vNext earthF om U U last| ≤ 51 / 10 ^ 13 * om ∧
      (1 - 1 / 10 ^ 11) * om ≤ st.lam ∧ st.lam ≤ 1004 / 1000 * om := by
    intro last st a b hst
    obtain ⟨c1, c2, c3⟩ := hone last a b
    obtain ⟨sf, g1, -, -, -, -, -, -, g2⟩ := vincStepFl_parallel W M hf hU hc0 hs0 c1 c2 c3
    rw [hst] at g1
    cases g1
    obtain ⟨m1, m2⟩ := vNext_mem (omega := om) e0 (by linarith) hcU (by linarith : 0 < last) (by linarith)
    have m3 : earthF * last ≤ 1 / 298 * (1004 / 1000 * om) := by gcongr
    have g3 : |st.lam - vNext earthF om U U last| ≤ 51 / 10 ^ 13 * om := by
      norm_num at g2 ⊢; linarith
    obtain ⟨g4, g5⟩ := abs_le.mp g3
    refine ⟨g3, ?_, ?_⟩ <;> norm_num at g4 g5 ⊢ <;> linarith
  intro k
  induction k with
  | zero =>
    intro fuel last st _ a b hst hd
    obtain ⟨-, d1, d2⟩ := hnext last st a b hst
    obtain ⟨c1, c2, -⟩ := hone last a b
    obtain ⟨c3, -, -⟩ := hone st.lam d1 d2
    have hpos : 0 < st.lam := lt_of_lt_of_le (by norm_num) c3
    have hs : ¬ vincGoesOnFl W last st.lam := by
      refine not_goesOnFl W hpos (le_trans (by norm_num) c1) ?_
      norm_num at hd d1 ⊢
      linarith
    refine ⟨last, st, vincLoopFl_stop W M _ _ _ _ _ _ hs, a, b, hst, ?_⟩
    norm_num at hd ⊢
    linarith
  | succ k ih =>
    intro fuel last st hk a b hst hd
    obtain ⟨d0, d1, d2⟩ := hnext last st a b hst
    obtain ⟨c1, c2, -⟩ := hone last a b
    obtain ⟨c3, c4, c5⟩ := hone st.lam d1 d2
    have hpos : 0 < st.lam := lt_of_lt_of_le (by norm_num) c3
    by_cases hg : vincGoesOnFl W last st.lam
    · obtain ⟨fuel, rfl⟩ : ∃ n, fuel = n + 1 := ⟨fuel - 1, by omega⟩
      obtain ⟨st', g1, -⟩ := vincStepFl_parallel W M hf hU hc0 hs0 c3 c4 c5
      rw [vincLoopFl, if_pos hg]
      simp only [g1]
      refine ih fuel st.lam st' (by omega) d1 d2 g1 ?_
      obtain ⟨d0', -, -⟩ := hnext st.lam st' d1 d2 g1
      have hcon := vNext_contracts (omega := om) e0 (by linarith) hcU (by linarith : 0 < last) (by linarith) hpos
        (by linarith)
      have h5 : (1 : ℝ) ≤ 5 ^ k := one_le_pow₀ (by norm_num)
      have h6 : 1 * (5 / 10 ^ 10 * om) ≤ 5 ^ k * (5 / 10 ^ 10 * om) := by gcongr
      rw [pow_succ] at hd
      have t := abs_add_three (st.lam - vNext earthF om U U last)
        (vNext earthF om U U last - vNext earthF om U U st.lam) (-(st'.lam - vNext earthF om U U st.lam))
      rw [abs_neg, show st.lam - vNext earthF om U U last + (vNext earthF om U U last - vNext earthF om U U st.lam) +
        -(st'.lam - vNext earthF om U U st.lam) = st.lam - st'.lam by ring] at t
      norm_num at d0 d0' h6 hd hcon ⊢
      linarith
    · refine ⟨last, st, vincLoopFl_stop W M _ _ _ _ _ _ hg, a, b, hst, ?_⟩
      have := close_of_not_goesOnFl W hpos hg
      norm_num at this d2 ⊢
      linarith

end WindMult
