import Verif.Model.FloatPixel
import Verif.Proofs.Err
import Verif.Props.Blrb

/-!
# One level of bisection in double precision
-/

set_option autoImplicit false
set_option linter.unusedSectionVars false

namespace WindMult

variable {u : ℝ} (W : FpRound (1 / 2 ^ 53)) (S : FpRound u)

/-- The value a block gives to a row and column. -/
noncomputable def blockValueFl (eval : ℤ → ℤ → ℝ) (n m : ℕ) (b c : Bool) (i j : ℕ) : Option ℝ :=
  ((bilinearFl W (axSize n b) (axSize m c) (eval (axLo n b) (axLo m c)) (eval (axLo n b) (axHi m c))
    (eval (axHi n b) (axHi m c)) (eval (axHi n b) (axLo m c))).val (i - axLo n b) (j - axLo m c)).map S.rnd

/-- One block, for axes of length at least two. -/
theorem interpolateBlockFl_eq (ev : ℤ → ℤ → Except PyErr ℝ) (eval : ℤ → ℤ → ℝ) (n m : ℕ) (hn : 2 ≤ n)
    (hm : 2 ≤ m) (he : ∀ i < n, ∀ j < m, ev i j = .ok (eval i j)) (b c : Bool)
    (g : Grid (Option ℝ)) (hr : g.rows = n) (hc : g.cols = m) :
    interpolateBlockFl W S ev (axOrigin n b) (axOrigin m c) (axSize n b) (axSize m c) g =
      .ok ⟨n, m, fun i j => if inAx n b i ∧ inAx m c j then blockValueFl W S eval n m b c i j
        else g.val i j⟩ := by
  unfold interpolateBlockFl
  simp only
  have in0 : ∀ (k : ℕ) (b : Bool), 2 ≤ k → axLo k b < k := by
    intro k b hk
    have := axHi_lt k hk b
    have := axLo_le k hk b
    omega
  rw [ax_floor, ax_floor, ax_ceil n (by omega), ax_ceil m (by omega),
    he _ (in0 n b hn) _ (in0 m c hm), he _ (axHi_lt n hn b) _ (in0 m c hm),
    he _ (in0 n b hn) _ (axHi_lt m hm c), he _ (axHi_lt n hn b) _ (axHi_lt m hm c)]
  show assignBlock _ _ _ _ _ (Grid.map _ (bilinearFl _ _ _ _ _ _ _)) = _
  unfold assignBlock
  have s0 : ∀ (k : ℕ) (b : Bool), 2 ≤ k → Grid.sliceBound k (axLo k b : ℤ) = axLo k b := by
    intro k b hk
    unfold Grid.sliceBound
    rw [if_pos (by omega), Int.toNat_natCast]
    have := axHi_lt k hk b
    have := axLo_le k hk b
    omega
  have s1 : ∀ (k : ℕ) (b : Bool), 2 ≤ k → Grid.sliceBound k ((axHi k b : ℤ) + 1) = axHi k b + 1 := by
    intro k b hk
    unfold Grid.sliceBound
    rw [if_pos (by omega)]
    have := axHi_lt k hk b
    omega
  rw [hr, hc]
  simp only [s0 n b hn, s0 m c hm, s1 n b hn, s1 m c hm]
  have r0 : (Grid.map (fun x => Option.map S.rnd x) (bilinearFl W (axSize n b) (axSize m c) (eval (axLo n b) (axLo m c))
      (eval (axLo n b) (axHi m c)) (eval (axHi n b) (axHi m c)) (eval (axHi n b) (axLo m c)))).rows =
      axHi n b + 1 - axLo n b := ax_count n hn b
  have c0 : (Grid.map (fun x => Option.map S.rnd x) (bilinearFl W (axSize n b) (axSize m c) (eval (axLo n b) (axLo m c))
      (eval (axLo n b) (axHi m c)) (eval (axHi n b) (axHi m c)) (eval (axHi n b) (axLo m c)))).cols =
      axHi m c + 1 - axLo m c := ax_count m hm c
  rw [r0, c0, if_pos ⟨.inl rfl, .inl rfl⟩]
  congr 1
  congr 1
  funext i j
  by_cases h : inAx n b i ∧ inAx m c j
  · rw [if_pos h, if_pos (by unfold inAx at h; omega)]
    unfold blockValueFl
    unfold inAx at h
    show Option.map S.rnd _ = _
    congr 2
    · split_ifs <;> omega
    · split_ifs <;> omega
  · rw [if_neg h, if_neg (by unfold inAx at h; omega)]

/-- One level of bisection, for axes of length at least two. -/
theorem interpolateGridFl_one (ev : ℤ → ℤ → Except PyErr ℝ) (eval : ℤ → ℤ → ℝ) (n m : ℕ) (hn : 2 ≤ n)
    (hm : 2 ≤ m) (he : ∀ i < n, ∀ j < m, ev i j = .ok (eval i j))
    (g : Grid (Option ℝ)) (hr : g.rows = n) (hc : g.cols = m) :
    ∃ out, interpolateGridFl W S ev 1 0 0 n m g = .ok out ∧ out.rows = n ∧ out.cols = m ∧
      ∀ i < n, ∀ j < m, out.val i j = blockValueFl W S eval n m (lastHalf n i) (lastHalf m j) i j := by
  have e : interpolateGridFl W S ev 1 0 0 n m g = .ok ⟨n, m, fun i j =>
      if inAx n true i ∧ inAx m true j then blockValueFl W S eval n m true true i j
      else if inAx n false i ∧ inAx m true j then blockValueFl W S eval n m false true i j
      else if inAx n true i ∧ inAx m false j then blockValueFl W S eval n m true false i j
      else if inAx n false i ∧ inAx m false j then blockValueFl W S eval n m false false i j
      else g.val i j⟩ := by
    rw [interpolateGridFl, subdivide_eq]
    simp only [List.foldlM, interpolateGridFl]
    rw [interpolateBlockFl_eq W S ev eval n m hn hm he false false g hr hc]
    show (interpolateBlockFl _ _ _ _ _ _ _ _ >>= _) = _
    rw [interpolateBlockFl_eq W S ev eval n m hn hm he true false _ rfl rfl]
    show (interpolateBlockFl _ _ _ _ _ _ _ _ >>= _) = _
    rw [interpolateBlockFl_eq W S ev eval n m hn hm he false true _ rfl rfl]
    show (interpolateBlockFl _ _ _ _ _ _ _ _ >>= _) = _
    rw [interpolateBlockFl_eq W S ev eval n m hn hm he true true _ rfl rfl]
    rfl
  refine ⟨_, e, rfl, rfl, ?_⟩
  intro i hi j hj
  have key : ∀ k r : ℕ, 2 ≤ k → r < k → (k / 2 ≤ r ∧ inAx k true r) ∨
      (¬ k / 2 ≤ r ∧ ¬ inAx k true r ∧ inAx k false r) := by
    intro k r hk hr
    unfold inAx axLo axHi
    simp only [Bool.false_eq_true, ↓reduceIte]
    omega
  simp only [lastHalf]
  rcases key n i hn hi with ⟨h1, h2⟩ | ⟨h1, h2, h3⟩ <;>
    rcases key m j hm hj with ⟨g1, g2⟩ | ⟨g1, g2, g3⟩
  · simp only [h1, g1, h2, g2, and_self, ↓reduceIte, decide_true]
  · simp only [h1, g1, h2, g2, g3, and_self, and_false, ↓reduceIte, decide_true, decide_false]
  · simp only [h1, g1, h2, h3, g2, and_self, false_and, ↓reduceIte, decide_true, decide_false]
  · simp only [h1, g1, h2, h3, g2, g3, and_self, false_and, and_false, ↓reduceIte, decide_false]

theorem axSize_ne {k : ℕ} (b : Bool) (hk : 3 ≤ k) : (axSize k b : ℝ) - 1 ≠ 0 := by
  have : (3 : ℝ) ≤ k := by exact_mod_cast hk
  apply ne_of_gt
  cases b <;> simp only [axSize, Bool.false_eq_true, ↓reduceIte] <;> linarith

theorem blockValueFl_eq (eval : ℤ → ℤ → ℝ) {n m : ℕ} (hn : 3 ≤ n) (hm : 3 ≤ m) (b c : Bool)
    (i j : ℕ) (s t : ℝ) (hs : s = W.rnd (((i - axLo n b : ℕ) : ℝ) / (axSize n b - 1)))
    (ht : t = W.rnd (((j - axLo m c : ℕ) : ℝ) / (axSize m c - 1))) : blockValueFl W S eval n m b c i j = some
      (S.rnd (W.rnd (W.rnd (s * W.rnd (W.rnd (t * eval (axHi n b) (axHi m c)) +
          W.rnd (W.rnd (1 - t) * eval (axHi n b) (axLo m c)))) +
        W.rnd (W.rnd (1 - s) * W.rnd (W.rnd (t * eval (axLo n b) (axHi m c)) +
          W.rnd (W.rnd (1 - t) * eval (axLo n b) (axLo m c))))))) := by
  unfold blockValueFl bilinearFl blrbWeightFl
  simp only [if_neg (axSize_ne b hn), if_neg (axSize_ne c hm), ← hs, ← ht, Option.map_some]

/-- Linear interpolation with rounding, between numbers of size `L`. -/
theorem lerpFl_err {t tf p q pf qf L e m e' m' : ℝ} (hL : 0 < L) (ht0 : 0 ≤ t) (ht1 : t ≤ 11 / 10)
    (ht : tf = W.rnd t) (hp : Err L e m p pf) (hq : Err L e m q qf)
    (he : 3 * e + 1 / 10 ^ 15 * (m + e) ≤ e') (hm' : 21 / 10 * m ≤ m') (hem : e ≤ m) :
    Err L e' m' (t * q + (1 - t) * p) (W.rnd (W.rnd (tf * qf) + W.rnd (W.rnd (1 - tf) * pf))) := by
  subst ht
  obtain ⟨e0, m0⟩ := hp.nonneg hL
  have h1 : Err 1 (14 / 10 ^ 17) (11 / 10) t (W.rnd t) :=
    (Err.const (m := 11 / 10) t (by rw [abs_of_nonneg ht0]; exact ht1)).rnd W (by norm_num)
  have h2 : Err 1 (27 / 10 ^ 17) 1 (1 - t) (W.rnd (1 - W.rnd t)) := by
    refine (((Err.const (m := 1) 1 (by norm_num)).sub h1).mag (m' := 1) ?_).rnd W (by norm_num)
    rw [mul_one, abs_le]; constructor <;> linarith
  have h3 := h1.mulR W hq (e' := 11 / 10 * e + 3 / 10 ^ 16 * (m + e)) (m' := 11 / 10 * m)
    (by norm_num; linarith) le_rfl
  have h4 := h2.mulR W hp (e' := e + 4 / 10 ^ 16 * (m + e)) (m' := m) (by norm_num; linarith) (by linarith)
  refine h3.addR W h4 (le_trans ?_ he) (by linarith)
  norm_num
  linarith

theorem lerp_close {t a b d : ℝ} (ht0 : 0 ≤ t) (ht1 : t ≤ 11 / 10) (ha : |a| ≤ d) (hb : |b| ≤ d) :
    |t * a + (1 - t) * b| ≤ 12 / 10 * d := by
  have hd : 0 ≤ d := (abs_nonneg _).trans ha
  calc |t * a + (1 - t) * b| ≤ |t| * |a| + |1 - t| * |b| := by
        rw [← abs_mul, ← abs_mul]; exact abs_add_le _ _
    _ ≤ |t| * d + |1 - t| * d := by gcongr
    _ = (|t| + |1 - t|) * d := by ring
    _ ≤ 12 / 10 * d := by
        gcongr
        rw [abs_of_nonneg ht0]
        rcases abs_cases (1 - t) with ⟨h, -⟩ | ⟨h, -⟩ <;> rw [h] <;> linarith

/-- Bilinear interpolation between values that carry an error already. -/
theorem bilinearFl_err {s t sf tf L d : ℝ} {a b c f a' b' c' f' : ℝ} (hL : 0 < L) (hs0 : 0 ≤ s) (hs1 : s ≤ 11 / 10)
    (ht0 : 0 ≤ t) (ht1 : t ≤ 11 / 10) (hs : sf = W.rnd s) (ht : tf = W.rnd t) (hd : d ≤ L / 100)
    (ha : |a'- a| ≤ d) (hb : |b' - b| ≤ d) (hc : |c' - c| ≤ d) (hf : |f' - f| ≤ d)
    (ha' : |a| ≤ L) (hb' : |b| ≤ L) (hc' : |c| ≤ L) (hf' : |f| ≤ L) :
    |W.rnd (W.rnd (sf * W.rnd (W.rnd (tf * a') + W.rnd (W.rnd (1 - tf) * b'))) +
        W.rnd (W.rnd (1 - sf) * W.rnd (W.rnd (tf * c') + W.rnd (W.rnd (1 - tf) * f')))) -
      (s * (t * a + (1 - t) * b) + (1 - s) * (t * c + (1 - t) * f))| ≤ 144 / 100 * d + 1 / 10 ^ 14 * L := by
  have key : ∀ {v v' : ℝ}, |v' - v| ≤ d → |v| ≤ L → Err L 0 (101 / 100) v' v' := by
    intro v v' h1 h2
    refine ⟨by simp, ?_⟩
    have := abs_add_le (v' - v) v
    rw [sub_add_cancel] at this
    linarith
  have h1 := lerpFl_err W hL ht0 ht1 ht (key hb hb') (key ha ha') (e' := 102 / 10 ^ 17) (m' := 2122 / 1000)
    (by norm_num) (by norm_num) (by norm_num)
  have h2 := lerpFl_err W hL ht0 ht1 ht (key hf hf') (key hc hc') (e' := 102 / 10 ^ 17) (m' := 2122 / 1000)
    (by norm_num) (by norm_num) (by norm_num)
  have h3 := (lerpFl_err W hL hs0 hs1 hs h2 h1 (e' := 1 / 10 ^ 14) (m' := 5) (by norm_num) (by norm_num)
    (by norm_num)).1
  have h4 := lerp_close hs0 hs1 (lerp_close ht0 ht1 ha hb) (lerp_close ht0 ht1 hc hf)
  generalize W.rnd (W.rnd (sf * W.rnd (W.rnd (tf * a') + W.rnd (W.rnd (1 - tf) * b'))) +
        W.rnd (W.rnd (1 - sf) * W.rnd (W.rnd (tf * c') + W.rnd (W.rnd (1 - tf) * f')))) = v at *
  have h5 := abs_add_le (v - (s * (t * a' + (1 - t) * b') + (1 - s) * (t * c' + (1 - t) * f')))
    (s * (t * (a' - a) + (1 - t) * (b' - b)) + (1 - s) * (t * (c' - c) + (1 - t) * (f' - f)))
  rw [show v - (s * (t * a' + (1 - t) * b') + (1 - s) * (t * c' + (1 - t) * f')) +
    (s * (t * (a' - a) + (1 - t) * (b' - b)) + (1 - s) * (t * (c' - c) + (1 - t) * (f' - f))) =
    v - (s * (t * a + (1 - t) * b) + (1 - s) * (t * c + (1 - t) * f)) by ring] at h5
  linarith

end WindMult
