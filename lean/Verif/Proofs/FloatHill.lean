import Verif.Proofs.RelErr
import Verif.Proofs.FloatDigits
import Verif.Proofs.HillValue

/-!
# Rounding errors of the multiplier of a hill
-/

set_option linter.unusedSectionVars false
set_option autoImplicit false

namespace WindMult

section
variable {u : ℝ} (hu0 : 0 ≤ u) (hu : u ≤ 1 / 10000) (R : FpRound u)
include hu0 hu

theorem halfDistanceFl_rel {v r : ℕ} (h : v < r) (ds : ℝ) :
    RelErr u 2 (halfWidth v r ds) (halfDistanceFl R.rnd r v ds) := by
  have hu1 : u < 1 := by linarith
  have e : |(r : ℝ) - v| = ((r - v : ℕ) : ℝ) := by
    have : (v : ℝ) ≤ r := by exact_mod_cast h.le
    rw [Nat.cast_sub h.le, abs_of_nonneg (by linarith)]
  unfold halfWidth halfDistanceFl
  rw [e]
  exact RelErr.rnd hu0 hu1 R (RelErr.div hu0 hu1 (RelErr.one hu0 hu1 R _) (RelErr.refl hu0 hu1 2))

theorem slopeFl_rel {v r : ℕ} (h : v < r) (ds H hf : ℝ) (hh : RelErr u 1 H hf) :
    RelErr u 5 (H / (2 * halfWidth v r ds)) (slopeFl R.rnd hf r v ds) := by
  have hu1 : u < 1 := by linarith
  have h1 := RelErr.rnd hu0 hu1 R (RelErr.mul hu0 hu1 (RelErr.refl hu0 hu1 2) (halfDistanceFl_rel hu0 hu R h ds))
  exact RelErr.rnd hu0 hu1 R (RelErr.div hu0 hu1 hh h1)

omit hu0 hu in
theorem clamp_eq (x : ℝ) : (if x < 1 / 2 then 1 / 2 else if 3 < x then 3 else x) = max (1 / 2) (min 3 x) := by
  split_ifs with h1 h2
  · rw [max_eq_left (le_trans (min_le_right _ _) h1.le)]
  · rw [min_eq_left h2.le, max_eq_right (by norm_num)]
  · rw [min_eq_right (not_lt.mp h2), max_eq_right (not_lt.mp h1)]

omit hu0 hu in
theorem clamp_sub_le (x y : ℝ) : |max (1 / 2) (min 3 x) - max (1 / 2) (min 3 y)| ≤ |x - y| := by
  have h1 := abs_max_sub_max_le_max (1 / 2 : ℝ) (min 3 x) (1 / 2) (min 3 y)
  have h2 := abs_min_sub_min_le_max (3 : ℝ) x 3 y
  rw [sub_self, abs_zero, max_eq_right (abs_nonneg (min 3 x - min 3 y))] at h1
  rw [sub_self, abs_zero, max_eq_right (abs_nonneg (x - y))] at h2
  exact h1.trans h2

/-- The escarpment factor, when its index is exact. -/
theorem escarpmentFl_near (y : Line ℝ) {v r : ℕ} {ds : ℝ} (hds : 0 < ds) (h : v < r) (hr : r < y.size)
    (hbeta : betaIndFl R.rnd y.size r v ds = min ((y.size : ℤ) - 1) (r + (r - v))) :
    |escarpmentFactorFl R.rnd y r v ds - y.escarpment v r| ≤ 32 * u := by
  have hu1 : u < 1 := by linarith
  have hmin : min ((y.size : ℤ) - 1) ((r : ℤ) + (r - v)) = ((min (y.size - 1) (2 * r - v) : ℕ) : ℤ) := by omega
  unfold escarpmentFactorFl Line.escarpment
  simp only [hbeta, hmin, Int.toNat_natCast]
  generalize hb : min (y.size - 1) (2 * r - v) = b
  have hrb : r ≤ b := by omega
  have hbc : ((b - r : ℕ) : ℝ) = (b : ℝ) - r := Nat.cast_sub hrb
  have hd : RelErr u 1 ((((b : ℤ) : ℝ) - r) * ds) (R.rnd ((((b : ℤ) : ℝ) - r) * ds)) := RelErr.one hu0 hu1 R _
  by_cases hbr : b ≤ r
  · have : b = r := le_antisymm hbr hrb
    subst this
    rw [if_neg, if_pos le_rfl]
    · simp; exact hu0
    · rw [RelErr.pos_iff hu0 hu1 hd]
      simp
  · have hbr' : (r : ℝ) < b := by exact_mod_cast not_le.mp hbr
    rw [if_neg hbr, if_pos ((RelErr.pos_iff hu0 hu1 hd).mpr (by push_cast; exact mul_pos (by linarith) hds)),
      clamp_eq]
    have hs := slopeFl_rel hu0 hu R h ds (y.val r - y.val v) _ (RelErr.one hu0 hu1 R _)
    have h1 := RelErr.rnd hu0 hu1 R (RelErr.div hu0 hu1 (RelErr.one hu0 hu1 R (y.val r - y.val b)) hd)
    have h2 := RelErr.rnd hu0 hu1 R (RelErr.mul hu0 hu1 (RelErr.refl hu0 hu1 (3 / 2)) h1)
    have h3 := RelErr.rnd hu0 hu1 R (RelErr.div hu0 hu1 h2 hs)
    have key : 3 / 2 * ((y.val r - y.val b) / ((((b : ℤ) : ℝ) - r) * ds)) /
        ((y.val r - y.val v) / (2 * halfWidth v r ds)) =
        3 / 2 * ((y.val r - y.val b) / ((b - r : ℕ) : ℝ) / ((y.val r - y.val v) / ((r - v : ℕ) : ℝ))) := by
      rw [hbc]
      unfold halfWidth
      have hb0 : (b : ℝ) - r ≠ 0 := by linarith
      have hn0 : ((r - v : ℕ) : ℝ) ≠ 0 := by
        have : r - v ≠ 0 := by omega
        exact_mod_cast this
      push_cast
      rcases eq_or_ne (y.val r - y.val v) 0 with h0 | h0
      · simp [h0]
      · field_simp
    rw [key] at h3
    generalize 3 / 2 * ((y.val r - y.val b) / ((b - r : ℕ) : ℝ) /
      ((y.val r - y.val v) / ((r - v : ℕ) : ℝ))) = W at h3 ⊢
    generalize R.rnd (R.rnd (3 / 2 * R.rnd (R.rnd (y.val r - y.val b) / R.rnd ((((b : ℤ) : ℝ) - r) * ds))) /
      slopeFl R.rnd (R.rnd (y.val r - y.val v)) r v ds) = w at h3 ⊢
    have herr := RelErr.abs_sub_le hu0 hu1 h3 (c := 1.002) (by push_cast; linarith) (by norm_num)
    have hf := R.near (5 / 2 - w)
    push_cast at herr
    rcases le_or_gt |W| (5 / 2) with hW | hW
    · have e1 : |w - W| ≤ 25.1 * u := by
        refine herr.trans ?_
        nlinarith [mul_le_mul_of_nonneg_left hW hu0]
      have e2 : |R.rnd (5 / 2 - w) - (5 / 2 - w)| ≤ 5.1 * u := by
        refine hf.trans ?_
        have : |5 / 2 - w| ≤ 5.1 := by
          rw [abs_le] at hW e1 ⊢
          constructor <;> linarith
        nlinarith
      refine (clamp_sub_le _ _).trans ?_
      rw [abs_le] at e1 e2 ⊢
      constructor <;> linarith
    · have e1 : |w - W| ≤ 1 / 100 * |W| := by
        refine herr.trans ?_
        have := abs_nonneg W
        nlinarith
      have hzero : ∀ a b : ℝ, a = b → |a - b| ≤ 32 * u := by
        rintro a b rfl
        simp; exact hu0
      apply hzero
      rcases le_total 0 W with h0 | h0
      · rw [abs_of_nonneg h0] at hW e1
        obtain ⟨a1, a2⟩ := abs_le.mp e1
        have hle : R.rnd (5 / 2 - w) ≤ 1 / 2 := by
          have hsmall : u * |5 / 2 - w| ≤ 1 / 10000 * |5 / 2 - w| := by gcongr
          obtain ⟨f1, f2⟩ := abs_le.mp hf
          rcases le_total 0 (5 / 2 - w) with hs | hs
          · rw [abs_of_nonneg hs] at hsmall f2
            linarith
          · rw [abs_of_nonpos hs] at hsmall f2
            linarith
        rw [max_eq_left ((min_le_right _ _).trans hle), max_eq_left ((min_le_right _ _).trans (by linarith))]
      · rw [abs_of_nonpos h0] at hW e1
        obtain ⟨a1, a2⟩ := abs_le.mp e1
        have hge : 3 ≤ R.rnd (5 / 2 - w) := by
          have hsmall : u * |5 / 2 - w| ≤ 1 / 10000 * |5 / 2 - w| := by gcongr
          obtain ⟨f1, f2⟩ := abs_le.mp hf
          rw [abs_of_nonneg (by linarith)] at hsmall f1
          linarith
        rw [min_eq_left hge, min_eq_left (by linarith)]

/-! ### Comparisons -/

/-- A comparison with a threshold that is not near comes out the same on computed numbers. -/
theorem clear_compare {i j : ℕ} (hij : i + j ≤ 7) {x xf t tf : ℝ} (ht : 0 < t) (h : RelErr u j x xf)
    (h' : RelErr u i t tf) (hc : 8 * u * t < |x - t|) : (t < x ∧ tf < xf) ∨ (x < t ∧ xf < tf) := by
  have hu1 : u < 1 := by linarith
  obtain ⟨a, a1, a2, rfl⟩ := h
  obtain ⟨b, b1, b2, rfl⟩ := h'
  have hi : (i : ℝ) + j ≤ 7 := by exact_mod_cast hij
  have hi0 : (0 : ℝ) ≤ i := Nat.cast_nonneg _
  have hj0 : (0 : ℝ) ≤ j := Nat.cast_nonneg _
  have hiu : (i : ℝ) * u ≤ 7 / 10000 := by nlinarith
  have hju : (j : ℝ) * u ≤ 7 / 10000 := by nlinarith
  obtain ⟨f1, f2⟩ := RelErr.factor hu0 hu1 a1 a2 (c := 1.001) (by linarith) (by norm_num)
  obtain ⟨g1, g2⟩ := RelErr.factor hu0 hu1 b1 b2 (c := 1.001) (by linarith) (by norm_num)
  have hu0' : 0 < u ∨ u = 0 := hu0.lt_or_eq.imp id Eq.symm
  have ha : 0 < a := by linarith
  rcases lt_or_ge t x with hlt | hge
  · rw [abs_of_pos (by linarith)] at hc
    refine .inl ⟨hlt, ?_⟩
    have h1 : t * (1 + 8 * u) < x := by linarith
    have h2 : t * (1 + 8 * u) * a < x * a := by gcongr
    have h3 : b ≤ (1 + 8 * u) * a := by nlinarith [mul_nonneg hu0 hj0, mul_nonneg hu0 hi0]
    nlinarith
  · rw [abs_of_nonpos (by linarith)] at hc
    have hlt : x < t := by
      rcases hge.lt_or_eq with h | h
      · exact h
      · subst h
        have : 0 ≤ 8 * u * x := by positivity
        linarith
    refine .inr ⟨hlt, ?_⟩
    have h1 : x < t * (1 - 8 * u) := by linarith
    have h2 : x * a < t * (1 - 8 * u) * a := by gcongr
    have h3 : (1 - 8 * u) * a ≤ b := by nlinarith [mul_nonneg hu0 hj0, mul_nonneg hu0 hi0]
    nlinarith

/-- Within reach as computed: within reach up to rounding. -/
theorem ratio_le {i j : ℕ} (hij : i + j ≤ 78) {x xf L Lf : ℝ} (hL : 0 < L) (h : RelErr u i x xf)
    (h' : RelErr u j L Lf) (hle : xf ≤ Lf) : x / L ≤ 1 + 80 * u := by
  have hu1 : u < 1 := by linarith
  obtain ⟨t, t1, t2, t3⟩ := RelErr.mono hu0 hu1 (RelErr.div hu0 hu1 h h') hij
  obtain ⟨f1, f2⟩ := RelErr.factor hu0 hu1 t1 t2 (c := 1.008) (by push_cast; linarith) (by norm_num)
  push_cast at f1 f2
  have hLf : 0 < Lf := (RelErr.pos_iff hu0 hu1 h').mpr hL
  have h1 : x / L * t ≤ 1 := by rw [← t3]; exact (div_le_one hLf).mpr hle
  by_contra hcon
  push Not at hcon
  have h2 : (1 + 80 * u) * (1 - 78 * u) ≤ x / L * t := by
    apply mul_le_mul hcon.le f1 (by linarith) (by linarith)
  have h3 : (1 + 80 * u) * (1 - 78 * u) < x / L * t ∨ u = 0 := by
    rcases hu0.lt_or_eq with h0 | h0
    · left
      have : (1 + 80 * u) * (1 - 78 * u) < x / L * (1 - 78 * u) := by
        apply mul_lt_mul_of_pos_right hcon; linarith
      have : x / L * (1 - 78 * u) ≤ x / L * t := by
        apply mul_le_mul_of_nonneg_left f1; linarith
      linarith
    · exact .inr h0.symm
  rcases h3 with h3 | h3
  · nlinarith
  · subst h3
    have : t = 1 := by norm_num at f1 f2; linarith
    subst this
    linarith

/-- Out of reach as computed: out of reach up to rounding. -/
theorem le_ratio {i j : ℕ} (hij : i + j ≤ 78) {x xf L Lf : ℝ} (hL : 0 < L) (h : RelErr u i x xf)
    (h' : RelErr u j L Lf) (hle : Lf ≤ xf) : 1 - 80 * u ≤ x / L := by
  have hu1 : u < 1 := by linarith
  obtain ⟨t, t1, t2, t3⟩ := RelErr.mono hu0 hu1 (RelErr.div hu0 hu1 h h') hij
  obtain ⟨f1, f2⟩ := RelErr.factor hu0 hu1 t1 t2 (c := 1.008) (by push_cast; linarith) (by norm_num)
  push_cast at f1 f2
  have hLf : 0 < Lf := (RelErr.pos_iff hu0 hu1 h').mpr hL
  have h1 : 1 ≤ x / L * t := by rw [← t3]; exact (one_le_div hLf).mpr hle
  by_contra hcon
  push Not at hcon
  have ht : 0 < t := by linarith
  have h2 : x / L * t < (1 - 80 * u) * t := by gcongr
  nlinarith

/-! ### Values -/

/-- One value of the formula. -/
theorem hill_formula_near {A Af ρ rf : ℝ} (hA0 : 0 ≤ A) (hA : A ≤ 5 / 7) (hAf : RelErr u 8 A Af) (hρ0 : 0 ≤ ρ)
    (hρ : ρ ≤ 1 + 80 * u) (hrf : |rf - ρ| ≤ 80 * u) :
    |R.rnd (1 + R.rnd (Af * R.rnd (1 - rf))) - (1 + A * max 0 (1 - ρ))| ≤ 127 * u := by
  have hu1 : u < 1 := by linarith
  have hAe := RelErr.abs_sub_le hu0 hu1 hAf (c := 1.001) (by push_cast; linarith) (by norm_num)
  push_cast at hAe
  rw [abs_of_nonneg hA0] at hAe
  have hAe' : |Af - A| ≤ 5.73 * u := hAe.trans (by nlinarith)
  set g := max 0 (1 - ρ) with hg
  have hg0 : 0 ≤ g := le_max_left _ _
  have hg1 : g ≤ 1 := max_le (by norm_num) (by linarith)
  obtain ⟨r1, r2⟩ := abs_le.mp hrf
  have hs0 : |(1 - rf) - g| ≤ 160 * u := by
    rw [abs_le, hg]
    rcases le_total 0 (1 - ρ) with h | h
    · rw [max_eq_right h]; constructor <;> linarith
    · rw [max_eq_left h]; constructor <;> linarith
  have hs1 := R.near (1 - rf)
  set sf := R.rnd (1 - rf) with hsf
  have hs2 : |1 - rf| ≤ 1.02 := by rw [abs_le] at hs0 ⊢; constructor <;> linarith
  have hs3 : |sf - (1 - rf)| ≤ 1.02 * u := hs1.trans (by nlinarith)
  have hs4 : |sf - g| ≤ 161.02 * u := by
    rw [abs_le] at hs0 hs3 ⊢; constructor <;> linarith
  have hs5 : |sf| ≤ 1.02 := by rw [abs_le] at hs4 ⊢; constructor <;> linarith
  have hp : |Af * sf - A * g| ≤ 120.9 * u := by
    rw [show Af * sf - A * g = (Af - A) * sf + A * (sf - g) by ring]
    refine (abs_add_le _ _).trans ?_
    rw [abs_mul, abs_mul, abs_of_nonneg hA0]
    have h1 : |Af - A| * |sf| ≤ 5.73 * u * 1.02 := mul_le_mul hAe' hs5 (abs_nonneg _) (by positivity)
    have h2 : A * |sf - g| ≤ 5 / 7 * (161.02 * u) := mul_le_mul hA hs4 (abs_nonneg _) (by norm_num)
    linarith
  have hAg : A * g ≤ 5 / 7 := by nlinarith
  have hAg0 : 0 ≤ A * g := mul_nonneg hA0 hg0
  have hp1 := R.near (Af * sf)
  set pf := R.rnd (Af * sf) with hpf
  have hp2 : |Af * sf| ≤ 0.74 := by rw [abs_le] at hp ⊢; constructor <;> linarith
  have hp3 : |pf - Af * sf| ≤ 0.74 * u := hp1.trans (by nlinarith)
  have hv := R.near (1 + pf)
  have hv2 : |1 + pf| ≤ 1.76 := by rw [abs_le] at hp hp3 ⊢; constructor <;> linarith
  have hv3 : |R.rnd (1 + pf) - (1 + pf)| ≤ 1.76 * u := hv.trans (by nlinarith)
  rw [abs_le] at hp hp3 hv3 ⊢
  constructor <;> linarith

/-- The cap at 1.71. -/
theorem cap_near {v w : ℝ} (h : |v - w| ≤ 127 * u) :
    |(if R.rnd (171 / 100) < v then R.rnd (171 / 100) else v) - min (171 / 100) w| ≤ 127 * u := by
  have e : (if R.rnd (171 / 100) < v then R.rnd (171 / 100) else v) = min (R.rnd (171 / 100)) v := by
    split_ifs with h
    · rw [min_eq_left h.le]
    · rw [min_eq_right (not_lt.mp h)]
  rw [e]
  refine (abs_min_sub_min_le_max _ _ _ _).trans (max_le ?_ h)
  have := R.near (171 / 100)
  rw [abs_of_pos (by norm_num : (0 : ℝ) < 171 / 100)] at this
  linarith

omit hu0 hu in
theorem hill_slope_le {H Lu : ℝ} (hH : 0 < H) :
    H / (35 / 10 * (10 + max (36 / 100 * Lu) (4 / 10 * H))) ≤ 5 / 7 := by
  have h1 : 4 / 10 * H ≤ max (36 / 100 * Lu) (4 / 10 * H) := le_max_right _ _
  rw [div_le_iff₀ (by linarith)]
  linarith

/-- Out of the zone of separation. -/
theorem hillMultiplier_plain {H Lu k x : ℝ} (hH : 0 < H) (hk : 1 / 2 ≤ k)
    (hz : ¬ (x < 0 ∧ |x| < H / 4 ∧ 45 / 100 < H / (2 * Lu) ∧ |k - 1| < 2 / 10)) :
    hillMultiplier H Lu k x = min (171 / 100)
      (1 + H / (35 / 10 * (10 + max (36 / 100 * Lu) (4 / 10 * H))) *
        max 0 (1 - |x| / (if 0 ≤ x then 4 * max (36 / 100 * Lu) (4 / 10 * H)
          else k * (4 * max (36 / 100 * Lu) (4 / 10 * H))))) := by
  have h1 : 4 / 10 * H ≤ max (36 / 100 * Lu) (4 / 10 * H) := le_max_right _ _
  unfold hillMultiplier
  simp only [if_neg hz]
  generalize hr : (if 0 ≤ x then 4 * max (36 / 100 * Lu) (4 / 10 * H)
      else k * (4 * max (36 / 100 * Lu) (4 / 10 * H))) = reach
  have hrp : 0 < reach := by
    rw [← hr]
    split_ifs
    · linarith
    · exact mul_pos (by linarith) (by linarith)
  split_ifs with hx
  · have h0 : 0 ≤ 1 - |x| / reach := by
      rw [sub_nonneg, div_le_one hrp]
      exact hx.le
    rw [max_eq_right h0]
  · have h0 : 1 - |x| / reach ≤ 0 := by
      rw [sub_nonpos, one_le_div hrp]
      exact not_lt.mp hx
    rw [max_eq_left h0]
    norm_num

/-- At the edge of the reach the multiplier is near 1. -/
theorem hillMultiplier_edge {H Lu k x : ℝ} (hH : 0 < H) (hk : 1 / 2 ≤ k)
    (hx : 1 - 80 * u ≤ |x| / (if 0 ≤ x then 4 * max (36 / 100 * Lu) (4 / 10 * H)
          else k * (4 * max (36 / 100 * Lu) (4 / 10 * H)))) :
    |1 - hillMultiplier H Lu k x| ≤ 127 * u := by
  have h1 : 4 / 10 * H ≤ max (36 / 100 * Lu) (4 / 10 * H) := le_max_right _ _
  by_cases hz : x < 0 ∧ |x| < H / 4 ∧ 45 / 100 < H / (2 * Lu) ∧ |k - 1| < 2 / 10
  · -- in the zone of separation the edge is far
    exfalso
    rw [if_neg (not_le.mpr hz.1)] at hx
    have hk' := (abs_lt.mp hz.2.2.2).1
    have hreach : 8 / 10 * (4 * (4 / 10 * H)) ≤ k * (4 * max (36 / 100 * Lu) (4 / 10 * H)) :=
      mul_le_mul (by linarith) (by linarith) (by linarith) (by linarith)
    rw [le_div_iff₀ (by linarith)] at hx
    nlinarith [hz.2.1]
  · rw [hillMultiplier_plain hu0 hu hH hk hz]
    generalize |x| / (if 0 ≤ x then 4 * max (36 / 100 * Lu) (4 / 10 * H)
          else k * (4 * max (36 / 100 * Lu) (4 / 10 * H))) = ρ at hx ⊢
    have hA := hill_slope_le (Lu := Lu) hH
    have hA0 : 0 ≤ H / (35 / 10 * (10 + max (36 / 100 * Lu) (4 / 10 * H))) :=
      div_nonneg hH.le (by linarith)
    generalize H / (35 / 10 * (10 + max (36 / 100 * Lu) (4 / 10 * H))) = A at hA hA0 ⊢
    have hg0 : 0 ≤ max 0 (1 - ρ) := le_max_left _ _
    have hg : max 0 (1 - ρ) ≤ 80 * u := max_le (by linarith) (by linarith)
    have hAg : A * max 0 (1 - ρ) ≤ 5 / 7 * (80 * u) := mul_le_mul hA hg hg0 (by norm_num)
    have hAg0 : 0 ≤ A * max 0 (1 - ρ) := mul_nonneg hA0 hg0
    rw [min_eq_right (by linarith), abs_le]
    constructor <;> linarith

/-- What the body of the loop gives a point, up to rounding. -/
theorem mhBodyFl_near {H Lu k x hf l1f l2f sf ef xf : ℝ} (hH : 0 < H) (hLu : 0 < Lu) (hk : 1 / 2 ≤ k)
    (rh : RelErr u 1 H hf) (rl1 : RelErr u 4 (max (36 / 100 * Lu) (4 / 10 * H)) l1f)
    (rl2 : RelErr u 5 (4 * max (36 / 100 * Lu) (4 / 10 * H)) l2f) (rs : RelErr u 5 (H / (2 * Lu)) sf)
    (hef : |ef - k| ≤ 32 * u) (rx : RelErr u 1 x xf)
    (c1 : 8 * u * (45 / 100) < |H / (2 * Lu) - 45 / 100|)
    (c2 : x < 0 → 45 / 100 < H / (2 * Lu) →
      8 * u * (H / 4) < |(|x| - H / 4)| ∧ 40 * u < |(|k - 1| - 2 / 10)|) :
    |(mhBodyFl R.rnd hf l1f l2f sf ef xf).getD 1 - hillMultiplier H Lu k x| ≤ 127 * u := by
  have hu1 : u < 1 := by linarith
  have hL1 : 4 / 10 * H ≤ max (36 / 100 * Lu) (4 / 10 * H) := le_max_right _ _
  have hL1p : 0 < max (36 / 100 * Lu) (4 / 10 * H) := by linarith
  have re : RelErr u 70 k ef := RelErr.of_abs_sub_le hu0 hu1 (by linarith) (c := 64) (by
    have := mul_le_mul_of_nonneg_left hk hu0
    linarith) (by norm_num) (by push_cast; linarith)
  have hkL : 0 < k * (4 * max (36 / 100 * Lu) (4 / 10 * H)) := mul_pos (by linarith) (by linarith)
  -- the coefficient of the formula
  have rA : RelErr u 8 (H / (35 / 10 * (10 + max (36 / 100 * Lu) (4 / 10 * H))))
      (R.rnd (hf / R.rnd (7 / 2 * R.rnd (10 + l1f)))) := by
    have h1 := RelErr.add hu0 hu1 (by norm_num : (0 : ℝ) ≤ 10) hL1p.le
      (RelErr.mono hu0 hu1 (RelErr.refl hu0 hu1 10) (Nat.zero_le 4)) rl1
    have h2 := RelErr.rnd hu0 hu1 R (RelErr.mul hu0 hu1 (RelErr.refl hu0 hu1 (7 / 2)) (RelErr.rnd hu0 hu1 R h1))
    have h3 := RelErr.rnd hu0 hu1 R (RelErr.div hu0 hu1 rh h2)
    rw [show (35 / 10 : ℝ) = 7 / 2 by norm_num]
    exact h3
  have hA := hill_slope_le (Lu := Lu) hH
  have hA0 : 0 ≤ H / (35 / 10 * (10 + max (36 / 100 * Lu) (4 / 10 * H))) := div_nonneg hH.le (by linarith)
  -- errors of a ratio that is not large
  have hratio : ∀ {L Lf : ℝ} {j : ℕ}, j ≤ 76 → 0 < L → RelErr u j L Lf → |x| / L ≤ 1 + 80 * u →
      |R.rnd (|xf| / Lf) - |x| / L| ≤ 80 * u := by
    intro L Lf j hj hL hLf hle
    have h := RelErr.mono hu0 hu1 (RelErr.rnd hu0 hu1 R (RelErr.div hu0 hu1 (RelErr.abs hu0 hu1 rx) hLf))
      (by omega : 1 + j + 1 ≤ 78)
    have h2 := RelErr.abs_sub_le hu0 hu1 h (c := 1.008) (by push_cast; linarith) (by norm_num)
    have h0 : 0 ≤ |x| / L := by positivity
    rw [abs_of_nonneg h0] at h2
    push_cast at h2
    refine h2.trans ?_
    have h3 : 1.008 * (78 * u) * (|x| / L) ≤ 1.008 * (78 * u) * (1 + 80 * u) := by gcongr
    nlinarith
  unfold mhBodyFl
  by_cases hx : 0 ≤ x
  · have hxf : 0 ≤ xf := by
      have := (RelErr.neg_iff hu0 hu1 rx).not
      push Not at this
      exact this.mpr hx
    have hnz : ¬ (x < 0 ∧ |x| < H / 4 ∧ 45 / 100 < H / (2 * Lu) ∧ |k - 1| < 2 / 10) := by
      rintro ⟨h, _⟩; linarith
    by_cases hin : xf < l2f
    · rw [if_pos ⟨hxf, hin⟩]
      simp only [Option.getD_some]
      rw [hillMultiplier_plain hu0 hu hH hk hnz, if_pos hx]
      have hle : |x| / (4 * max (36 / 100 * Lu) (4 / 10 * H)) ≤ 1 + 80 * u :=
        ratio_le hu0 hu (by norm_num : 1 + 5 ≤ 78) (by linarith) (RelErr.abs hu0 hu1 rx) rl2
          (by rw [abs_of_nonneg hxf]; exact hin.le)
      apply cap_near hu0 hu R
      exact hill_formula_near hu0 hu R hA0 hA rA (by positivity) hle (hratio (by norm_num) (by linarith) rl2 hle)
    · rw [if_neg (by rintro ⟨_, h⟩; exact hin h), if_neg (by rintro ⟨_, h, _⟩; linarith),
        if_neg (by rintro ⟨h, _⟩; linarith), Option.getD_none]
      apply hillMultiplier_edge hu0 hu hH hk
      rw [if_pos hx]
      exact le_ratio hu0 hu (by norm_num : 1 + 5 ≤ 78) (by linarith) (RelErr.abs hu0 hu1 rx) rl2
          (by rw [abs_of_nonneg hxf]; exact not_lt.mp hin)
  · push Not at hx
    have hxf : xf < 0 := (RelErr.neg_iff hu0 hu1 rx).mpr hx
    rw [if_neg (by rintro ⟨h, _⟩; linarith)]
    have rL := RelErr.rnd hu0 hu1 R (RelErr.mul hu0 hu1 re rl2)
    have rxa := RelErr.abs hu0 hu1 rx
    have rL' : RelErr u 76 (k * (4 * max (36 / 100 * Lu) (4 / 10 * H))) (-R.rnd (-ef * l2f)) := by
      have h1 := RelErr.neg hu0 hu1 (RelErr.rnd hu0 hu1 R (RelErr.mul hu0 hu1 (RelErr.neg hu0 hu1 re) rl2))
      rw [neg_mul, neg_neg] at h1
      exact h1
    -- the zone of separation is the same
    have hzone : (R.rnd (45 / 100) < sf ∧ xf < 0 ∧ R.rnd (-hf / 4) < xf ∧ |R.rnd (ef - 1)| < R.rnd (2 / 10)) ↔
        (x < 0 ∧ |x| < H / 4 ∧ 45 / 100 < H / (2 * Lu) ∧ |k - 1| < 2 / 10) := by
      rcases clear_compare hu0 hu (by norm_num : 1 + 5 ≤ 7) (by norm_num) rs (RelErr.one hu0 hu1 R (45 / 100)) c1 with
        ⟨s1, s2⟩ | ⟨s1, s2⟩
      swap
      · constructor
        · rintro ⟨h, _⟩; linarith
        · rintro ⟨_, _, h, _⟩; linarith
      obtain ⟨d1, d2⟩ := c2 hx s1
      have hb1 : R.rnd (-hf / 4) < xf ↔ |x| < H / 4 := by
        have r4 : RelErr u 2 (H / 4) (-R.rnd (-hf / 4)) := by
          have h1 := RelErr.neg hu0 hu1
            (RelErr.rnd hu0 hu1 R (RelErr.div hu0 hu1 (RelErr.neg hu0 hu1 rh) (RelErr.refl hu0 hu1 4)))
          rw [show -(-H / 4) = H / 4 by ring] at h1
          exact h1
        rcases clear_compare hu0 hu (by norm_num : 2 + 1 ≤ 7) (by linarith) rxa r4 d1 with ⟨t1, t2⟩ | ⟨t1, t2⟩
        · rw [abs_of_neg hxf] at t2
          constructor <;> intro h <;> linarith
        · rw [abs_of_neg hxf] at t2
          constructor <;> intro h <;> linarith
      have hb2 : |R.rnd (ef - 1)| < R.rnd (2 / 10) ↔ |k - 1| < 2 / 10 := by
        have h1 := R.near (ef - 1)
        have h2 := R.near (2 / 10)
        rw [abs_of_pos (by norm_num : (0 : ℝ) < 2 / 10)] at h2
        have h3 : |R.rnd (ef - 1) - (k - 1)| ≤ 32 * u + u * |ef - 1| := by
          rw [show R.rnd (ef - 1) - (k - 1) = (R.rnd (ef - 1) - (ef - 1)) + (ef - k) by ring]
          refine (abs_add_le _ _).trans ?_
          linarith
        have h4 := abs_abs_sub_abs_le_abs_sub (R.rnd (ef - 1)) (k - 1)
        have h5 : |ef - 1| ≤ |k - 1| + 32 * u := by
          rw [show ef - 1 = (ef - k) + (k - 1) by ring]
          refine (abs_add_le _ _).trans ?_
          linarith
        obtain ⟨a1, a2⟩ := abs_le.mp (h4.trans h3)
        obtain ⟨b1, b2⟩ := abs_le.mp h2
        have hk0 := abs_nonneg (k - 1)
        rcases lt_or_ge |k - 1| (2 / 10) with hlt | hge
        · rw [abs_of_neg (by linarith)] at d2
          have : |R.rnd (ef - 1)| < R.rnd (2 / 10) := by nlinarith
          exact ⟨fun _ => hlt, fun _ => this⟩
        · rw [abs_of_nonneg (by linarith)] at d2
          have : R.rnd (2 / 10) ≤ |R.rnd (ef - 1)| := by nlinarith
          exact ⟨fun h => absurd h (not_lt.mpr this), fun h => absurd h (not_lt.mpr hge)⟩
      rw [hb1, hb2]
      constructor
      · rintro ⟨_, _, h1, h2⟩; exact ⟨hx, h1, s1, h2⟩
      · rintro ⟨_, h1, _, h2⟩; exact ⟨s2, hxf, h1, h2⟩
    by_cases hz : x < 0 ∧ |x| < H / 4 ∧ 45 / 100 < H / (2 * Lu) ∧ |k - 1| < 2 / 10
    · rw [if_pos (hzone.mpr hz), Option.getD_some]
      have hk' := (abs_lt.mp hz.2.2.2).1
      have hreach : 8 / 10 * (4 * (4 / 10 * H)) ≤ k * (4 * max (36 / 100 * Lu) (4 / 10 * H)) :=
        mul_le_mul (by linarith) (by linarith) (by linarith) (by linarith)
      have hlt : |x| < k * (4 * max (36 / 100 * Lu) (4 / 10 * H)) := by linarith [hz.2.1]
      have hval : hillMultiplier H Lu k x =
          1 + 71 / 100 * max 0 (1 - |x| / (k * (4 * max (36 / 100 * Lu) (4 / 10 * H)))) := by
        unfold hillMultiplier
        simp only [if_neg (not_le.mpr hx), if_pos hlt, if_pos hz]
        have h0 : 0 ≤ 1 - |x| / (k * (4 * max (36 / 100 * Lu) (4 / 10 * H))) := by
          rw [sub_nonneg, div_le_one hkL]
          exact hlt.le
        rw [max_eq_right h0]
      rw [hval]
      have hle : |x| / (k * (4 * max (36 / 100 * Lu) (4 / 10 * H))) ≤ 1 + 80 * u := by
        have := (div_lt_one hkL).mpr hlt
        linarith
      exact hill_formula_near hu0 hu R (by norm_num) (by norm_num)
        (RelErr.mono hu0 hu1 (RelErr.one hu0 hu1 R (71 / 100)) (by norm_num)) (by positivity) hle
        (hratio (by norm_num) hkL rL hle)
    · rw [if_neg (hzone.not.mpr hz)]
      by_cases hin : R.rnd (-ef * l2f) < xf
      · rw [if_pos ⟨hxf, hin⟩]
        simp only [Option.getD_some]
        rw [hillMultiplier_plain hu0 hu hH hk hz, if_neg (not_le.mpr hx)]
        have hle : |x| / (k * (4 * max (36 / 100 * Lu) (4 / 10 * H))) ≤ 1 + 80 * u :=
          ratio_le hu0 hu (by norm_num : 1 + 76 ≤ 78) hkL rxa rL' (by rw [abs_of_neg hxf]; linarith)
        apply cap_near hu0 hu R
        exact hill_formula_near hu0 hu R hA0 hA rA (by positivity) hle (hratio (by norm_num) hkL rL hle)
      · rw [if_neg (by rintro ⟨_, h⟩; exact hin h), Option.getD_none]
        apply hillMultiplier_edge hu0 hu hH hk
        rw [if_neg (not_le.mpr hx)]
        exact le_ratio hu0 hu (by norm_num : 1 + 76 ≤ 78) hkL rxa rL'
          (by rw [abs_of_neg hxf]; linarith)

omit hu0 hu in
/-- The loop at a point that negative indices do not write to. -/
theorem mhLoop_off (n : ℕ) (body : ℤ → Option ℝ) (i : ℕ) (ks : List ℤ)
    (hks : ∀ k ∈ ks, k < 0 → k + n ≠ i) :
    ∀ (m : ℕ → ℝ), mhLoop n body ks m i = if (i : ℤ) ∈ ks then (body i).getD (m i) else m i := by
  induction ks with
  | nil => intro m; simp [mhLoop]
  | cons k ks ih =>
    intro m
    have ih' := ih (fun k' hk' => hks k' (List.mem_cons_of_mem _ hk'))
    have hk0 := hks k List.mem_cons_self
    unfold mhLoop
    cases hb : body k with
    | none =>
      simp only
      rw [ih']
      by_cases hik : (i : ℤ) = k
      · rw [← hik] at hb
        rw [hb]
        simp
      · simp only [List.mem_cons, hik, false_or]
    | some w =>
      simp only
      rw [ih']
      have hset : pySet n m k w i = if (i : ℤ) = k then w else m i := by
        show (if (i : ℤ) = (if k < 0 then k + n else k) then w else m i) = _
        by_cases hneg : k < 0
        · rw [if_pos hneg, if_neg (fun h => hk0 hneg h.symm), if_neg (by omega)]
        · rw [if_neg hneg]
      rw [hset]
      by_cases hik : (i : ℤ) = k
      · rw [← hik] at hb
        rw [← hik, hb]
        simp
      · simp only [List.mem_cons, hik, false_or, if_false]

/-- `mh_calc` of a hill that counts, at any point but the last. -/
theorem mhCalcFl_near (y : Line ℝ) {v r : ℕ} {ds : ℝ} (hds : 0 < ds) (h : v < r) (hr : r < y.size)
    (hy : y.val v < y.val r)
    (hbeta : betaIndFl R.rnd y.size r v ds = min ((y.size : ℤ) - 1) (r + (r - v)))
    (hcount : ¬ (slopeFl R.rnd (R.rnd (y.val r - y.val v)) r v ds < R.rnd (5 / 100) ∨
      R.rnd (y.val r - y.val v) < 10 ∨ halfDistanceFl R.rnd r v ds < ds))
    (p : ℕ) (hp : p + 1 < y.size)
    (c1 : 8 * u * (45 / 100) < |(y.val r - y.val v) / (2 * halfWidth v r ds) - 45 / 100|)
    (c2 : r < p → 45 / 100 < (y.val r - y.val v) / (2 * halfWidth v r ds) →
      8 * u * ((y.val r - y.val v) / 4) < |((p : ℝ) - r) * ds - (y.val r - y.val v) / 4| ∧
      40 * u < |(|y.escarpment v r - 1| - 2 / 10)|) :
    |(mhCalcFl R.rnd y r v ds).val p - y.hillValue v r ds p| ≤ 127 * u := by
  have hu1 : u < 1 := by linarith
  have hH : 0 < y.val r - y.val v := by linarith
  have hLu := halfWidth_pos v r ds h hds
  have hesc := escarpment_bounds y v r
  have hef := escarpmentFl_near hu0 hu R y hds h hr hbeta
  have rlu := halfDistanceFl_rel hu0 hu R h ds
  have rh := RelErr.one hu0 hu1 R (y.val r - y.val v)
  have rs := slopeFl_rel hu0 hu R h ds _ _ rh
  unfold mhCalcFl Line.hillValue
  simp only
  rw [if_neg hcount]
  simp only
  set H := y.val r - y.val v with hHdef
  set Lu := halfWidth v r ds with hLudef
  set k := y.escarpment v r with hkdef
  set ef := escarpmentFactorFl R.rnd y r v ds with hefdef
  set l1f := max (R.rnd (R.rnd (36 / 100) * halfDistanceFl R.rnd r v ds)) (R.rnd (R.rnd (4 / 10) * R.rnd H)) with hl1f
  have hL1p : 0 < max (36 / 100 * Lu) (4 / 10 * H) := lt_max_of_lt_right (by linarith)
  have rl1 : RelErr u 4 (max (36 / 100 * Lu) (4 / 10 * H)) l1f := by
    apply RelErr.max hu0 hu1 (by positivity) (by positivity)
    · exact RelErr.mono hu0 hu1
        (RelErr.rnd hu0 hu1 R (RelErr.mul hu0 hu1 (RelErr.one hu0 hu1 R _) rlu)) (by norm_num)
    · exact RelErr.mono hu0 hu1
        (RelErr.rnd hu0 hu1 R (RelErr.mul hu0 hu1 (RelErr.one hu0 hu1 R _) rh)) (by norm_num)
  have rl2 : RelErr u 5 (4 * max (36 / 100 * Lu) (4 / 10 * H)) (R.rnd (4 * l1f)) := by
    have := RelErr.rnd hu0 hu1 R (RelErr.mul hu0 hu1 (RelErr.refl hu0 hu1 4) rl1)
    exact RelErr.mono hu0 hu1 this (by norm_num)
  set l2f := R.rnd (4 * l1f) with hl2f
  have re : RelErr u 70 k ef := RelErr.of_abs_sub_le hu0 hu1 (by linarith [hesc.1]) (c := 64) (by
    have := mul_le_mul_of_nonneg_left hesc.1 hu0
    linarith) (by norm_num) (by push_cast; linarith)
  have hkL : 0 < k * (4 * max (36 / 100 * Lu) (4 / 10 * H)) := mul_pos (by linarith [hesc.1]) (by linarith)
  have rL := RelErr.rnd hu0 hu1 R (RelErr.mul hu0 hu1 re rl2)
  have rq1 := RelErr.rnd hu0 hu1 R (RelErr.div hu0 hu1 rl2 (RelErr.refl hu0 hu1 ds))
  have rq2 := RelErr.rnd hu0 hu1 R (RelErr.div hu0 hu1 rL (RelErr.refl hu0 hu1 ds))
  have hF1 : 0 ≤ ⌊R.rnd (l2f / ds)⌋ := Int.floor_nonneg.mpr
    ((RelErr.pos_iff hu0 hu1 rq1).mpr (div_pos (by linarith) hds)).le
  have hF2 : 0 ≤ ⌊R.rnd (R.rnd (ef * l2f) / ds)⌋ := Int.floor_nonneg.mpr
    ((RelErr.pos_iff hu0 hu1 rq2).mpr (div_pos hkL hds)).le
  have hfl1 := Int.lt_floor_add_one (R.rnd (l2f / ds))
  have hfl2 := Int.lt_floor_add_one (R.rnd (R.rnd (ef * l2f) / ds))
  rw [mhLoop_off]
  swap
  · intro q hq hneg
    rw [mem_pyRange] at hq
    omega
  by_cases hm : (p : ℤ) ∈ pyRange (max 0 ((r : ℤ) - ⌊R.rnd (l2f / ds)⌋) - 1)
      (min ((y.size : ℤ) - 1) ((r : ℤ) + ⌊R.rnd (R.rnd (ef * l2f) / ds)⌋) + 1)
  · rw [if_pos hm]
    apply mhBodyFl_near hu0 hu R hH hLu hesc.1 rh rl1 rl2 rs hef (RelErr.one hu0 hu1 R _) c1
    intro hx hs
    have hrp : r < p := by
      by_contra hcon
      have : (p : ℝ) ≤ r := by exact_mod_cast not_lt.mp hcon
      push_cast at hx
      have := mul_nonneg (by linarith : (0 : ℝ) ≤ (r : ℝ) - p) hds.le
      linarith
    have hrp' : (r : ℝ) < p := by exact_mod_cast hrp
    push_cast
    rw [abs_mul, abs_of_neg (by linarith : (r : ℝ) - p < 0), abs_of_pos hds, neg_sub]
    exact c2 hrp hs
  · rw [if_neg hm]
    rw [mem_pyRange] at hm
    apply hillMultiplier_edge hu0 hu hH hesc.1
    rcases Nat.lt_or_ge r p with hrp | hrp
    · have hrp' : (r : ℝ) < p := by exact_mod_cast hrp
      have hneg : ((r : ℝ) - ((p : ℤ) : ℝ)) * ds < 0 := by
        push_cast
        exact mul_neg_of_neg_of_pos (by linarith) hds
      have hq : ⌊R.rnd (R.rnd (ef * l2f) / ds)⌋ + 1 ≤ (p : ℤ) - r := by omega
      have hq' : R.rnd (R.rnd (ef * l2f) / ds) ≤ (p : ℝ) - r := by
        have : ((⌊R.rnd (R.rnd (ef * l2f) / ds)⌋ : ℤ) : ℝ) + 1 ≤ (p : ℝ) - r := by exact_mod_cast hq
        linarith
      rw [if_neg (not_le.mpr hneg), abs_of_neg hneg]
      have := le_ratio hu0 hu (by norm_num : 0 + 77 ≤ 78) (div_pos hkL hds) (RelErr.refl hu0 hu1 ((p : ℝ) - r)) rq2 hq'
      refine this.trans (le_of_eq ?_)
      push_cast
      field_simp
      ring
    · have hrp' : (p : ℝ) ≤ r := by exact_mod_cast hrp
      have hnn : 0 ≤ ((r : ℝ) - ((p : ℤ) : ℝ)) * ds := by
        push_cast
        exact mul_nonneg (by linarith) hds.le
      have hq : ⌊R.rnd (l2f / ds)⌋ + 1 ≤ (r : ℤ) - p := by omega
      have hq' : R.rnd (l2f / ds) ≤ (r : ℝ) - p := by
        have : ((⌊R.rnd (l2f / ds)⌋ : ℤ) : ℝ) + 1 ≤ (r : ℝ) - p := by exact_mod_cast hq
        linarith
      rw [if_pos hnn, abs_of_nonneg hnn]
      have := le_ratio hu0 hu (by norm_num : 0 + 6 ≤ 78) (div_pos (by linarith : 0 < 4 * max (36 / 100 * Lu)
        (4 / 10 * H)) hds) (RelErr.refl hu0 hu1 ((r : ℝ) - p)) rq1 hq'
      refine this.trans (le_of_eq ?_)
      push_cast
      field_simp

end

end WindMult
