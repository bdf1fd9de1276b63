import Verif.Model.FloatTerrain
import Verif.Model.FloatDigits
import Verif.Proofs.Basic
import Verif.Proofs.Terrain
import Mathlib.Tactic.Linarith
import Mathlib.Tactic.Push
import Mathlib.Tactic.FieldSimp
import Mathlib.Tactic.Positivity
import Mathlib.Algebra.Order.Field.Power

/-!
# Relative errors of computed numbers
-/

set_option autoImplicit false

namespace WindMult

/-- `y` is the number `x ≥ 0` up to a relative error `c - 1`. -/
def Near (c x y : ℝ) : Prop := 0 ≤ x ∧ |y - x| ≤ (c - 1) * x

theorem Near.refl {x : ℝ} (h : 0 ≤ x) : Near 1 x x := ⟨h, by simp⟩

theorem Near.mono {c c' x y : ℝ} (h : Near c x y) (hc : c ≤ c') : Near c' x y :=
  ⟨h.1, h.2.trans (mul_le_mul_of_nonneg_right (by linarith) h.1)⟩

theorem Near.le_mul {c x y : ℝ} (h : Near c x y) : |y| ≤ c * x := by
  have h1 := abs_le.mp h.2
  have := h.1
  rw [abs_le]
  have h2 := abs_nonneg (y - x)
  constructor <;> nlinarith [h.2]

theorem Near.add {c x y x' y' : ℝ} (h : Near c x y) (h' : Near c x' y') : Near c (x + x') (y + y') := by
  refine ⟨add_nonneg h.1 h'.1, ?_⟩
  rw [show y + y' - (x + x') = (y - x) + (y' - x') by ring]
  refine (abs_add_le _ _).trans ?_
  linarith [h.2, h'.2]

theorem Near.rnd {u c x y : ℝ} (R : FpRound u) (hu : 0 ≤ u) (h : Near c x y) :
    Near (c * (1 + u)) x (R.rnd y) := by
  refine ⟨h.1, ?_⟩
  rw [show R.rnd y - x = (R.rnd y - y) + (y - x) by ring]
  refine (abs_add_le _ _).trans ?_
  have h1 := R.near y
  have h2 := mul_le_mul_of_nonneg_left h.le_mul hu
  linarith [h.2]

theorem Near.div {c x y n : ℝ} (h : Near c x y) (hn : 0 < n) : Near c (x / n) (y / n) := by
  refine ⟨div_nonneg h.1 hn.le, ?_⟩
  rw [← sub_div, abs_div, abs_of_pos hn, ← mul_div_assoc]
  gcongr
  exact h.2

theorem Near.mul {c c' x y x' y' : ℝ} (h : Near c x y) (h' : Near c' x' y') :
    Near (c * c') (x * x') (y * y') := by
  refine ⟨mul_nonneg h.1 h'.1, ?_⟩
  rw [show y * y' - x * x' = (y - x) * y' + x * (y' - x') by ring]
  refine (abs_add_le _ _).trans ?_
  rw [abs_mul, abs_mul, abs_of_nonneg h.1]
  have h1 : |y - x| * |y'| ≤ ((c - 1) * x) * (c' * x') :=
    mul_le_mul h.2 h'.le_mul (abs_nonneg _) ((abs_nonneg _).trans h.2)
  have h2 := mul_le_mul_of_nonneg_left h'.2 h.1
  linarith

theorem Near.max {c x y x' y' : ℝ} (h : Near c x y) (h' : Near c x' y') :
    Near c (max x x') (max y y') := by
  refine ⟨le_max_of_le_left h.1, (abs_max_sub_max_le_max y y' x x').trans ?_⟩
  rcases eq_or_lt_of_le h.1 with e | hx
  · have := h.2
    rw [← e] at this ⊢
    rw [mul_zero] at this
    rw [max_eq_right h'.1]
    exact max_le (this.trans ((abs_nonneg _).trans h'.2)) h'.2
  have hc : 0 ≤ c - 1 := by
    by_contra hc
    push Not at hc
    have := (abs_nonneg _).trans h.2
    nlinarith
  exact max_le (h.2.trans (by gcongr; exact le_max_left _ _))
    (h'.2.trans (by gcongr; exact le_max_right _ _))

theorem Near.foldl_max {w : ℝ} {R : FpRound w} {c : ℝ} (x : Dir → ℝ) (y : Dir → Fl R) (l : List Dir)
    (h : ∀ d ∈ l, Near c (x d) (y d).val) (a : ℝ) (b : Fl R) (hab : Near c a b.val) :
    Near c (l.foldl (fun m d => Max.max m (x d)) a)
      (l.foldl (fun m d => Max.max m (y d)) b).val := by
  induction l generalizing a b with
  | nil => exact hab
  | cons d l ih =>
    exact ih (fun d' h' => h d' (by simp [h'])) _ _ (hab.max (h d (by simp)))

/-! ### Rounding to `p` binary digits -/

theorem roundDigits_near (p : ℕ) (x : ℝ) : |roundDigits p x - x| ≤ (1 / 2 ^ p) * |x| := by
  rcases eq_or_ne x 0 with rfl | hx
  · have : around (0 : ℝ) = 0 := by simpa using around_intCast (K := ℝ) 0
    simp [roundDigits, this]
  have hx' : 0 < |x| := abs_pos.mpr hx
  have h1 := Int.zpow_log_le_self (b := 2) (r := |x|) (by norm_num) hx'
  have h2 := abs_sub_around_le (x * 2 ^ lastDigit p x)
  have hp : (0 : ℝ) < 2 ^ lastDigit p x := by positivity
  have e : roundDigits p x - x =
      -((x * 2 ^ lastDigit p x - around (x * 2 ^ lastDigit p x)) / 2 ^ lastDigit p x) := by
    unfold roundDigits
    field_simp
    ring
  have h3 : (2 : ℝ) ^ p / 2 ≤ |x| * 2 ^ lastDigit p x := by
    unfold lastDigit
    push_cast at h1
    generalize Int.log 2 |x| = l at *
    calc (2 : ℝ) ^ p / 2 = 2 ^ l * 2 ^ ((p : ℤ) - 1 - l) := by
          rw [← zpow_add₀ (by norm_num), show l + ((p : ℤ) - 1 - l) = (p : ℤ) - 1 by ring,
            zpow_sub₀ (by norm_num), zpow_natCast, zpow_one]
      _ ≤ _ := by gcongr
  rw [e, abs_neg, abs_div, abs_of_pos hp, one_div, inv_mul_eq_div, div_le_div_iff₀ hp (by positivity)]
  nlinarith [show (0 : ℝ) < 2 ^ p by positivity]

/-- A binary format with `p` digits, without limits on the exponent. -/
noncomputable def digits (p : ℕ) : FpRound (1 / 2 ^ p) := ⟨roundDigits p, roundDigits_near p⟩

/-! ### The averaging -/

theorem Grid.pyIndex_lt {n k : ℕ} {i : ℤ} (h : Grid.pyIndex n i = some k) : k < n := by
  unfold Grid.pyIndex at h
  split_ifs at h <;> simp only [Option.some.injEq] at h <;> omega

variable {u v w : ℝ}

theorem neighbourSumFl_near (A : FpRound u) (hu : 0 ≤ u) (d : Dir) {g gf : Grid ℝ} {c : ℝ} (hc : 1 ≤ c)
    (hr : gf.rows = g.rows) (hcol : gf.cols = g.cols)
    (hn : ∀ i < g.rows, ∀ j < g.cols, Near c (g.val i j) (gf.val i j)) (lag : ℤ) (i j : ℕ)
    (ms : List ℕ) (a b e s : ℝ) (he : 1 ≤ e) (hab : Near (c * e) a b)
    (h : neighbourSum d g lag i j ms a = .ok s) :
    ∃ t, neighbourSumFl A d gf lag i j ms b = .ok t ∧ Near (c * (e * (1 + u) ^ ms.length)) s t := by
  induction ms generalizing a b e with
  | nil =>
    simp only [neighbourSum, Except.ok.injEq] at h
    subst h
    exact ⟨b, rfl, by simpa using hab⟩
  | cons m ms ih =>
    unfold neighbourSum at h
    unfold neighbourSumFl
    unfold Grid.pyGet at h ⊢
    rw [hr, hcol]
    cases h1 : Grid.pyIndex g.rows (pointR d i m lag) with
    | none => simp [h1, bind, Except.bind] at h
    | some r =>
      cases h2 : Grid.pyIndex g.cols (pointC d j m lag) with
      | none => simp [h1, h2, bind, Except.bind] at h
      | some k =>
        simp only [h1, h2, bind, Except.bind] at h ⊢
        have hrk := hn r (Grid.pyIndex_lt h1) k (Grid.pyIndex_lt h2)
        have hce : c ≤ c * e := le_mul_of_one_le_right (by linarith) he
        have hs := ((hab.add (hrk.mono hce)).rnd A hu)
        rw [mul_assoc] at hs
        have he' : 1 ≤ e * (1 + u) := by nlinarith
        obtain ⟨t, h3, h4⟩ := ih _ _ _ he' hs h
        refine ⟨t, h3, ?_⟩
        rw [List.length_cons, pow_succ]
        convert h4 using 2
        ring

/-- One cell: the factor belongs to `n` additions, the division and the storing. -/
theorem convoCellFl_near (A : FpRound u) (D : FpRound v) (S : FpRound w) (hu : 0 ≤ u) (hv : 0 ≤ v)
    (hw : 0 ≤ w) (d : Dir) {g gf : Grid ℝ} {c : ℝ} (hc : 1 ≤ c)
    (hr : gf.rows = g.rows) (hcol : gf.cols = g.cols)
    (hn : ∀ i < g.rows, ∀ j < g.cols, Near c (g.val i j) (gf.val i j)) (width : ℕ) (lag : ℤ) (i j : ℕ)
    (s : ℝ) (h : convoCell d g width lag i j = .ok s) :
    ∃ t, convoCellFl A D S d gf width lag i j = .ok t ∧
      Near (c * (1 + u) ^ width * (1 + v) * (1 + w)) s t := by
  have hp : 1 ≤ (1 + u) ^ width := one_le_pow₀ (by linarith)
  unfold convoCell at h
  unfold convoCellFl
  rw [hr, hcol]
  by_cases hall : 0 < allNeighb d i j g.rows g.cols lag
  · simp only [if_pos hall] at h ⊢
    generalize hm : (if allNeighb d i j g.rows g.cols lag < (width : ℤ)
      then allNeighb d i j g.rows g.cols lag else (width : ℤ)) = mx at *
    have hmx : 0 ≤ mx ∧ mx ≤ width := by
      rw [← hm]
      split_ifs <;> omega
    cases h1 : neighbourSum d g lag i j (List.range mx.toNat) 0 with
    | error e => simp [h1, bind, Except.bind] at h
    | ok S0 =>
      have h0 : Near (c * 1) (0 : ℝ) 0 := ⟨le_rfl, by simp⟩
      obtain ⟨t, h2, h3⟩ := neighbourSumFl_near A hu d hc hr hcol hn lag i j _ 0 0 1 S0 le_rfl h0 h1
      simp only [h1, h2, bind, Except.bind, pure, Except.pure] at h ⊢
      by_cases hz : (mx : ℝ) = 0
      · simp [hz] at h
      · rw [if_neg hz, Except.ok.injEq] at h
        rw [if_neg hz]
        have hpos : (0 : ℝ) < mx := lt_of_le_of_ne (by exact_mod_cast hmx.1) (Ne.symm hz)
        refine ⟨_, rfl, ?_⟩
        rw [← h]
        refine (((h3.mono ?_).div hpos).rnd D hv).rnd S hw
        rw [one_mul, List.length_range]
        gcongr
        · linarith
        · omega
  · simp only [if_neg hall] at h ⊢
    unfold Grid.pyGet at h ⊢
    rw [hr, hcol]
    cases h1 : Grid.pyIndex g.rows i with
    | none => simp [h1] at h
    | some r =>
      cases h2 : Grid.pyIndex g.cols j with
      | none => simp [h1, h2] at h
      | some k =>
        simp only [h1, h2, Except.ok.injEq] at h
        simp only [bind, Except.bind, pure, Except.pure]
        refine ⟨_, rfl, ?_⟩
        rw [← h]
        have hrk := hn r (Grid.pyIndex_lt h1) k (Grid.pyIndex_lt h2)
        refine (hrk.mono ?_).rnd S hw
        have : c ≤ c * (1 + u) ^ width := le_mul_of_one_le_right (by linarith) hp
        nlinarith

end WindMult
