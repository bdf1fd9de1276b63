import Verif.Model.FloatShield
import Verif.Proofs.Near
import Verif.Proofs.RelErr
import Verif.Proofs.Kernel
import Verif.Props.ShieldBlur

/-!
# Rounding errors of the shielding multiplier
-/

set_option linter.unusedSectionVars false
set_option autoImplicit false

namespace WindMult
open Finset
variable {u w : ℝ}

/-- Both NaN, or close. -/
def NearOpt (c : ℝ) : Option ℝ → Option ℝ → Prop
  | some a, some b => Near c a b
  | none, none => True
  | _, _ => False

theorem NearOpt.mono {c c' : ℝ} {x y : Option ℝ} (h : NearOpt c x y) (hc : c ≤ c') : NearOpt c' x y := by
  cases x <;> cases y <;> simp only [NearOpt] at h ⊢
  exact h.mono hc

theorem NearOpt.map_rnd {c : ℝ} {x y : Option ℝ} (R : FpRound w) (hw : 0 ≤ w) (h : NearOpt c x y) :
    NearOpt (c * (1 + w)) x (y.map R.rnd) := by
  cases x <;> cases y <;> simp only [NearOpt, Option.map] at h ⊢
  exact h.rnd R hw

theorem NearOpt.add {c : ℝ} {x y x' y' : Option ℝ} (R : FpRound w) (hw : 0 ≤ w) (h : NearOpt c x y)
    (h' : NearOpt c x' y') : NearOpt (c * (1 + w)) (nanAdd x x') (nanAddFl R y y') := by
  cases x <;> cases y <;> cases x' <;> cases y' <;> simp only [NearOpt, nanAdd, nanAddFl] at h h' ⊢
  exact (h.add h').rnd R hw

theorem sum_step_near {X : Type} (R : FpRound w) (hw : 0 ≤ w) {c : ℝ} (hc : 1 ≤ c) (l : List X) (k kf : X → ℝ)
    (t tf : X → Option ℝ) (hk : ∀ x ∈ l, kf x = 0 ↔ k x = 0)
    (ht : ∀ x ∈ l, k x ≠ 0 → NearOpt c (t x) (tf x)) :
    ∀ (C : ℝ) (a b : Option ℝ), c ≤ C → NearOpt C a b →
      NearOpt (C * (1 + w) ^ (l.countP fun x => k x ≠ 0))
        (l.foldl (fun acc x => if k x = 0 then acc else nanAdd acc (t x)) a)
        (l.foldl (fun acc x => if kf x = 0 then acc else nanAddFl R acc (tf x)) b) := by
  induction l with
  | nil => intro C a b _ h; simpa using h
  | cons x l ih =>
    intro C a b hC h
    have hl : ∀ y ∈ l, y ∈ x :: l := fun y hy => List.mem_cons_of_mem _ hy
    have ih := ih (fun y hy => hk y (hl y hy)) (fun y hy => ht y (hl y hy))
    rw [List.foldl_cons, List.foldl_cons]
    by_cases h0 : k x = 0
    · rw [if_pos h0, if_pos ((hk x (by simp)).mpr h0), List.countP_cons_of_neg (by simp [h0])]
      exact ih C a b hC h
    · rw [if_neg h0, if_neg (fun e => h0 ((hk x (by simp)).mp e)), List.countP_cons_of_pos (by simp [h0])]
      have h1 := h.add R hw ((ht x (by simp) h0).mono hC)
      have h2 := ih (C * (1 + w)) _ _ (by nlinarith) h1
      exact h2.mono (le_of_eq (by ring))

/-- The sum of a convolution. -/
theorem conv_near (R : FpRound w) (hw : 0 ≤ w) {c : ℝ} (hc : 1 ≤ c) (n : ℕ) (k kf : ℕ → ℕ → ℝ)
    (t tf : ℕ → ℕ → Option ℝ) (la : List ℕ) (hk : ∀ a ∈ la, ∀ b < n, kf a b = 0 ↔ k a b = 0)
    (ht : ∀ a ∈ la, ∀ b < n, k a b ≠ 0 → NearOpt c (t a b) (tf a b)) :
    ∀ (C : ℝ) (a b : Option ℝ), c ≤ C → NearOpt C a b →
      NearOpt (C * (1 + w) ^ ((la.map fun a => (List.range n).countP fun b => k a b ≠ 0).sum))
        (la.foldl (fun acc a => (List.range n).foldl
          (fun acc b => if k a b = 0 then acc else nanAdd acc (t a b)) acc) a)
        (la.foldl (fun acc a => (List.range n).foldl
          (fun acc b => if kf a b = 0 then acc else nanAddFl R acc (tf a b)) acc) b) := by
  induction la with
  | nil => intro C a b _ h; simpa using h
  | cons x la ih =>
    intro C a b hC h
    rw [List.foldl_cons, List.foldl_cons]
    have h1 := sum_step_near R hw hc (List.range n) (k x) (kf x) (t x) (tf x)
      (fun y hy => hk x (by simp) y (List.mem_range.mp hy)) (fun y hy => ht x (by simp) y (List.mem_range.mp hy))
      C a b hC h
    have h2 := ih (fun a ha => hk a (by simp [ha])) (fun a ha => ht a (by simp [ha])) _ _ _
      (hC.trans (le_mul_of_one_le_right (by linarith) (one_le_pow₀ (by linarith)))) h1
    refine h2.mono (le_of_eq ?_)
    rw [List.map_cons, List.sum_cons, pow_add]
    ring

theorem FpRound.zero_iff (R : FpRound w) (hw : w < 1) (x : ℝ) : R.rnd x = 0 ↔ x = 0 := by
  have h := R.near x
  constructor
  · intro h0
    rw [h0, zero_sub, abs_neg] at h
    have := abs_nonneg x
    have : |x| = 0 := by nlinarith
    exact abs_eq_zero.mp this
  · rintro rfl
    simpa using h

/-- The number of cells of the kernel that are not zero. -/
theorem kern_count (d : Dir) (k : ℕ) (hk : 1 ≤ k) :
    ((List.range (2 * k + 1)).map fun a => (List.range (2 * k + 1)).countP
      fun b => (kern d k : Grid ℝ).val a b ≠ 0).sum = (shieldCells d k).card := by
  obtain ⟨-, -, v⟩ := kern_spec (K := ℝ) d k hk
  have hp := card_pos' (K := ℝ) d k hk
  have hcount : ∀ (l : List ℕ) (p : ℕ → Prop) [DecidablePred p],
      ((l.countP fun b => decide (p b)) : ℝ) = (l.map fun b => if p b then (1 : ℝ) else 0).sum := by
    intro l p _
    induction l with
    | nil => simp
    | cons x l ih =>
      rw [List.countP_cons, List.map_cons, List.sum_cons]
      push_cast
      rw [ih]
      by_cases h : p x <;> simp [h, add_comm]
  have hsum := sum_reflect (K := ℝ) k (shieldCells d k) (shieldCells_bounds d k) (fun _ => 1)
  have : (((List.range (2 * k + 1)).map fun a => (List.range (2 * k + 1)).countP
      fun b => (kern d k : Grid ℝ).val a b ≠ 0).sum : ℝ) = ((shieldCells d k).card : ℝ) := by
    rw [Nat.cast_list_sum, List.map_map]
    rw [list_sum_range]
    rw [Finset.sum_const, nsmul_eq_mul, mul_one] at hsum
    rw [← hsum]
    apply Finset.sum_congr rfl
    intro a ha
    simp only [Function.comp]
    rw [hcount, list_sum_range]
    apply Finset.sum_congr rfl
    intro b hb
    rw [v a b (Finset.mem_range.mp ha) (Finset.mem_range.mp hb)]
    by_cases h : ((k : ℤ) - a, (k : ℤ) - b) ∈ shieldCells d k
    · rw [if_pos h, if_pos h, if_pos (by positivity)]
    · rw [if_neg h, if_neg h, if_neg (by simp)]
  exact_mod_cast this

/-- The convolution with rounded operations. -/
theorem blurFl_near (S : FpRound u) (W : FpRound w) (hu : 0 ≤ u) (hw : 0 ≤ w) (hw1 : w < 1) (d : Dir) (k : ℕ)
    (hk : 1 ≤ k) (im imf : Grid (Option ℝ)) (hr : imf.rows = im.rows) (hc : imf.cols = im.cols) (ε : ℝ)
    (hε : 0 ≤ ε) (h : ∀ i < im.rows, ∀ j < im.cols, NearOpt (1 + ε) (im.val i j) (imf.val i j)) (i j : ℕ) :
    NearOpt ((1 + ε) * (1 + w) ^ ((shieldCells d k).card + 2) * (1 + u)) (shieldMean im d k i j)
      ((blurImageFl S W imf (kernFl W d k)).val i j) := by
  rw [← C31_blur_is_sector_mean d k hk]
  obtain ⟨r, c, v⟩ := kern_spec (K := ℝ) d k hk
  have hker : ∀ a < 2 * k + 1, ∀ b < 2 * k + 1, 0 ≤ (kern d k : Grid ℝ).val a b := by
    intro a ha b hb
    rw [v a b ha hb]
    split_ifs <;> positivity
  unfold blurImage ndConvolve blurImageFl
  apply NearOpt.map_rnd S hu
  simp only [kernFl]
  rw [r, c]
  have hcell : ∀ p q : ℤ, NearOpt (1 + ε) (im.padded (some 1) p q) (imf.padded (some 1) p q) := by
    intro p q
    unfold Grid.padded
    rw [hr, hc]
    split_ifs with hin
    · exact h _ (by omega) _ (by omega)
    · exact (Near.refl zero_le_one).mono (by linarith)
  have hone : 1 ≤ (1 + ε) * (1 + w) ^ 2 := by
    have : 1 ≤ (1 + w) ^ 2 := one_le_pow₀ (by linarith)
    nlinarith
  have := conv_near W hw (c := (1 + ε) * (1 + w) ^ 2) hone (2 * k + 1) (kern d k : Grid ℝ).val
    (fun a b => W.rnd ((kern d k : Grid ℝ).val a b))
    (fun a b => (im.padded (some 1) ((i : ℤ) + ((2 * k + 1) / 2 : ℕ) - a)
      ((j : ℤ) + ((2 * k + 1) / 2 : ℕ) - b)).map (fun v => (kern d k : Grid ℝ).val a b * v))
    (fun a b => (imf.padded (some 1) ((i : ℤ) + ((2 * k + 1) / 2 : ℕ) - a)
      ((j : ℤ) + ((2 * k + 1) / 2 : ℕ) - b)).map (fun v => W.rnd (W.rnd ((kern d k : Grid ℝ).val a b) * v)))
    (List.range (2 * k + 1)) (fun a _ b _ => W.zero_iff hw1 _) (fun a ha b hb _ => by
      have h1 := hcell ((i : ℤ) + ((2 * k + 1) / 2 : ℕ) - a) ((j : ℤ) + ((2 * k + 1) / 2 : ℕ) - b)
      cases e1 : im.padded (some 1) ((i : ℤ) + ((2 * k + 1) / 2 : ℕ) - a) ((j : ℤ) + ((2 * k + 1) / 2 : ℕ) - b) <;>
        cases e2 : imf.padded (some 1) ((i : ℤ) + ((2 * k + 1) / 2 : ℕ) - a)
          ((j : ℤ) + ((2 * k + 1) / 2 : ℕ) - b) <;> rw [e1, e2] at h1 <;>
        simp only [NearOpt, Option.map] at h1 ⊢
      have hk0 := (Near.refl (hker a (List.mem_range.mp ha) b hb)).rnd W hw
      exact ((hk0.mul h1).rnd W hw).mono (le_of_eq (by ring)))
    ((1 + ε) * (1 + w) ^ 2) (some 0) (some 0) le_rfl ((Near.refl le_rfl).mono hone)
  rw [kern_count d k hk] at this
  refine this.mono (le_of_eq ?_)
  rw [pow_add]
  ring

/-! ### Slope and conservatism -/

/-- A finer format is a format with the coarser error. -/
def FpRound.coarser (W : FpRound w) (h : w ≤ u) : FpRound u :=
  ⟨W.rnd, fun x => (W.near x).trans (mul_le_mul_of_nonneg_right h (abs_nonneg x))⟩

theorem slopeWeight_lipschitz (s s' : ℝ) : |slopeWeight (some s) - slopeWeight (some s')| ≤ |s - s'| / 9 := by
  have h1 := abs_max_sub_max_le_max 0 (min 1 ((s - 3.27) / (12.30 - 3.27))) 0 (min 1 ((s' - 3.27) / (12.30 - 3.27)))
  have h2 := abs_min_sub_min_le_max 1 ((s - 3.27) / (12.30 - 3.27)) 1 ((s' - 3.27) / (12.30 - 3.27))
  rw [sub_self, abs_zero, max_eq_right (abs_nonneg (min 1 ((s - 3.27) / (12.30 - 3.27)) - _))] at h1
  rw [sub_self, abs_zero, max_eq_right (abs_nonneg ((s - 3.27) / (12.30 - 3.27) - _))] at h2
  refine h1.trans (h2.trans ?_)
  rw [← sub_div, abs_div, show s - 3.27 - (s' - 3.27) = s - s' by ring,
    abs_of_pos (by norm_num : (0 : ℝ) < 12.30 - 3.27)]
  gcongr
  norm_num

section
variable (hu0 : 0 ≤ u) (hu : u ≤ 1 / 10000) (S W : FpRound u)
include hu0 hu

/-- The slope-adjusted value as `combineCellFl` computes it on a slope that faces the wind. -/
noncomputable def adjustedFl (S W : FpRound u) (m s : ℝ) : ℝ :=
  if W.rnd (123 / 10) ≤ s then 1
  else if W.rnd (327 / 100) < s then
    S.rnd (W.rnd (W.rnd (W.rnd (S.rnd (1 - m) * W.rnd (s - W.rnd (327 / 100))) /
      W.rnd (W.rnd (123 / 10) - W.rnd (327 / 100))) + m))
  else m

theorem quotFl_near {a b c : ℝ} (h : |a * (b / c)| ≤ 1.01) :
    |W.rnd (W.rnd (S.rnd a * W.rnd b) / W.rnd c) - a * (b / c)| ≤ 5.2 * u := by
  have hu1 : u < 1 := by linarith
  have hq := RelErr.rnd hu0 hu1 W (RelErr.div hu0 hu1 (RelErr.rnd hu0 hu1 W (RelErr.mul hu0 hu1
    (RelErr.one hu0 hu1 S a) (RelErr.one hu0 hu1 W b))) (RelErr.one hu0 hu1 W c))
  have hq' := RelErr.abs_sub_le hu0 hu1 hq (c := 1.01) (by norm_num; linarith) (by norm_num)
  rw [mul_div_assoc] at hq'
  refine hq'.trans ?_
  push_cast
  have := mul_le_mul_of_nonneg_left h (by positivity : 0 ≤ 1.01 * ((1 + 1 + 1 + 1 + 1 : ℝ) * u))
  linarith

theorem roundTwice_near {v z : ℝ} (hv : |v| ≤ 1.01) (hz : |z - v| ≤ 6.62 * u) :
    |S.rnd (W.rnd z) - v| ≤ 10 * u := by
  obtain ⟨a1, a2⟩ := abs_le.mp hz
  obtain ⟨b1, b2⟩ := abs_le.mp hv
  have hz' : |z| ≤ 1.02 := by
    rw [abs_le]
    constructor <;> linarith
  have r1 : |W.rnd z - z| ≤ 1.02 * u := (W.near z).trans (by nlinarith)
  obtain ⟨c1, c2⟩ := abs_le.mp r1
  obtain ⟨d1, d2⟩ := abs_le.mp hz'
  have hr1 : |W.rnd z| ≤ 1.03 := by
    rw [abs_le]
    constructor <;> linarith
  have r2 : |S.rnd (W.rnd z) - W.rnd z| ≤ 1.03 * u := (S.near _).trans (by nlinarith)
  obtain ⟨e1, e2⟩ := abs_le.mp r2
  rw [abs_le]
  constructor <;> linarith

omit hu0 hu in
theorem le_slopeWeight {s x : ℝ} (hx : x ≤ 1) (h : x * (903 / 100) ≤ s - 327 / 100) : x ≤ slopeWeight (some s) := by
  unfold slopeWeight
  refine le_max_of_le_right (le_min hx ?_)
  rw [le_div_iff₀ (by norm_num)]
  norm_num at h ⊢
  exact h

omit hu0 hu in
theorem slopeWeight_le {s x : ℝ} (hx : 0 ≤ x) (h : s - 327 / 100 ≤ x * (903 / 100)) : slopeWeight (some s) ≤ x := by
  unfold slopeWeight
  refine max_le hx ((min_le_right _ _).trans ?_)
  rw [div_le_iff₀ (by norm_num)]
  norm_num at h ⊢
  exact h

theorem weight_near {U L s : ℝ} (eU : |U - 123 / 10| ≤ u * (123 / 10)) (eL : |L - 327 / 100| ≤ u * (327 / 100))
    (h1 : L < s) (h2 : s < U) : |(s - L) / (U - L) - slopeWeight (some s)| ≤ 1.4 * u := by
  obtain ⟨u1, u2⟩ := abs_le.mp eU
  obtain ⟨l1, l2⟩ := abs_le.mp eL
  have hD : 0 < U - L := by linarith
  have hq : s - L = (s - L) / (U - L) * (U - L) := by field_simp
  have hq0 : 0 ≤ (s - L) / (U - L) := div_nonneg (by linarith) hD.le
  have hq1 : (s - L) / (U - L) ≤ 1 := by rw [div_le_one hD]; linarith
  generalize (s - L) / (U - L) = q at hq hq0 hq1 ⊢
  have e : s - 327 / 100 = q * (903 / 100) + (q * (U - 123 / 10) + (1 - q) * (L - 327 / 100)) := by linarith
  have hxe : |q * (U - 123 / 10) + (1 - q) * (L - 327 / 100)| ≤ 123 / 10 * u := by
    rw [abs_le]
    constructor <;> nlinarith
  obtain ⟨x1, x2⟩ := abs_le.mp hxe
  have a1 := slopeWeight_le (s := s) (x := q + 1.4 * u) (by linarith) (by linarith)
  have a2 := le_slopeWeight (s := s) (x := q - 1.4 * u) (by linarith) (by linarith)
  rw [abs_le]
  constructor <;> linarith

theorem adjustedFl_near {m : ℝ} (h0 : -0.01 ≤ m) (h1 : m ≤ 1.01) (s : ℝ) :
    |adjustedFl S W m s - (m + (1 - m) * slopeWeight (some s))| ≤ 10 * u := by
  have eU := W.near (123 / 10)
  have eL := W.near (327 / 100)
  rw [abs_of_pos (by norm_num : (0 : ℝ) < 123 / 10)] at eU
  rw [abs_of_pos (by norm_num : (0 : ℝ) < 327 / 100)] at eL
  unfold adjustedFl
  generalize W.rnd (123 / 10) = U at eU ⊢
  generalize W.rnd (327 / 100) = L at eL ⊢
  obtain ⟨u1, u2⟩ := abs_le.mp eU
  obtain ⟨l1, l2⟩ := abs_le.mp eL
  have hm : |1 - m| ≤ 1.01 := by rw [abs_le]; constructor <;> linarith
  have hT0 := slopeWeight_nonneg (some s)
  have hT1 := slopeWeight_le_one (some s)
  split_ifs with hup hlow
  · have hT2 : 1 - 1.4 * u ≤ slopeWeight (some s) := le_slopeWeight (by linarith) (by linarith)
    generalize slopeWeight (some s) = T at *
    rw [show 1 - (m + (1 - m) * T) = (1 - m) * (1 - T) by ring, abs_mul, abs_of_nonneg (by linarith : 0 ≤ 1 - T)]
    calc |1 - m| * (1 - T) ≤ 1.01 * (1.4 * u) := by gcongr; linarith
      _ ≤ 10 * u := by linarith
  · push Not at hup
    have hTT := weight_near hu0 hu eU eL hlow hup
    have hD : 0 < U - L := by linarith
    have hq0 : 0 ≤ (s - L) / (U - L) := div_nonneg (by linarith) hD.le
    have hq1 : (s - L) / (U - L) ≤ 1 := by rw [div_le_one hD]; linarith
    generalize slopeWeight (some s) = T at *
    have hpT : |(1 - m) * ((s - L) / (U - L))| ≤ 1.01 := by
      rw [abs_mul, abs_of_nonneg hq0]
      nlinarith [abs_nonneg (1 - m)]
    have hq2 := quotFl_near hu0 hu S W hpT
    generalize W.rnd (W.rnd (S.rnd (1 - m) * W.rnd (s - L)) / W.rnd (U - L)) = q at hq2 ⊢
    generalize (s - L) / (U - L) = Tq at *
    have hgap : |(1 - m) * Tq - (1 - m) * T| ≤ 1.42 * u := by
      rw [← mul_sub, abs_mul]
      calc |1 - m| * |Tq - T| ≤ 1.01 * (1.4 * u) := by gcongr
        _ ≤ _ := by linarith
    obtain ⟨q1, q2⟩ := abs_le.mp hq2
    obtain ⟨g1, g2⟩ := abs_le.mp hgap
    have hval : |m + (1 - m) * T| ≤ 1.01 := by
      rw [abs_le]
      constructor <;> nlinarith
    have hsum : |q + m - (m + (1 - m) * T)| ≤ 6.62 * u := by rw [abs_le]; constructor <;> linarith
    exact roundTwice_near hu0 hu S W hval hsum
  · push Not at hlow
    have hT2 : slopeWeight (some s) ≤ 0.4 * u := slopeWeight_le (by linarith) (by linarith)
    generalize slopeWeight (some s) = T at *
    rw [show m - (m + (1 - m) * T) = -((1 - m) * T) by ring, abs_neg, abs_mul, abs_of_nonneg hT0]
    calc |1 - m| * T ≤ 1.01 * (0.4 * u) := by gcongr
      _ ≤ 10 * u := by linarith

/-- The removal of conservatism. -/
theorem consFl_near {x y : ℝ} (hx0 : 0 ≤ x) (hx1 : x ≤ 1) (hy0 : -0.02 ≤ y) (hy1 : y ≤ 1.02) :
    |(if y < S.rnd (9 / 10) then S.rnd (y * S.rnd (9 / 10)) else S.rnd (y ^ 2)) -
      (if x < 0.9 then x * 0.9 else x ^ 2)| ≤ 2.02 * |y - x| + 3 * u := by
  have ec := S.near (9 / 10)
  rw [abs_of_pos (by norm_num : (0 : ℝ) < 9 / 10)] at ec
  set c := S.rnd (9 / 10) with hc
  obtain ⟨c1, c2⟩ := abs_le.mp ec
  have hy : |y| ≤ 1.02 := by rw [abs_le]; constructor <;> linarith
  have hyy : y ^ 2 ≤ 1.0404 := by nlinarith
  have near1 : |(if y < c then S.rnd (y * c) else S.rnd (y ^ 2)) - (if y < 0.9 then y * 0.9 else y ^ 2)| ≤ 3 * u := by
    norm_num
    split_ifs with h1 h2 h2
    · have r := S.near (y * c)
      have hb : |y * c| ≤ 1 := by
        rw [abs_mul, abs_of_pos (by linarith : 0 < c)]
        nlinarith [abs_nonneg y]
      have : |y * c - y * (9 / 10)| ≤ 1 * u := by
        rw [← mul_sub, abs_mul]
        nlinarith [abs_nonneg y, abs_nonneg (c - 9 / 10)]
      have r' : |S.rnd (y * c) - y * c| ≤ 1 * u := r.trans (by nlinarith)
      have := abs_sub_le (S.rnd (y * c)) (y * c) (y * (9 / 10))
      linarith
    · push Not at h2
      have r := S.near (y * c)
      have hb : |y * c| ≤ 1 := by rw [abs_of_nonneg (by nlinarith)]; nlinarith
      have r' : |S.rnd (y * c) - y * c| ≤ 1 * u := r.trans (by nlinarith)
      have : |y * c - y ^ 2| ≤ 1 * u := by
        rw [show y * c - y ^ 2 = y * (c - y) by ring, abs_of_nonneg (by nlinarith)]
        nlinarith
      have := abs_sub_le (S.rnd (y * c)) (y * c) (y ^ 2)
      linarith
    · push Not at h1
      have r := S.near (y ^ 2)
      have r' : |S.rnd (y ^ 2) - y ^ 2| ≤ 1.05 * u := r.trans (by rw [abs_of_nonneg (sq_nonneg y)]; nlinarith)
      have : |y ^ 2 - y * (9 / 10)| ≤ 1 * u := by
        rw [show y ^ 2 - y * (9 / 10) = -(y * (9 / 10 - y)) by ring, abs_neg, abs_of_nonneg (by nlinarith)]
        nlinarith
      have := abs_sub_le (S.rnd (y ^ 2)) (y ^ 2) (y * (9 / 10))
      linarith
    · have r := S.near (y ^ 2)
      exact r.trans (by rw [abs_of_nonneg (sq_nonneg y)]; nlinarith)
  have lip : |(if y < 0.9 then y * 0.9 else y ^ 2) - (if x < 0.9 then x * 0.9 else x ^ 2)| ≤ 2.02 * |y - x| := by
    norm_num
    rcases le_total x y with hxy | hxy
    · rw [abs_of_nonneg (by linarith : 0 ≤ y - x)]
      split_ifs with h1 h2 h2
      · rw [abs_of_nonneg (by linarith)]; linarith
      · linarith
      · rw [abs_of_nonneg (by nlinarith)]; nlinarith
      · rw [abs_of_nonneg (by nlinarith)]; nlinarith
    · rw [abs_of_nonpos (by linarith : y - x ≤ 0)]
      split_ifs with h1 h2 h2
      · rw [abs_of_nonpos (by linarith)]; linarith
      · rw [abs_of_nonpos (by nlinarith)]; nlinarith
      · linarith
      · rw [abs_of_nonpos (by nlinarith)]; nlinarith
  have := abs_sub_le (if y < c then S.rnd (y * c) else S.rnd (y ^ 2)) (if y < 0.9 then y * 0.9 else y ^ 2)
    (if x < 0.9 then x * 0.9 else x ^ 2)
  linarith

end

/-- The slope-adjusted value as `combineCellFl` computes it. -/
noncomputable def slopeAdjustedFl (S W : FpRound u) (facing : Prop) [Decidable facing] (m : ℝ) (slope : Option ℝ) :
    ℝ :=
  if facing then (match slope with
    | none => m
    | some s => adjustedFl S W m s) else m

theorem combineCellFl_value (S : FpRound u) (W : FpRound w) (h : w ≤ u) (d : Dir) (m : ℝ) (slope : Option ℝ)
    (aspect : ℕ) :
    combineCellFl S W d (some m) slope aspect =
      some (if slopeAdjustedFl S (W.coarser h) (aspect = direAspect d) m slope < S.rnd (9 / 10)
        then S.rnd (slopeAdjustedFl S (W.coarser h) (aspect = direAspect d) m slope * S.rnd (9 / 10))
        else S.rnd (slopeAdjustedFl S (W.coarser h) (aspect = direAspect d) m slope ^ 2)) := by
  have fin : ∀ o c : ℝ, (if decide (c ≤ o) = true then S.rnd ((if decide (o < c) = true then S.rnd (o * c) else o) ^ 2)
      else if decide (o < c) = true then S.rnd (o * c) else o) = if o < c then S.rnd (o * c) else S.rnd (o ^ 2) := by
    intro o c
    rcases lt_or_ge o c with h | h
    · simp [h, not_le.mpr h]
    · simp [h, not_lt.mpr h]
  unfold combineCellFl
  simp only [Option.isNone_some, Option.getD_some, Bool.false_eq_true, if_false]
  rw [fin]
  have key : ∀ o o' : ℝ, o = o' → some (if o < S.rnd (9 / 10) then S.rnd (o * S.rnd (9 / 10)) else S.rnd (o ^ 2)) =
      some (if o' < S.rnd (9 / 10) then S.rnd (o' * S.rnd (9 / 10)) else S.rnd (o' ^ 2)) := by
    rintro o _ rfl; rfl
  apply key
  unfold slopeAdjustedFl
  have hr : (W.coarser h).rnd = W.rnd := rfl
  by_cases hf : aspect = direAspect d
  · cases slope with
    | none => simp [nanTest]
    | some s =>
      simp only [nanTest, hf, decide_true, Bool.and_true, if_true, adjustedFl, hr, Option.getD_some,
        decide_eq_true_eq, Bool.and_eq_true]
      by_cases h1 : W.rnd (123 / 10) ≤ s
      · rw [if_pos h1, if_pos h1, if_neg (by rintro ⟨_, h⟩; linarith)]
      · rw [if_neg h1, if_neg h1]
        push Not at h1
        by_cases h2 : W.rnd (327 / 100) < s
        · rw [if_pos ⟨h2, h1⟩, if_pos h2]
        · rw [if_neg (fun h => h2 h.1), if_neg h2]
  · simp [hf]

/-- Slopes that agree up to `η`. -/
def SlopeNear (η : ℝ) : Option ℝ → Option ℝ → Prop
  | some s, some t => |t - s| ≤ η
  | none, none => True
  | _, _ => False

theorem combineFl_near (hu0 : 0 ≤ u) (hu : u ≤ 1 / 10000) (S : FpRound u) (W : FpRound w) (hw : w ≤ u) (d : Dir)
    {m mf δ η : ℝ} (hm0 : 0 ≤ m) (hm1 : m ≤ 1) (hmf : |mf - m| ≤ δ) (hδ : δ ≤ 1 / 100) (hη : 0 ≤ η)
    {slope slopef : Option ℝ} (hs : SlopeNear η slope slopef) {aspect aspectf : ℕ}
    (ha : aspectf = direAspect d ↔ aspect = direAspect d) :
    ∃ x y, combineCell d (some m) slope aspect = some x ∧ combineCellFl S W d (some mf) slopef aspectf = some y ∧
      |y - x| ≤ 2.1 * δ + 24 * u + η / 4 := by
  refine ⟨_, _, combine_value d m slope aspect, combineCellFl_value S W hw d mf slopef aspectf, ?_⟩
  obtain ⟨b1, b2⟩ := abs_le.mp hmf
  have hδ0 : 0 ≤ δ := (abs_nonneg _).trans hmf
  obtain ⟨s1, s2⟩ := slopeAdjusted_bounds (aspect = direAspect d) m slope hm1
  have key : |slopeAdjustedFl S (W.coarser hw) (aspectf = direAspect d) mf slopef -
      slopeAdjusted (aspect = direAspect d) m slope| ≤ δ + 10 * u + η / 9 ∧
      -0.02 ≤ slopeAdjustedFl S (W.coarser hw) (aspectf = direAspect d) mf slopef ∧
      slopeAdjustedFl S (W.coarser hw) (aspectf = direAspect d) mf slopef ≤ 1.02 := by
    unfold slopeAdjustedFl slopeAdjusted
    by_cases hf : aspect = direAspect d
    · rw [if_pos hf, if_pos (ha.mpr hf)]
      cases slope with
      | none =>
        cases slopef with
        | none =>
          simp only [slopeWeight, mul_zero, add_zero]
          exact ⟨by linarith [show 0 ≤ η / 9 by positivity], by linarith, by linarith⟩
        | some _ => exact absurd hs (by simp [SlopeNear])
      | some s =>
        cases slopef with
        | none => exact absurd hs (by simp [SlopeNear])
        | some t =>
          simp only [SlopeNear] at hs
          have e1 := adjustedFl_near hu0 hu S (W.coarser hw) (m := mf) (by linarith) (by linarith) t
          have e2 := slopeWeight_lipschitz t s
          have t0 := slopeWeight_nonneg (some t)
          have t1 := slopeWeight_le_one (some t)
          have e3 : |slopeWeight (some t) - slopeWeight (some s)| ≤ η / 9 := e2.trans (by linarith)
          simp only
          generalize adjustedFl S (W.coarser hw) mf t = A at *
          generalize slopeWeight (some t) = T at *
          generalize slopeWeight (some s) = Ts at *
          obtain ⟨c1, c2⟩ := abs_le.mp e1
          obtain ⟨d1, d2⟩ := abs_le.mp e3
          have f1 : |(mf - m) * (1 - T)| ≤ δ := by
            rw [abs_mul, abs_of_nonneg (by linarith : 0 ≤ 1 - T)]
            nlinarith [abs_nonneg (mf - m)]
          have f2 : |(1 - m) * (T - Ts)| ≤ η / 9 := by
            rw [abs_mul, abs_of_nonneg (by linarith : 0 ≤ 1 - m)]
            nlinarith [abs_nonneg (T - Ts)]
          obtain ⟨g1, g2⟩ := abs_le.mp f1
          obtain ⟨h1, h2⟩ := abs_le.mp f2
          refine ⟨?_, by nlinarith, by nlinarith⟩
          rw [abs_le]
          constructor <;> nlinarith
    · rw [if_neg hf, if_neg (fun h => hf (ha.mp h))]
      exact ⟨by linarith [show 0 ≤ η / 9 by positivity], by linarith, by linarith⟩
  obtain ⟨k1, k2, k3⟩ := key
  have := consFl_near hu0 hu S (x := slopeAdjusted (aspect = direAspect d) m slope) (by linarith) s2 k2 k3
  linarith

end WindMult
