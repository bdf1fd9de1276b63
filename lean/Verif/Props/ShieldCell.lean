import Verif.Model.Shield
import Verif.Spec.Shield
import Mathlib.Tactic.Linarith
import Mathlib.Tactic.NormNum
import Mathlib.Tactic.Positivity
import Mathlib.Tactic.FieldSimp
import Mathlib.Tactic.Push
import Mathlib.Data.Rat.Floor
import Mathlib.Topology.Instances.Real.Lemmas
import Mathlib.Topology.Order.OrderClosed
import Mathlib.Topology.Algebra.Ring.Real

/-!
# C29, C30, C34–C36, C38: aspect classes, slope correction, initial shielding
-/

set_option linter.unusedSectionVars false
set_option autoImplicit false

namespace WindMult
variable {K : Type} [Field K] [LinearOrder K] [IsStrictOrderedRing K] [FloorRing K]

/-! ### C29 -/

theorem reclassify_some (a : K) : reclassifyAspect (some a) =
    if 292.5 ≤ a ∧ a < 337.5 then 8
    else if 247.5 ≤ a ∧ a < 292.5 then 7
    else if 202.5 ≤ a ∧ a < 247.5 then 6
    else if 157.5 ≤ a ∧ a < 202.5 then 5
    else if 112.5 ≤ a ∧ a < 157.5 then 4
    else if 67.5 ≤ a ∧ a < 112.5 then 3
    else if 22.5 ≤ a ∧ a < 67.5 then 2
    else if 337.5 ≤ a ∧ a ≤ 360 then 1
    else if 0 ≤ a ∧ a < 22.5 then 1 else 9 := by
  simp only [reclassifyAspect, nanTest, List.range'_succ, List.range'_zero, List.foldl_cons,
    List.foldl_nil, Bool.and_eq_true, decide_eq_true_eq]
  norm_num

theorem inSector_cases {d : Dir} {a : K} (h0 : 0 ≤ a) (h1 : a ≤ 360) (h : InSector d a) :
    ((d.bearing : K) - 45 / 2 ≤ a ∧ a < d.bearing + 45 / 2) ∨ (d = .n ∧ 337.5 ≤ a) := by
  obtain ⟨t, ht1, ht2⟩ := h
  rcases lt_trichotomy t 0 with ht | ht | ht
  · have htK : (t : K) ≤ -1 := by exact_mod_cast (by omega : t ≤ -1)
    right
    have hd : d = .n := by
      cases d <;> first | rfl | (exfalso; norm_num [Dir.bearing] at ht1; linarith)
    subst hd
    refine ⟨rfl, ?_⟩
    norm_num [Dir.bearing] at ht1 ⊢
    linarith
  · left
    subst ht
    rw [Int.cast_zero, mul_zero, add_zero] at ht1 ht2
    exact ⟨ht1, ht2⟩
  · exfalso
    have htK : (1 : K) ≤ t := by exact_mod_cast ht
    cases d <;> norm_num [Dir.bearing] at ht2 <;> linarith

/-- **C29** An aspect in the sector of a direction gets that direction's class. -/
theorem C29_sector_class (d : Dir) (a : K) (h0 : 0 ≤ a) (h1 : a ≤ 360) (h : InSector d a) :
    reclassifyAspect (some a) = direAspect d := by
  rw [reclassify_some]
  rcases inSector_cases h0 h1 h with ⟨h2, h3⟩ | ⟨rfl, h2⟩
  · cases d <;> norm_num [Dir.bearing] at h2 h3 <;> simp only [direAspect]
    · rw [if_neg (by rintro ⟨x, y⟩; norm_num at x y; linarith), if_pos ⟨by norm_num; linarith, by norm_num; linarith⟩]
    · rw [if_neg (by rintro ⟨x, y⟩; norm_num at x y; linarith), if_neg (by rintro ⟨x, y⟩; norm_num at x y; linarith), if_neg (by rintro ⟨x, y⟩; norm_num at x y; linarith), if_neg (by rintro ⟨x, y⟩; norm_num at x y; linarith), if_neg (by rintro ⟨x, y⟩; norm_num at x y; linarith), if_pos ⟨by norm_num; linarith, by norm_num; linarith⟩]
    · rw [if_neg (by rintro ⟨x, y⟩; norm_num at x y; linarith),
        if_neg (by rintro ⟨x, y⟩; norm_num at x y; linarith),
        if_neg (by rintro ⟨x, y⟩; norm_num at x y; linarith),
        if_neg (by rintro ⟨x, y⟩; norm_num at x y; linarith),
        if_neg (by rintro ⟨x, y⟩; norm_num at x y; linarith),
        if_neg (by rintro ⟨x, y⟩; norm_num at x y; linarith),
        if_neg (by rintro ⟨x, y⟩; norm_num at x y; linarith),
        if_neg (by rintro ⟨x, y⟩; norm_num at x y; linarith),
        if_pos ⟨by linarith, by norm_num; linarith⟩]
    · rw [if_neg (by rintro ⟨x, y⟩; norm_num at x y; linarith), if_neg (by rintro ⟨x, y⟩; norm_num at x y; linarith), if_neg (by rintro ⟨x, y⟩; norm_num at x y; linarith), if_pos ⟨by norm_num; linarith, by norm_num; linarith⟩]
    · rw [if_pos ⟨by norm_num; linarith, by norm_num; linarith⟩]
    · rw [if_neg (by rintro ⟨x, y⟩; norm_num at x y; linarith), if_neg (by rintro ⟨x, y⟩; norm_num at x y; linarith), if_neg (by rintro ⟨x, y⟩; norm_num at x y; linarith), if_neg (by rintro ⟨x, y⟩; norm_num at x y; linarith), if_neg (by rintro ⟨x, y⟩; norm_num at x y; linarith), if_neg (by rintro ⟨x, y⟩; norm_num at x y; linarith), if_pos ⟨by norm_num; linarith, by norm_num; linarith⟩]
    · rw [if_neg (by rintro ⟨x, y⟩; norm_num at x y; linarith), if_neg (by rintro ⟨x, y⟩; norm_num at x y; linarith), if_neg (by rintro ⟨x, y⟩; norm_num at x y; linarith), if_neg (by rintro ⟨x, y⟩; norm_num at x y; linarith), if_pos ⟨by norm_num; linarith, by norm_num; linarith⟩]
    · rw [if_neg (by rintro ⟨x, y⟩; norm_num at x y; linarith), if_neg (by rintro ⟨x, y⟩; norm_num at x y; linarith), if_pos ⟨by norm_num; linarith, by norm_num; linarith⟩]
  · norm_num at h2
    rw [if_neg (by rintro ⟨x, y⟩; norm_num at x y; linarith),
      if_neg (by rintro ⟨x, y⟩; norm_num at x y; linarith),
      if_neg (by rintro ⟨x, y⟩; norm_num at x y; linarith),
      if_neg (by rintro ⟨x, y⟩; norm_num at x y; linarith),
      if_neg (by rintro ⟨x, y⟩; norm_num at x y; linarith),
      if_neg (by rintro ⟨x, y⟩; norm_num at x y; linarith),
      if_neg (by rintro ⟨x, y⟩; norm_num at x y; linarith),
      if_pos ⟨by norm_num; linarith, by linarith⟩]
    rfl

/-- Every aspect from 0 to 360 is in the sector of some direction. -/
theorem exists_sector (a : K) (h0 : 0 ≤ a) (h1 : a ≤ 360) : ∃ d, InSector d a := by
  by_cases c1 : a < 22.5
  · exact ⟨.n, 0, by norm_num [Dir.bearing] at *; linarith, by norm_num [Dir.bearing] at *; linarith⟩
  by_cases c2 : a < 67.5
  · exact ⟨.ne, 0, by norm_num [Dir.bearing] at *; linarith, by norm_num [Dir.bearing] at *; linarith⟩
  by_cases c3 : a < 112.5
  · exact ⟨.e, 0, by norm_num [Dir.bearing] at *; linarith, by norm_num [Dir.bearing] at *; linarith⟩
  by_cases c4 : a < 157.5
  · exact ⟨.se, 0, by norm_num [Dir.bearing] at *; linarith, by norm_num [Dir.bearing] at *; linarith⟩
  by_cases c5 : a < 202.5
  · exact ⟨.s, 0, by norm_num [Dir.bearing] at *; linarith, by norm_num [Dir.bearing] at *; linarith⟩
  by_cases c6 : a < 247.5
  · exact ⟨.sw, 0, by norm_num [Dir.bearing] at *; linarith, by norm_num [Dir.bearing] at *; linarith⟩
  by_cases c7 : a < 292.5
  · exact ⟨.w, 0, by norm_num [Dir.bearing] at *; linarith, by norm_num [Dir.bearing] at *; linarith⟩
  by_cases c8 : a < 337.5
  · exact ⟨.nw, 0, by norm_num [Dir.bearing] at *; linarith, by norm_num [Dir.bearing] at *; linarith⟩
  · exact ⟨.n, -1, by norm_num [Dir.bearing] at *; linarith, by norm_num [Dir.bearing] at *; linarith⟩

theorem direAspect_injective {d d' : Dir} (h : direAspect d = direAspect d') : d = d' := by
  cases d <;> cases d' <;> first | rfl | simp [direAspect] at h

/-- **C29** An aspect from 0 to 360 gets the class of a direction exactly if it is in that
direction's sector. -/
theorem C29_class_iff_sector (d : Dir) (a : K) (h0 : 0 ≤ a) (h1 : a ≤ 360) :
    reclassifyAspect (some a) = direAspect d ↔ InSector d a := by
  refine ⟨fun h => ?_, C29_sector_class d a h0 h1⟩
  obtain ⟨d', hd'⟩ := exists_sector a h0 h1
  rw [C29_sector_class d' a h0 h1 hd'] at h
  rw [← direAspect_injective h]
  exact hd'

/-- **C29** NaN and values outside 0…360 get class 9, which is no direction's. -/
theorem C29_other_is_nine (a : Option K) (h : ∀ x, a = some x → x < 0 ∨ 360 < x) :
    reclassifyAspect a = 9 ∧ ∀ d, direAspect d ≠ 9 := by
  refine ⟨?_, fun d => by cases d <;> simp [direAspect]⟩
  cases a with
  | none =>
    simp [reclassifyAspect, nanTest, List.range'_succ]
  | some x =>
    rw [reclassify_some]
    rcases h x rfl with h | h <;>
      rw [if_neg (by rintro ⟨x, y⟩; norm_num at x y; linarith),
        if_neg (by rintro ⟨x, y⟩; norm_num at x y; linarith),
        if_neg (by rintro ⟨x, y⟩; norm_num at x y; linarith),
        if_neg (by rintro ⟨x, y⟩; norm_num at x y; linarith),
        if_neg (by rintro ⟨x, y⟩; norm_num at x y; linarith),
        if_neg (by rintro ⟨x, y⟩; norm_num at x y; linarith),
        if_neg (by rintro ⟨x, y⟩; norm_num at x y; linarith),
        if_neg (by rintro ⟨x, y⟩; norm_num at x y; linarith),
        if_neg (by rintro ⟨x, y⟩; norm_num at x y; linarith)]

example : reclassifyAspect (some (675 / 2 : ℚ)) = direAspect .n ∧
    reclassifyAspect (some (674 / 2 : ℚ)) = direAspect .nw ∧
    reclassifyAspect (some (361 : ℚ)) = 9 ∧ reclassifyAspect (none : Option ℚ) = 9 := by
  decide +kernel

/-! ### C34 -/

theorem slopeWeight_nonneg (s : Option K) : 0 ≤ slopeWeight s := by
  cases s with
  | none => exact le_refl _
  | some s => exact le_max_left _ _

theorem slopeWeight_le_one (s : Option K) : slopeWeight s ≤ 1 := by
  cases s with
  | none => exact zero_le_one
  | some s => exact max_le zero_le_one (min_le_left _ _)

theorem slopeWeight_mono {s s' : K} (h : s ≤ s') :
    slopeWeight (some s) ≤ slopeWeight (some s') := by
  unfold slopeWeight
  apply max_le_max le_rfl
  apply min_le_min le_rfl
  apply div_le_div_of_nonneg_right (by linarith) (by norm_num)

theorem slopeWeight_eq (s : K) : slopeWeight (some s) =
    if 123 / 10 ≤ s then 1 else if 327 / 100 < s then (s - 327 / 100) / (123 / 10 - 327 / 100) else 0 := by
  have hp : (0 : K) < 12.30 - 3.27 := by norm_num
  have e1 : (123 / 10 : K) = 12.30 := by norm_num
  have e2 : (327 / 100 : K) = 3.27 := by norm_num
  rw [e1, e2]
  show max 0 (min 1 ((s - 3.27) / (12.30 - 3.27))) = _
  split_ifs with h1 h2
  · rw [min_eq_left, max_eq_right zero_le_one]
    rw [le_div_iff₀ hp]
    linarith
  · push Not at h1
    have h3 : (s - 3.27) / (12.30 - 3.27) ≤ 1 := by rw [div_le_one hp]; linarith
    have h4 : 0 ≤ (s - 3.27) / (12.30 - 3.27) := div_nonneg (by linarith) hp.le
    rw [min_eq_right h3, max_eq_right h4]
  · push Not at h2
    have h4 : (s - 3.27) / (12.30 - 3.27) ≤ 0 := div_nonpos_of_nonpos_of_nonneg (by linarith) hp.le
    rw [max_eq_left (le_trans (min_le_right _ _) h4)]

/-- (Formula for C34) The result of the slope/aspect step: the slope-adjusted value `v`, times 0.9
below 0.9, squared from 0.9 on. -/
theorem combine_value (d : Dir) (m : K) (slope : Option K) (aspect : ℕ) :
    combineCell d (some m) slope aspect =
      some (if slopeAdjusted (aspect = direAspect d) m slope < 0.9
        then slopeAdjusted (aspect = direAspect d) m slope * 0.9
        else slopeAdjusted (aspect = direAspect d) m slope ^ 2) := by
  have key : (if (nanTest slope (fun s => decide (327 / 100 < s) && decide (s < 123 / 10)) &&
        decide (aspect = direAspect d)) = true
      then (1 - (if (nanTest slope (fun s => decide (123 / 10 ≤ s)) &&
          decide (aspect = direAspect d)) = true then (1 : K) else m)) *
        (slope.getD 0 - 327 / 100) / (123 / 10 - 327 / 100) +
          (if (nanTest slope (fun s => decide (123 / 10 ≤ s)) &&
          decide (aspect = direAspect d)) = true then (1 : K) else m)
      else (if (nanTest slope (fun s => decide (123 / 10 ≤ s)) &&
          decide (aspect = direAspect d)) = true then (1 : K) else m))
      = slopeAdjusted (aspect = direAspect d) m slope := by
    unfold slopeAdjusted
    by_cases hf : aspect = direAspect d
    · cases slope with
      | none => simp [nanTest, slopeWeight]
      | some s =>
        simp only [nanTest, hf, decide_true, Bool.and_true, Bool.and_eq_true, decide_eq_true_eq,
          if_true, Option.getD_some, slopeWeight_eq]
        by_cases c1 : 123 / 10 ≤ s
        · rw [if_neg (fun h => absurd h.2 (not_lt.mpr c1)), if_pos c1, if_pos c1]
          ring
        · by_cases c2 : 327 / 100 < s
          · rw [if_pos ⟨c2, not_le.mp c1⟩, if_neg c1, if_neg c1, if_pos c2]
            ring
          · rw [if_neg (fun h => c2 h.1), if_neg c1, if_neg c1, if_neg c2]
            ring
    · simp [hf]
  unfold combineCell
  simp only [Option.isNone_some, Bool.false_eq_true, if_false, Option.getD_some]
  rw [key]
  generalize slopeAdjusted (aspect = direAspect d) m slope = v
  have e : (0.9 : K) = 9 / 10 := by norm_num
  rw [e]
  congr 1
  simp only [decide_eq_true_eq]
  by_cases h : v < 9 / 10
  · rw [if_pos h, if_neg (not_le.mpr h)]; simp [h]
  · rw [if_neg h, if_pos (not_lt.mp h)]; simp [h]

theorem slopeAdjusted_bounds (facing : Prop) [Decidable facing] (m : K) (slope : Option K)
    (h1 : m ≤ 1) :
    m ≤ slopeAdjusted facing m slope ∧ slopeAdjusted facing m slope ≤ 1 := by
  have a := slopeWeight_nonneg slope
  have b := slopeWeight_le_one slope
  unfold slopeAdjusted
  split_ifs
  · constructor <;> nlinarith
  · exact ⟨le_rfl, h1⟩

theorem slopeAdjusted_mono (facing : Prop) [Decidable facing] (m m' : K) (slope : Option K)
    (h : m ≤ m') : slopeAdjusted facing m slope ≤ slopeAdjusted facing m' slope := by
  have b := slopeWeight_le_one slope
  unfold slopeAdjusted
  split_ifs
  · nlinarith
  · exact h

theorem cons_mono {v v' : K} (h0 : 0 ≤ v) (h : v ≤ v') :
    (if v < 0.9 then v * 0.9 else v ^ 2) ≤ (if v' < 0.9 then v' * 0.9 else v' ^ 2) := by
  split_ifs with h1 h2 h2
  · linarith
  · norm_num at *
    nlinarith
  · exfalso; linarith
  · exact pow_le_pow_left₀ h0 h 2

/-- **C34** The value: the shielding, moved towards 1 by the slope weight if the aspect `a` lies in the
sector of the wind direction, then times 0.9 below 0.9, squared from 0.9 on. -/
theorem C34_value (d : Dir) (m : K) (slope : Option K) (a : K) (h0 : 0 ≤ a) (h1 : a ≤ 360)
    [Decidable (InSector d a)] :
    combineCell d (some m) slope (reclassifyAspect (some a)) =
      some (if slopeAdjusted (InSector d a) m slope < 0.9
        then slopeAdjusted (InSector d a) m slope * 0.9
        else slopeAdjusted (InSector d a) m slope ^ 2) := by
  rw [combine_value]
  have : slopeAdjusted (reclassifyAspect (some a) = direAspect d) m slope =
      slopeAdjusted (InSector d a) m slope := by
    unfold slopeAdjusted
    simp only [C29_class_iff_sector d a h0 h1]
  rw [this]

/-- **C34** For shielding in [0,1] the result is in [0,1]. -/
theorem C34_bounded (d : Dir) (m : K) (slope : Option K) (aspect : ℕ) (h0 : 0 ≤ m) (h1 : m ≤ 1) :
    ∃ r, combineCell d (some m) slope aspect = some r ∧ 0 ≤ r ∧ r ≤ 1 := by
  obtain ⟨a, b⟩ := slopeAdjusted_bounds (aspect = direAspect d) m slope h1
  refine ⟨_, combine_value d m slope aspect, ?_⟩
  generalize slopeAdjusted (aspect = direAspect d) m slope = v at *
  norm_num
  split_ifs with h
  · exact ⟨by linarith, by linarith⟩
  · exact ⟨by positivity, by nlinarith⟩

/-- **C34** For shielding in [0,1] the result is at most the slope-adjusted value. -/
theorem C34_at_most_adjusted (d : Dir) (m : K) (slope : Option K) (a : K) (h0 : 0 ≤ a) (h1 : a ≤ 360)
    (hm0 : 0 ≤ m) (hm1 : m ≤ 1) [Decidable (InSector d a)] :
    ∃ r, combineCell d (some m) slope (reclassifyAspect (some a)) = some r ∧
      r ≤ slopeAdjusted (InSector d a) m slope := by
  obtain ⟨l, u⟩ := slopeAdjusted_bounds (InSector d a) m slope hm1
  refine ⟨_, C34_value d m slope a h0 h1, ?_⟩
  generalize slopeAdjusted (InSector d a) m slope = v at *
  norm_num
  split_ifs with h
  · linarith
  · nlinarith

/-- **C34** The result does not decrease when the shielding value increases. -/
theorem C34_monotone_in_shielding (d : Dir) (m m' : K) (slope : Option K) (aspect : ℕ)
    (h0 : 0 ≤ m) (h1 : m ≤ m') (h2 : m ≤ 1) :
    ∃ r r', combineCell d (some m) slope aspect = some r ∧
      combineCell d (some m') slope aspect = some r' ∧ r ≤ r' := by
  refine ⟨_, _, combine_value .., combine_value .., ?_⟩
  exact cons_mono (le_trans h0 (slopeAdjusted_bounds _ m slope h2).1)
    (slopeAdjusted_mono _ m m' slope h1)

/-- **C34** The result does not decrease when the slope increases. -/
theorem C34_monotone_in_slope (d : Dir) (m s s' : K) (aspect : ℕ)
    (h0 : 0 ≤ m) (h1 : m ≤ 1) (h2 : s ≤ s') :
    ∃ r r', combineCell d (some m) (some s) aspect = some r ∧
      combineCell d (some m) (some s') aspect = some r' ∧ r ≤ r' := by
  refine ⟨_, _, combine_value .., combine_value .., ?_⟩
  apply cons_mono (le_trans h0 (slopeAdjusted_bounds _ m _ h1).1)
  unfold slopeAdjusted
  split_ifs
  · have := slopeWeight_mono h2
    nlinarith
  · exact le_rfl

/-- **C34** The result is a (jointly) continuous function of shielding value and slope. -/
theorem C34_continuous (d : Dir) (aspect : ℕ) :
    ∃ f : ℝ × ℝ → ℝ, Continuous f ∧
      ∀ m s, combineCell d (some m) (some s) aspect = some (f (m, s)) := by
  have hadj : Continuous fun p : ℝ × ℝ =>
      slopeAdjusted (aspect = direAspect d) p.1 (some p.2) := by
    unfold slopeAdjusted
    split_ifs
    · simp only [slopeWeight]
      fun_prop
    · fun_prop
  refine ⟨fun p => if slopeAdjusted (aspect = direAspect d) p.1 (some p.2) < 0.9
        then slopeAdjusted (aspect = direAspect d) p.1 (some p.2) * 0.9
        else slopeAdjusted (aspect = direAspect d) p.1 (some p.2) ^ 2, ?_,
    fun m s => combine_value d m (some s) aspect⟩
  have h2 : Continuous fun v : ℝ => if v < 0.9 then v * 0.9 else v ^ 2 := by
    have e : (fun v : ℝ => if v < 0.9 then v * 0.9 else v ^ 2)
        = fun v : ℝ => if 0.9 ≤ v then v ^ 2 else v * 0.9 := by
      funext v
      by_cases h : v < 0.9
      · rw [if_pos h, if_neg (not_le.mpr h)]
      · rw [if_neg h, if_pos (not_lt.mp h)]
    rw [e]
    apply Continuous.if_le <;> first | fun_prop | skip
    intro v hv
    rw [← hv]
    norm_num
  exact h2.comp hadj

example : combineCell .n (some (1 / 2 : ℚ)) (some (327 / 100 + 903 / 200)) 1 = some (27 / 40) ∧
    combineCell .n (some (1 / 2 : ℚ)) (some 5) 2 = some (9 / 20) := by decide +kernel

/-- A south-easterly slope of 13° seen by south-easterly and by southerly wind. -/
example : combineCell .se (some (1 / 2 : ℚ)) (some 13) (reclassifyAspect (some (140 : ℚ))) = some 1 ∧
    combineCell .s (some (1 / 2 : ℚ)) (some 13) (reclassifyAspect (some (140 : ℚ))) = some (9 / 20) ∧
    (0 : ℚ) ≤ 140 ∧ (140 : ℚ) ≤ 360 := by decide +kernel

/-! ### C30 -/

/-- **C30** For an aspect from 0 to 360 there is exactly one wind direction whose shielding the
slope can change; for every other direction the slope does not matter. -/
theorem C30_one_direction_adjusted (a : K) (h0 : 0 ≤ a) (h1 : a ≤ 360) :
    ∃ d, InSector d a ∧
      (∀ m : K, m < 9 / 10 → combineCell d (some m) (some 0) (reclassifyAspect (some a)) ≠
        combineCell d (some m) (some 20) (reclassifyAspect (some a))) ∧
      ∀ d', d' ≠ d → ∀ (ms s s' : Option K),
        combineCell d' ms s (reclassifyAspect (some a)) =
          combineCell d' ms s' (reclassifyAspect (some a)) := by
  obtain ⟨d, hd⟩ := exists_sector a h0 h1
  have hcls := C29_sector_class d a h0 h1 hd
  refine ⟨d, hd, ?_, ?_⟩
  · intro m hm
    rw [combine_value, combine_value, hcls]
    simp only [slopeAdjusted, if_true]
    have e0 : slopeWeight (some (0 : K)) = 0 := by
      rw [slopeWeight_eq]; norm_num
    have e1 : slopeWeight (some (20 : K)) = 1 := by
      rw [slopeWeight_eq]; norm_num
    rw [e0, e1]
    intro h
    have h := Option.some.inj h
    norm_num at h
    rw [if_pos hm] at h
    linarith
  · intro d' hne ms s s'
    have hno : reclassifyAspect (some a) ≠ direAspect d' := by
      rw [hcls]; exact fun h => hne (direAspect_injective h).symm
    cases ms with
    | none => simp [combineCell]
    | some m =>
      rw [combine_value, combine_value]
      simp [slopeAdjusted, hno]

/-- An aspect that is not from 0 to 360 (NaN next to no-data elevation) leaves every direction
unadjusted. -/
theorem C30_unknown_aspect_no_adjustment (a : Option K) (h : ∀ x, a = some x → x < 0 ∨ 360 < x)
    (d : Dir) (ms s s' : Option K) :
    combineCell d ms s (reclassifyAspect a) = combineCell d ms s' (reclassifyAspect a) := by
  obtain ⟨h9, hd⟩ := C29_other_is_nine a h
  have hno : reclassifyAspect a ≠ direAspect d := by rw [h9]; exact (hd d).symm
  cases ms with
  | none => simp [combineCell]
  | some m =>
    rw [combine_value, combine_value]
    simp [slopeAdjusted, hno]

example : InSector .sw (230 : ℚ) := ⟨0, by norm_num [Dir.bearing], by norm_num [Dir.bearing]⟩

/-! ### C35, C36 -/

/-- **C35** A data cell with slope at least 12.30° facing the wind has multiplier 1. -/
theorem C35_steep_facing_is_one (d : Dir) (m s a : K) (h0 : 0 ≤ a) (h1 : a ≤ 360)
    (hs : 12.30 ≤ s) (hd : InSector d a) :
    combineCell d (some m) (some s) (reclassifyAspect (some a)) = some 1 := by
  rw [combine_value, C29_sector_class d a h0 h1 hd]
  have hw : slopeWeight (some s) = 1 := by
    rw [slopeWeight_eq, if_pos]; norm_num at hs ⊢; linarith
  simp only [slopeAdjusted, if_true, hw]
  norm_num

/-- **C35** A slope of at most 3.27° changes nothing: the result is that of an unknown slope. -/
theorem C35_gentle_slope_no_effect (d : Dir) (ms : Option K) (s : K) (aspect : ℕ) (hs : s ≤ 3.27) :
    combineCell d ms (some s) aspect = combineCell d ms none aspect := by
  cases ms with
  | none => simp [combineCell]
  | some m =>
    have hw : slopeWeight (some s) = 0 := by
      norm_num at hs
      rw [slopeWeight_eq, if_neg (by linarith), if_neg (by linarith)]
    rw [combine_value, combine_value]
    simp only [slopeAdjusted, hw]
    rfl

example : combineCell .e (some (3 / 10 : ℚ)) (some (123 / 10)) (reclassifyAspect (some (80 : ℚ))) =
    some 1 := by decide +kernel

/-- **C36** The slope/aspect step keeps the shape and gives NaN exactly where its input was NaN. -/
theorem C36_nan_preserved (d : Dir) (ms slope : Grid (Option K)) (aspect : Grid ℕ) :
    (combine d ms slope aspect).rows = ms.rows ∧ (combine d ms slope aspect).cols = ms.cols ∧
    ∀ i j, (combine d ms slope aspect).val i j = none ↔ ms.val i j = none := by
  refine ⟨rfl, rfl, fun i j => ?_⟩
  simp only [combine]
  cases h : ms.val i j with
  | none => simp [combineCell]
  | some m => rw [combine_value]; simp

example : (combine .n (⟨1, 2, fun _ j => if j = 0 then none else some (1 / 2 : ℚ)⟩)
    ⟨1, 2, fun _ _ => some 20⟩ ⟨1, 2, fun _ _ => 1⟩).val 0 0 = none ∧
    (combine .n (⟨1, 2, fun _ j => if j = 0 then none else some (1 / 2 : ℚ)⟩)
    ⟨1, 2, fun _ _ => some 20⟩ ⟨1, 2, fun _ _ => 1⟩).val 0 1 = some 1 := by decide +kernel

/-! ### C38 -/

/-- **C38** A cell that is not no-data gets the shielding percentage of the last row with its
category, divided by 100. -/
theorem C38_last_matching_row (nodata : Option ℤ) (before after : List (ℤ × K)) (cat : ℤ) (pct : K)
    (hdata : nodata ≠ some cat) (h99 : cat ≠ -99) (hafter : ∀ r ∈ after, r.1 ≠ cat) :
    class2msCell nodata (before ++ (cat, pct) :: after) cat = some (pct / 100) := by
  unfold class2msCell
  simp only [hdata, if_false, h99]
  congr 1
  rw [List.foldl_append, List.foldl_cons, if_pos rfl]
  generalize pct / 100 = v
  induction after generalizing v with
  | nil => rfl
  | cons r l ih =>
    rw [List.foldl_cons, if_neg (fun h => hafter r (by simp) h.symm)]
    exact ih (fun r' hr' => hafter r' (by simp [hr'])) v

/-- **C38** A cell that is not no-data and whose category is in no row is unshielded. -/
theorem C38_unknown_category (nodata : Option ℤ) (table : List (ℤ × K)) (cat : ℤ)
    (hdata : nodata ≠ some cat) (h99 : cat ≠ -99) (hno : ∀ r ∈ table, r.1 ≠ cat) :
    class2msCell nodata table cat = some 1 := by
  unfold class2msCell
  simp only [hdata, if_false, h99]
  congr 1
  induction table with
  | nil => rfl
  | cons r l ih =>
    rw [List.foldl_cons, if_neg (fun h => hno r (by simp) h.symm)]
    exact ih (fun r' hr' => hno r' (by simp [hr']))

/-- **C38** No-data cells are NaN. -/
theorem C38_nodata_is_nan (table : List (ℤ × K)) (cat : ℤ) :
    class2msCell (some cat) table cat = none := by
  simp [class2msCell]

example : class2msCell (some 0) [(3, 85), (3, 90), (4, 100)] 3 = some (9 / 10 : ℚ) ∧
    class2msCell (some 0) [(3, 85), (3, 90), (4, 100)] 7 = some (1 : ℚ) ∧
    class2msCell (some 0) [(3, 85), (3, 90), (4, (100 : ℚ))] 0 = none := by decide +kernel

end WindMult
