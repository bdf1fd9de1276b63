import Verif.Model.SlopeAspect
import Verif.Props.ShieldCell
import Verif.Spec.Ground
import Mathlib.Tactic.FieldSimp

/-!
# C39, C40: slope and aspect
-/

set_option linter.unusedSectionVars false
set_option autoImplicit false

namespace WindMult

/-! ### C39 -/

theorem fmod_range (x : ℝ) {m : ℝ} (hm : 0 < m) : 0 ≤ fmod x m ∧ fmod x m < m := by
  unfold fmod
  have h1 := Int.floor_le (x / m)
  have h2 := Int.lt_floor_add_one (x / m)
  rw [le_div_iff₀ hm] at h1
  rw [div_lt_iff₀ hm] at h2
  constructor <;> nlinarith

/-- **C39** On non-flat ground the aspect is in [0, 360) and is the compass heading (clockwise from
north) of the downslope direction: `dx` is the rise per metre eastward, `dy` southward, so downhill
is `-dx` to the east and `dy` to the north. -/
theorem C39_aspect_is_downslope_heading (dx dy : ℝ) (hne : dx ≠ 0 ∨ dy ≠ 0) :
    0 ≤ aspectDegrees dx dy ∧ aspectDegrees dx dy < 360 ∧
    ∃ r, 0 < r ∧ -dx = r * Real.sin (aspectDegrees dx dy * (Real.pi / 180)) ∧
      dy = r * Real.cos (aspectDegrees dx dy * (Real.pi / 180)) := by
  obtain ⟨h1, h2⟩ := fmod_range (450 - Complex.arg (⟨-dx, dy⟩ : ℂ) / (Real.pi / 180))
    (m := 360) (by norm_num)
  refine ⟨h1, h2, ‖(⟨-dx, dy⟩ : ℂ)‖, ?_, ?_, ?_⟩
  · rw [norm_pos_iff]
    intro h
    have hre := congrArg Complex.re h
    have him := congrArg Complex.im h
    simp at hre him
    tauto
  all_goals
    have hpi : Real.pi ≠ 0 := Real.pi_ne_zero
    have hang : aspectDegrees dx dy * (Real.pi / 180) =
        (Real.pi / 2 - Complex.arg (⟨-dx, dy⟩ : ℂ)) +
          ((1 - ⌊(450 - Complex.arg (⟨-dx, dy⟩ : ℂ) / (Real.pi / 180)) / 360⌋ : ℤ) : ℝ) *
            (2 * Real.pi) := by
      unfold aspectDegrees fmod
      push_cast
      field_simp
      ring
    rw [hang]
  · rw [Real.sin_add_int_mul_two_pi, Real.sin_pi_div_two_sub, Complex.norm_mul_cos_arg]
  · rw [Real.cos_add_int_mul_two_pi, Real.cos_pi_div_two_sub, Complex.norm_mul_sin_arg]

/-- **C39** The slope is the angle in [0°, 90°) whose tangent is the length of the gradient. -/
theorem C39_slope_is_steepness (dx dy : ℝ) :
    0 ≤ slopeDegrees dx dy ∧ slopeDegrees dx dy < 90 ∧
    Real.tan (slopeDegrees dx dy * (Real.pi / 180)) = √(dx ^ 2 + dy ^ 2) := by
  have hp : 0 < Real.pi / 180 := by positivity
  unfold slopeDegrees
  refine ⟨div_nonneg (Real.arctan_nonneg.mpr (Real.sqrt_nonneg _)) hp.le, ?_, ?_⟩
  · rw [div_lt_iff₀ hp]
    have := Real.arctan_lt_pi_div_two (√(dx ^ 2 + dy ^ 2))
    linarith
  · rw [div_mul_cancel₀ _ hp.ne', Real.tan_arctan]

example : (1 : ℝ) ≠ 0 ∨ (0 : ℝ) ≠ 0 := Or.inl one_ne_zero

/-- Ground falling to the north (rising southward) has aspect 0, i.e. class north. -/
example : aspectDegrees 0 1 = 0 := by
  have h : Complex.arg (⟨-0, 1⟩ : ℂ) = Real.pi / 2 := by
    rw [show (⟨-0, 1⟩ : ℂ) = Complex.I from by apply Complex.ext <;> simp, Complex.arg_I]
  unfold aspectDegrees fmod
  rw [h]
  have : Real.pi / 2 / (Real.pi / 180) = 90 := by
    have := Real.pi_ne_zero
    field_simp
    norm_num
  rw [this]
  norm_num

theorem edge_eq_clamped (g : Grid ℝ) (r c : ℤ) (hr : 0 < g.rows) (hc : 0 < g.cols) :
    g.edge r c = g.clamped r c := by
  unfold Grid.edge Grid.clamped
  congr 1 <;> split_ifs <;> omega

theorem edge_map {α β : Type} (f : α → β) (g : Grid α) (r c : ℤ) : (g.map f).edge r c = f (g.edge r c) :=
  rfl

theorem window3_some (g : Grid ℝ) (i j : ℕ) :
    window3 (g.map some) i j = some fun a b => g.edge (i + a) (j + b) := by
  unfold window3
  rw [if_pos (by simp [edge_map])]
  simp [edge_map]

theorem dzdx_eq (g : Grid ℝ) (hr : 0 < g.rows) (hc : 0 < g.cols) (px xm : ℝ) (hp : px ≠ 0) (i j : ℕ) :
    dzdx (g.map some) px xm i j = some (riseEast g i j / xm) := by
  unfold dzdx sobelX
  rw [window3_some]
  simp only [Option.map_some, edge_eq_clamped _ _ _ hr hc, riseEast, Option.some.injEq, add_zero]
  congr 1
  field_simp
  simp only [← sub_eq_add_neg]
  ring

theorem dzdy_eq (g : Grid ℝ) (hr : 0 < g.rows) (hc : 0 < g.cols) (py ym : ℝ) (hp : py ≠ 0) (i j : ℕ) :
    dzdy (g.map some) py ym i j = some (-(riseNorth g i j / ym)) := by
  unfold dzdy sobelY
  rw [window3_some]
  simp only [Option.map_some, edge_eq_clamped _ _ _ hr hc, riseNorth, Option.some.injEq, add_zero]
  rw [← neg_div]
  congr 1
  field_simp
  simp only [← sub_eq_add_neg]
  ring

theorem tan_degrees_nonneg (s : ℝ) (h0 : 0 ≤ s) (h1 : s < 90) : 0 ≤ Real.tan (s * (Real.pi / 180)) := by
  have hp := Real.pi_pos
  apply Real.tan_nonneg_of_nonneg_of_le_pi_div_two
  · positivity
  · nlinarith

/-- The steepness is determined by the ground. -/
theorem FallsTowards.slope {dx dn h s : ℝ} (f : FallsTowards dx dn h s) : slopeDegrees dx (-dn) = s := by
  obtain ⟨-, -, s0, s1, e1, e2⟩ := f
  have hp := Real.pi_pos
  have hT := tan_degrees_nonneg s s0 s1
  unfold slopeDegrees
  have : dx ^ 2 + (-dn) ^ 2 = Real.tan (s * (Real.pi / 180)) ^ 2 := by
    have : dx ^ 2 = (-dx) ^ 2 := by ring
    rw [this, e1, e2]
    linear_combination Real.tan (s * (Real.pi / 180)) ^ 2 *
      Real.sin_sq_add_cos_sq (h * (Real.pi / 180))
  rw [this, Real.sqrt_sq hT, Real.arctan_tan (by nlinarith) (by nlinarith)]
  field_simp

/-- On sloping ground the heading is determined as well. -/
theorem FallsTowards.aspect {dx dn h s : ℝ} (f : FallsTowards dx dn h s) (hs : 0 < s) :
    aspectDegrees dx (-dn) = h := by
  obtain ⟨h0, h1, s0, s1, e1, e2⟩ := f
  have hp := Real.pi_pos
  have hT : 0 < Real.tan (s * (Real.pi / 180)) := by
    apply Real.tan_pos_of_pos_of_lt_pi_div_two
    · positivity
    · nlinarith
  have hne : dx ≠ 0 ∨ -dn ≠ 0 := by
    by_contra hcon
    push Not at hcon
    rw [hcon.1, neg_zero, eq_comm, mul_eq_zero] at e1
    rw [hcon.2, eq_comm, mul_eq_zero] at e2
    have := Real.sin_sq_add_cos_sq (h * (Real.pi / 180))
    rw [e1.resolve_left hT.ne', e2.resolve_left hT.ne'] at this
    norm_num at this
  obtain ⟨a0, a1, r, r0, q1, q2⟩ := C39_aspect_is_downslope_heading dx (-dn) hne
  generalize aspectDegrees dx (-dn) = a at *
  generalize Real.tan (s * (Real.pi / 180)) = T at *
  have sq1 := Real.sin_sq_add_cos_sq (h * (Real.pi / 180))
  have sq2 := Real.sin_sq_add_cos_sq (a * (Real.pi / 180))
  have hTr : T = r := by
    have : T ^ 2 = r ^ 2 := by
      have h1 : (-dx) ^ 2 + (-dn) ^ 2 = T ^ 2 := by
        rw [e1, e2]; linear_combination T ^ 2 * sq1
      have h2 : (-dx) ^ 2 + (-dn) ^ 2 = r ^ 2 := by
        rw [q1, q2]; linear_combination r ^ 2 * sq2
      rw [← h1, h2]
    nlinarith
  subst hTr
  have c1 : Real.sin (h * (Real.pi / 180)) = Real.sin (a * (Real.pi / 180)) :=
    mul_left_cancel₀ hT.ne' (e1.symm.trans q1)
  have c2 : Real.cos (h * (Real.pi / 180)) = Real.cos (a * (Real.pi / 180)) :=
    mul_left_cancel₀ hT.ne' (e2.symm.trans q2)
  have hcos : Real.cos (h * (Real.pi / 180) - a * (Real.pi / 180)) = 1 := by
    rw [Real.cos_sub, c1, c2]; linear_combination sq2
  have hb : |h * (Real.pi / 180) - a * (Real.pi / 180)| < 2 * Real.pi := by
    rw [abs_lt]; constructor <;> nlinarith
  have := (Real.cos_eq_one_iff_of_lt_of_lt (abs_lt.mp hb).1 (abs_lt.mp hb).2).mp hcos
  have hd : (h - a) * (Real.pi / 180) = 0 := by linarith
  rcases mul_eq_zero.mp hd with hd | hd
  · linarith
  · exfalso; linarith [div_pos hp (show (0 : ℝ) < 180 by norm_num)]

/-- Ground of any inclination falls towards some heading. -/
theorem exists_fallsTowards (east north : ℝ) : ∃ h s, FallsTowards east north h s := by
  obtain ⟨s0, s1, hs⟩ := C39_slope_is_steepness east (-north)
  by_cases hne : east ≠ 0 ∨ -north ≠ 0
  · obtain ⟨a0, a1, r, r0, q1, q2⟩ := C39_aspect_is_downslope_heading east (-north) hne
    have hr : √(east ^ 2 + (-north) ^ 2) = r := by
      generalize aspectDegrees east (-north) * (Real.pi / 180) = a at q1 q2
      rw [show east ^ 2 = (-east) ^ 2 by ring, q1, q2]
      rw [show (r * Real.sin a) ^ 2 + (r * Real.cos a) ^ 2 = r ^ 2 by
        linear_combination r ^ 2 * Real.sin_sq_add_cos_sq a]
      exact Real.sqrt_sq r0.le
    exact ⟨_, _, a0, a1, s0, s1, by rw [hs, hr]; exact q1, by rw [hs, hr]; exact q2⟩
  · push Not at hne
    refine ⟨0, 0, le_rfl, by norm_num, le_rfl, by norm_num, ?_, ?_⟩
    · rw [hne.1]; simp
    · rw [hne.2]; simp

/-- **C39** Cell by cell, for every raster of elevations: slope and aspect class are those of the
steepness and of the heading of the fall, computed from the weighted differences around the cell; `px`,
`py` are the pixel sizes in degrees, which do not matter, `xm`, `ym` those in metres. -/
theorem C39_cell (g : Grid ℝ) (hr : 0 < g.rows) (hc : 0 < g.cols) (px py xm ym : ℝ) (hx : px ≠ 0)
    (hy : py ≠ 0) (i j : ℕ) (h s : ℝ)
    (f : FallsTowards (riseEast g i j / xm) (riseNorth g i j / ym) h s) :
    (slopeAspect (g.map some) px py xm ym i j).1 = some s ∧
    (0 < s → (slopeAspect (g.map some) px py xm ym i j).2 = reclassifyAspect (some h)) := by
  have e : slopeAspect (g.map some) px py xm ym i j =
      (some (slopeDegrees (riseEast g i j / xm) (-(riseNorth g i j / ym))),
        reclassifyAspect (some (aspectDegrees (riseEast g i j / xm) (-(riseNorth g i j / ym))))) := by
    unfold slopeAspect
    rw [dzdx_eq g hr hc px xm hx, dzdy_eq g hr hc py ym hy]
    rfl
  rw [e]
  exact ⟨by rw [f.slope], fun hs => by rw [f.aspect hs]⟩

/-- **C39** The slope is unknown exactly if one of the elevations of the cell and its neighbours is;
then the aspect is in no direction's class. -/
theorem C39_unknown (g : Grid (Option ℝ)) (px py xm ym : ℝ) (i j : ℕ) (hi : i < g.rows)
    (hj : j < g.cols) :
    ((slopeAspect g px py xm ym i j).1 = none ↔
      ∃ r c : ℕ, r < g.rows ∧ c < g.cols ∧ |(r : ℤ) - i| ≤ 1 ∧ |(c : ℤ) - j| ≤ 1 ∧ g.val r c = none) ∧
    ((slopeAspect g px py xm ym i j).1 = none → (slopeAspect g px py xm ym i j).2 = 9) := by
  have hw : (window3 g i j = none ↔ ∃ r c : ℕ, r < g.rows ∧ c < g.cols ∧ |(r : ℤ) - i| ≤ 1 ∧
      |(c : ℤ) - j| ≤ 1 ∧ g.val r c = none) := by
    unfold window3
    constructor
    · intro h
      split_ifs at h with hs
      push Not at hs
      obtain ⟨a, ha, b, hb, h⟩ := hs
      have ha' : -1 ≤ a ∧ a ≤ 1 := by
        simp only [List.mem_cons, List.not_mem_nil, or_false] at ha; omega
      have hb' : -1 ≤ b ∧ b ≤ 1 := by
        simp only [List.mem_cons, List.not_mem_nil, or_false] at hb; omega
      refine ⟨(max 0 (min ((i : ℤ) + a) (g.rows - 1))).toNat, (max 0 (min ((j : ℤ) + b) (g.cols - 1))).toNat,
        by omega, by omega, by rw [abs_le]; omega, by rw [abs_le]; omega, ?_⟩
      simpa [Grid.edge] using h
    · rintro ⟨r, c, hr, hc, h1, h2, h⟩
      rw [abs_le] at h1 h2
      rw [if_neg]
      intro hs
      have := hs (r - i) (by simp only [List.mem_cons, List.not_mem_nil, or_false]; omega) (c - j)
        (by simp only [List.mem_cons, List.not_mem_nil, or_false]; omega)
      unfold Grid.edge at this
      rw [show (max 0 (min ((i : ℤ) + (r - i)) (g.rows - 1))).toNat = r by omega,
        show (max 0 (min ((j : ℤ) + (c - j)) (g.cols - 1))).toNat = c by omega, h] at this
      simp at this
  have h9 := (C29_other_is_nine (none : Option ℝ) (by simp)).1
  cases hwin : window3 g i j with
  | none =>
    have : slopeAspect g px py xm ym i j = (none, 9) := by
      unfold slopeAspect dzdx dzdy sobelX sobelY
      rw [hwin, ← h9]
      rfl
    rw [this]
    exact ⟨⟨fun _ => hw.mp hwin, fun _ => rfl⟩, fun _ => rfl⟩
  | some w =>
    have hne : g.val i j ≠ none := by
      intro h
      have := hw.mpr ⟨i, j, hi, hj, by simp, by simp, h⟩
      rw [hwin] at this
      simp at this
    have : (slopeAspect g px py xm ym i j).1 ≠ none := by
      unfold slopeAspect dzdx dzdy sobelX sobelY
      rw [hwin]
      simp only [Option.map_some]
      rw [if_neg (by simpa using hne)]
      simp
    exact ⟨⟨fun h => absurd h this, fun h => absurd (hw.mpr h) (by rw [hwin]; simp)⟩,
      fun h => absurd h this⟩

/-- A slope of 45° falling to the west. -/
example : (slopeAspect (⟨3, 3, fun _ j => some (10 * j : ℝ)⟩ : Grid (Option ℝ)) 1 1 10 10 1 1).1 = some 45 ∧
    (slopeAspect (⟨3, 3, fun _ j => some (10 * j : ℝ)⟩ : Grid (Option ℝ)) 1 1 10 10 1 1).2 =
      reclassifyAspect (some (270 : ℝ)) := by
  have h45 : (45 : ℝ) * (Real.pi / 180) = Real.pi / 4 := by ring
  have h270 : (270 : ℝ) * (Real.pi / 180) = Real.pi / 2 + Real.pi := by ring
  obtain ⟨a, b⟩ := C39_cell (⟨3, 3, fun _ j => (10 * j : ℝ)⟩ : Grid ℝ) (by norm_num) (by norm_num) 1 1 10 10
    one_ne_zero one_ne_zero 1 1 270 45 ⟨by norm_num, by norm_num, by norm_num, by norm_num,
      by rw [h45, h270, Real.sin_add_pi]; norm_num [riseEast, Grid.clamped, show Int.toNat 2 = 2 from rfl],
      by rw [h45, h270, Real.cos_add_pi]; norm_num [riseNorth, Grid.clamped]⟩
  exact ⟨a, b (by norm_num)⟩

/-! ### C40 -/

/-- **C40** Raising the whole terrain by a constant changes neither slope nor aspect class. -/
theorem C40_datum_invariant (g : Grid (Option ℝ)) (c px py xm ym : ℝ) (i j : ℕ) :
    slopeAspect (g.map (Option.map (· + c))) px py xm ym i j = slopeAspect g px py xm ym i j := by
  have hedge : ∀ r c', (g.map (Option.map (· + c))).edge r c' = (g.edge r c').map (· + c) :=
    fun _ _ => rfl
  have hwin : window3 (g.map (Option.map (· + c))) i j =
      (window3 g i j).map fun w a b => (g.edge (i + a) (j + b)).map (· + c) |>.getD 0 := by
    unfold window3
    simp only [hedge, Option.isSome_map]
    split_ifs <;> rfl
  have hx : sobelX (g.map (Option.map (· + c))) i j = sobelX g i j ∧
      sobelY (g.map (Option.map (· + c))) i j = sobelY g i j := by
    unfold sobelX sobelY
    rw [hwin]
    by_cases hs : (∀ a ∈ [(-1 : ℤ), 0, 1], ∀ b ∈ [(-1 : ℤ), 0, 1],
        (g.edge (i + a) (j + b)).isSome)
    · have hv : ∀ a ∈ [(-1 : ℤ), 0, 1], ∀ b ∈ [(-1 : ℤ), 0, 1],
          ((g.edge (i + a) (j + b)).map (· + c)).getD 0 = (g.edge (i + a) (j + b)).getD 0 + c := by
        intro a ha b hb
        obtain ⟨v, hv⟩ := Option.isSome_iff_exists.mp (hs a ha b hb)
        rw [hv]
        rfl
      unfold window3
      rw [if_pos hs]
      simp only [Option.map_some]
      rw [hv (-1) (by simp) 1 (by simp), hv (-1) (by simp) (-1) (by simp), hv 0 (by simp) 1 (by simp),
        hv 0 (by simp) (-1) (by simp), hv 1 (by simp) 1 (by simp), hv 1 (by simp) (-1) (by simp),
        hv 1 (by simp) 0 (by simp), hv (-1) (by simp) 0 (by simp)]
      constructor <;> congr 1 <;> ring
    · unfold window3
      rw [if_neg hs]
      exact ⟨rfl, rfl⟩
  have hnone : ((g.map (Option.map (· + c))).val i j).isNone = (g.val i j).isNone := by
    simp [Grid.map]
  unfold slopeAspect dzdx dzdy
  rw [hx.1, hx.2, hnone]

/-- **C40** On a plane rising `β` per column and `α` per row, an interior cell has exactly the
derivatives of the plane, whatever the pixel size in degrees. -/
theorem C40_plane_gradient (rows cols : ℕ) (α β γ px py xm ym : ℝ) (hx : px ≠ 0) (hy : py ≠ 0)
    (i j : ℕ) (hi0 : 0 < i) (hi : i + 1 < rows) (hj0 : 0 < j) (hj : j + 1 < cols) :
    dzdx ⟨rows, cols, fun i j => some (α * i + β * j + γ)⟩ px xm i j = some (β / xm) ∧
    dzdy ⟨rows, cols, fun i j => some (α * i + β * j + γ)⟩ py ym i j = some (α / ym) := by
  have hedge : ∀ a ∈ [(-1 : ℤ), 0, 1], ∀ b ∈ [(-1 : ℤ), 0, 1],
      (⟨rows, cols, fun i j => some (α * i + β * j + γ)⟩ : Grid (Option ℝ)).edge (i + a) (j + b) =
        some (α * (i + a) + β * (j + b) + γ) := by
    intro a ha b hb
    have ha' : -1 ≤ a ∧ a ≤ 1 := by
      simp only [List.mem_cons, List.not_mem_nil, or_false] at ha; omega
    have hb' : -1 ≤ b ∧ b ≤ 1 := by
      simp only [List.mem_cons, List.not_mem_nil, or_false] at hb; omega
    unfold Grid.edge
    simp only
    have e1 : ((max 0 (min ((i : ℤ) + a) (rows - 1))).toNat : ℤ) = i + a := by omega
    have e2 : ((max 0 (min ((j : ℤ) + b) (cols - 1))).toNat : ℤ) = j + b := by omega
    have e1' : ((max 0 (min ((i : ℤ) + a) (rows - 1))).toNat : ℝ) = i + a := by exact_mod_cast e1
    have e2' : ((max 0 (min ((j : ℤ) + b) (cols - 1))).toNat : ℝ) = j + b := by exact_mod_cast e2
    rw [e1', e2']
  have hs : (∀ a ∈ [(-1 : ℤ), 0, 1], ∀ b ∈ [(-1 : ℤ), 0, 1],
      ((⟨rows, cols, fun i j => some (α * i + β * j + γ)⟩ : Grid (Option ℝ)).edge (i + a)
        (j + b)).isSome) := by
    intro a ha b hb
    rw [hedge a ha b hb]
    rfl
  unfold dzdx dzdy sobelX sobelY window3
  rw [if_pos hs]
  simp only [Option.map_some]
  rw [hedge (-1) (by simp) 1 (by simp), hedge (-1) (by simp) (-1) (by simp),
    hedge 0 (by simp) 1 (by simp), hedge 0 (by simp) (-1) (by simp), hedge 1 (by simp) 1 (by simp),
    hedge 1 (by simp) (-1) (by simp), hedge 1 (by simp) 0 (by simp), hedge (-1) (by simp) 0 (by simp)]
  simp only [Option.getD_some]
  constructor
  · congr 1
    rw [div_mul_eq_mul_div, mul_div_mul_right _ _ hx]
    push_cast
    ring
  · congr 1
    rw [div_mul_eq_mul_div, mul_div_mul_right _ _ hy]
    push_cast
    ring

/-- **C40** Hence an interior cell of a plane has the slope of the plane. -/
theorem C40_plane_slope (rows cols : ℕ) (α β γ px py xm ym : ℝ) (hx : px ≠ 0) (hy : py ≠ 0)
    (i j : ℕ) (hi0 : 0 < i) (hi : i + 1 < rows) (hj0 : 0 < j) (hj : j + 1 < cols) :
    ∃ s, (slopeAspect ⟨rows, cols, fun i j => some (α * i + β * j + γ)⟩ px py xm ym i j).1 = some s ∧
      0 ≤ s ∧ s < 90 ∧ Real.tan (s * (Real.pi / 180)) = √((β / xm) ^ 2 + (α / ym) ^ 2) := by
  obtain ⟨h1, h2⟩ := C40_plane_gradient rows cols α β γ px py xm ym hx hy i j hi0 hi hj0 hj
  refine ⟨slopeDegrees (β / xm) (α / ym), ?_, C39_slope_is_steepness _ _⟩
  unfold slopeAspect
  rw [h1, h2]
  rfl

example : (0 : ℕ) < 1 ∧ 1 + 1 < 3 ∧ (0.0003 : ℝ) ≠ 0 := by norm_num

/-! ### C71 -/

/-- **C71** End to end, from elevation to multiplier: at an interior cell of a plane whose downslope
heading is in the sector of direction `d` and whose slope is at least 12.30°, the shielding
multiplier for wind from `d` is 1, whatever the shielding, and for every other wind direction it is
what it would be on flat ground. -/
theorem C71_steep_plane (rows cols : ℕ) (α β γ px py xm ym : ℝ) (hx : px ≠ 0) (hy : py ≠ 0)
    (i j : ℕ) (hi0 : 0 < i) (hi : i + 1 < rows) (hj0 : 0 < j) (hj : j + 1 < cols)
    (d : Dir) (heading r : ℝ) (h0 : 0 ≤ heading) (h1 : heading < 360) (hr : 0 < r)
    (he : -(β / xm) = r * Real.sin (heading * (Real.pi / 180)))
    (hn : α / ym = r * Real.cos (heading * (Real.pi / 180)))
    (hsteep : Real.tan (12.30 * (Real.pi / 180)) ≤ r) (hd : InSector d heading) (m : ℝ) :
    let sa := slopeAspect ⟨rows, cols, fun i j => some (α * i + β * j + γ)⟩ px py xm ym i j
    combineCell d (some m) sa.1 sa.2 = some 1 ∧
    ∀ d', d' ≠ d → combineCell d' (some m) sa.1 sa.2 = combineCell d' (some m) (some 0) 9 := by
  obtain ⟨g1, g2⟩ := C40_plane_gradient rows cols α β γ px py xm ym hx hy i j hi0 hi hj0 hj
  have hsa : slopeAspect ⟨rows, cols, fun i j => some (α * i + β * j + γ)⟩ px py xm ym i j =
      (some (slopeDegrees (β / xm) (α / ym)),
        reclassifyAspect (some (aspectDegrees (β / xm) (α / ym)))) := by
    unfold slopeAspect
    rw [g1, g2]
    rfl
  generalize β / xm = dx at *
  generalize α / ym = dy at *
  have hgrad : √(dx ^ 2 + dy ^ 2) = r := by
    have : dx ^ 2 + dy ^ 2 = r ^ 2 := by
      have e : dx ^ 2 = (-dx) ^ 2 := by ring
      rw [e, he, hn]
      have := Real.sin_sq_add_cos_sq (heading * (Real.pi / 180))
      linear_combination r ^ 2 * this
    rw [this, Real.sqrt_sq hr.le]
  have hne : dx ≠ 0 ∨ dy ≠ 0 := by
    by_contra hcon
    push Not at hcon
    rw [hcon.1, hcon.2] at hgrad
    norm_num at hgrad
    linarith
  -- the computed aspect is the heading
  obtain ⟨a0, a1, r', hr', e1, e2⟩ := C39_aspect_is_downslope_heading dx dy hne
  have hpi := Real.pi_pos
  have hrr : r' = r := by
    have h3 : r' ^ 2 = r ^ 2 := by
      have s1 := Real.sin_sq_add_cos_sq (aspectDegrees dx dy * (Real.pi / 180))
      have s2 := Real.sin_sq_add_cos_sq (heading * (Real.pi / 180))
      have q1 : (r' * Real.sin (aspectDegrees dx dy * (Real.pi / 180))) ^ 2 +
          (r' * Real.cos (aspectDegrees dx dy * (Real.pi / 180))) ^ 2 =
          (r * Real.sin (heading * (Real.pi / 180))) ^ 2 +
          (r * Real.cos (heading * (Real.pi / 180))) ^ 2 := by
        rw [← e1, ← e2, ← he, ← hn]
      linear_combination q1 - r' ^ 2 * s1 + r ^ 2 * s2
    exact (pow_left_inj₀ hr'.le hr.le (by norm_num)).mp h3
  subst hrr
  have hsin : Real.sin (aspectDegrees dx dy * (Real.pi / 180)) =
      Real.sin (heading * (Real.pi / 180)) := by
    have := e1.symm.trans he
    exact mul_left_cancel₀ hr'.ne' this
  have hcos : Real.cos (aspectDegrees dx dy * (Real.pi / 180)) =
      Real.cos (heading * (Real.pi / 180)) := by
    have := e2.symm.trans hn
    exact mul_left_cancel₀ hr'.ne' this
  have hasp : aspectDegrees dx dy = heading := by
    have hang : ((aspectDegrees dx dy * (Real.pi / 180) : ℝ) : Real.Angle) =
        ((heading * (Real.pi / 180) : ℝ) : Real.Angle) :=
      Real.Angle.cos_sin_inj hcos hsin
    rw [Real.Angle.angle_eq_iff_two_pi_dvd_sub] at hang
    obtain ⟨n, hn'⟩ := hang
    have h4 : aspectDegrees dx dy - heading = 360 * n := by
      have : (aspectDegrees dx dy - heading) * (Real.pi / 180) = 360 * n * (Real.pi / 180) := by
        linear_combination hn'
      exact mul_right_cancel₀ (by positivity) this
    have hn1 : (n : ℝ) < 1 := by linarith
    have hn2 : (-1 : ℝ) < n := by linarith
    have hn1' : n < 1 := by exact_mod_cast hn1
    have hn2' : -1 < n := by exact_mod_cast hn2
    have : n = 0 := by omega
    rw [this] at h4
    norm_num at h4
    linarith
  -- the computed slope is at least 12.30
  have hslope : 12.30 ≤ slopeDegrees dx dy := by
    unfold slopeDegrees
    rw [hgrad, le_div_iff₀ (by positivity)]
    have h5 : Real.arctan (Real.tan (12.30 * (Real.pi / 180))) ≤ Real.arctan r' :=
      Real.arctan_strictMono.monotone hsteep
    rw [Real.arctan_tan (by linarith) (by linarith)] at h5
    exact h5
  simp only [hsa, hasp]
  refine ⟨C35_steep_facing_is_one d m _ heading h0 h1.le hslope hd, ?_⟩
  intro d' hne'
  have hcls := C29_sector_class d heading h0 h1.le hd
  have hno : reclassifyAspect (some heading) ≠ direAspect d' := by
    rw [hcls]; exact fun h => hne' (direAspect_injective h).symm
  have hno9 : (9 : ℕ) ≠ direAspect d' := by cases d' <;> simp [direAspect]
  rw [combine_value, combine_value]
  simp [slopeAdjusted, hno, hno9]

/-- A concrete plane: falling 1:1 to the north. -/
example : -((0 : ℝ) / 1) = 1 * Real.sin (0 * (Real.pi / 180)) ∧
    (1 : ℝ) / 1 = 1 * Real.cos (0 * (Real.pi / 180)) ∧
    Real.tan (12.30 * (Real.pi / 180)) ≤ 1 ∧ InSector .n (0 : ℝ) := by
  refine ⟨by simp, by simp, ?_, 0, by norm_num [Dir.bearing], by norm_num [Dir.bearing]⟩
  rw [← Real.tan_pi_div_four]
  apply (Real.strictMonoOn_tan.monotoneOn) <;>
    first
      | (constructor <;> nlinarith [Real.pi_pos])
      | nlinarith [Real.pi_pos]

end WindMult
