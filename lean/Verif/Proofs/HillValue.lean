import Verif.Proofs.Hills
import Mathlib.Tactic.FieldSimp
import Mathlib.Tactic.Positivity
import Mathlib.Tactic.NormNum

/-!
# The multiplier of a single hill
-/

set_option linter.unusedSectionVars false
set_option autoImplicit false

namespace WindMult
variable {K : Type} [Field K] [LinearOrder K] [IsStrictOrderedRing K] [FloorRing K]

theorem halfDistance_eq (v r : ℕ) (ds : K) (h : v < r) : halfDistance r v ds = halfWidth v r ds := by
  unfold halfDistance halfWidth
  have hv : (v : K) < r := by exact_mod_cast h
  rw [abs_of_pos (by linarith), Nat.cast_sub h.le]

theorem halfWidth_pos (v r : ℕ) (ds : K) (h : v < r) (hds : 0 < ds) : 0 < halfWidth v r ds := by
  unfold halfWidth
  have : (0 : K) < ((r - v : ℕ) : K) := by exact_mod_cast Nat.sub_pos_of_lt h
  positivity

theorem escarpmentFactor_eq (y : Line K) (v r : ℕ) (ds : K) (hds : 0 < ds) (h : v < r)
    (hr : r < y.size) (hy : y.val v < y.val r) :
    escarpmentFactor y r v ds = y.escarpment v r := by
  have hd : (0 : K) < ((r - v : ℕ) : K) := by exact_mod_cast Nat.sub_pos_of_lt h
  have hdc : ((r - v : ℕ) : K) = (r : K) - v := Nat.cast_sub h.le
  unfold escarpmentFactor Line.escarpment
  simp only [halfDistance_eq v r ds h]
  have hfl : ⌊(r : K) + 2 * halfWidth v r ds / ds⌋ = ((2 * r - v : ℕ) : ℤ) := by
    have : (r : K) + 2 * halfWidth v r ds / ds = ((2 * r - v : ℕ) : K) := by
      unfold halfWidth
      rw [hdc, Nat.cast_sub (by omega : v ≤ 2 * r)]
      push_cast
      field_simp
      ring
    rw [this, Int.floor_natCast]
  have hmin : min ((y.size : ℤ) - 1) ⌊(r : K) + 2 * halfWidth v r ds / ds⌋ =
      ((min (y.size - 1) (2 * r - v) : ℕ) : ℤ) := by
    rw [hfl]; omega
  rw [hmin, Int.toNat_natCast]
  generalize hb : min (y.size - 1) (2 * r - v) = b
  have hrb : r ≤ b := by omega
  have hbc : ((b - r : ℕ) : K) = (b : K) - r := Nat.cast_sub hrb
  by_cases hbr : b ≤ r
  · have : b = r := le_antisymm hbr hrb
    subst this
    simp
  · have hbr' : (r : K) < b := by exact_mod_cast not_le.mp hbr
    rw [if_neg hbr, if_pos (by push_cast; exact mul_pos (by linarith) hds)]
    have hne : (y.val r - y.val v) ≠ 0 := by linarith
    have key : 5 / 2 - 3 / 2 * ((y.val r - y.val b) / ((((b : ℤ) : K) - (r : K)) * ds)) /
        ((y.val r - y.val v) / (2 * halfWidth v r ds)) =
        5 / 2 - 3 / 2 * ((y.val r - y.val b) / ((b - r : ℕ) : K) /
          ((y.val r - y.val v) / ((r - v : ℕ) : K))) := by
      rw [hbc]
      unfold halfWidth
      have : (b : K) - r ≠ 0 := by linarith
      push_cast
      field_simp
    rw [key]
    generalize 5 / 2 - 3 / 2 * ((y.val r - y.val b) / ((b - r : ℕ) : K) /
          ((y.val r - y.val v) / ((r - v : ℕ) : K))) = e
    split_ifs with h1 h2
    · rw [max_eq_left (le_trans (min_le_right _ _) h1.le)]
    · rw [min_eq_left h2.le, max_eq_right (by norm_num)]
    · rw [min_eq_right (not_lt.mp h2), max_eq_right (not_lt.mp h1)]

theorem escarpment_bounds (y : Line K) (v r : ℕ) :
    1 / 2 ≤ y.escarpment v r ∧ y.escarpment v r ≤ 3 := by
  unfold Line.escarpment
  simp only
  split_ifs
  · norm_num
  · exact ⟨le_max_left _ _, max_le (by norm_num) (min_le_left _ _)⟩

/-! ### The body of the loop -/

theorem cap_eq (v : K) : (if 171 / 100 < v then 171 / 100 else v) = min (171 / 100) v := by
  split_ifs with h
  · rw [min_eq_left h.le]
  · rw [min_eq_right (not_lt.mp h)]

theorem mhBody_spec (H Lu k x : K) (hH : 0 < H) :
    let L1 := max (36 / 100 * Lu) (4 / 10 * H)
    mhBody H L1 (4 * L1) (H / (2 * Lu)) k x =
      if |x| < (if 0 ≤ x then 4 * L1 else k * (4 * L1)) then some (hillMultiplier H Lu k x)
      else none := by
  intro L1
  have hL1 : 4 / 10 * H ≤ L1 := le_max_right _ _
  have hL1p : 0 < L1 := by linarith
  have e72 : (7 / 2 : K) = 35 / 10 := by norm_num
  unfold mhBody hillMultiplier
  by_cases hx : 0 ≤ x
  · simp only [if_pos hx, abs_of_nonneg hx]
    by_cases hl : x < 4 * L1
    · rw [if_pos ⟨hx, hl⟩, if_pos hl, if_pos hl, cap_eq, if_neg (by rintro ⟨h, _⟩; linarith), e72]
    · rw [if_neg (by rintro ⟨_, h⟩; exact hl h), if_neg (by rintro ⟨_, h, _⟩; linarith),
        if_neg (by rintro ⟨h, _⟩; linarith), if_neg hl]
  · have hx' : x < 0 := not_le.mp hx
    simp only [if_neg hx, abs_of_neg hx']
    rw [if_neg (by rintro ⟨h, _⟩; linarith)]
    by_cases hs : 45 / 100 < H / (2 * Lu) ∧ x < 0 ∧ -H / 4 < x ∧ |k - 1| < 2 / 10
    · have hk' : 8 / 10 < k := by
        have := (abs_lt.mp hs.2.2.2).1
        linarith
      have hr : -x < k * (4 * L1) := by
        have h1 : -x < H / 4 := by have := hs.2.2.1; linarith
        have h2 : 8 / 10 * (4 * (4 / 10 * H)) ≤ k * (4 * L1) :=
          mul_le_mul hk'.le (by linarith) (by linarith) (by linarith)
        linarith
      rw [if_pos hs, if_pos hr, if_pos hr, if_pos ⟨hx', by have := hs.2.2.1; linarith, hs.1, hs.2.2.2⟩]
    · rw [if_neg hs]
      by_cases hl : -x < k * (4 * L1)
      · rw [if_pos ⟨hx', by linarith⟩, if_pos hl, if_pos hl, cap_eq,
          if_neg (by rintro ⟨a, b, c, d⟩; exact hs ⟨c, a, by linarith, d⟩), e72]
      · rw [if_neg (by rintro ⟨_, h⟩; apply hl; linarith), if_neg hl]

theorem hillMultiplier_out (H Lu k x : K)
    (h : ¬ |x| < (if 0 ≤ x then 4 * max (36 / 100 * Lu) (4 / 10 * H)
      else k * (4 * max (36 / 100 * Lu) (4 / 10 * H)))) : hillMultiplier H Lu k x = 1 := by
  unfold hillMultiplier
  simp only
  rw [if_neg h]

/-- Range of the contribution of a hill. -/
theorem hillMultiplier_bounds (H Lu k x : K) (hH : 0 < H) (hk : 1 / 2 ≤ k) :
    1 ≤ hillMultiplier H Lu k x ∧ hillMultiplier H Lu k x ≤ 171 / 100 := by
  unfold hillMultiplier
  simp only
  set L1 := max (36 / 100 * Lu) (4 / 10 * H)
  have hL1 : 4 / 10 * H ≤ L1 := le_max_right _ _
  have hL1p : 0 < L1 := by linarith
  generalize hr : (if 0 ≤ x then 4 * L1 else k * (4 * L1)) = reach
  have hrp : 0 < reach := by
    rw [← hr]
    split_ifs
    · linarith
    · exact mul_pos (by linarith) (by linarith)
  by_cases hx : |x| < reach
  · rw [if_pos hx]
    have h0 : 0 ≤ |x| / reach := div_nonneg (abs_nonneg _) hrp.le
    have h1 : |x| / reach < 1 := (div_lt_one hrp).mpr hx
    split_ifs
    · constructor <;> nlinarith
    · refine ⟨le_min (by norm_num) ?_, min_le_left _ _⟩
      have : 0 ≤ H / (35 / 10 * (10 + L1)) := by positivity
      nlinarith [mul_nonneg this (by linarith : 0 ≤ 1 - |x| / reach)]
  · rw [if_neg hx]
    norm_num

/-! ### The loop -/

theorem mhLoop_nonneg (n : ℕ) (body : ℤ → Option K) (ks : List ℤ) (hks : ∀ k ∈ ks, 0 ≤ k) :
    ∀ (m : ℕ → K) (i : ℕ), mhLoop n body ks m i =
      if (i : ℤ) ∈ ks then (body i).getD (m i) else m i := by
  induction ks with
  | nil => intro m i; simp [mhLoop]
  | cons k ks ih =>
    intro m i
    have ih' := ih (fun k' hk' => hks k' (List.mem_cons_of_mem _ hk'))
    have hk0 : 0 ≤ k := hks k List.mem_cons_self
    unfold mhLoop
    cases hb : body k with
    | none =>
      simp only
      rw [ih']
      by_cases hik : (i : ℤ) = k
      · rw [← hik] at hb
        rw [hb]
        simp
      · simp only [List.mem_cons, hik, false_or]
    | some v =>
      simp only
      rw [ih']
      have hset : pySet n m k v i = if (i : ℤ) = k then v else m i := by
        show (if (i : ℤ) = (if k < 0 then k + n else k) then v else m i) = _
        rw [if_neg (not_lt.mpr hk0)]
      rw [hset]
      by_cases hik : (i : ℤ) = k
      · rw [← hik] at hb
        rw [← hik, hb]
        simp
      · simp only [List.mem_cons, hik, false_or, if_false]

theorem mem_pyRange (a b k : ℤ) : k ∈ pyRange a b ↔ a ≤ k ∧ k < b := by
  unfold pyRange
  rw [List.mem_map]
  constructor
  · rintro ⟨t, ht, rfl⟩
    rw [List.mem_range] at ht
    omega
  · rintro ⟨h1, h2⟩
    exact ⟨(k - a).toNat, by rw [List.mem_range]; omega, by omega⟩

theorem pyRange_cons (a b : ℤ) (h : a < b) : pyRange a b = a :: pyRange (a + 1) b := by
  unfold pyRange
  have e : (b - a).toNat = (b - (a + 1)).toNat + 1 := by omega
  rw [e, List.range_succ_eq_map, List.map_cons, List.map_map]
  congr 1
  · simp
  · apply List.map_congr_left
    intro t _
    simp
    ring

/-- The exact value `mh_calc` gives each point of the line.  The last point is special: if it is out
of reach of the hill, it gets the value of the point *before* the start of the line. -/
theorem mhCalc_value (y : Line K) (v r : ℕ) (ds : K) (hds : 0 < ds) (h : v < r)
    (hr : r < y.size) (hy : y.val v < y.val r)
    (hc : hillCounts (y.val r - y.val v) (halfWidth v r ds) ds) (p : ℕ) (hp : p < y.size) :
    (mhCalc y r v ds).val p =
      if p + 1 = y.size ∧
        y.escarpment v r * (4 * max (36 / 100 * halfWidth v r ds) (4 / 10 * (y.val r - y.val v))) ≤
          ((p : K) - (r : K)) * ds ∧ r < p
      then y.hillValue v r ds (-1) else y.hillValue v r ds p := by
  have hH : 0 < y.val r - y.val v := by linarith
  have hesc := escarpment_bounds y v r
  have hLup := halfWidth_pos v r ds h hds
  unfold mhCalc
  simp only [halfDistance_eq v r ds h, escarpmentFactor_eq y v r ds hds h hr hy]
  obtain ⟨c1, c2, c3⟩ := hc
  rw [if_neg (by push Not; exact ⟨c1, c2, c3⟩)]
  simp only
  unfold Line.hillValue
  set H := y.val r - y.val v with hHdef
  set Lu := halfWidth v r ds with hLudef
  set k := y.escarpment v r with hkdef
  set L1 := max (36 / 100 * Lu) (4 / 10 * H) with hL1def
  have hL1 : 4 / 10 * H ≤ L1 := le_max_right _ _
  have hL1p : 0 < L1 := by linarith
  set body := fun q : ℤ => mhBody H L1 (4 * L1) (H / (2 * Lu)) k (((r : K) - (q : K)) * ds)
    with hbody
  have hb : ∀ q : ℤ, body q = if |((r : K) - (q : K)) * ds| <
      (if 0 ≤ ((r : K) - (q : K)) * ds then 4 * L1 else k * (4 * L1))
      then some (hillMultiplier H Lu k (((r : K) - (q : K)) * ds)) else none :=
    fun q => mhBody_spec H Lu k _ hH
  set fl2 : ℤ := max 0 ((r : ℤ) - ⌊4 * L1 / ds⌋) with hfl2
  set l2 : ℤ := min ((y.size : ℤ) - 1) ((r : ℤ) + ⌊k * (4 * L1) / ds⌋) + 1 with hl2
  have hkL : 0 < k * (4 * L1) := mul_pos (by linarith [hesc.1]) (by linarith)
  have hf1 : 0 ≤ ⌊4 * L1 / ds⌋ := Int.floor_nonneg.mpr (by positivity)
  have hf2 : 0 ≤ ⌊k * (4 * L1) / ds⌋ := Int.floor_nonneg.mpr (by positivity)
  -- points in reach are in the range of the loop
  have hin : ∀ q : ℕ, q < y.size → body q ≠ none → fl2 ≤ q ∧ (q : ℤ) < l2 := by
    intro q hq hne
    rw [hb] at hne
    by_cases hlt : |((r : K) - ((q : ℤ) : K)) * ds| <
      (if 0 ≤ ((r : K) - ((q : ℤ) : K)) * ds then 4 * L1 else k * (4 * L1))
    swap
    · rw [if_neg hlt] at hne; exact absurd rfl hne
    push_cast at hlt
    rcases Nat.lt_or_ge r q with hrq | hrq
    · have hrq' : (r : K) < q := by exact_mod_cast hrq
      have hneg : ((r : K) - (q : K)) * ds < 0 := mul_neg_of_neg_of_pos (by linarith) hds
      rw [if_neg (not_le.mpr hneg), abs_of_neg hneg] at hlt
      refine ⟨by omega, ?_⟩
      have : ((q : ℤ) - (r : ℤ)) ≤ ⌊k * (4 * L1) / ds⌋ := by
        rw [Int.le_floor, le_div_iff₀ hds]
        push_cast
        linarith
      omega
    · have hrq' : (q : K) ≤ r := by exact_mod_cast hrq
      have hnn : 0 ≤ ((r : K) - (q : K)) * ds := mul_nonneg (by linarith) hds.le
      rw [if_pos hnn, abs_of_nonneg hnn] at hlt
      have : ((r : ℤ) - (q : ℤ)) ≤ ⌊4 * L1 / ds⌋ := by
        rw [Int.le_floor, le_div_iff₀ hds]
        push_cast
        linarith
      omega
  -- the extra point in front of the range is out of reach, unless it is before the line start
  have hfront : ∀ q : ℤ, (q : ℤ) < (r : ℤ) - ⌊4 * L1 / ds⌋ → body q = none := by
    intro q hq
    rw [hb, if_neg]
    have h1 : ⌊4 * L1 / ds⌋ + 1 ≤ (r : ℤ) - q := by omega
    have h2 : 4 * L1 / ds < (r : K) - q := by
      have : ((⌊4 * L1 / ds⌋ : ℤ) : K) + 1 ≤ (r : K) - q := by exact_mod_cast h1
      linarith [Int.lt_floor_add_one (4 * L1 / ds)]
    rw [div_lt_iff₀ hds] at h2
    have hnn : 0 ≤ ((r : K) - (q : K)) * ds := by linarith
    rw [if_pos hnn, abs_of_nonneg hnn]
    exact not_lt.mpr h2.le
  have hl12 : fl2 - 1 < l2 := by omega
  rw [pyRange_cons _ _ hl12]
  have e1 : fl2 - 1 + 1 = fl2 := by ring
  rw [e1]
  have hrange : ∀ q ∈ pyRange fl2 l2, 0 ≤ q := by
    intro q hq
    rw [mem_pyRange] at hq
    omega
  -- value of the loop over the proper range, from any start
  have hloop : ∀ m : ℕ → K, mhLoop y.size body (pyRange fl2 l2) m p = (body p).getD (m p) := by
    intro m
    rw [mhLoop_nonneg _ _ _ hrange]
    split_ifs with hm
    · rfl
    · by_cases hn : body p = none
      · rw [hn]; rfl
      · exact absurd ((mem_pyRange _ _ _).mpr (hin p hp hn)) hm
  have hval : mhLoop y.size body ((fl2 - 1) :: pyRange fl2 l2) (fun _ => 1) p =
      (body p).getD (if p + 1 = y.size then (body (-1)).getD 1 else 1) := by
    unfold mhLoop
    by_cases hz : fl2 = 0
    · rw [hz]
      have e2 : (0 : ℤ) - 1 = -1 := rfl
      rw [e2]
      rw [hz] at hloop
      cases hm1 : body (-1) with
      | none =>
        simp only [Option.getD_none, ite_self]
        rw [hloop]
      | some w =>
        simp only [Option.getD_some]
        rw [hloop]
        congr 1
        show (if (p : ℤ) = (if (-1 : ℤ) < 0 then -1 + (y.size : ℤ) else -1) then w else 1) = _
        rw [if_pos (by norm_num : (-1 : ℤ) < 0)]
        by_cases hpn : p + 1 = y.size
        · rw [if_pos hpn, if_pos (by omega)]
        · rw [if_neg hpn, if_neg (by omega)]
    · have hpos : fl2 = (r : ℤ) - ⌊4 * L1 / ds⌋ := by omega
      have hn1 : body (fl2 - 1) = none := hfront _ (by omega)
      have hn2 : body (-1) = none := hfront _ (by omega)
      rw [hn1, hn2]
      simp only [Option.getD_none, ite_self]
      rw [hloop]
  rw [hval]
  have hout : ∀ q : ℤ, body q = none → hillMultiplier H Lu k (((r : K) - (q : K)) * ds) = 1 := by
    intro q hq
    apply hillMultiplier_out
    intro hlt
    rw [hb, if_pos hlt] at hq
    exact absurd hq (by simp)
  have hgetD : ∀ q : ℤ, (body q).getD 1 = hillMultiplier H Lu k (((r : K) - (q : K)) * ds) := by
    intro q
    cases hq : body q with
    | none => rw [hout q hq]; rfl
    | some w =>
      rw [hb] at hq
      by_cases hlt : |((r : K) - (q : K)) * ds| <
          (if 0 ≤ ((r : K) - (q : K)) * ds then 4 * L1 else k * (4 * L1))
      · rw [if_pos hlt] at hq
        exact (Option.some.inj hq).symm
      · rw [if_neg hlt] at hq
        exact absurd hq (by simp)
  by_cases hlast : p + 1 = y.size
  · rw [if_pos hlast]
    by_cases hreach : k * (4 * L1) ≤ ((p : K) - (r : K)) * ds ∧ r < p
    · rw [if_pos ⟨hlast, hreach⟩]
      have hneg : ((r : K) - (p : K)) * ds < 0 := by
        have : (r : K) < p := by exact_mod_cast hreach.2
        exact mul_neg_of_neg_of_pos (by linarith) hds
      have hnone : body p = none := by
        rw [hb]
        push_cast
        rw [if_neg (not_le.mpr hneg), abs_of_neg hneg, if_neg]
        have := hreach.1
        linarith
      rw [hnone, Option.getD_none, hgetD]
    · rw [if_neg (fun h => hreach h.2)]
      have hsome : body p ≠ none := by
        rw [hb]
        push_cast
        rcases Nat.lt_or_ge r p with hrp | hrp
        · have hrp' : (r : K) < p := by exact_mod_cast hrp
          have hneg : ((r : K) - (p : K)) * ds < 0 := mul_neg_of_neg_of_pos (by linarith) hds
          rw [if_neg (not_le.mpr hneg), abs_of_neg hneg, if_pos]
          · simp
          · by_contra hcon
            exact hreach ⟨by linarith, hrp⟩
        · have : p = r := by omega
          subst this
          have hlt : |((p : K) - (p : K)) * ds| <
              (if 0 ≤ ((p : K) - (p : K)) * ds then 4 * L1 else k * (4 * L1)) := by
            simp; exact hL1p
          rw [if_pos hlt]
          simp
      rw [← hgetD]
      cases hq : body p with
      | none => exact absurd hq hsome
      | some w => rfl
  · rw [if_neg hlast, if_neg (fun h => hlast h.1), hgetD]

theorem mhCalc_small (y : Line K) (v r : ℕ) (ds : K) (h : v < r)
    (hc : ¬ hillCounts (y.val r - y.val v) (halfWidth v r ds) ds) (p : ℕ) :
    (mhCalc y r v ds).val p = 1 := by
  unfold mhCalc
  simp only [halfDistance_eq v r ds h]
  rw [if_pos]
  by_contra hcon
  push Not at hcon
  exact hc hcon

end WindMult
