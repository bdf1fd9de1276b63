import Verif.Model.SavedTile
import Verif.Spec.SavedTile
import Verif.Proofs.FloatDigits
import Mathlib.Tactic.Linarith
import Mathlib.Tactic.NormNum

/-!
# C154: what is saved of a tile describes it

`save_multiplier`, `nc_create_var` (`/repo/utilities/nctools.py`).
-/

set_option autoImplicit false
set_option linter.unusedSectionVars false

namespace WindMult

section Ranges
variable {K : Type} [LinearOrder K]

theorem foldl_min_spec : ∀ (l : List K) (x : K),
    (l.foldl min x = x ∨ l.foldl min x ∈ l) ∧ l.foldl min x ≤ x ∧ ∀ y ∈ l, l.foldl min x ≤ y := by
  intro l
  induction l with
  | nil => intro x; simp
  | cons a l ih =>
    intro x
    obtain ⟨h1, h2, h3⟩ := ih (min x a)
    refine ⟨?_, h2.trans (min_le_left _ _), fun y hy => ?_⟩
    · rcases h1 with h1 | h1
      · rcases min_choice x a with h | h
        · exact Or.inl (by simp only [List.foldl_cons]; rw [h1, h])
        · exact Or.inr (by simp only [List.foldl_cons]; rw [h1, h]; simp)
      · exact Or.inr (List.mem_cons_of_mem _ h1)
    · rcases List.mem_cons.mp hy with rfl | hy
      · exact h2.trans (min_le_right _ _)
      · exact h3 y hy

theorem foldl_max_spec : ∀ (l : List K) (x : K),
    (l.foldl max x = x ∨ l.foldl max x ∈ l) ∧ x ≤ l.foldl max x ∧ ∀ y ∈ l, y ≤ l.foldl max x := by
  intro l
  induction l with
  | nil => intro x; simp
  | cons a l ih =>
    intro x
    obtain ⟨h1, h2, h3⟩ := ih (max x a)
    refine ⟨?_, (le_max_left _ _).trans h2, fun y hy => ?_⟩
    · rcases h1 with h1 | h1
      · rcases max_choice x a with h | h
        · exact Or.inl (by simp only [List.foldl_cons]; rw [h1, h])
        · exact Or.inr (by simp only [List.foldl_cons]; rw [h1, h]; simp)
      · exact Or.inr (List.mem_cons_of_mem _ h1)
    · rcases List.mem_cons.mp hy with rfl | hy
      · exact (le_max_right _ _).trans h2
      · exact h3 y hy

theorem rangeOf_cons (x : K) (l : List K) : RangeOf (· ∈ x :: l) (l.foldl min x) (l.foldl max x) := by
  obtain ⟨a1, a2, a3⟩ := foldl_min_spec l x
  obtain ⟨b1, b2, b3⟩ := foldl_max_spec l x
  refine ⟨List.mem_cons.mpr a1, List.mem_cons.mpr b1, fun y hy => ?_⟩
  rcases List.mem_cons.mp hy with rfl | hy
  · exact ⟨a2, b2⟩
  · exact ⟨a3 y hy, b3 y hy⟩

theorem mem_cellList {A : Type} (g : Grid A) (a : A) :
    a ∈ cellList g ↔ ∃ i j, i < g.rows ∧ j < g.cols ∧ g.val i j = a := by
  unfold cellList
  simp only [List.mem_flatMap, List.mem_map, List.mem_range]
  constructor
  · rintro ⟨i, hi, j, hj, h⟩
    exact ⟨i, j, hi, hj, h⟩
  · rintro ⟨i, j, hi, hj, h⟩
    exact ⟨i, hi, j, hj, h⟩

theorem cellList_nil {A : Type} (g : Grid A) : cellList g = [] ↔ g.rows = 0 ∨ g.cols = 0 := by
  rw [List.eq_nil_iff_forall_not_mem]
  simp only [mem_cellList]
  constructor
  · intro h
    by_contra hc
    exact h (g.val 0 0) ⟨0, 0, by omega, by omega, rfl⟩
  · rintro h a ⟨i, j, hi, hj, -⟩
    omega

variable [Neg K] [OfNat K 9999]

/-- C154: a tile is saved if and only if there are coordinates and the values have the shape they give; then the
file holds the coordinates as they are, the value of each cell rounded to the type of the file in its place,
NaN where there was NaN, and the dimensions in the order latitude, longitude. -/
theorem C154_content (rnd : K → K) (name : String) (values : Grid (Option K)) (lat lon : List K) :
    (lat ≠ [] → lon ≠ [] → values.rows = lat.length → values.cols = lon.length → ∃ t,
      saveTile rnd name values lat lon = .ok t ∧ t.name = name ∧ t.dims = [t.lat.name, t.lon.name] ∧
      t.lat.name = "lat" ∧ t.lon.name = "lon" ∧ t.lat.values = lat ∧ t.lon.values = lon ∧ t.fill = -9999 ∧
      t.data.rows = lat.length ∧ t.data.cols = lon.length ∧
      (∀ i j x, values.val i j = some x → t.data.val i j = some (rnd x)) ∧
      ∀ i j, values.val i j = none → t.data.val i j = none) ∧
    ((lat = [] ∨ lon = [] ∨ values.rows ≠ lat.length ∨ values.cols ≠ lon.length) →
      saveTile rnd name values lat lon = .error .valueError) := by
  constructor
  · intro h1 h2 h3 h4
    obtain ⟨y, lat', rfl⟩ := List.exists_cons_of_ne_nil h1
    obtain ⟨x, lon', rfl⟩ := List.exists_cons_of_ne_nil h2
    have hne : cellList values ≠ [] := by
      rw [ne_eq, cellList_nil, h3, h4]
      simp
    have hn : ∀ pick : K → K → K, ∃ r, nanExtreme pick (cellList values) = .ok r := by
      intro pick
      unfold nanExtreme
      rw [if_neg hne]
      split <;> exact ⟨_, rfl⟩
    obtain ⟨lo, hlo⟩ := hn min
    obtain ⟨hi, hhi⟩ := hn max
    unfold saveTile
    simp only [extreme, bind, Except.bind, hlo, hhi, h3, h4, and_self, if_true, pure, Except.pure]
    refine ⟨_, rfl, rfl, rfl, rfl, rfl, rfl, rfl, rfl, h3, h4, fun i j x h => ?_, fun i j h => ?_⟩
    · simp [Grid.map, h]
    · simp [Grid.map, h]
  · intro h
    unfold saveTile
    cases lat with
    | nil => rfl
    | cons y lat =>
      cases lon with
      | nil => rfl
      | cons x lon =>
        simp only [extreme, bind, Except.bind]
        unfold nanExtreme
        by_cases hne : cellList values = []
        · rw [if_pos hne]
        · rw [if_neg hne, if_neg hne]
          have hs : ¬ (values.rows = (y :: lat).length ∧ values.cols = (x :: lon).length) := by
            rintro ⟨h3, h4⟩
            rcases h with h | h | h | h
            · cases h
            · cases h
            · exact h h3
            · exact h h4
          cases (cellList values).filterMap id with
          | nil => simp only [hs, if_false]
          | cons a r => simp only [hs, if_false]

/-- C154, in full: the attribute `actual_range` of each variable gives the smallest and the largest of its values.
This is false of the multipliers, see `C154_range_exceeded`.  It is true of the coordinates; that of the multipliers
is the range of the values before they are rounded to the type of the file (NaN if there are none), the values in
the file are between the rounded ends, and the range is right if the values are of that type before. -/
theorem C154_range_partial (rnd : K → K) (hr : Monotone rnd) (name : String) (values : Grid (Option K)) (lat lon : List K)
    (t : SavedTile K) (h : saveTile rnd name values lat lon = .ok t) :
    RangeOf (· ∈ t.lat.values) t.lat.range.1 t.lat.range.2 ∧ RangeOf (· ∈ t.lon.values) t.lon.range.1 t.lon.range.2 ∧
    ((∃ x, InGrid values x) → ∃ lo hi, t.range = (some lo, some hi) ∧ RangeOf (InGrid values) lo hi ∧
      RangeOf (InGrid t.data) (rnd lo) (rnd hi) ∧
      ((∀ x, InGrid values x → rnd x = x) → RangeOf (InGrid t.data) lo hi)) ∧
    ((¬ ∃ x, InGrid values x) → t.range = (none, none) ∧ ¬ ∃ x, InGrid t.data x) := by
  have hlat : lat ≠ [] := fun h0 => by
    rw [(C154_content rnd name values lat lon).2 (Or.inl h0)] at h; cases h
  have hlon : lon ≠ [] := fun h0 => by
    rw [(C154_content rnd name values lat lon).2 (Or.inr (Or.inl h0))] at h; cases h
  have hrows : values.rows = lat.length := by
    by_contra h0
    rw [(C154_content rnd name values lat lon).2 (Or.inr (Or.inr (Or.inl h0)))] at h; cases h
  have hcols : values.cols = lon.length := by
    by_contra h0
    rw [(C154_content rnd name values lat lon).2 (Or.inr (Or.inr (Or.inr h0)))] at h; cases h
  obtain ⟨y, lat', rfl⟩ := List.exists_cons_of_ne_nil hlat
  obtain ⟨x, lon', rfl⟩ := List.exists_cons_of_ne_nil hlon
  have hne : cellList values ≠ [] := by
    rw [ne_eq, cellList_nil, hrows, hcols]
    simp
  have hin : ∀ z, InGrid values z ↔ z ∈ (cellList values).filterMap id := by
    intro z
    rw [List.mem_filterMap]
    simp only [id, exists_eq_right, mem_cellList]
    rfl
  have hdata : ∀ z, InGrid (values.map fun x => x.map rnd) z ↔ ∃ w, InGrid values w ∧ rnd w = z := by
    intro z
    simp only [InGrid, Grid.map, Option.map_eq_some_iff]
    constructor
    · rintro ⟨i, j, hi, hj, w, hw, e⟩
      exact ⟨w, ⟨i, j, hi, hj, hw⟩, e⟩
    · rintro ⟨w, ⟨i, j, hi, hj, hw⟩, e⟩
      exact ⟨i, j, hi, hj, w, hw, e⟩
  unfold saveTile nanExtreme at h
  simp only [extreme, bind, Except.bind, hne, if_false] at h
  cases hl : (cellList values).filterMap id with
  | nil =>
    simp only [hl, hrows, hcols, and_self, if_true, pure, Except.pure, Except.ok.injEq] at h
    subst h
    have hno : ¬ ∃ z, InGrid values z := by
      rintro ⟨z, hz⟩
      rw [hin, hl] at hz
      cases hz
    refine ⟨rangeOf_cons y lat', rangeOf_cons x lon', fun hc => absurd hc hno, fun _ => ⟨rfl, ?_⟩⟩
    rintro ⟨z, hz⟩
    obtain ⟨w, hw, -⟩ := (hdata z).mp hz
    exact hno ⟨w, hw⟩
  | cons a r =>
    simp only [hl, hrows, hcols, and_self, if_true, pure, Except.pure, Except.ok.injEq] at h
    subst h
    have hR : RangeOf (InGrid values) (r.foldl min a) (r.foldl max a) := by
      have := rangeOf_cons a r
      rw [← hl] at this
      refine ⟨(hin _).mpr this.1, (hin _).mpr this.2.1, fun z hz => this.2.2 z ((hin z).mp hz)⟩
    have hR' : RangeOf (InGrid (values.map fun x => x.map rnd)) (rnd (r.foldl min a)) (rnd (r.foldl max a)) := by
      refine ⟨(hdata _).mpr ⟨_, hR.1, rfl⟩, (hdata _).mpr ⟨_, hR.2.1, rfl⟩, fun z hz => ?_⟩
      obtain ⟨w, hw, rfl⟩ := (hdata z).mp hz
      exact ⟨hr (hR.2.2 w hw).1, hr (hR.2.2 w hw).2⟩
    refine ⟨rangeOf_cons y lat', rangeOf_cons x lon', fun _ => ⟨_, _, rfl, hR, hR', fun hf => ?_⟩, fun hno => ?_⟩
    · rw [hf _ hR.1, hf _ hR.2.1] at hR'
      exact hR'
    · exact absurd ⟨a, (hin a).mpr (by rw [hl]; simp)⟩ hno

end Ranges

theorem round_example : roundDigits 24 (1 + (2 : ℝ) ^ (-52 : ℤ)) = 1 := by
  rw [roundDigits_of_log 24 (e := 0) (by norm_num) (by norm_num)]
  have h : around ((1 + (2 : ℝ) ^ (-52 : ℤ)) * 2 ^ (((24 : ℕ) : ℤ) - 1 - 0)) = 8388608 :=
    around_eq_of_abs_lt (by norm_num [abs_lt])
  rw [h]
  norm_num

/-- C154, `actual_range` is wrong: the multipliers of the topographic step are doubles
(`/repo/topographic/topo_mult.py` 136-137) and are rounded to `float32` in the file, but the ends of the range are not.  With two
cells the smaller of which is `1 + 2⁻⁵²`, a double, the file holds 1, which is less than the range says. -/
theorem C154_range_exceeded : ∃ (values : Grid (Option ℝ)) (t : SavedTile ℝ) (lo hi x : ℝ),
    (∀ z, InGrid values z → roundDigits 53 z = z) ∧ saveTile (roundDigits 24) "Mt" values [-20] [140, 141] = .ok t ∧
    t.range = (some lo, some hi) ∧ InGrid t.data x ∧ x < lo := by
  have hmin : min (1 + (2 : ℝ) ^ (-52 : ℤ)) 2 = 1 + (2 : ℝ) ^ (-52 : ℤ) := min_eq_left (by norm_num)
  have hmax : max (1 + (2 : ℝ) ^ (-52 : ℤ)) 2 = 2 := max_eq_right (by norm_num)
  refine ⟨⟨1, 2, fun _ j => some (if j = 0 then 1 + (2 : ℝ) ^ (-52 : ℤ) else 2)⟩,
    ⟨⟨"lat", [-20], (-20, -20)⟩, ⟨"lon", [140, 141], (140, 141)⟩, "Mt", ["lat", "lon"], -9999,
      (some (1 + (2 : ℝ) ^ (-52 : ℤ)), some 2),
      ⟨1, 2, fun _ j => some (roundDigits 24 (if j = 0 then 1 + (2 : ℝ) ^ (-52 : ℤ) else 2))⟩⟩,
    1 + (2 : ℝ) ^ (-52 : ℤ), 2, 1, ?_, ?_, rfl, ⟨0, 0, by norm_num, by norm_num, ?_⟩, by norm_num⟩
  · rintro z ⟨i, j, -, -, hz⟩
    simp only [Option.some.injEq] at hz
    subst hz
    split_ifs
    · have := roundDigits_exact 53 (2 ^ 52 + 1) (-52) (by norm_num) (by norm_num)
      have e : ((2 ^ 52 + 1 : ℤ) : ℝ) * 2 ^ (-52 : ℤ) = 1 + (2 : ℝ) ^ (-52 : ℤ) := by norm_num
      rw [e] at this
      exact this
    · have := roundDigits_int 53 2 (by norm_num) (by norm_num)
      exact_mod_cast this
  · have hc : cellList (⟨1, 2, fun _ j => some (if j = 0 then 1 + (2 : ℝ) ^ (-52 : ℤ) else 2)⟩ : Grid (Option ℝ)) =
        [some (1 + (2 : ℝ) ^ (-52 : ℤ)), some 2] := by
      simp [cellList, List.range_succ]
    unfold saveTile
    rw [hc]
    have e1 : min (140 : ℝ) 141 = 140 := by norm_num
    have e2 : max (140 : ℝ) 141 = 141 := by norm_num
    simp only [extreme, nanExtreme, bind, Except.bind, List.foldl_cons, List.foldl_nil, List.filterMap_cons, id,
      List.filterMap_nil, hmin, hmax, e1, e2, reduceCtorEq, if_false, List.length_cons, List.length_nil, zero_add,
      and_self, pure, Except.pure, Grid.map, Option.map_some, Nat.reduceAdd, if_true]
  · simp only [if_true, Option.some.injEq]
    exact round_example

/-! ### `nc_create_var` -/

/-- C154: `nc_create_var` does not store the data it is given, as documented, if it is an array: one of several values
raises a `ValueError`, and a single zero is passed over.  It stores a list that is not empty, or a single number
other than zero. -/
theorem C154_create_var {K : Type} [Zero K] [DecidableEq K] :
    (∀ l : List (Option K), l ≠ [] → createVarStores (.list l) = .ok (some l)) ∧
    (∀ x : Option K, x ≠ some 0 → createVarStores (.array [x]) = .ok (some [x])) ∧
    createVarStores (K := K) (.array [some 0]) = .ok none ∧ createVarStores (K := K) .none = .ok none ∧
    ∀ l : List (Option K), 2 ≤ l.length → createVarStores (.array l) = .error .valueError := by
  refine ⟨fun l h => by simp [createVarStores, h], fun x h => by simp [createVarStores, h],
    by simp [createVarStores], rfl, fun l h => ?_⟩
  match l, h with
  | _ :: _ :: _, _ => rfl

/-! ### The hypotheses can be met -/

/-- A tile of one row with a gap: the range is that of the numbers. -/
example : (saveTile (K := ℚ) (fun x => ⌊x⌋) "Mz" ⟨1, 3, fun _ j => if j = 1 then none else some (j / 2 + 1)⟩ [-20]
    [140, 141, 142]).map (fun t => (t.range, t.lon.range, t.data.val 0 0, t.data.val 0 1, t.data.val 0 2)) =
    .ok ((some 1, some 2), (140, 142), some 1, none, some 2) := by decide +kernel

/-- No numbers; no rows. -/
example : (saveTile (K := ℚ) id "Mz" ⟨1, 1, fun _ _ => none⟩ [-20] [140]).map (fun t => t.range) = .ok (none, none) ∧
    (saveTile (K := ℚ) id "Mz" ⟨0, 1, fun _ _ => none⟩ [] [140]).map (fun t => t.range) = .error .valueError := by
  decide +kernel

example : Monotone fun x : ℚ => ((⌊x⌋ : ℤ) : ℚ) := fun _ _ h => Int.cast_le.mpr (Int.floor_le_floor h)

/-- An array of two values, and a single zero. -/
example : createVarStores (K := ℚ) (.array [some 1, some 2]) = .error .valueError ∧
    createVarStores (K := ℚ) (.array [some 0]) = .ok none ∧
    createVarStores (K := ℚ) (.list [some 0]) = .ok (some [some 0]) := by decide +kernel

end WindMult
