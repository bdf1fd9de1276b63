import Verif.Proofs.TopoGrid
import Verif.Props.TopoLine
import Mathlib.Topology.Instances.Real.Lemmas
import Mathlib.Topology.Order.OrderClosed
import Mathlib.Tactic.FunProp

/-!
# Properties of the topographic multiplier of a raster (C41, C42, C51–C54)
-/

set_option linter.unusedSectionVars false
set_option autoImplicit false

namespace WindMult
variable {K : Type} [Field K] [LinearOrder K] [IsStrictOrderedRing K] [FloorRing K]

/-! ### C41 -/

/-- **C41** For each direction the paths from the starting positions visit every cell of the raster
exactly once: put one after the other they are a rearrangement of all cell numbers. -/
theorem C41_paths_partition (nr nc : ℕ) (hr : 0 < nr) (hc : 0 < nc) (d : Dir) :
    ((startIdx nr nc d).flatMap fun s => makePath nr nc s d).Perm
      ((List.range (nr * nc)).map fun k : ℕ => (k : ℤ)) := by
  rw [List.perm_ext_iff_of_nodup]
  · intro k
    rw [List.mem_flatMap, List.mem_map]
    constructor
    · rintro ⟨s, hs, hk⟩
      obtain ⟨r, c, n, _, _, _, h3, h4⟩ := startIdx_path nr nc hr hc d s hs
      rw [h4, List.mem_map] at hk
      obtain ⟨t, ht, rfl⟩ := hk
      have := h3.2.1 t (List.mem_range.mp ht)
      simp only [Nat.cast_zero, zero_sub] at this
      have hrg := cellIndex_range nr nc _ _ this
      exact ⟨_, List.mem_range.mpr ((Int.toNat_lt hrg.1).mpr hrg.2), Int.toNat_of_nonneg hrg.1⟩
    · rintro ⟨q, hq, rfl⟩
      rw [List.mem_range] at hq
      have h1 : q % nr < nr := Nat.mod_lt _ hr
      have h2 : q / nr < nc := Nat.div_lt_of_lt_mul hq
      have hin : InRaster nr nc ((q % nr : ℕ) : ℤ) ((q / nr : ℕ) : ℤ) :=
        ⟨Int.natCast_nonneg _, by exact_mod_cast h1, Int.natCast_nonneg _, by exact_mod_cast h2⟩
      obtain ⟨u, n, hT⟩ := transect_exists nr nc d _ _ hin
      obtain ⟨s, hs, hp⟩ := makePath_transect nr nc d _ _ u n hT
      refine ⟨s, hs, ?_⟩
      rw [hp, List.mem_map]
      refine ⟨u, List.mem_range.mpr hT.1, ?_⟩
      rw [sub_self, rowUp_zero, colUp_zero]
      unfold cellIndex
      have := Nat.mod_add_div q nr
      rw [Nat.mul_comm] at this
      exact_mod_cast this
  · rw [List.nodup_flatMap]
    constructor
    · intro s hs
      rw [List.nodup_iff_injective_getElem]
      intro a b hab
      have := (path_cell_unique nr nc hr hc d s s hs hs a b a.2 b.2 hab).2
      exact Fin.ext this
    · have hnd : (startIdx nr nc d).Nodup := List.nodup_dedup _
      refine hnd.imp_of_mem ?_
      intro s s' hs hs' hne
      rw [Function.onFun, List.disjoint_left]
      intro k hk hk'
      obtain ⟨t, ht, rfl⟩ := List.getElem_of_mem hk
      obtain ⟨t', ht', he⟩ := List.getElem_of_mem hk'
      exact hne (path_cell_unique nr nc hr hc d s s' hs hs' t t' ht ht' he.symm).1
  · exact (List.nodup_range).map (fun a b h => by exact_mod_cast h)

/-- Concrete: the five north-east paths of a raster of 2 rows and 4 columns. -/
example : ((startIdx 2 4 .ne).map fun s => makePath 2 4 s .ne) =
    [[0], [2, 1], [4, 3], [6, 5], [7]] := by decide +kernel

/-! ### C42 -/

/-- **C42** Each path is a transect of the raster in the wind direction: it begins at a cell without
upwind neighbour, each step leads to the downwind neighbour, all its cells are in the raster, and it
ends at a cell without downwind neighbour. -/
theorem C42_paths_are_transects (nr nc : ℕ) (hr : 0 < nr) (hc : 0 < nc) (d : Dir) (s : ℕ)
    (hs : s ∈ startIdx nr nc d) :
    ∃ (r c n : ℕ), r < nr ∧ c < nc ∧ (s : ℤ) = cellIndex nr r c ∧ IsTransect nr nc d r c 0 n ∧
      makePath nr nc s d = (List.range n).map fun t : ℕ =>
        cellIndex nr (d.rowUp r (-(t : ℤ))) (d.colUp c (-(t : ℤ))) := by
  obtain ⟨r, c, n, h0, h1, h2, h3, h4⟩ := startIdx_path nr nc hr hc d s hs
  exact ⟨r, c, n, h1, h2, by unfold cellIndex; rw [h0]; push_cast; ring, h3, h4⟩

/-- **C42** The path loop of the code always ends, after at most `nr + nc` steps: more fuel changes
nothing. -/
theorem C42_loop_terminates (nr nc r c : ℕ) (hr : r < nr) (hc : c < nc) (d : Dir) (fuel : ℕ)
    (hf : nr + nc ≤ fuel) :
    pathLoop nr nc (iIncr d) (jIncr d) fuel (r + 1) (c + 1) = makePath nr nc (r + c * nr) d ∧
    (makePath nr nc (r + c * nr) d).length < nr + nc + 1 := by
  have hout : ∀ f : ℕ, nr + nc ≤ f →
      ¬ ((((r : ℤ) + 1) + f * iIncr d ≤ nr ∧ 1 ≤ ((r : ℤ) + 1) + f * iIncr d) ∧
      (((c : ℤ) + 1) + f * jIncr d ≤ nc ∧ 1 ≤ ((c : ℤ) + 1) + f * jIncr d)) := by
    intro f hf
    rw [iIncr_eq, jIncr_eq]
    cases d <;> simp only [Dir.north, Dir.east] <;> omega
  obtain ⟨L, h1, h2, h3⟩ := pathLoop_spec nr nc (iIncr d) (jIncr d) fuel (r + 1) (c + 1)
    (hout fuel hf)
  obtain ⟨L', g1, g2, g3⟩ := pathLoop_spec nr nc (iIncr d) (jIncr d) (nr + nc) (r + 1) (c + 1)
    (hout _ le_rfl)
  have hL : L = L' := by
    rcases lt_trichotomy L L' with h | h | h
    · exact absurd (g2 L h) h3
    · exact h
    · exact absurd (h2 L' h) g3
  have hmk : makePath nr nc (r + c * nr) d =
      pathLoop nr nc (iIncr d) (jIncr d) (nr + nc) (r + 1) (c + 1) := by
    have hi : (((r + c * nr : ℕ) : ℤ) % nr + 1) = r + 1 := by
      rw [← Int.natCast_mod, (cell_div_mod nr r c hr).1]
    have hj : ((((r + c * nr : ℕ) : ℤ) + 1 - (r + 1)) / nr + 1) = c + 1 := by
      have : (((r + c * nr : ℕ) : ℤ) + 1 - (r + 1)) = c * nr := by push_cast; ring
      rw [this, Int.mul_ediv_cancel _ (by omega)]
    unfold makePath
    simp only [hi, hj]
  refine ⟨by rw [hmk, h1, g1, hL], ?_⟩
  rw [hmk, g1, List.length_map, List.length_range]
  by_contra hcon
  exact hout (nr + nc) le_rfl (g2 (nr + nc) (by omega))

example : (3 : ℕ) ∈ startIdx 2 3 .s ∧ makePath 2 3 3 .s = [3, 2] := by decide +kernel

/-! ### C51 -/

/-- **C51** The correction keeps values in `[1, 1.71]` within `[1, 1.539]`, never raises a value above
1, leaves values up to 1 unchanged, and is non-decreasing. -/
theorem C51_conservatism (x y : K) :
    (1 ≤ x → x ≤ 171 / 100 →
      1 ≤ removeConservatism x ∧ removeConservatism x ≤ 1539 / 1000) ∧
    (1 < x → removeConservatism x < x) ∧ (x ≤ 1 → removeConservatism x = x) ∧
    (x ≤ y → removeConservatism x ≤ removeConservatism y) := by
  refine ⟨fun h1 h2 => ?_, fun h => ?_, fun h => ?_, fun h => ?_⟩
  · unfold removeConservatism
    split_ifs with a b
    · constructor
      · nlinarith [mul_nonneg (by linarith [a.1] : 0 ≤ x - 1) (by linarith [a.2] : 0 ≤ 4 - x)]
      · nlinarith [a.1, a.2]
    · constructor <;> linarith
    · constructor <;> linarith
  · unfold removeConservatism
    split_ifs with a b
    · nlinarith [a.1]
    · linarith
    · exact absurd ⟨h, not_le.mp b⟩ a
  · unfold removeConservatism
    rw [if_neg (by rintro ⟨a, _⟩; linarith), if_neg (by linarith)]
  · unfold removeConservatism
    split_ifs with a b c d e f g i
    · nlinarith [a.1, a.2, b.1, b.2]
    · nlinarith [a.1, a.2]
    · exact absurd ⟨by linarith [a.1], not_le.mp c⟩ b
    · linarith [e.2]
    · linarith
    · linarith
    · nlinarith [g.1, g.2, mul_nonneg (by linarith [g.1] : 0 ≤ y - 1) (by linarith [g.2] : 0 ≤ 4 - y),
        not_le.mp d, show x ≤ 1 by by_contra hc; exact a ⟨not_le.mp hc, not_le.mp d⟩]
    · have : x ≤ 1 := by by_contra hc; exact a ⟨not_le.mp hc, not_le.mp d⟩
      linarith
    · exact h

/-- **C51** The correction is continuous; at 1.4, where the formulas change, it gives 1.26. -/
theorem C51_continuous :
    Continuous (removeConservatism : ℝ → ℝ) ∧ removeConservatism (14 / 10 : ℝ) = 126 / 100 := by
  have e : (removeConservatism : ℝ → ℝ) = fun x =>
      if x ≤ 1 then x else if x ≤ 14 / 10 then x * (125 / 100 - 25 / 100 * x) else x * (9 / 10) := by
    funext x
    unfold removeConservatism
    split_ifs with h1 h2 h3 h4 h5 h6 h7 h8 <;> first | rfl | (exfalso; linarith [h1.1]) | skip
    all_goals first | (exfalso; linarith) | skip
    all_goals first | (exfalso; exact absurd ⟨by linarith, by linarith⟩ h1) | skip
    have : x = 14 / 10 := by linarith
    rw [this]; norm_num
  constructor
  · rw [e]
    refine Continuous.if_le continuous_id (Continuous.if_le (by fun_prop) (by fun_prop) continuous_id
      continuous_const ?_) continuous_id continuous_const ?_
    · rintro x rfl; norm_num
    · rintro x rfl; norm_num
  · rw [e]; norm_num

example : removeConservatism (171 / 100 : ℚ) = 1539 / 1000 ∧
    removeConservatism (12 / 10 : ℚ) = 114 / 100 := by
  constructor <;> decide +kernel

/-! ### C52 -/

/-- **C52** The Tasmania factor multiplies exactly the cells above 500 m, by more than 1.075, and
leaves all others unchanged, also those without elevation. -/
theorem C52_tasmania (m : K) :
    tasmaniaCell m none = m ∧
    ∀ z : K, (z ≤ 500 → tasmaniaCell m (some z) = m) ∧
      (500 < z → tasmaniaCell m (some z) = m * (1 + 15 / 100000 * z) ∧
        (0 < m → m * (1075 / 1000) < tasmaniaCell m (some z))) := by
  refine ⟨rfl, fun z => ⟨fun h => ?_, fun h => ?_⟩⟩
  · show (if 500 < z then _ else _) = _
    rw [if_neg (not_lt.mpr h)]
  · have e : tasmaniaCell m (some z) = m * (1 + 15 / 100000 * z) := by
      show (if 500 < z then _ else _) = _
      rw [if_pos h]
    refine ⟨e, fun hm => ?_⟩
    rw [e]
    exact mul_lt_mul_of_pos_left (by linarith) hm

example : tasmaniaCell (1 : ℚ) (some 1000) = 115 / 100 := by decide +kernel

/-! ### C53 -/

/-- Neighbours (and the cell itself) that exist in the raster. -/
def IsNear (g : Grid K) (i j : ℕ) (r c : ℤ) : Prop :=
  InRaster g.rows g.cols r c ∧ |r - i| ≤ 1 ∧ |c - j| ≤ 1

theorem smoothCell_eq (g : Grid K) (i j : ℕ) : smoothCell g i j =
    (g.orZero (i - 1) (j - 1) + g.orZero (i - 1) j + g.orZero (i - 1) (j + 1) +
     g.orZero i (j - 1) + g.orZero i j + g.orZero i (j + 1) +
     g.orZero (i + 1) (j - 1) + g.orZero (i + 1) j + g.orZero (i + 1) (j + 1)) / 9 := by
  unfold smoothCell
  have e3 : List.range 3 = [0, 1, 2] := by decide
  rw [e3]
  simp only [List.map_cons, List.map_nil, List.sum_cons, List.sum_nil, Nat.cast_zero, Nat.cast_one,
    Nat.cast_ofNat, add_zero]
  have a1 : ∀ x : ℤ, x + 1 - 1 = x := by intro x; ring
  have a2 : ∀ x : ℤ, x + 2 - 1 = x + 1 := by intro x; ring
  simp only [a1, a2]
  ring

theorem orZero_of_in (g : Grid K) (r c : ℤ) (h : InRaster g.rows g.cols r c) :
    g.orZero r c = g.val r.toNat c.toNat := by
  unfold Grid.orZero; exact if_pos h

theorem orZero_of_out (g : Grid K) (r c : ℤ) (h : ¬ InRaster g.rows g.cols r c) :
    g.orZero r c = 0 := by
  unfold Grid.orZero; exact if_neg h

/-- **C53** The value: a ninth of the sum over the 3×3 neighbourhood, in which cells outside the raster
count as 0. -/
theorem C53_value (g : Grid K) (i j : ℕ) : smoothCell g i j =
    (∑ r ∈ Finset.Icc ((i : ℤ) - 1) (i + 1), ∑ c ∈ Finset.Icc ((j : ℤ) - 1) (j + 1),
      if InRaster g.rows g.cols r c then g.val r.toNat c.toNat else 0) / 9 := by
  have hI : ∀ k : ℤ, Finset.Icc (k - 1) (k + 1) = {k - 1, k, k + 1} := by
    intro k
    ext x
    simp only [Finset.mem_Icc, Finset.mem_insert, Finset.mem_singleton]
    omega
  have hs : ∀ (k : ℤ) (f : ℤ → K), ∑ x ∈ Finset.Icc (k - 1) (k + 1), f x =
      f (k - 1) + (f k + f (k + 1)) := by
    intro k f
    rw [hI, Finset.sum_insert (by simp; omega), Finset.sum_insert (by simp), Finset.sum_singleton]
  rw [smoothCell_eq]
  simp only [hs]
  congr 1
  have ho : ∀ r c : ℤ, g.orZero r c =
      if InRaster g.rows g.cols r c then g.val r.toNat c.toNat else 0 := fun _ _ => rfl
  simp only [← ho]
  ring

/-- **C53**, partial.  At an interior cell the smoothed value lies between any bounds of the values in
the 3×3 neighbourhood; hence it is at least 1 if they are.  Missing: the edge rows and columns, where
the statement is false (`C53_not_on_edge`). -/
theorem C53_smooth_partial (g : Grid K) (i j : ℕ) (hi0 : 0 < i) (hi : i + 1 < g.rows) (hj0 : 0 < j)
    (hj : j + 1 < g.cols) (a b : K)
    (h : ∀ r c : ℤ, IsNear g i j r c → a ≤ g.val r.toNat c.toNat ∧ g.val r.toNat c.toNat ≤ b) :
    a ≤ smoothCell g i j ∧ smoothCell g i j ≤ b := by
  have key : ∀ x y : ℤ, |x| ≤ 1 → |y| ≤ 1 →
      a ≤ g.orZero (i + x) (j + y) ∧ g.orZero (i + x) (j + y) ≤ b := by
    intro x y hx hy
    have hx' := abs_le.mp hx
    have hy' := abs_le.mp hy
    have hin : InRaster g.rows g.cols ((i : ℤ) + x) ((j : ℤ) + y) := by
      unfold InRaster; omega
    rw [orZero_of_in g _ _ hin]
    exact h _ _ ⟨hin, by simpa using hx, by simpa using hy⟩
  rw [smoothCell_eq]
  have k1 := key (-1) (-1) (by decide) (by decide)
  have k2 := key (-1) 0 (by decide) (by decide)
  have k3 := key (-1) 1 (by decide) (by decide)
  have k4 := key 0 (-1) (by decide) (by decide)
  have k5 := key 0 0 (by decide) (by decide)
  have k6 := key 0 1 (by decide) (by decide)
  have k7 := key 1 (-1) (by decide) (by decide)
  have k8 := key 1 0 (by decide) (by decide)
  have k9 := key 1 1 (by decide) (by decide)
  simp only [← sub_eq_add_neg, add_zero] at k1 k2 k3 k4 k5 k6 k7 k8 k9
  constructor
  · rw [le_div_iff₀ (by norm_num)]; linarith [k1.1, k2.1, k3.1, k4.1, k5.1, k6.1, k7.1, k8.1, k9.1]
  · rw [div_le_iff₀ (by norm_num)]; linarith [k1.2, k2.2, k3.2, k4.2, k5.2, k6.2, k7.2, k8.2, k9.2]

/-- **C53** What remains true everywhere: the smoothed value never exceeds the largest value of the
neighbourhood, and on rasters of at least 2×2 cells it keeps at least 4/9 of the smallest. -/
theorem C53_smooth_everywhere (g : Grid K) (i j : ℕ) (hi : i < g.rows) (hj : j < g.cols)
    (hr : 2 ≤ g.rows) (hc : 2 ≤ g.cols) (a b : K) (ha : 0 ≤ a)
    (h : ∀ r c : ℤ, IsNear g i j r c → a ≤ g.val r.toNat c.toNat ∧ g.val r.toNat c.toNat ≤ b) :
    4 / 9 * a ≤ smoothCell g i j ∧ smoothCell g i j ≤ b := by
  have hb : 0 ≤ b := by
    have := h i j ⟨by unfold InRaster; omega, by simp, by simp⟩
    linarith [this.1, this.2]
  have key : ∀ x y : ℤ, |x| ≤ 1 → |y| ≤ 1 →
      0 ≤ g.orZero (i + x) (j + y) ∧ g.orZero (i + x) (j + y) ≤ b ∧
      (InRaster g.rows g.cols ((i : ℤ) + x) ((j : ℤ) + y) → a ≤ g.orZero (i + x) (j + y)) := by
    intro x y hx hy
    by_cases hin : InRaster g.rows g.cols ((i : ℤ) + x) ((j : ℤ) + y)
    · have := h _ _ ⟨hin, by simpa using hx, by simpa using hy⟩
      rw [orZero_of_in g _ _ hin]
      exact ⟨le_trans ha this.1, this.2, fun _ => this.1⟩
    · rw [orZero_of_out g _ _ hin]
      exact ⟨le_rfl, hb, fun h => absurd h hin⟩
  rw [smoothCell_eq]
  have k1 := key (-1) (-1) (by decide) (by decide)
  have k2 := key (-1) 0 (by decide) (by decide)
  have k3 := key (-1) 1 (by decide) (by decide)
  have k4 := key 0 (-1) (by decide) (by decide)
  have k5 := key 0 0 (by decide) (by decide)
  have k6 := key 0 1 (by decide) (by decide)
  have k7 := key 1 (-1) (by decide) (by decide)
  have k8 := key 1 0 (by decide) (by decide)
  have k9 := key 1 1 (by decide) (by decide)
  unfold InRaster at k1 k2 k3 k4 k5 k6 k7 k8 k9
  simp only [← sub_eq_add_neg, add_zero] at k1 k2 k3 k4 k5 k6 k7 k8 k9
  constructor
  · rw [le_div_iff₀ (by norm_num)]
    have h5 := k5.2.2 (by omega)
    rcases Nat.eq_zero_or_pos i with hi0 | hi0 <;> rcases Nat.eq_zero_or_pos j with hj0 | hj0
    · have h6 := k6.2.2 (by omega)
      have h8 := k8.2.2 (by omega)
      have h9 := k9.2.2 (by omega)
      linarith [k1.1, k2.1, k3.1, k4.1, k7.1]
    · have h4 := k4.2.2 (by omega)
      have h7 := k7.2.2 (by omega)
      have h8 := k8.2.2 (by omega)
      linarith [k1.1, k2.1, k3.1, k6.1, k9.1]
    · have h2 := k2.2.2 (by omega)
      have h3 := k3.2.2 (by omega)
      have h6 := k6.2.2 (by omega)
      linarith [k1.1, k4.1, k7.1, k8.1, k9.1]
    · have h1 := k1.2.2 (by omega)
      have h2 := k2.2.2 (by omega)
      have h4 := k4.2.2 (by omega)
      linarith [k3.1, k6.1, k7.1, k8.1, k9.1]
  · rw [div_le_iff₀ (by norm_num)]
    linarith [k1.2.1, k2.2.1, k3.2.1, k4.2.1, k5.2.1, k6.2.1, k7.2.1, k8.2.1, k9.2.1]

/-- A complete flat DEM of 4×5 cells. -/
def flatDem : Grid (Option ℚ) := ⟨4, 5, fun _ _ => some 7⟩

/-- **C53** is false on the edge: a flat DEM, whose multipliers are all 1 before smoothing, gets 4/9 in
the corner, for every direction. -/
theorem C53_not_on_edge :
    ∃ dem : Grid (Option ℚ), ∀ d : Dir, ∃ g raw,
      topoRaw dem 25 (7 / 5) 100 30 d = .ok raw ∧
      (∀ i < dem.rows, ∀ j < dem.cols, raw.val i j = 1) ∧
      topoDir dem 25 (7 / 5) 100 30 d = .ok g ∧ g.val 0 0 = some (4 / 9) := by
  refine ⟨flatDem, fun d => ?_⟩
  have hw : ∀ d : Dir, (match topoRaw flatDem 25 (7 / 5) 100 30 d with
      | .ok raw => (List.range 4).all fun i => (List.range 5).all fun j => decide (raw.val i j = 1)
      | _ => false) = true ∧
      (match topoDir flatDem 25 (7 / 5) 100 30 d with
      | .ok g => decide (g.val 0 0 = some (4 / 9))
      | _ => false) = true := by
    intro d
    cases d <;> decide +kernel
  obtain ⟨h1, h2⟩ := hw d
  cases hr : topoRaw flatDem 25 (7 / 5) 100 30 d with
  | error e => rw [hr] at h1; exact absurd h1 (by simp)
  | ok raw =>
    cases hg : topoDir flatDem 25 (7 / 5) 100 30 d with
    | error e => rw [hg] at h2; exact absurd h2 (by simp)
    | ok g =>
      rw [hr] at h1
      rw [hg] at h2
      refine ⟨g, raw, rfl, ?_, rfl, by simpa using h2⟩
      intro i hi j hj
      simp only [List.all_eq_true, List.mem_range, decide_eq_true_eq] at h1
      exact h1 i hi j hj

/-! ### C54 -/

/-- Distance between neighbouring points of a line in direction `d`. -/
def lineSpacing (d : Dir) (cellsize root2 : K) : K :=
  match d with
  | .n | .s | .e | .w => cellsize
  | .ne | .nw | .se | .sw => cellsize * root2

/-- The corrections applied to the multiplier `x` of a cell of the given elevation; `tas` – is it a
Tasmanian tile? -/
def topoCorrected (tas : Prop) [Decidable tas] (elev : Option K) (x : K) : K :=
  let y := if x ≤ 1 then x else if x < 1.4 then x * (1.25 - 0.25 * x) else 0.9 * x
  match elev with
  | none => y
  | some z => if tas ∧ 500 < z then y * (1 + 0.00015 * z) else y

theorem removeConservatism_eq (x : K) : removeConservatism x =
    if x ≤ 1 then x else if x < 1.4 then x * (1.25 - 0.25 * x) else 0.9 * x := by
  unfold removeConservatism
  rw [show (1.4 : K) = 14 / 10 by norm_num, show (1.25 : K) = 125 / 100 by norm_num,
    show (0.25 : K) = 25 / 100 by norm_num, show (0.9 : K) = 9 / 10 by norm_num]
  rcases le_or_gt x 1 with h1 | h1
  · rw [if_pos h1, if_neg (fun h => absurd h.1 (not_lt.mpr h1)), if_neg (by norm_num; linarith)]
  · rw [if_neg (not_le.mpr h1)]
    rcases lt_or_ge x (14 / 10) with h2 | h2
    · rw [if_pos ⟨h1, h2⟩, if_pos h2]
    · rw [if_neg (fun h => absurd h.2 (not_lt.mpr h2)), if_pos h2, if_neg (not_lt.mpr h2), mul_comm]

theorem topoCorrected_eq (tas : Prop) [Decidable tas] (elev : Option K) (x : K) :
    topoCorrected tas elev x =
      if tas then tasmaniaCell (removeConservatism x) elev else removeConservatism x := by
  unfold topoCorrected tasmaniaCell
  rw [removeConservatism_eq]
  rw [show (0.00015 : K) = 15 / 100000 by norm_num]
  cases elev with
  | none => simp
  | some z => by_cases h1 : tas <;> by_cases h2 : 500 < z <;> simp [h1, h2]

/-- **C54** For every raster and direction the computation succeeds, and the unsmoothed value of a cell
is that of its point on the transect through it – so it depends on the elevations of that transect
only – after the corrections.  (There is exactly one transect through each cell.) -/
theorem C54_cell_from_transect (dem : Grid (Option K)) (hr : 0 < dem.rows) (hc : 0 < dem.cols)
    (cellsize root2 xLeft yUpper : K) (d : Dir) :
    ∃ raw, topoRaw dem cellsize root2 xLeft yUpper d = .ok raw ∧ raw.rows = dem.rows ∧
      raw.cols = dem.cols ∧
      ∀ i j : ℕ, i < dem.rows → j < dem.cols →
        (∃ u n, IsTransect dem.rows dem.cols d i j u n) ∧
        ∀ u n, IsTransect dem.rows dem.cols d i j u n →
          ∃ m, multiplierCalc (transectLine dem d i j u n) (lineSpacing d cellsize root2) = .ok m ∧
            raw.val i j = topoCorrected (143 < xLeft ∧ 40 < yUpper) (dem.val i j) (m.val u) := by
  obtain ⟨mh, h1, h2⟩ := topoLines_cell dem hr hc d (lineSpacing d cellsize root2)
  have hsp : (if d.letters.length = 2 then cellsize * root2 else cellsize) =
      lineSpacing d cellsize root2 := by cases d <;> rfl
  have hraw : topoRaw dem cellsize root2 xLeft yUpper d =
      .ok ⟨dem.rows, dem.cols, fun i j =>
        topoCorrected (143 < xLeft ∧ 40 < yUpper) (dem.val i j) (mh (j * dem.rows + i))⟩ := by
    unfold topoRaw
    simp only [hsp, h1]
    show (if 143 < xLeft ∧ 40 < yUpper then Except.ok _ else Except.ok _) = _
    simp only [topoCorrected_eq]
    by_cases ht : 143 < xLeft ∧ 40 < yUpper
    · simp only [if_pos ht]
    · simp only [if_neg ht]
  refine ⟨_, hraw, rfl, rfl, fun i j hi hj => ⟨?_, fun u n hT => ?_⟩⟩
  · exact transect_exists _ _ d i j
      ⟨by omega, by exact_mod_cast hi, by omega, by exact_mod_cast hj⟩
  · obtain ⟨m, g1, g2⟩ := h2 i j u n hT
    exact ⟨m, g1, by show topoCorrected _ _ _ = _; rw [g2]⟩

/-- **C52** In the multipliers before smoothing: in tiles whose upper left corner is east of 143° E and
south of 40° S (`yUpper` is the latitude with the sign changed) the cells above 500 m are multiplied by
the factor of their own elevation; all other cells, and all cells of other tiles, are the same as they
would be elsewhere. -/
theorem C52_where (dem : Grid (Option K)) (hr : 0 < dem.rows) (hc : 0 < dem.cols)
    (cellsize root2 xLeft yUpper : K) (d : Dir) :
    ∃ raw elsewhere, topoRaw dem cellsize root2 xLeft yUpper d = .ok raw ∧
      topoRaw dem cellsize root2 0 0 d = .ok elsewhere ∧
      ∀ i j : ℕ, i < dem.rows → j < dem.cols →
        (∀ z, dem.val i j = some z → 500 < z → 143 < xLeft → 40 < yUpper →
          raw.val i j = elsewhere.val i j * (1 + 0.00015 * z)) ∧
        ((¬ (143 < xLeft ∧ 40 < yUpper) ∨ dem.val i j = none ∨ ∃ z ≤ 500, dem.val i j = some z) →
          raw.val i j = elsewhere.val i j) := by
  obtain ⟨raw, h1, -, -, h2⟩ := C54_cell_from_transect dem hr hc cellsize root2 xLeft yUpper d
  obtain ⟨els, k1, -, -, k2⟩ := C54_cell_from_transect dem hr hc cellsize root2 0 0 d
  refine ⟨raw, els, h1, k1, fun i j hi hj => ?_⟩
  obtain ⟨⟨u, n, hT⟩, h3⟩ := h2 i j hi hj
  obtain ⟨m, m1, m2⟩ := h3 u n hT
  obtain ⟨m', m1', m2'⟩ := (k2 i j hi hj).2 u n hT
  rw [m1] at m1'
  cases m1'
  have h0 : ¬ ((143 : K) < 0 ∧ (40 : K) < 0) := by norm_num
  rw [m2, m2']
  unfold topoCorrected
  constructor
  · intro z hz h500 ht1 ht2
    simp only [hz, h0, false_and, if_false, if_pos (show (143 < xLeft ∧ 40 < yUpper) ∧ 500 < z from
      ⟨⟨ht1, ht2⟩, h500⟩)]
  · rintro (h | h | ⟨z, hz, h⟩)
    · cases dem.val i j with
      | none => rfl
      | some z => simp only [h0, h, false_and, if_false]
    · simp only [h]
    · simp only [h, not_lt.mpr hz, and_false, if_false]

/-- A Tasmanian tile with one cell above 500 m. -/
example : (match topoRaw (⟨2, 2, fun i j => if i = 0 ∧ j = 1 then some 600 else some 590⟩ :
    Grid (Option ℚ)) 25 (7 / 5) 145 41 .n, topoRaw (⟨2, 2, fun i j => if i = 0 ∧ j = 1 then some 600
    else some 590⟩ : Grid (Option ℚ)) 25 (7 / 5) 0 0 .n with
    | .ok a, .ok b => decide (a.val 0 1 = 109 / 100 ∧ b.val 0 1 = 1)
    | _, _ => false) = true := by decide +kernel

/-- **C54** Outside Tasmania all unsmoothed values are in `[1, 1.539]`. -/
theorem C54_raw_range (dem : Grid (Option K)) (hr : 0 < dem.rows) (hc : 0 < dem.cols)
    (cellsize root2 xLeft yUpper : K) (hcs : 0 < cellsize) (hr2 : 0 < root2)
    (hnt : ¬ (143 < xLeft ∧ 40 < yUpper)) (d : Dir) :
    ∃ raw, topoRaw dem cellsize root2 xLeft yUpper d = .ok raw ∧ raw.rows = dem.rows ∧
      raw.cols = dem.cols ∧
      ∀ i j : ℕ, i < dem.rows → j < dem.cols → 1 ≤ raw.val i j ∧ raw.val i j ≤ 1539 / 1000 := by
  obtain ⟨raw, h1, h2, h3, h4⟩ := C54_cell_from_transect dem hr hc cellsize root2 xLeft yUpper d
  refine ⟨raw, h1, h2, h3, fun i j hi hj => ?_⟩
  obtain ⟨⟨u, n, hT⟩, h5⟩ := h4 i j hi hj
  obtain ⟨m, hm, hv⟩ := h5 u n hT
  have hsp : 0 < lineSpacing d cellsize root2 := by
    cases d <;> simp only [lineSpacing] <;> first | exact hcs | exact mul_pos hcs hr2
  obtain ⟨m', hm', _, hrange⟩ := C46_range (transectLine dem d i j u n) _ hsp
  rw [hm] at hm'
  cases hm'
  have hb := hrange u hT.1
  rw [hv, topoCorrected_eq, if_neg hnt]
  exact (C51_conservatism (m.val u) (m.val u)).1 hb.1 hb.2

/-- **C54** Outside Tasmania the saved grid has a value exactly where the DEM has one; it is in
`[1, 1.539]` at interior cells, and in `[4/9, 1.539]` everywhere. -/
theorem C54_result_range (dem : Grid (Option K)) (hr : 2 ≤ dem.rows) (hc : 2 ≤ dem.cols)
    (cellsize root2 xLeft yUpper : K) (hcs : 0 < cellsize) (hr2 : 0 < root2)
    (hnt : ¬ (143 < xLeft ∧ 40 < yUpper)) (d : Dir) :
    ∃ g, topoDir dem cellsize root2 xLeft yUpper d = .ok g ∧ g.rows = dem.rows ∧
      g.cols = dem.cols ∧
      ∀ i j : ℕ, i < dem.rows → j < dem.cols →
        (dem.val i j = none → g.val i j = none) ∧
        (dem.val i j ≠ none → ∃ x, g.val i j = some x ∧ 4 / 9 ≤ x ∧ x ≤ 1539 / 1000 ∧
          (0 < i → i + 1 < dem.rows → 0 < j → j + 1 < dem.cols → 1 ≤ x)) := by
  obtain ⟨raw, h1, h2, h3, h4⟩ := C54_raw_range dem (by omega) (by omega) cellsize root2 xLeft yUpper
    hcs hr2 hnt d
  refine ⟨⟨raw.rows, raw.cols, fun i j =>
    match dem.val i j with
    | none => none
    | some _ => some (smoothCell raw i j)⟩, ?_, h2, h3, ?_⟩
  · unfold topoDir
    rw [h1]
    rfl
  · intro i j hi hj
    have hnear : ∀ r c : ℤ, IsNear raw i j r c →
        1 ≤ raw.val r.toNat c.toNat ∧ raw.val r.toNat c.toNat ≤ 1539 / 1000 := by
      intro r c hn
      obtain ⟨⟨a1, a2, a3, a4⟩, _, _⟩ := hn
      exact h4 _ _ (by omega) (by omega)
    constructor
    · intro hnone
      simp only [hnone]
    · intro hsome
      obtain ⟨z, hz⟩ := Option.ne_none_iff_exists'.mp hsome
      refine ⟨smoothCell raw i j, by simp only [hz], ?_⟩
      have hev := C53_smooth_everywhere raw i j (by omega) (by omega) (by omega) (by omega) 1
        (1539 / 1000) zero_le_one hnear
      refine ⟨by linarith [hev.1], hev.2, ?_⟩
      intro b1 b2 b3 b4
      exact (C53_smooth_partial raw i j b1 (by omega) b3 (by omega) 1 (1539 / 1000) hnear).1

/-- **C54** All eight directions of a tile are computed and saved, whatever the elevations. -/
theorem C54_eight_outputs (dem : Grid (Option K)) (hr : 0 < dem.rows) (hc : 0 < dem.cols)
    (cellsize root2 xLeft yUpper : K) (clip : Grid (Option K) → Grid (Option K)) :
    ∃ saved, topomult dem cellsize root2 xLeft yUpper clip Dir.topoOrder [] = (saved, .ok ()) ∧
      saved.map Prod.fst = Dir.topoOrder ∧ (∀ d : Dir, d ∈ Dir.topoOrder) ∧
      ∀ d g, (d, g) ∈ saved → ∃ g', topoDir dem cellsize root2 xLeft yUpper d = .ok g' ∧
        g = clip g' := by
  have hdir : ∀ d, ∃ g, topoDir dem cellsize root2 xLeft yUpper d = .ok g := by
    intro d
    obtain ⟨raw, h1, _⟩ := C54_cell_from_transect dem hr hc cellsize root2 xLeft yUpper d
    unfold topoDir
    rw [h1]
    exact ⟨_, rfl⟩
  have hloop : ∀ (ds : List Dir) (acc : List (Dir × Grid (Option K))),
      ∃ saved, topomult dem cellsize root2 xLeft yUpper clip ds acc = (saved, .ok ()) ∧
        saved.map Prod.fst = acc.map Prod.fst ++ ds ∧
        ∀ d g, (d, g) ∈ saved → (d, g) ∈ acc ∨
          ∃ g', topoDir dem cellsize root2 xLeft yUpper d = .ok g' ∧ g = clip g' := by
    intro ds
    induction ds with
    | nil => intro acc; exact ⟨acc, rfl, by simp, fun d g h => Or.inl h⟩
    | cons d ds ih =>
      intro acc
      obtain ⟨g, hg⟩ := hdir d
      obtain ⟨saved, a1, a2, a3⟩ := ih (acc ++ [(d, clip g)])
      refine ⟨saved, ?_, by rw [a2]; simp, ?_⟩
      · unfold topomult
        simp only [hg]
        exact a1
      · intro d' g' h
        rcases a3 d' g' h with h' | h'
        · rcases List.mem_append.mp h' with h'' | h''
          · exact Or.inl h''
          · simp only [List.mem_singleton, Prod.mk.injEq] at h''
            obtain ⟨rfl, rfl⟩ := h''
            exact Or.inr ⟨g, hg, rfl⟩
        · exact Or.inr h'
  obtain ⟨saved, a1, a2, a3⟩ := hloop Dir.topoOrder []
  refine ⟨saved, a1, by simpa using a2, fun d => by cases d <;> decide, ?_⟩
  intro d g h
  rcases a3 d g h with h' | h'
  · simp at h'
  · exact h'

/-- A DEM with a 60 m ridge across a 3×7 raster, and a missing cell: the hypotheses are met, and the
wind from the west is accelerated at the crest. -/
def ridgeDem : Grid (Option ℚ) :=
  ⟨3, 7, fun i j => if i = 0 ∧ j = 6 then none else (lineOf [0, 30, 60, 0, 0, 0, 0]).val j |> some⟩

example : 2 ≤ ridgeDem.rows ∧ 2 ≤ ridgeDem.cols ∧
    (match topoDir ridgeDem 25 (7 / 5) 130 20 .w with
      | .ok g => decide (g.val 0 6 = none) && decide (12 / 10 < (g.val 1 2).getD 0)
      | _ => false) = true := by decide +kernel

end WindMult
