import Verif.Proofs.Pipeline
import Mathlib.Tactic.Linarith

/-!
# Topographic multipliers of a line and of a part of it
-/

set_option linter.unusedSectionVars false
set_option autoImplicit false

namespace WindMult

/-- The part of a line from point `a` to the one before point `b`. -/
def Line.part (y : Line ℝ) (a b : ℕ) : Line ℝ := ⟨b - a, fun i => y.val (a + i)⟩

theorem escarpment_range (y : Line ℝ) (v r : ℕ) : 1 / 2 ≤ y.escarpment v r ∧ y.escarpment v r ≤ 3 := by
  unfold Line.escarpment
  simp only
  split_ifs
  · norm_num
  · exact ⟨le_max_left _ _, max_le (by norm_num) (min_le_left _ _)⟩

/-- A hill of height at most `H` that counts acts at most 43.2 `H` behind and 14.4 `H` in front of its
crest, and its foot is at most 20 `H` away. -/
theorem hill_reach (y : Line ℝ) (ds H : ℝ) (hds : 0 < ds) (v r : ℕ) (p : ℤ) (hvr : v < r)
    (hH : y.val r - y.val v ≤ H) (hc : hillCounts (y.val r - y.val v) (halfWidth v r ds) ds)
    (hne : y.hillValue v r ds p ≠ 1) :
    ((p : ℝ) - r) * ds < 43.2 * H ∧ ((r : ℝ) - p) * ds < 14.4 * H ∧ ((r : ℝ) - v) * ds ≤ 20 * H := by
  obtain ⟨c1, c2, c3⟩ := hc
  have hcast : ((r - v : ℕ) : ℝ) = (r : ℝ) - v := by rw [Nat.cast_sub hvr.le]
  have hlu : 0 < halfWidth v r ds := lt_of_lt_of_le hds c3
  have hL : halfWidth v r ds ≤ 10 * (y.val r - y.val v) := by
    rw [le_div_iff₀ (by linarith)] at c1
    linarith
  have hfoot : ((r : ℝ) - v) * ds = 2 * halfWidth v r ds := by
    unfold halfWidth; rw [hcast]; ring
  obtain ⟨k1, k2⟩ := escarpment_range y v r
  unfold Line.hillValue hillMultiplier at hne
  simp only at hne
  generalize y.escarpment v r = k at *
  generalize halfWidth v r ds = Lu at *
  generalize y.val r - y.val v = h at *
  have hL1 : max (36 / 100 * Lu) (4 / 10 * h) ≤ 3.6 * H := max_le (by linarith) (by linarith)
  have hL1' : 0 < max (36 / 100 * Lu) (4 / 10 * h) := lt_of_lt_of_le (by linarith) (le_max_left _ _)
  generalize max (36 / 100 * Lu) (4 / 10 * h) = L1 at *
  have hpos : 0 < H := by linarith
  have key : |((r : ℝ) - p) * ds| < if 0 ≤ ((r : ℝ) - p) * ds then 4 * L1 else k * (4 * L1) := by
    by_contra hcon
    rw [if_neg hcon] at hne
    exact hne rfl
  have hk : k * (4 * L1) ≤ 43.2 * H := by nlinarith
  split_ifs at key with h1
  · rw [abs_lt] at key
    exact ⟨by linarith, by linarith, by linarith⟩
  · rw [abs_lt] at key
    exact ⟨by linarith, by linarith, by linarith⟩

theorem part_isHill (y : Line ℝ) (a b v r : ℕ) (hbn : b ≤ y.size) (hav : a = 0 ∨ 0 < v)
    (hb : b = y.size ∨ a + r + 1 < b) (hr : a + r < b) :
    (y.part a b).IsHill v r ↔ y.IsHill (a + v) (a + r) := by
  unfold Line.IsHill Line.IsValley Line.IsRidge Line.RisesBetween Line.part
  simp only
  constructor
  · rintro ⟨⟨v1, v2, v3⟩, ⟨r1, r2, r3⟩, s1, s2, s3⟩
    refine ⟨⟨by omega, ?_, ?_⟩, ⟨by omega, ?_, ?_⟩, by omega, by omega, ?_⟩
    · intro h
      have := v2 (by omega)
      rwa [show a + (v - 1) = a + v - 1 by omega] at this
    · rw [if_neg (by omega)] at v3 ⊢
      exact v3
    · intro h
      exact r2 (by omega)
    · rw [if_neg (by omega)] at r3 ⊢
      rwa [show a + (r - 1) = a + r - 1 by omega] at r3
    · intro i h1 h2
      have := s3 (i - a) (by omega) (by omega)
      rwa [show a + (i - a) = i by omega, show a + (i - a + 1) = i + 1 by omega] at this
  · rintro ⟨⟨v1, v2, v3⟩, ⟨r1, r2, r3⟩, s1, s2, s3⟩
    refine ⟨⟨by omega, ?_, ?_⟩, ⟨by omega, ?_, ?_⟩, by omega, by omega, ?_⟩
    · intro h
      rw [show a + (v - 1) = a + v - 1 by omega]
      exact v2 (by omega)
    · rw [if_neg (by omega)] at v3 ⊢
      exact v3
    · intro h
      exact r2 (by omega)
    · rw [if_neg (by omega)] at r3 ⊢
      rwa [show a + (r - 1) = a + r - 1 by omega]
    · intro i h1 h2
      exact s3 (a + i) (by omega) (by omega)

theorem part_hillValue (y : Line ℝ) (a b v r p : ℕ) (ds : ℝ) (hvr : v < r) (hbn : b ≤ y.size)
    (hb : b = y.size ∨ a + (2 * r - v) < b) (hr : a + r < b) :
    (y.part a b).hillValue v r ds p = y.hillValue (a + v) (a + r) ds ((a + p : ℕ) : ℤ) := by
  have he : (y.part a b).escarpment v r = y.escarpment (a + v) (a + r) := by
    unfold Line.escarpment Line.part
    simp only
    have e0 : 2 * (a + r) - (a + v) = a + (2 * r - v) := by omega
    rw [e0]
    have e1 : a + min (b - a - 1) (2 * r - v) = min (y.size - 1) (a + (2 * r - v)) := by omega
    rw [e1, show a + r - (a + v) = r - v by omega,
      show min (b - a - 1) (2 * r - v) - r = min (y.size - 1) (a + (2 * r - v)) - (a + r) by omega]
    have e2 : (min (b - a - 1) (2 * r - v) ≤ r) = (min (y.size - 1) (a + (2 * r - v)) ≤ a + r) := by
      rw [eq_iff_iff]; omega
    simp only [e2]
  have hw : halfWidth v r ds = halfWidth (a + v) (a + r) ds := by
    unfold halfWidth
    rw [show a + r - (a + v) = r - v by omega]
  unfold Line.hillValue
  rw [he, ← hw]
  show hillMultiplier (y.val (a + r) - y.val (a + v)) _ _ _ = _
  congr 1
  push_cast
  ring

/-- A point far enough from the ends of a part of a line, compared with the relief of the line, has the
same multiplier in the part and in the whole line. -/
theorem lineMultiplier_part (y : Line ℝ) (ds H : ℝ) (hds : 0 < ds)
    (hH : ∀ i < y.size, ∀ j < y.size, y.val i - y.val j ≤ H) (a b p : ℕ) (hp : a + p + 1 < b)
    (hbn : b ≤ y.size) (hup : a = 0 ∨ 63.2 * H ≤ p * ds)
    (hdown : b = y.size ∨ 34.4 * H ≤ ((b : ℝ) - 1 - (a + p)) * ds) (x : ℝ) :
    IsLineMultiplier (y.part a b) ds p x ↔ IsLineMultiplier y ds (a + p) x := by
  unfold IsLineMultiplier
  have hset : ∀ A B : Set ℝ, (∀ t ∈ A, t = 1 ∨ t ∈ B) → (∀ t ∈ B, t = 1 ∨ t ∈ A) →
      insert 1 A = insert 1 B := by
    intro A B h1 h2
    ext t
    constructor
    · rintro (h | h)
      · exact Or.inl h
      · rcases h1 t h with h | h
        · exact Or.inl h
        · exact Or.inr h
    · rintro (h | h)
      · exact Or.inl h
      · rcases h2 t h with h | h
        · exact Or.inl h
        · exact Or.inr h
  -- the bounds that a hill in reach of the point satisfies
  have bounds : ∀ v r : ℝ, ((a + p : ℝ) - r) * ds < 43.2 * H → (r - (a + p)) * ds < 14.4 * H →
      (r - v) * ds ≤ 20 * H → (a = 0 ∨ (a : ℝ) < v) ∧ (b = y.size ∨ 2 * r - v < b - 1) := by
    intro v r h1 h2 h3
    constructor
    · rcases hup with h | h
      · exact Or.inl h
      · right
        have : ((a + p : ℝ) - v) * ds < p * ds := by nlinarith
        have := lt_of_mul_lt_mul_right this hds.le
        linarith
    · rcases hdown with h | h
      · exact Or.inl h
      · right
        have : (2 * r - v - (a + p)) * ds < ((b : ℝ) - 1 - (a + p)) * ds := by nlinarith
        have := lt_of_mul_lt_mul_right this hds.le
        linarith
  rw [hset]
  · -- hills of the part
    rintro t ⟨v, r, hh, hc, ht⟩
    have hsz : (y.part a b).size = b - a := rfl
    have hvr : v < r := hh.2.2.1
    have hrb : r < b - a := hh.2.2.2.1
    rw [if_neg (fun h => by have := h.1; omega)] at ht
    by_cases h1 : t = 1
    · exact Or.inl h1
    right
    have hHz : (y.part a b).val r - (y.part a b).val v ≤ H := hH _ (by omega) _ (by omega)
    obtain ⟨q1, q2, q3⟩ := hill_reach (y.part a b) ds H hds v r p hvr hHz hc (by rw [← ht]; exact h1)
    obtain ⟨m1, m2⟩ := bounds (a + v) (a + r) (by push_cast at q1 ⊢; linarith)
      (by push_cast at q2 ⊢; linarith) (by linarith)
    have m1' : a = 0 ∨ 0 < v := by
      rcases m1 with h | h
      · exact Or.inl h
      · right
        have : (0 : ℝ) < v := by linarith
        exact_mod_cast this
    have m2' : b = y.size ∨ a + (2 * r - v) + 1 < b := by
      rcases m2 with h | h
      · exact Or.inl h
      · right
        have hc : ((2 * r - v : ℕ) : ℝ) = 2 * (r : ℝ) - v := by
          rw [Nat.cast_sub (by omega)]; push_cast; ring
        have : ((a + (2 * r - v) + 1 : ℕ) : ℝ) < b := by push_cast; rw [hc]; linarith
        exact_mod_cast this
    refine ⟨a + v, a + r, (part_isHill y a b v r hbn m1' (by omega) (by omega)).mp hh, ?_, ?_⟩
    · unfold halfWidth at hc ⊢
      rw [show a + r - (a + v) = r - v by omega]
      exact hc
    · rw [if_neg (by omega), ht]
      exact part_hillValue y a b v r p ds hvr hbn (by omega) (by omega)
  · -- hills of the whole line
    rintro t ⟨v, r, hh, hc, ht⟩
    have hvr : v < r := hh.2.2.1
    have hrb : r < y.size := hh.2.2.2.1
    rw [if_neg (by omega)] at ht
    by_cases h1 : t = 1
    · exact Or.inl h1
    right
    obtain ⟨q1, q2, q3⟩ := hill_reach y ds H hds v r ((a + p : ℕ) : ℤ) hvr (hH _ hrb _ (by omega)) hc
      (by rw [← ht]; exact h1)
    obtain ⟨m1, m2⟩ := bounds v r (by push_cast at q1 ⊢; linarith)
      (by push_cast at q2 ⊢; linarith) (by linarith)
    have m1' : a = 0 ∨ a < v := by
      rcases m1 with h | h
      · exact Or.inl h
      · right; exact_mod_cast h
    have m2' : b = y.size ∨ 2 * r - v + 1 < b := by
      rcases m2 with h | h
      · exact Or.inl h
      · right
        have hc : ((2 * r - v : ℕ) : ℝ) = 2 * (r : ℝ) - v := by
          rw [Nat.cast_sub (by omega)]; push_cast; ring
        have : ((2 * r - v + 1 : ℕ) : ℝ) < b := by push_cast; rw [hc]; linarith
        exact_mod_cast this
    obtain ⟨v', rfl⟩ : ∃ v', v = a + v' := ⟨v - a, by omega⟩
    obtain ⟨r', rfl⟩ : ∃ r', r = a + r' := ⟨r - a, by omega⟩
    refine ⟨v', r', (part_isHill y a b v' r' hbn (by omega) (by omega) (by omega)).mpr hh, ?_, ?_⟩
    · unfold halfWidth at hc ⊢
      rw [show a + r' - (a + v') = r' - v' by omega] at hc
      exact hc
    · rw [if_neg (fun h => by have := h.1; have : (y.part a b).size = b - a := rfl; omega), ht]
      exact (part_hillValue y a b v' r' p ds (by omega) hbn (by omega) (by omega)).symm

theorem isHill_congr {y z : Line ℝ} (hs : y.size = z.size) (hv : ∀ i < y.size, y.val i = z.val i)
    (v r : ℕ) (h : y.IsHill v r) : z.IsHill v r := by
  obtain ⟨⟨v1, v2, v3⟩, ⟨r1, r2, r3⟩, s1, s2, s3⟩ := h
  rw [if_neg (by omega)] at v3 r3
  refine ⟨⟨by omega, ?_, ?_⟩, ⟨by omega, ?_, ?_⟩, s1, by omega, ?_⟩
  · intro h0
    rw [← hv _ v1, ← hv _ (by omega)]
    exact v2 h0
  · rw [if_neg (by omega), ← hv _ v1, ← hv _ (by omega)]
    exact v3
  · intro h0
    rw [← hv _ r1, ← hv _ (by omega)]
    exact r2 (by omega)
  · rw [if_neg (by omega), ← hv _ r1, ← hv _ (by omega)]
    exact r3
  · intro i h1 h2
    rw [← hv _ (by omega), ← hv _ (by omega)]
    exact s3 i h1 h2

/-- Only the entries of a line matter. -/
theorem lineMultiplier_congr {y z : Line ℝ} (hs : y.size = z.size)
    (hv : ∀ i < y.size, y.val i = z.val i) (ds : ℝ) (p : ℕ) (x : ℝ)
    (h : IsLineMultiplier y ds p x) : IsLineMultiplier z ds p x := by
  unfold IsLineMultiplier at *
  have hesc : ∀ v r, y.IsHill v r → y.escarpment v r = z.escarpment v r := by
    intro v r hh
    obtain ⟨⟨v1, -⟩, ⟨r1, -⟩, -⟩ := hh
    unfold Line.escarpment
    simp only [← hs, hv v v1, hv r r1, hv (min (y.size - 1) (2 * r - v)) (by omega)]
  convert h using 2
  ext t
  constructor
  · rintro ⟨v, r, hh, hc, ht⟩
    have hy := isHill_congr hs.symm (fun i hi => (hv i (by omega)).symm) v r hh
    have e := hesc v r hy
    refine ⟨v, r, hy, ?_, ?_⟩
    · rw [hv v hy.1.1, hv r hy.2.1.1]; exact hc
    · unfold Line.hillValue at *
      rw [e, hv v hy.1.1, hv r hy.2.1.1, hs]; exact ht
  · rintro ⟨v, r, hh, hc, ht⟩
    have hz := isHill_congr hs hv v r hh
    have e := hesc v r hh
    refine ⟨v, r, hz, ?_, ?_⟩
    · rw [← hv v hh.1.1, ← hv r hh.2.1.1]; exact hc
    · unfold Line.hillValue at *
      rw [← e, ← hv v hh.1.1, ← hv r hh.2.1.1, ← hs]; exact ht

/-- The limits are a block of a raster. -/
def Limits.InGrid (B : Limits) (rows cols : ℕ) : Prop :=
  0 ≤ B.y1 ∧ B.y1 < B.y2 ∧ B.y2 ≤ rows ∧ 0 ≤ B.x1 ∧ B.x1 < B.x2 ∧ B.x2 ≤ cols

/-- The cell is at least `M` cells away from every side of the block that is not a side of the
raster. -/
def Limits.Margin (B : Limits) (rows cols : ℕ) (r c M : ℤ) : Prop :=
  (B.y1 = 0 ∨ M ≤ r - B.y1) ∧ (B.y2 = rows ∨ M ≤ B.y2 - 1 - r) ∧
  (B.x1 = 0 ∨ M ≤ c - B.x1) ∧ (B.x2 = cols ∨ M ≤ B.x2 - 1 - c)

theorem inRaster_window (g : Grid ℝ) (B : Limits) (hB : B.InGrid g.rows g.cols) (d : Dir) (r c t : ℤ) :
    InRaster (g.window B).rows (g.window B).cols (d.rowUp (r - B.y1) t) (d.colUp (c - B.x1) t) ↔
      B.y1 ≤ d.rowUp r t ∧ d.rowUp r t < B.y2 ∧ B.x1 ≤ d.colUp c t ∧ d.colUp c t < B.x2 := by
  obtain ⟨h1, h2, h3, h4, h5, h6⟩ := hB
  unfold InRaster Grid.window Dir.rowUp Dir.colUp
  simp only
  omega

/-- The transect of a block is a part of the transect of the raster, and its ends are ends of the
latter or far from the cell. -/
theorem transect_window (g : Grid ℝ) (B : Limits) (hB : B.InGrid g.rows g.cols) (d : Dir) (r c M : ℤ)
    (hM : B.Margin g.rows g.cols r c M) (u n U N : ℕ)
    (hT : IsTransect (g.window B).rows (g.window B).cols d (r - B.y1) (c - B.x1) u n)
    (hT' : IsTransect g.rows g.cols d r c U N) :
    u ≤ U ∧ U - u + n ≤ N ∧ (U = u ∨ M ≤ u) ∧ (U - u + n = N ∨ M ≤ (n : ℤ) - 1 - u) := by
  obtain ⟨t1, t2, t3, t4⟩ := hT
  obtain ⟨w1, w2, w3, w4⟩ := hT'
  simp only [inRaster_window g B hB] at t2 t3 t4
  have hB' := hB
  obtain ⟨b1, b2, b3, b4, b5, b6⟩ := hB'
  have hin : ∀ t : ℤ, B.y1 ≤ d.rowUp r t ∧ d.rowUp r t < B.y2 ∧ B.x1 ≤ d.colUp c t ∧
      d.colUp c t < B.x2 → InRaster g.rows g.cols (d.rowUp r t) (d.colUp c t) := by
    rintro t ⟨a1, a2, a3, a4⟩
    exact ⟨by omega, by omega, by omega, by omega⟩
  have h0 := t2 u t1
  rw [sub_self] at h0
  have hr0 : d.rowUp r 0 = r ∧ d.colUp c 0 = c := by unfold Dir.rowUp Dir.colUp; omega
  rw [hr0.1, hr0.2] at h0
  have huU : u ≤ U := by
    by_contra hcon
    apply w3
    have := hin _ (t2 (u - (U + 1)) (by omega))
    rwa [show (u : ℤ) - ((u - (U + 1) : ℕ) : ℤ) = U + 1 by omega] at this
  have hdn : (n : ℤ) - u ≤ N - U := by
    by_contra hcon
    apply w4
    have := hin _ (t2 (u + (N - U)) (by omega))
    rwa [show (u : ℤ) - ((u + (N - U) : ℕ) : ℤ) = U - N by omega] at this
  refine ⟨huU, by omega, ?_, ?_⟩
  · by_cases h : U = u
    · exact Or.inl h
    · right
      have hw := w2 (U - u - 1) (by omega)
      rw [show (U : ℤ) - ((U - u - 1 : ℕ) : ℤ) = u + 1 by omega] at hw
      obtain ⟨m1, m2, m3, m4⟩ := hM
      obtain ⟨q1, q2, q3, q4⟩ := hw
      unfold Dir.rowUp Dir.colUp at *
      cases d <;> simp only [Dir.north, Dir.east] at * <;> omega
  · by_cases h : U - u + n = N
    · exact Or.inl h
    · right
      have hw := w2 (U + n - u) (by omega)
      rw [show (U : ℤ) - ((U + n - u : ℕ) : ℤ) = u - n by omega] at hw
      obtain ⟨m1, m2, m3, m4⟩ := hM
      obtain ⟨q1, q2, q3, q4⟩ := hw
      unfold Dir.rowUp Dir.colUp at *
      cases d <;> simp only [Dir.north, Dir.east] at * <;> omega

theorem exists_transect (g : Grid ℝ) (d : Dir) (r c : ℤ) (h : InRaster g.rows g.cols r c) :
    ∃ u n, IsTransect g.rows g.cols d r c u n := by
  obtain ⟨h1, h2, h3, h4⟩ := h
  obtain ⟨raw, -, -, -, q⟩ := C54_cell_from_transect (g.map some) (show 0 < g.rows by omega)
    (show 0 < g.cols by omega) 1 1 0 0 d
  obtain ⟨⟨u, n, hT⟩, -⟩ := q r.toNat c.toNat (show _ < g.rows by omega) (show _ < g.cols by omega)
  rw [Int.toNat_of_nonneg h1, Int.toNat_of_nonneg h3] at hT
  exact ⟨u, n, hT⟩

/-- The multiplier before smoothing is that of the whole raster if the margin is wide enough for the
relief of the raster, except on the downwind edge. -/
theorem rawMt_window (g : Grid ℝ) (B : Limits) (hB : B.InGrid g.rows g.cols) (d : Dir) (ds H : ℝ)
    (hds : 0 < ds) (hH : ∀ i < g.rows, ∀ j < g.cols, ∀ i' < g.rows, ∀ j' < g.cols,
      ((⌊g.val i j⌋ : ℝ) - ⌊g.val i' j'⌋) ≤ H)
    (tas : Prop) [Decidable tas] (r c M : ℤ) (hM : B.Margin g.rows g.cols r c M)
    (hwide : 63.2 * H ≤ M * ds)
    (hin : B.y1 ≤ r ∧ r < B.y2 ∧ B.x1 ≤ c ∧ c < B.x2)
    (hnext : B.y1 ≤ d.rowUp r (-1) ∧ d.rowUp r (-1) < B.y2 ∧ B.x1 ≤ d.colUp c (-1) ∧
      d.colUp c (-1) < B.x2) (x : ℝ)
    (h : IsRawMt (g.window B) d ds tas (r - B.y1) (c - B.x1) x) : IsRawMt g d ds tas r c x := by
  have hB' := hB
  obtain ⟨b1, b2, b3, b4, b5, b6⟩ := hB'
  obtain ⟨i1, i2, i3, i4⟩ := hin
  have hinG : InRaster g.rows g.cols r c := ⟨by omega, by omega, by omega, by omega⟩
  refine ⟨fun _ => ?_, fun hn => absurd hinG hn⟩
  obtain ⟨u, n, y, e1, e2, e3⟩ := h.1 ⟨by omega, by simp only [Grid.window]; omega, by omega,
    by simp only [Grid.window]; omega⟩
  obtain ⟨U, N, hT⟩ := exists_transect g d r c hinG
  obtain ⟨k1, k2, k3, k4⟩ := transect_window g B hB d r c M hM u n U N e1 hT
  have hH0 : 0 ≤ H := by
    have := hH r.toNat (by omega) c.toNat (by omega) r.toNat (by omega) c.toNat (by omega)
    rwa [sub_self] at this
  -- the point is not the last one of the part
  have hlast : u + 1 < n := by
    obtain ⟨t1, t2, t3, t4⟩ := e1
    by_contra hcon
    apply t4
    rw [show (u : ℤ) - n = -1 by omega, inRaster_window g B hB]
    exact hnext
  have hval : ∀ t : ℕ, t < N → InRaster g.rows g.cols (d.rowUp r ((U : ℤ) - t)) (d.colUp c ((U : ℤ) - t)) :=
    hT.2.1
  have hrelief : ∀ i < N, ∀ j < N,
      (transectLine (g.map some) d r c U N).wholeMetres.val i -
        (transectLine (g.map some) d r c U N).wholeMetres.val j ≤ H := by
    intro i hi j hj
    obtain ⟨p1, p2, p3, p4⟩ := hval i hi
    obtain ⟨q1, q2, q3, q4⟩ := hval j hj
    show (⌊if i < N then ((g.map some).val _ _).getD 0 else 0⌋ : ℝ) -
      (⌊if j < N then ((g.map some).val _ _).getD 0 else 0⌋ : ℝ) ≤ H
    rw [if_pos hi, if_pos hj]
    exact hH _ (by omega) _ (by omega) _ (by omega) _ (by omega)
  have hpart : IsLineMultiplier ((transectLine (g.map some) d r c U N).wholeMetres.part (U - u) (U - u + n))
      ds u y := by
    refine lineMultiplier_congr ?_ ?_ ds u y e2
    · show n = U - u + n - (U - u)
      omega
    · intro i hi
      have hi : i < n := hi
      have hcell := (inRaster_window g B hB d r c ((u : ℤ) - i)).mp (e1.2.1 i hi)
      show (⌊if i < n then (((g.window B).map some).val _ _).getD 0 else 0⌋ : ℝ) =
        (⌊if U - u + i < N then ((g.map some).val _ _).getD 0 else 0⌋ : ℝ)
      rw [if_pos hi, if_pos (by omega)]
      have ec : (U : ℤ) - ((U - u + i : ℕ) : ℤ) = u - i := by omega
      rw [ec]
      show (⌊g.val (B.y1.toNat + _) (B.x1.toNat + _)⌋ : ℝ) = (⌊g.val _ _⌋ : ℝ)
      have er : B.y1.toNat + (d.rowUp (r - B.y1) ((u : ℤ) - i)).toNat =
          (d.rowUp r ((u : ℤ) - i)).toNat := by
        unfold Dir.rowUp at *; omega
      have ecol : B.x1.toNat + (d.colUp (c - B.x1) ((u : ℤ) - i)).toNat =
          (d.colUp c ((u : ℤ) - i)).toNat := by
        unfold Dir.colUp at *; omega
      rw [er, ecol]
  have hfull := (lineMultiplier_part _ ds H hds hrelief (U - u) (U - u + n) u (by omega) k2
    (by
      rcases k3 with h | h
      · left; omega
      · right
        have h' : (M : ℝ) ≤ u := by exact_mod_cast h
        nlinarith)
    (by
      rcases k4 with h | h
      · left; exact h
      · right
        have h' : (M : ℝ) ≤ (n : ℝ) - 1 - u := by exact_mod_cast h
        push_cast
        rw [Nat.cast_sub k1]
        nlinarith) y).mp hpart
  rw [show U - u + u = U by omega] at hfull
  refine ⟨U, N, y, hT, hfull, ?_⟩
  rw [e3]
  congr 1
  show g.val (B.y1.toNat + _) (B.x1.toNat + _) = _
  congr 1 <;> omega

end WindMult
