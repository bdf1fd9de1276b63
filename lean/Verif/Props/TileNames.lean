import Verif.Props.Tiles
import Mathlib.Data.Nat.Digits.Defs

/-!
# C04: tile names
-/

set_option linter.unusedSectionVars false

set_option autoImplicit false

namespace WindMult
variable {K : Type} [Field K] [LinearOrder K] [IsStrictOrderedRing K] [FloorRing K]

/-- What is assumed of Python's `str(float)`: a coordinate that is zero or at least `0.0001`
and below `100000` in magnitude is rendered as sign, digits of the integer part, point,
fraction (no exponent).  Trusted base: CPython float formatting. -/
def RendersDecimal (str : K → List Char) : Prop :=
  ∀ x : K, (x = 0 ∨ 1 / 10000 ≤ |x|) → |x| < 100000 →
    ∃ frac : List Char, (∀ c ∈ frac, c.isDigit) ∧
      str x = (if x < 0 then ['-'] else []) ++ Nat.toDigits 10 ⌊|x|⌋.toNat ++ '.' :: frac

/-- A coordinate Python prints without exponent and with at most five integer digits. -/
def PlainCoord (x : K) : Prop := (x = 0 ∨ 1 / 10000 ≤ |x|) ∧ |x| < 100000

theorem toDigits_inj {m n : ℕ} (h : Nat.toDigits 10 m = Nat.toDigits 10 n) : m = n := by
  rw [← Nat.ofDigitChars_ten_toDigits (n := m), h, Nat.ofDigitChars_ten_toDigits]

theorem split_at {α : Type} {a b c d : List α} {x : α} (h : a ++ x :: b = c ++ x :: d)
    (ha : x ∉ a) (hc : x ∉ c) : a = c ∧ b = d := by
  induction a generalizing c with
  | nil =>
    cases c with
    | nil => simpa using h
    | cons y c => simp at h hc; exact absurd h.1 hc.1
  | cons y a ih =>
    cases c with
    | nil => simp at h ha; exact absurd h.1.symm ha.1
    | cons z c =>
      simp only [List.cons_append, List.cons.injEq] at h
      simp only [List.mem_cons, not_or] at ha hc
      obtain ⟨h1, h2⟩ := ih h.2 ha.2 hc.2
      exact ⟨by rw [h.1, h1], h2⟩

theorem rendered_take {str : K → List Char} (hs : RendersDecimal str) {x : K} (hx : PlainCoord x)
    {n : ℕ} (hn : 7 ≤ n) :
    ∃ frac : List Char, (∀ c ∈ frac, c.isDigit) ∧
      (str x).take n =
        ((if x < 0 then ['-'] else []) ++ Nat.toDigits 10 ⌊|x|⌋.toNat) ++ '.' :: frac := by
  obtain ⟨frac, hf, h⟩ := hs x hx.1 hx.2
  have hfl : ⌊|x|⌋.toNat < 10 ^ 5 := by
    have h1 : ⌊|x|⌋ < 100000 := Int.floor_lt.mpr (by exact_mod_cast hx.2)
    have h0 : 0 ≤ ⌊|x|⌋ := Int.floor_nonneg.mpr (abs_nonneg x)
    omega
  have hlen : (Nat.toDigits 10 ⌊|x|⌋.toNat).length ≤ 5 :=
    Nat.toDigits_length 10 _ 5 (by norm_num) hfl
  have hpre : ((if x < 0 then ['-'] else []) ++ Nat.toDigits 10 ⌊|x|⌋.toNat).length ≤ 6 := by
    rw [List.length_append]; split_ifs <;> simp <;> omega
  generalize hp : (if x < 0 then ['-'] else []) ++ Nat.toDigits 10 ⌊|x|⌋.toNat = pre at *
  refine ⟨frac.take (n - pre.length - 1), fun c hc => hf c (List.mem_of_mem_take hc), ?_⟩
  rw [h, List.take_append]
  congr 1
  · exact List.take_of_length_le (by omega)
  · have : n - pre.length = (n - pre.length - 1) + 1 := by omega
    rw [this, List.take_succ_cons]; rfl

theorem not_mem_digits {c : Char} (hc : c.isDigit = false) (n : ℕ) : c ∉ Nat.toDigits 10 n := by
  intro h
  have := Nat.isDigit_of_mem_toDigits (by norm_num) (by norm_num) h
  simp [hc] at this

theorem rendered_inj {str : K → List Char} (hs : RendersDecimal str) {x y : K}
    (hx : PlainCoord x) (hy : PlainCoord y) {n : ℕ} (hn : 7 ≤ n)
    (h : (str x).take n = (str y).take n) : |x - y| < 1 := by
  obtain ⟨f, -, e1⟩ := rendered_take hs hx hn
  obtain ⟨g, -, e2⟩ := rendered_take hs hy hn
  rw [e1, e2] at h
  have hdot : ∀ z : K, '.' ∉ (if z < 0 then ['-'] else []) ++ Nat.toDigits 10 ⌊|z|⌋.toNat := by
    intro z hz
    rcases List.mem_append.mp hz with hz | hz
    · split_ifs at hz <;> simp at hz
    · exact not_mem_digits (by decide) _ hz
  obtain ⟨hpre, -⟩ := split_at h (hdot x) (hdot y)
  have key : ((x < 0) ↔ (y < 0)) ∧ ⌊|x|⌋.toNat = ⌊|y|⌋.toNat := by
    have hneg : ∀ m n : ℕ, '-' :: Nat.toDigits 10 m ≠ Nat.toDigits 10 n := by
      intro m n he
      exact not_mem_digits (c := '-') (by decide) n (he ▸ List.mem_cons_self)
    split_ifs at hpre with h1 h2 h2
    · simp at hpre; exact ⟨by simp [h1, h2], toDigits_inj hpre⟩
    · exact absurd (by simpa using hpre) (hneg _ _)
    · exact absurd (by simpa using hpre.symm) (hneg _ _)
    · simp at hpre; exact ⟨by simp [h1, h2], toDigits_inj hpre⟩
  obtain ⟨hsign, hfl⟩ := key
  have hfl' : ⌊|x|⌋ = ⌊|y|⌋ := by
    have h0 : 0 ≤ ⌊|x|⌋ := Int.floor_nonneg.mpr (abs_nonneg x)
    have h1 : 0 ≤ ⌊|y|⌋ := Int.floor_nonneg.mpr (abs_nonneg y)
    omega
  have habs := Int.abs_sub_lt_one_of_floor_eq_floor hfl'
  by_cases hx0 : x < 0
  · have hy0 := hsign.mp hx0
    rw [abs_of_neg hx0, abs_of_neg hy0] at habs
    rwa [show x - y = -(-x - -y) by ring, abs_neg]
  · have hy0 : ¬ y < 0 := fun h => hx0 (hsign.mpr h)
    rwa [abs_of_nonneg (not_lt.mp hx0), abs_of_nonneg (not_lt.mp hy0)] at habs

theorem no_s_in_rendered {str : K → List Char} (hs : RendersDecimal str) {x : K}
    (hx : PlainCoord x) : 's' ∉ (str x).take 8 := by
  obtain ⟨f, hf, e⟩ := rendered_take hs hx (by norm_num : 7 ≤ 8)
  rw [e]
  simp only [List.mem_append, List.mem_cons, not_or]
  refine ⟨⟨by split_ifs <;> simp, not_mem_digits (by decide) _⟩, by decide, ?_⟩
  intro h
  have := hf _ h
  simp [Char.isDigit] at this

theorem step_separates {pw x : K} (hpw : 0 < pw) {i j : ℕ}
    (h : |(x + ((i : ℤ) * ⌈1 / pw⌉ : ℤ) * pw) - (x + ((j : ℤ) * ⌈1 / pw⌉ : ℤ) * pw)| < 1) :
    i = j := by
  have h1 := one_le_step_mul hpw
  have e : (x + ((i : ℤ) * ⌈1 / pw⌉ : ℤ) * pw) - (x + ((j : ℤ) * ⌈1 / pw⌉ : ℤ) * pw)
      = (((i : ℤ) - j : ℤ) : K) * (((⌈1 / pw⌉ : ℤ) : K) * pw) := by push_cast; ring
  rw [e, abs_mul, abs_of_pos (by linarith : (0 : K) < ((⌈1 / pw⌉ : ℤ) : K) * pw)] at h
  by_contra hij
  have h2 : (1 : ℤ) ≤ |(i : ℤ) - j| := Int.one_le_abs (by omega)
  have h3 : (1 : K) ≤ |(((i : ℤ) - j : ℤ) : K)| := by
    rw [← Int.cast_abs]; exact_mod_cast h2
  nlinarith

/-- **C04, partial**: different tiles have different names, provided the tiles do not overlap and
the coordinates of the tile corners are printed by Python in plain decimal notation with at
most five integer digits.  Without the first proviso the claim is false
(`C04_name_collision`). -/
theorem C04_names_distinct_partial (str : K → List Char) (hstr : RendersDecimal str) (up : K)
    (r : RasterInfo K) (hpw : 0 < r.gt1) (hph : r.gt5 < 0) (hup : 0 ≤ up)
    (hx : 0 < r.xDim) (hy : 0 < r.yDim) (hdisj : TilesDisjoint (TileGrid.init up r))
    (hplain : ∀ k c, (TileGrid.init up r).getStartcord k = .ok c → PlainCoord c.1 ∧ PlainCoord c.2)
    (k k' : ℕ) (n : List Char)
    (h : (TileGrid.init up r).getTilename str k = .ok n)
    (h' : (TileGrid.init up r).getTilename str k' = .ok n) : k = k' := by
  have aX := axisX (r := r) hpw hup
  have aY := axisY (r := r) hph hup
  have hg := (C02_tiles_disjoint_iff up r hpw hph hup hx hy).mp hdisj
  simp only [Int.lt_add_one_iff] at hg
  rw [← axisGood_iff aX (by exact_mod_cast hx), ← axisGood_iff aY (by exact_mod_cast hy)] at hg
  have key : ∀ k n, (TileGrid.init up r).getTilename str k = .ok n → k < nCols r * nRows r ∧
      (TileGrid.init up r).getStartcord k = .ok
        (r.gt0 + (((k / nRows r : ℕ) : ℤ) * ⌈1 / r.gt1⌉ : ℤ) * r.gt1,
         -r.gt3 + (((k % nRows r : ℕ) : ℤ) * ⌈1 / (-r.gt5)⌉ : ℤ) * (-r.gt5)) := by
    intro k n hn
    have hk : k < nCols r * nRows r := by
      by_contra hk
      unfold TileGrid.getTilename TileGrid.getStartcord at hn
      rw [getGridlimit_init, if_neg hk] at hn
      simp [bind, Except.bind] at hn
    refine ⟨hk, ?_⟩
    unfold TileGrid.getStartcord
    rw [gridlimit_ok hk]
    obtain ⟨e1, -⟩ := core_exact aX hg.1 (div_lt_nCols hk)
    obtain ⟨e2, -⟩ := core_exact aY hg.2 (mod_lt_nRows hk)
    simp only [bind, Except.bind, pure, Except.pure, e1, e2]
    rfl
  obtain ⟨hk, s⟩ := key k n h
  obtain ⟨hk', s'⟩ := key k' n h'
  have p := hplain k _ s
  have p' := hplain k' _ s'
  unfold TileGrid.getTilename at h h'
  rw [s] at h; rw [s'] at h'
  simp only [bind, Except.bind, pure, Except.pure, Except.ok.injEq] at h h'
  rw [← h'] at h
  simp only [List.cons_append, List.nil_append, List.append_assoc, List.cons.injEq, true_and] at h
  obtain ⟨q1, q2⟩ := split_at h (no_s_in_rendered hstr p.1) (no_s_in_rendered hstr p'.1)
  have d1 := step_separates hpw (rendered_inj hstr p.1 p'.1 (by norm_num) q1)
  have d2 := step_separates (by linarith : 0 < -r.gt5)
    (rendered_inj hstr p.2 p'.2 (by norm_num) q2)
  rw [← Nat.div_add_mod k (nRows r), ← Nat.div_add_mod k' (nRows r), d1, d2]

/-- The assumption on `str` is satisfiable. -/
theorem rendersDecimal_simple : RendersDecimal (K := K)
    (fun x => (if x < 0 then ['-'] else []) ++ Nat.toDigits 10 ⌊|x|⌋.toNat ++ ['.', '0']) := by
  intro x _ _
  exact ⟨['0'], by decide, rfl⟩

/-- The hypotheses of C04 are met by the example raster. -/
example : 0 < exRaster.xDim ∧ TilesDisjoint (TileGrid.init (1 / 5) exRaster) ∧
    (∀ k c, (TileGrid.init (1 / 5) exRaster).getStartcord k = .ok c →
      PlainCoord c.1 ∧ PlainCoord c.2) := by
  have hd : TilesDisjoint (TileGrid.init (1 / 5) exRaster) :=
    C02_tiles_disjoint_partial _ _ (by norm_num [exRaster]) (by norm_num [exRaster]) (by norm_num)
      (by norm_num [exRaster]) (by norm_num [exRaster]) (by decide +kernel) (by decide +kernel)
  refine ⟨by norm_num [exRaster], hd, ?_⟩
  have hall : ∀ k < 6, ∀ c, (TileGrid.init (1 / 5) exRaster).getStartcord k = .ok c →
      PlainCoord c.1 ∧ PlainCoord c.2 := by
    intro k hk c hc
    have : ∀ k < 6, ∃ a ∈ [(287 / 2 : ℚ), 289 / 2, 291 / 2], ∃ b ∈ [(41 : ℚ), 42],
        (TileGrid.init (1 / 5) exRaster).getStartcord k = .ok (a, b) := by decide +kernel
    obtain ⟨a, ha, b, hb, e⟩ := this k hk
    rw [e] at hc
    cases hc
    simp only [List.mem_cons, List.not_mem_nil, or_false] at ha hb
    constructor
    · rcases ha with rfl | rfl | rfl <;> norm_num [PlainCoord, abs_of_pos]
    · rcases hb with rfl | rfl <;> norm_num [PlainCoord, abs_of_pos]
  intro k c hc
  by_cases hk : k < 6
  · exact hall k hk c hc
  · unfold TileGrid.getStartcord at hc
    rw [getGridlimit_init, if_neg] at hc
    · simp [bind, Except.bind] at hc
    · rw [← init_numTiles (1 / 5) exRaster,
        show (TileGrid.init (1 / 5) exRaster).numTiles = 6 by decide +kernel]
      exact hk

/-- **C04 is false without the proviso**: with a buffer of two tiles the first two tile columns
get the same name, however floats are rendered. -/
theorem C04_name_collision (str : ℚ → List Char) :
    ∃ (up : ℚ) (r : RasterInfo ℚ) (k k' : ℕ) (n : List Char), 0 < r.gt1 ∧ r.gt5 < 0 ∧ 0 ≤ up ∧
      k ≠ k' ∧ (TileGrid.init up r).getTilename str k = .ok n ∧
      (TileGrid.init up r).getTilename str k' = .ok n := by
  refine ⟨2, ⟨30, 10, 0, 1 / 10, 0, -1 / 10⟩, 0, 1,
    ['e'] ++ (str 0).take 8 ++ ['s'] ++ (str 0).take 7, by norm_num, by norm_num, by norm_num,
    by norm_num, ?_, ?_⟩
  · unfold TileGrid.getTilename
    rw [show (TileGrid.init (2 : ℚ) ⟨30, 10, 0, 1 / 10, 0, -1 / 10⟩).getStartcord 0 = .ok (0, 0) by
      decide +kernel]
    rfl
  · unfold TileGrid.getTilename
    rw [show (TileGrid.init (2 : ℚ) ⟨30, 10, 0, 1 / 10, 0, -1 / 10⟩).getStartcord 1 = .ok (0, 0) by
      decide +kernel]
    rfl

end WindMult
