import Verif.Proofs.Peaks

/-!
# Valleys, and the pairing of ridges and valleys
-/

set_option linter.unusedSectionVars false
set_option autoImplicit false

namespace WindMult
variable {K : Type} [Field K] [LinearOrder K] [IsStrictOrderedRing K] [FloorRing K]

/-- The inverted, reversed line. -/
def Line.invRev (y : Line K) : Line K := ⟨y.size, fun k => - y.val (y.size - 1 - k)⟩

theorem invRev_flat (y : Line K) : y.invRev.Flat ↔ y.Flat := by
  unfold Line.Flat Line.invRev
  constructor
  · intro h i hi
    have := h (y.size - 2 - i) (by simp only; omega)
    simp only at this
    have e1 : y.size - 1 - (y.size - 2 - i + 1) = i := by omega
    have e2 : y.size - 1 - (y.size - 2 - i) = i + 1 := by omega
    rw [e1, e2] at this
    exact (neg_inj.mp this).symm
  · intro h i hi
    simp only at hi ⊢
    have := h (y.size - 1 - (i + 1)) (by omega)
    have e : y.size - 1 - (i + 1) + 1 = y.size - 1 - i := by omega
    rw [e] at this
    rw [this]

theorem invRev_fallsFirst (y : Line K) : y.invRev.FallsFirst ↔ y.FallsLast := by
  unfold Line.FallsFirst Line.FallsLast Line.invRev
  constructor
  · rintro ⟨k, h1, h2, h3⟩
    simp only at h1 h2 h3
    refine ⟨y.size - 2 - k, by omega, ?_, ?_⟩
    · have e1 : y.size - 1 - (k + 1) = y.size - 2 - k := by omega
      have e2 : y.size - 1 - k = y.size - 2 - k + 1 := by omega
      rw [e1, e2] at h2
      exact neg_lt_neg_iff.mp h2
    · intro k' hk hk'
      have := h3 (y.size - 2 - k') (by omega)
      have e1 : y.size - 1 - (y.size - 2 - k' + 1) = k' := by omega
      have e2 : y.size - 1 - (y.size - 2 - k') = k' + 1 := by omega
      rw [e1, e2] at this
      exact (neg_inj.mp this).symm
  · rintro ⟨k, h1, h2, h3⟩
    refine ⟨y.size - 2 - k, by simp only; omega, ?_, ?_⟩
    · simp only
      have e1 : y.size - 1 - (y.size - 2 - k + 1) = k := by omega
      have e2 : y.size - 1 - (y.size - 2 - k) = k + 1 := by omega
      rw [e1, e2]
      exact neg_lt_neg_iff.mpr h2
    · intro k' hk'
      simp only
      have := h3 (y.size - 1 - (k' + 1)) (by omega) (by omega)
      have e : y.size - 1 - (k' + 1) + 1 = y.size - 1 - k' := by omega
      rw [e] at this
      rw [this]

theorem invRev_isRidge (y : Line K) (i : ℕ) (hi : i < y.size) :
    y.invRev.IsRidge i ↔ y.IsValley (y.size - 1 - i) := by
  unfold Line.IsRidge Line.IsValley
  rw [invRev_fallsFirst]
  simp only [Line.invRev]
  have a1 : i < y.size ↔ y.size - 1 - i < y.size := by omega
  have a2 : (i + 1 < y.size → -y.val (y.size - 1 - (i + 1)) ≤ -y.val (y.size - 1 - i)) ↔
      (0 < y.size - 1 - i → y.val (y.size - 1 - i) ≤ y.val (y.size - 1 - i - 1)) := by
    have e : y.size - 1 - (i + 1) = y.size - 1 - i - 1 := by omega
    rw [e, neg_le_neg_iff]
    constructor
    · intro h h'; exact h (by omega)
    · intro h h'; exact h (by omega)
  rw [a2]
  by_cases h0 : i = 0
  · subst h0
    rw [if_pos rfl, if_pos (by omega)]
    simp only [Nat.sub_zero]
    constructor <;> rintro ⟨h1, h2⟩ <;> exact ⟨by omega, h2⟩
  · rw [if_neg h0, if_neg (by omega)]
    have e : y.size - 1 - (i - 1) = y.size - 1 - i + 1 := by omega
    rw [e, neg_lt_neg_iff]
    constructor <;> rintro ⟨h1, h2⟩ <;> exact ⟨by omega, h2⟩

/-- What `findvalleys` returns on a line of at least two points that is not flat. -/
theorem findvalleys_spec (y : Line K) (hn : 2 ≤ y.size) (hflat : ¬ y.Flat) :
    ∃ l, findvalleys y = .ok l ∧ l.Pairwise (· < ·) ∧ ∀ i, i ∈ l ↔ y.IsValley i := by
  obtain ⟨l, h1, h2, h3⟩ := findpeaks_spec y.invRev hn (fun h => hflat ((invRev_flat y).mp h))
  refine ⟨(l.map fun i => y.size - i - 1).reverse, ?_, ?_, ?_⟩
  · unfold findvalleys
    have : (⟨y.size, fun k => - y.val (y.size - 1 - k)⟩ : Line K) = y.invRev := rfl
    rw [this, h1]
    rfl
  · rw [List.pairwise_reverse, List.pairwise_map]
    refine h2.imp_of_mem ?_
    intro a b ha hb hab
    have hb' : b < y.size := ((h3 b).mp hb).1
    omega
  · intro i
    rw [List.mem_reverse, List.mem_map]
    constructor
    · rintro ⟨a, ha, rfl⟩
      have hr := (h3 a).mp ha
      have := (invRev_isRidge y a hr.1).mp hr
      have e : y.size - a - 1 = y.size - 1 - a := by omega
      rw [e]; exact this
    · intro hv
      have hi := hv.1
      refine ⟨y.size - 1 - i, (h3 _).mpr ((invRev_isRidge y _ (by omega)).mpr ?_), by omega⟩
      have e : y.size - 1 - (y.size - 1 - i) = i := by omega
      rw [e]; exact hv

/-! ### Feet and crests -/

theorem exists_foot (y : Line K) (a b : ℕ) (h : y.RisesBetween a b) :
    ∃ v, v ≤ a ∧ y.RisesBetween v b ∧ (0 < v → y.val v ≤ y.val (v - 1)) := by
  induction a with
  | zero => exact ⟨0, le_rfl, h, fun h => absurd h (lt_irrefl _)⟩
  | succ a ih =>
    by_cases hr : y.val a < y.val (a + 1)
    · obtain ⟨v, h1, h2, h3⟩ := ih ⟨by have := h.1; omega, h.2.1, fun i hi1 hi2 => by
        rcases Nat.eq_or_lt_of_le hi1 with e | e
        · rw [← e]; exact hr
        · exact h.2.2 i e hi2⟩
      exact ⟨v, by omega, h2, h3⟩
    · exact ⟨a + 1, le_rfl, h, fun _ => by simpa using not_lt.mp hr⟩

theorem exists_crest (y : Line K) (a b : ℕ) (h : y.RisesBetween a b) :
    ∃ r, b ≤ r ∧ y.RisesBetween a r ∧ (r + 1 < y.size → y.val (r + 1) ≤ y.val r) := by
  induction hm : y.size - b using Nat.strong_induction_on generalizing b with
  | _ m ih =>
    by_cases hn : b + 1 < y.size ∧ y.val b < y.val (b + 1)
    · have hlt := h.1
      obtain ⟨r, h1, h2⟩ := ih (y.size - (b + 1)) (by omega) (b + 1)
        ⟨by omega, hn.1, fun i hi1 hi2 => by
          rcases Nat.eq_or_lt_of_le (Nat.lt_succ_iff.mp hi2) with e | e
          · rw [e]; exact hn.2
          · exact h.2.2 i hi1 e⟩ rfl
      exact ⟨r, by omega, h2⟩
    · refine ⟨b, le_rfl, h, fun h1 => ?_⟩
      by_contra hc
      exact hn ⟨h1, not_le.mp hc⟩

/-- Every ridge other than the start of the line is the crest of a hill. -/
theorem ridge_has_hill (y : Line K) (r : ℕ) (hr : y.IsRidge r) (h0 : 0 < r) :
    ∃ v, y.IsHill v r := by
  obtain ⟨h1, h2, h3⟩ := hr
  rw [if_neg (by omega)] at h3
  obtain ⟨v, hv1, hv2, hv3⟩ := exists_foot y (r - 1) r ⟨by omega, h1, fun i hi1 hi2 => by
    have : i = r - 1 := by omega
    subst this
    have e : r - 1 + 1 = r := by omega
    rw [e]; exact h3⟩
  refine ⟨v, ⟨by have := hv2.2.1; have := hv2.1; omega, hv3, ?_⟩,
    ⟨h1, h2, by rw [if_neg (by omega)]; exact h3⟩, hv2⟩
  have := hv2.1
  rw [if_neg (by omega)]
  exact hv2.2.2 v le_rfl hv2.1

/-- Every valley other than the end of the line is the foot of a hill. -/
theorem valley_has_hill (y : Line K) (v : ℕ) (hv : y.IsValley v) (h0 : v + 1 ≠ y.size) :
    ∃ r, y.IsHill v r := by
  have hv' := hv
  obtain ⟨h1, h2, h3⟩ := hv
  rw [if_neg h0] at h3
  obtain ⟨r, hr1, hr2, hr3⟩ := exists_crest y v (v + 1) ⟨by omega, by omega, fun i hi1 hi2 => by
    have : i = v := by omega
    rw [this]; exact h3⟩
  have := hr2.1
  refine ⟨r, hv', ⟨hr2.2.1, hr3, ?_⟩, hr2⟩
  rw [if_neg (by omega)]
  have h := hr2.2.2 (r - 1) (by omega) (by omega)
  have e : r - 1 + 1 = r := by omega
  rw [e] at h; exact h

/-- Hills do not overlap: the foot of a later one is not before the crest of an earlier one. -/
theorem hills_ordered (y : Line K) (v r v' r' : ℕ) (h : y.IsHill v r) (h' : y.IsHill v' r')
    (hlt : r < r') : r ≤ v' := by
  by_contra hc
  have h1 := h'.2.2.2.2 r (by omega) hlt
  have h2 := h.2.1.2.1 (by have := h'.2.2.2.1; omega)
  exact absurd h1 (not_lt.mpr h2)

theorem hill_foot_unique (y : Line K) (v v' r : ℕ) (h : y.IsHill v r) (h' : y.IsHill v' r) :
    v = v' := by
  have key : ∀ a b : ℕ, y.IsHill a r → y.IsHill b r → ¬ a < b := by
    intro a b ha hb hlt
    have h1 := ha.2.2.2.2 (b - 1) (by omega) (by have := hb.2.2.1; omega)
    have h2 := hb.1.2.1 (by omega)
    have e : b - 1 + 1 = b := by omega
    rw [e] at h1
    exact absurd h1 (not_lt.mpr h2)
  have := key v v' h h'
  have := key v' v h' h
  omega

theorem hill_crest_unique (y : Line K) (v r r' : ℕ) (h : y.IsHill v r) (h' : y.IsHill v r') :
    r = r' := by
  have := h.2.2.1
  have := h'.2.2.1
  rcases lt_trichotomy r r' with hlt | he | hlt
  · have := hills_ordered y v r v r' h h' hlt; omega
  · exact he
  · have := hills_ordered y v r' v r h' h hlt; omega

open Classical in
/-- The foot of the hill with crest `r`. -/
noncomputable def footOf (y : Line K) (r : ℕ) : ℕ :=
  if h : ∃ v, y.IsHill v r then h.choose else 0

theorem footOf_spec (y : Line K) (r : ℕ) (h : ∃ v, y.IsHill v r) : y.IsHill (footOf y r) r := by
  unfold footOf
  rw [dif_pos h]
  exact h.choose_spec

open Classical in
/-- The list of valleys is the list of feet of the ridges, followed by the end of the line if the
line ends in a fall. -/
theorem valleys_eq (y : Line K) (hn : 2 ≤ y.size) (R V : List ℕ)
    (hR : R.Pairwise (· < ·)) (hV : V.Pairwise (· < ·))
    (hRm : ∀ i, i ∈ R ↔ y.IsRidge i) (hVm : ∀ i, i ∈ V ↔ y.IsValley i) :
    V = (R.filter fun r => decide (0 < r)).map (footOf y) ++
      (if y.FallsLast then [y.size - 1] else []) := by
  have hhill : ∀ r ∈ R.filter (fun r => decide (0 < r)), y.IsHill (footOf y r) r := by
    intro r hr
    rw [List.mem_filter] at hr
    exact footOf_spec y r (ridge_has_hill y r ((hRm r).mp hr.1) (by simpa using hr.2))
  have hs : ((R.filter fun r => decide (0 < r)).map (footOf y) ++
      (if y.FallsLast then [y.size - 1] else [])).Pairwise (· < ·) := by
    rw [List.pairwise_append, List.pairwise_map]
    refine ⟨?_, by split_ifs <;> simp, ?_⟩
    · refine (hR.filter _).imp_of_mem ?_
      intro a b ha hb hab
      have h1 := hhill a ha
      have h2 := hhill b hb
      have := hills_ordered y _ _ _ _ h1 h2 hab
      have := h1.2.2.1
      omega
    · intro a ha b hb
      rw [List.mem_map] at ha
      obtain ⟨r, hr, rfl⟩ := ha
      have h1 := (hhill r hr).2.2
      split_ifs at hb
      · have : b = y.size - 1 := by simpa using hb
        have := h1.1
        have := h1.2.1
        omega
      · simp at hb
  refine List.Pairwise.eq_of_mem_iff hV hs ?_
  intro v
  rw [hVm, List.mem_append, List.mem_map]
  constructor
  · intro hv
    by_cases h0 : v + 1 = y.size
    · right
      have h3 := hv.2.2
      rw [if_pos h0] at h3
      rw [if_pos h3]
      simp; omega
    · left
      obtain ⟨r, hr⟩ := valley_has_hill y v hv h0
      have h1 := hr.2.2.1
      refine ⟨r, ?_, hill_foot_unique y _ _ r (footOf_spec y r ⟨v, hr⟩) hr⟩
      rw [List.mem_filter]
      exact ⟨(hRm r).mpr hr.2.1, by simp; omega⟩
  · rintro (⟨r, hr, rfl⟩ | h)
    · exact (hhill r hr).1
    · split_ifs at h with hf
      · have hv : v = y.size - 1 := by simpa using h
        subst hv
        refine ⟨by omega, fun _ => ?_, by rw [if_pos (by omega)]; exact hf⟩
        obtain ⟨k, h1, h2, h3⟩ := hf
        rcases Nat.lt_or_ge (k + 2) y.size with hk | hk
        · have := h3 (y.size - 1 - 1) (by omega) (by omega)
          have e : y.size - 1 - 1 + 1 = y.size - 1 := by omega
          rw [e] at this
          rw [this]
        · have e1 : y.size - 1 = k + 1 := by omega
          rw [e1]
          simpa using h2.le
      · simp at h

/-! ### The loop over the hills -/

/-- The loop over the hills with any function `F` for the multipliers of a hill. -/
def loopWith (F : Line K → ℕ → ℕ → K → Line K) (fwd : Line K) (valleys : List ℕ) (ds : K) (shift : ℕ) :
    ℕ → List ℕ → Line K → Except PyErr (Line K)
  | _, [], m => .ok m
  | i, r :: rs, m =>
    match valleys[i - shift]? with
    | none => .error .indexError
    | some v => loopWith F fwd valleys ds shift (i + 1) rs ⟨m.size, fun p => max (m.val p) ((F fwd r v ds).val p)⟩

/-- `multiplier_calc` with any function `F` for the multipliers of a hill. -/
def calcWith (F : Line K → ℕ → ℕ → K → Line K) (line : Line K) (ds : K) : Except PyErr (Line K) := do
  let ones : Line K := ⟨line.size, fun _ => 1⟩
  let fwd : Line K := ⟨line.size, fun i => (⌊line.val i⌋ : K)⟩
  let ridges ← findpeaks fwd
  let valleys ← findvalleys fwd
  match ridges with
  | [] => return ones
  | r0 :: rest =>
    if rest = [] ∧ r0 = 0 then return ones
    else if r0 = 0 then loopWith F fwd valleys ds 1 1 rest ones
    else loopWith F fwd valleys ds 0 0 (r0 :: rest) ones

theorem loopWith_spec (F : Line K → ℕ → ℕ → K → Line K) (fwd : Line K) (V : List ℕ) (ds : K) (shift : ℕ) (f : ℕ → ℕ) :
    ∀ (rs : List ℕ) (i : ℕ) (m : Line K), shift ≤ i →
    (∀ k (hk : k < rs.length), V[i - shift + k]? = some (f rs[k])) →
    ∃ m', loopWith F fwd V ds shift i rs m = .ok m' ∧ m'.size = m.size ∧
      ∀ p, m.val p ≤ m'.val p ∧ (∀ r ∈ rs, (F fwd r (f r) ds).val p ≤ m'.val p) ∧
        (m'.val p = m.val p ∨ ∃ r ∈ rs, m'.val p = (F fwd r (f r) ds).val p) := by
  intro rs
  induction rs with
  | nil =>
    intro i m _ _
    exact ⟨m, rfl, rfl, fun p => ⟨le_rfl, by simp, Or.inl rfl⟩⟩
  | cons r rs ih =>
    intro i m hi hV
    have h0 : V[i - shift]? = some (f r) := hV 0 (by simp)
    obtain ⟨m', h1, h2, h3⟩ := ih (i + 1)
      ⟨m.size, fun p => max (m.val p) ((F fwd r (f r) ds).val p)⟩ (by omega) (by
        intro k hk
        have := hV (k + 1) (by simpa using hk)
        have e : i - shift + (k + 1) = i + 1 - shift + k := by omega
        rw [e] at this
        simpa using this)
    refine ⟨m', ?_, h2, fun p => ?_⟩
    · simp only [loopWith, h0]
      exact h1
    · obtain ⟨a1, a2, a3⟩ := h3 p
      simp only at a1 a3
      refine ⟨le_trans (le_max_left _ _) a1, ?_, ?_⟩
      · intro r' hr'
        rcases List.mem_cons.mp hr' with rfl | h
        · exact le_trans (le_max_right _ _) a1
        · exact a2 r' h
      · rcases a3 with h | ⟨r', hr', h⟩
        · rcases max_choice (m.val p) ((F fwd r (f r) ds).val p) with hm | hm
          · left; rw [h, hm]
          · right; exact ⟨r, List.mem_cons_self, by rw [h, hm]⟩
        · right; exact ⟨r', List.mem_cons_of_mem _ hr', h⟩

/-- The line as `multiplier_calc` sees it: whole metres. -/
def Line.floored (y : Line K) : Line K := ⟨y.size, fun i => (⌊y.val i⌋ : K)⟩

theorem flat_no_hill (y : Line K) (h : y.Flat) (v r : ℕ) : ¬ y.IsHill v r := by
  intro hh
  have h1 := hh.2.2.2.2 v le_rfl hh.2.2.1
  have := h v (by have := hh.2.2.1; have := hh.2.2.2.1; omega)
  rw [this] at h1
  exact lt_irrefl _ h1

/-- The same, in terms of hills. -/
theorem calcWith_spec (F : Line K → ℕ → ℕ → K → Line K) (line : Line K) (ds : K) :
    ∃ m, calcWith F line ds = .ok m ∧ m.size = line.size ∧
      ∀ p, 1 ≤ m.val p ∧
        (∀ v r, line.floored.IsHill v r → (F line.floored r v ds).val p ≤ m.val p) ∧
        (m.val p = 1 ∨ ∃ v r, line.floored.IsHill v r ∧
          m.val p = (F line.floored r v ds).val p) := by
  have hsize : line.floored.size = line.size := rfl
  have hones : (∀ v r, ¬ line.floored.IsHill v r) →
      ∀ p, (1 : K) ≤ (⟨line.size, fun _ => 1⟩ : Line K).val p ∧
        (∀ v r, line.floored.IsHill v r → (F line.floored r v ds).val p ≤
          (⟨line.size, fun _ => 1⟩ : Line K).val p) ∧
        ((⟨line.size, fun _ => 1⟩ : Line K).val p = 1 ∨ ∃ v r, line.floored.IsHill v r ∧
          (⟨line.size, fun _ => 1⟩ : Line K).val p = (F line.floored r v ds).val p) :=
    fun h p => ⟨le_rfl, fun v r hh => absurd hh (h v r), Or.inl rfl⟩
  -- unfolding
  have hunf : calcWith F line ds = (do
      let ridges ← findpeaks line.floored
      let valleys ← findvalleys line.floored
      match ridges with
      | [] => return ⟨line.size, fun _ => 1⟩
      | r0 :: rest =>
        if rest = [] ∧ r0 = 0 then return ⟨line.size, fun _ => 1⟩
        else if r0 = 0 then loopWith F line.floored valleys ds 1 1 rest ⟨line.size, fun _ => 1⟩
        else loopWith F line.floored valleys ds 0 0 (r0 :: rest) ⟨line.size, fun _ => 1⟩) := rfl
  by_cases hn : 2 ≤ line.size
  swap
  · refine ⟨⟨line.size, fun _ => 1⟩, ?_, rfl, hones ?_⟩
    · rw [hunf]
      have hs : line.size = 0 ∨ line.size = 1 := by omega
      rcases hs with h0 | h0
      · have e1 : findpeaks line.floored = .ok [] := by
          unfold findpeaks; rw [if_pos (by rw [hsize]; exact h0)]
        have e2 : findvalleys line.floored = .ok [] := by
          unfold findvalleys findpeaks
          rw [if_pos (by simp only; rw [hsize]; exact h0)]
          rfl
        rw [e1, e2]; rfl
      · have e1 : findpeaks line.floored = .ok [0] := by
          unfold findpeaks; rw [if_neg (by omega), if_pos (by rw [hsize]; exact h0)]
        have e2 : findvalleys line.floored = .ok [0] := by
          unfold findvalleys findpeaks
          rw [if_neg (by simp only; omega), if_pos (by simp only; rw [hsize]; exact h0)]
          show Except.ok _ = _
          simp [hsize, h0]
        rw [e1, e2]; rfl
    · intro v r hh
      have := hh.2.2.1
      have := hh.2.2.2.1
      omega
  · by_cases hflat : line.floored.Flat
    · refine ⟨⟨line.size, fun _ => 1⟩, ?_, rfl, hones (flat_no_hill _ hflat)⟩
      have hch : ∀ z : Line K, z.Flat → 2 ≤ z.size → findpeaks z = .ok [] := by
        intro z hz hz2
        unfold findpeaks
        rw [if_neg (by omega), if_neg (by omega), if_pos]
        unfold changes
        rw [List.filter_eq_nil_iff]
        intro i hi
        rw [List.mem_range] at hi
        simp [Line.dy, hz i (by omega)]
      have e1 := hch _ hflat hn
      have e2 : findvalleys line.floored = .ok [] := by
        have := hch line.floored.invRev ((invRev_flat _).mpr hflat) hn
        unfold findvalleys
        have e : (⟨line.floored.size, fun k => - line.floored.val (line.floored.size - 1 - k)⟩ : Line K)
          = line.floored.invRev := rfl
        rw [e, this]
        rfl
      rw [hunf, e1, e2]; rfl
    · obtain ⟨R, hR1, hR2, hR3⟩ := findpeaks_spec line.floored hn hflat
      obtain ⟨V, hV1, hV2, hV3⟩ := findvalleys_spec line.floored hn hflat
      have hVeq := valleys_eq line.floored hn R V hR2 hV2 hR3 hV3
      rw [hunf, hR1, hV1]
      have hdone : ∀ rs, rs = R.filter (fun r => decide (0 < r)) → ∀ sh i, sh = i →
          ∃ m, loopWith F line.floored V ds sh i rs ⟨line.size, fun _ => 1⟩ = .ok m ∧
            m.size = line.size ∧
            ∀ p, 1 ≤ m.val p ∧
              (∀ v r, line.floored.IsHill v r → (F line.floored r v ds).val p ≤ m.val p) ∧
              (m.val p = 1 ∨ ∃ v r, line.floored.IsHill v r ∧
                m.val p = (F line.floored r v ds).val p) := by
        intro rs hrs sh i hsh
        subst hsh
        obtain ⟨m, h1, h2, h3⟩ := loopWith_spec F line.floored V ds sh (footOf line.floored) rs
          sh ⟨line.size, fun _ => 1⟩ le_rfl (by
            intro k hk
            rw [hVeq, ← hrs, Nat.sub_self, Nat.zero_add, List.getElem?_append_left (by simpa using hk)]
            simp [hk])
        refine ⟨m, h1, h2, fun p => ?_⟩
        obtain ⟨a1, a2, a3⟩ := h3 p
        refine ⟨a1, ?_, ?_⟩
        · intro v r hh
          have hm : r ∈ rs := by
            rw [hrs, List.mem_filter]
            have := hh.2.2.1
            exact ⟨(hR3 r).mpr hh.2.1, by simp; omega⟩
          have hf := hill_foot_unique _ _ _ r (footOf_spec _ r ⟨v, hh⟩) hh
          have := a2 r hm
          rwa [hf] at this
        · rcases a3 with h | ⟨r, hr, h⟩
          · exact Or.inl h
          · right
            rw [hrs, List.mem_filter] at hr
            exact ⟨_, r, footOf_spec _ r
              (ridge_has_hill _ r ((hR3 r).mp hr.1) (by simpa using hr.2)), h⟩
      cases hRc : R with
      | nil =>
        refine ⟨⟨line.size, fun _ => 1⟩, rfl, rfl, hones ?_⟩
        intro v r hh
        have := (hR3 r).mpr hh.2.1
        rw [hRc] at this
        simp at this
      | cons r0 rest =>
        rw [hRc] at hR2 hdone
        have hgt := (List.pairwise_cons.mp hR2).1
        have hrestpos : rest.filter (fun r => decide (0 < r)) = rest := by
          rw [List.filter_eq_self]
          intro a ha
          have := hgt a ha
          simp; omega
        show ∃ m, (if rest = [] ∧ r0 = 0 then _ else _) = _ ∧ _
        by_cases hc : rest = [] ∧ r0 = 0
        · rw [if_pos hc]
          refine ⟨⟨line.size, fun _ => 1⟩, rfl, rfl, hones ?_⟩
          intro v r hh
          have h1 := (hR3 r).mpr hh.2.1
          rw [hRc, hc.1, hc.2] at h1
          have := hh.2.2.1
          have : r = 0 := by simpa using h1
          omega
        · rw [if_neg hc]
          by_cases h0 : r0 = 0
          · rw [if_pos h0]
            exact hdone rest (by rw [List.filter_cons_of_neg (by simp [h0]), hrestpos]) 1 1 rfl
          · rw [if_neg h0]
            exact hdone (r0 :: rest)
              (by rw [List.filter_cons_of_pos (by simp; omega), hrestpos]) 0 0 rfl

theorem multiplierLoop_eq (fwd : Line K) (V : List ℕ) (ds : K) (shift : ℕ) (rs : List ℕ) :
    ∀ (i : ℕ) (m : Line K), multiplierLoop fwd V ds shift i rs m = loopWith mhCalc fwd V ds shift i rs m := by
  induction rs with
  | nil => intro i m; rfl
  | cons r rs ih =>
    intro i m
    unfold multiplierLoop loopWith
    simp only [ih]
    cases V[i - shift]? <;> rfl

theorem multiplierCalc_eq (line : Line K) (ds : K) : multiplierCalc line ds = calcWith mhCalc line ds := by
  unfold multiplierCalc calcWith
  simp only [multiplierLoop_eq]
  rfl

/-- `multiplier_calc` in terms of hills. -/
theorem multiplierCalc_spec (line : Line K) (ds : K) :
    ∃ m, multiplierCalc line ds = .ok m ∧ m.size = line.size ∧
      ∀ p, 1 ≤ m.val p ∧
        (∀ v r, line.floored.IsHill v r → (mhCalc line.floored r v ds).val p ≤ m.val p) ∧
        (m.val p = 1 ∨ ∃ v r, line.floored.IsHill v r ∧
          m.val p = (mhCalc line.floored r v ds).val p) := by
  rw [multiplierCalc_eq]
  exact calcWith_spec mhCalc line ds

end WindMult
