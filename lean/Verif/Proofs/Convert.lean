import Verif.Spec.Convert
import Mathlib.Algebra.Order.Ring.Rat
import Mathlib.Tactic.Linarith
import Mathlib.Tactic.NormNum
import Mathlib.Data.List.Count
import Mathlib.Data.List.Nodup
import Mathlib.Data.List.Perm.Basic

/-!
# Lemmas about the conversion
-/

set_option linter.unusedSectionVars false

set_option autoImplicit false

namespace WindMult
variable {K T : Type} [Zero K] [One K] [Mul K] [Max K]

open Spec

/-- `g` has the tile's shape and holds `f` in every cell. -/
def Holds (nx ny : ℕ) (g : Grid K) (f : ℕ → ℕ → K) : Prop :=
  g.rows = ny ∧ g.cols = nx ∧ ∀ i < ny, ∀ j < nx, g.val i j = f i j

theorem openOrOnes_ok {nx ny : ℕ} {tr : Option T} {file : Option (Raster K T)}
    (hs : ∀ r, file = some r → r.band.rows = ny ∧ r.band.cols = nx)
    (hm : file = none → nx = ny ∧ tr.isSome) :
    ∃ ds, openOrOnes nx ny tr file = .ok ds ∧ Holds nx ny ds.band (multiplierAt file) := by
  cases file with
  | some r => exact ⟨r, rfl, (hs r rfl).1, (hs r rfl).2, fun _ _ _ _ => rfl⟩
  | none =>
    obtain ⟨rfl, ht⟩ := hm rfl
    obtain ⟨t, rfl⟩ := Option.isSome_iff_exists.mp ht
    refine ⟨_, by simp [openOrOnes, writeArray, newBand]; rfl, rfl, rfl, ?_⟩
    intro i hi j hj
    simp [multiplierAt, hi, hj]

theorem npMultiply_ok {nx ny : ℕ} {a b : Grid K} {f g : ℕ → ℕ → K} (ha : Holds nx ny a f)
    (hb : Holds nx ny b g) :
    ∃ c, npMultiply a b = .ok c ∧ Holds nx ny c (fun i j => f i j * g i j) := by
  obtain ⟨ar, ac, av⟩ := ha
  obtain ⟨br, bc, bv⟩ := hb
  refine ⟨_, by simp [npMultiply, broadcastDim, ar, ac, br, bc]; rfl, rfl, rfl, ?_⟩
  intro i hi j hj
  have h1 : (if ny = 1 then 0 else i) = i := by split_ifs <;> omega
  have h2 : (if nx = 1 then 0 else j) = j := by split_ifs <;> omega
  simp only [h1, h2]
  rw [av i hi j hj, bv i hi j hj]

theorem writeBand_ok {nx ny : ℕ} {a : Grid K} {f : ℕ → ℕ → K} (ha : Holds nx ny a f) :
    Holds nx ny (writeBand nx ny a) f := by
  obtain ⟨ar, ac, av⟩ := ha
  have h : writeBand nx ny a = ⟨ny, nx, fun i j => if i < a.rows ∧ j < a.cols then a.val i j else
      if i < a.rows ∧ j < a.cols then a.val (a.rows - 1 - i) j else 0⟩ := by
    simp [writeBand, writeArray, newBand, flipRows, ar, ac]
  rw [h]
  refine ⟨rfl, rfl, ?_⟩
  intro i hi j hj
  simp [ar, ac, hi, hj, av i hi j hj]

/-- One direction: what is read and multiplied. -/
theorem readBands_ok {files : Mult → Dir → Option (Raster K T)} {nx ny : ℕ} {d : Dir}
    {tr : Option T} (hs : TileShape files nx ny)
    (hsq : (∃ m, files m d = none) → nx = ny) (ht : tr = none → (files .ms d).isSome) :
    ∃ bands, ∃ t, readBands files nx ny d Mult.order tr = .ok (bands, some t) ∧
      (∃ p, reduceMultiply bands = .ok p ∧ Holds nx ny p (productAt files d)) ∧
      (∀ t', tr = some t' → t = t') ∧ (tr = none → ∃ r, files .ms d = some r ∧ t = r.transform) := by
  obtain ⟨d1, e1, h1⟩ := openOrOnes_ok (tr := tr) (hs .ms d) (fun h => ⟨hsq ⟨_, h⟩, by
    cases tr with
    | some t => rfl
    | none => have := ht rfl; simp [h] at this⟩)
  obtain ⟨d2, e2, h2⟩ := openOrOnes_ok (tr := some (tr.getD d1.transform)) (hs .mz d)
    (fun h => ⟨hsq ⟨_, h⟩, rfl⟩)
  obtain ⟨d3, e3, h3⟩ := openOrOnes_ok (tr := some (tr.getD d1.transform)) (hs .mt d)
    (fun h => ⟨hsq ⟨_, h⟩, rfl⟩)
  refine ⟨[d1.band, d2.band, d3.band], tr.getD d1.transform, ?_, ?_, ?_, ?_⟩
  · simp only [Mult.order, readBands, e1, e2, e3, Option.getD_some]
  · obtain ⟨p, e4, h4⟩ := npMultiply_ok h1 h2
    obtain ⟨q, e5, h5⟩ := npMultiply_ok h4 h3
    refine ⟨q, ?_, h5⟩
    simp only [reduceMultiply, List.foldlM]
    rw [e4]
    show (npMultiply p d3.band >>= fun s => pure s) = _
    rw [e5]; rfl
  · rintro t' rfl; rfl
  · rintro rfl
    obtain ⟨r, hr⟩ := Option.isSome_iff_exists.mp (ht rfl)
    refine ⟨r, hr, ?_⟩
    rw [hr] at e1
    simp only [openOrOnes, Except.ok.injEq] at e1
    rw [← e1]; rfl

/-- The direction loop once `transform` is bound. -/
theorem directionLoop_some {files : Mult → Dir → Option (Raster K T)} {nx ny : ℕ}
    (hs : TileShape files nx ny) (hsq : (∃ m d, files m d = none) → nx = ny) (t : T) :
    ∀ ds : List Dir, ∃ out, directionLoop files nx ny ds (some t) = .ok (out, some t) ∧
      out.map Prod.fst = ds ∧ ∀ d g, (d, g) ∈ out → Holds nx ny g (productAt files d)
  | [] => ⟨[], rfl, rfl, by simp⟩
  | d :: ds => by
    obtain ⟨bands, t', e1, ⟨p, e2, hp⟩, ht, -⟩ := readBands_ok (d := d) (tr := some t) hs
      (fun ⟨m, h⟩ => hsq ⟨m, d, h⟩) (by simp)
    obtain rfl := ht t rfl
    obtain ⟨out, e3, h3, h4⟩ := directionLoop_some hs hsq t' ds
    refine ⟨(d, writeBand nx ny p) :: out, ?_, by simp [h3], ?_⟩
    · simp only [directionLoop, e1, e2, e3]
    · intro d' g hg
      rcases List.mem_cons.mp hg with h | h
      · rw [Prod.mk.injEq] at h
        obtain ⟨rfl, rfl⟩ := h
        exact writeBand_ok hp
      · exact h4 d' g h

theorem processTile_ok {files : Mult → Dir → Option (Raster K T)} {nx ny : ℕ} {re rn : Raster K T}
    (hs : TileShape files nx ny) (hn : files .ms .n = some rn) (he : files .ms .e = some re)
    (hsq : (∃ m d, files m d = none) → nx = ny) :
    ∃ tif, processTile files = .ok tif ∧ tif.transform = re.transform ∧
      tif.bands.map Prod.fst = Dir.convertOrder ∧
      ∀ d g, (d, g) ∈ tif.bands → Holds nx ny g (productAt files d) := by
  obtain ⟨bands, t, e1, ⟨p, e2, hp⟩, -, ht⟩ := readBands_ok (d := .e) (tr := none) hs
      (fun ⟨m, h⟩ => hsq ⟨m, .e, h⟩) (by simp [he])
  obtain ⟨r, hr, rfl⟩ := ht rfl
  rw [he, Option.some.injEq] at hr
  subst hr
  obtain ⟨out, e3, h3, h4⟩ := directionLoop_some hs hsq re.transform
    [.n, .ne, .nw, .s, .se, .sw, .w]
  refine ⟨⟨(.e, writeBand nx ny p) :: out, re.transform⟩, ?_, rfl, by simp [h3, Dir.convertOrder], ?_⟩
  · simp only [processTile, hn, (hs _ _ _ hn).1, (hs _ _ _ hn).2, Dir.convertOrder, directionLoop,
      e1, e2]
    simp only [directionLoop] at e3
    rw [e3]
  · intro d' g hg
    rcases List.mem_cons.mp hg with h | h
    · rw [Prod.mk.injEq] at h
      obtain ⟨rfl, rfl⟩ := h
      exact writeBand_ok hp
    · exact h4 d' g h

/-! ### Failing replacement -/

theorem openOrOnes_error {nx ny : ℕ} (h : nx ≠ ny) (t : T) :
    openOrOnes (K := K) nx ny (some t) none = .error .valueError := by
  have : nx < ny ∨ ny < nx := by omega
  simp [openOrOnes, writeArray, newBand, this]

theorem openOrOnes_cases {nx ny : ℕ} (h : nx ≠ ny) (t : T) (file : Option (Raster K T)) :
    (∃ r, file = some r ∧ openOrOnes nx ny (some t) file = .ok r) ∨
      (file = none ∧ openOrOnes nx ny (some t) file = .error .valueError) := by
  cases file with
  | some r => exact .inl ⟨r, rfl, rfl⟩
  | none => exact .inr ⟨rfl, openOrOnes_error h t⟩

theorem readBands_error {files : Mult → Dir → Option (Raster K T)} {nx ny : ℕ} {d : Dir}
    {tr : Option T} (h : nx ≠ ny) (ht : tr = none → (files .ms d).isSome)
    (hm : ∃ m, files m d = none) :
    readBands files nx ny d Mult.order tr = .error .valueError := by
  have key : ∀ t : T, ∀ ms : List Mult, (∃ m ∈ ms, files m d = none) →
      readBands files nx ny d ms (some t) = .error .valueError := by
    intro t ms
    induction ms with
    | nil => simp
    | cons m ms ih =>
      intro hx
      rcases openOrOnes_cases h t (files m d) with ⟨r, e1, e2⟩ | ⟨e1, e2⟩
      · have : ∃ m ∈ ms, files m d = none := by
          obtain ⟨m', hm', hn⟩ := hx
          rcases List.mem_cons.mp hm' with rfl | hm'
          · rw [e1] at hn; cases hn
          · exact ⟨m', hm', hn⟩
        simp only [readBands, e2, Option.getD_some, ih this]
      · simp only [readBands, e2]
  have hall : ∀ m : Mult, m ∈ Mult.order := by intro m; cases m <;> decide
  cases tr with
  | some t => exact key t _ (hm.imp fun m h => ⟨hall m, h⟩)
  | none =>
    obtain ⟨r, hr⟩ := Option.isSome_iff_exists.mp (ht rfl)
    have : readBands files nx ny d [Mult.mz, Mult.mt] (some r.transform) = .error .valueError := by
      apply key
      obtain ⟨m, hm⟩ := hm
      refine ⟨m, ?_, hm⟩
      cases m with
      | ms => rw [hr] at hm; cases hm
      | mz => decide
      | mt => decide
    rw [Mult.order, readBands, hr]
    simp only [openOrOnes, Option.getD_none, this]

theorem directionLoop_error {files : Mult → Dir → Option (Raster K T)} {nx ny : ℕ}
    (hs : TileShape files nx ny) (h : nx ≠ ny) :
    ∀ (ds : List Dir) (tr : Option T), (tr = none → ∀ d, ds.head? = some d → (files .ms d).isSome) →
      (∃ d ∈ ds, ∃ m, files m d = none) →
      directionLoop files nx ny ds tr = .error .valueError
  | [], _, _, hx => by simp at hx
  | d :: ds, tr, ht, hx => by
    by_cases hm : ∃ m, files m d = none
    · simp only [directionLoop, readBands_error h (fun e => ht e d rfl) hm]
    · obtain ⟨bands, t', e1, ⟨p, e2, hp⟩, -, -⟩ := readBands_ok (d := d) (tr := tr) hs
        (fun hm' => absurd hm' hm) (fun e => ht e d rfl)
      have ih := directionLoop_error hs h ds (some t') (by simp) (by
        obtain ⟨d', hd', hx⟩ := hx
        rcases List.mem_cons.mp hd' with rfl | hd'
        · exact absurd hx hm
        · exact ⟨d', hd', hx⟩)
      simp only [directionLoop, e1, e2, ih]

/-! ### The maximum -/

theorem foldl_max_ge {K α : Type} [LinearOrder K] (f : α → K) (l : List α) (a : K) :
    a ≤ l.foldl (fun m c => max m (f c)) a := by
  induction l generalizing a with
  | nil => exact le_refl _
  | cons c l ih => exact le_trans (le_max_left _ _) (ih _)

theorem foldl_max_mem {K α : Type} [LinearOrder K] (f : α → K) (l : List α) (a : K) :
    (∀ c ∈ l, f c ≤ l.foldl (fun m c => max m (f c)) a) ∧
      (l.foldl (fun m c => max m (f c)) a = a ∨
        ∃ c ∈ l, l.foldl (fun m c => max m (f c)) a = f c) := by
  induction l generalizing a with
  | nil => simp
  | cons c l ih =>
    obtain ⟨h1, h2⟩ := ih (max a (f c))
    constructor
    · intro c' hc'
      rcases List.mem_cons.mp hc' with rfl | hc'
      · exact le_trans (le_max_right _ _) (foldl_max_ge f l _)
      · exact h1 c' hc'
    · simp only [List.foldl_cons]
      rcases h2 with h2 | ⟨c', hc', h2⟩
      · rw [h2]
        rcases max_choice a (f c) with h | h
        · exact .inl h
        · exact .inr ⟨c, by simp, h⟩
      · exact .inr ⟨c', by simp [hc'], h2⟩

theorem bandsByIndex_eq (tif : TileTif K T) (ds : List Dir) (k : ℕ)
    (h : tif.bands.length = k + ds.length) :
    bandsByIndex tif k ds = .ok ((tif.bands.drop k).map Prod.snd) := by
  induction ds generalizing k with
  | nil =>
    rw [List.drop_eq_nil_of_le (by simpa using h.le)]; rfl
  | cons d ds ih =>
    have hk : k < tif.bands.length := by rw [h]; simp
    rw [bandsByIndex, List.getElem?_eq_getElem hk]
    simp only
    rw [ih (k + 1) (by rw [h]; simp; omega), List.drop_eq_getElem_cons hk]
    rfl

/-! ### Strided slices -/

section Stride
variable {α : Type}

theorem strideSlice_getElem? (l : List α) (i n k : ℕ) (hn : 0 < n) :
    (strideSlice l i n)[k]? = l[i + k * n]? := by
  have key : ∀ m, (∀ j < m, i + j * n < l.length) →
      ((List.range m).filterMap fun k => l[i + k * n]?)[k]? = if k < m then l[i + k * n]? else none := by
    intro m hm
    have : ((List.range m).filterMap fun k => l[i + k * n]?) =
        (List.range m).pmap (fun j (h : i + j * n < l.length) => l[i + j * n])
          (fun j hj => hm j (List.mem_range.mp hj)) := by
      clear k
      induction m with
      | zero => rfl
      | succ m ih =>
        have ih' := ih (fun j hj => hm j (by omega))
        simp only [List.range_succ, List.filterMap_append, List.pmap_append]
        rw [ih']
        simp [List.getElem?_eq_getElem (hm m (by omega))]
    rw [this]
    by_cases hk : k < m
    · rw [if_pos hk, List.getElem?_eq_getElem (by simpa using hk)]
      rw [List.getElem_pmap, List.getElem?_eq_getElem (hm k hk)]
      simp
    · rw [if_neg hk, List.getElem?_eq_none]; simpa using hk
  have hlt : ∀ j, j < (l.length - i + (n - 1)) / n ↔ i + j * n < l.length := by
    intro j
    rw [← Nat.succ_le_iff, Nat.le_div_iff_mul_le hn, Nat.succ_mul]
    omega
  rw [strideSlice, key _ (fun j hj => (hlt j).mp hj)]
  by_cases hk : i + k * n < l.length
  · rw [if_pos ((hlt k).mpr hk)]
  · rw [if_neg (fun h => hk ((hlt k).mp h)), List.getElem?_eq_none (by omega)]

theorem strideSlice_length (l : List α) (i n : ℕ) (hn : 0 < n) :
    (strideSlice l i n).length = (l.length - i + (n - 1)) / n := by
  have hlt : ∀ j, j < (l.length - i + (n - 1)) / n ↔ i + j * n < l.length := by
    intro j
    rw [← Nat.succ_le_iff, Nat.le_div_iff_mul_le hn, Nat.succ_mul]
    omega
  apply Nat.le_antisymm
  · by_contra h
    push Not at h
    have h1 := strideSlice_getElem? l i n ((l.length - i + (n - 1)) / n) hn
    rw [List.getElem?_eq_getElem h, List.getElem?_eq_none] at h1
    · cases h1
    · have := mt (hlt _).mpr (lt_irrefl _); omega
  · by_contra h
    push Not at h
    have h1 := strideSlice_getElem? l i n (strideSlice l i n).length hn
    rw [List.getElem?_eq_none (le_refl _), List.getElem?_eq_getElem ((hlt _).mp h)] at h1
    cases h1

/-- The indices of a rank's share. -/
def strideIdx (len i n : ℕ) : List ℕ := (List.range ((len - i + (n - 1)) / n)).map fun k => i + k * n

theorem mem_strideIdx {len i n x : ℕ} (hn : 0 < n) (hi : i < n) :
    x ∈ strideIdx len i n ↔ x < len ∧ x % n = i := by
  have hlt : ∀ j, j < (len - i + (n - 1)) / n ↔ i + j * n < len := by
    intro j
    rw [← Nat.succ_le_iff, Nat.le_div_iff_mul_le hn, Nat.succ_mul]
    omega
  simp only [strideIdx, List.mem_map, List.mem_range]
  constructor
  · rintro ⟨k, hk, rfl⟩
    exact ⟨(hlt k).mp hk, by rw [Nat.add_mul_mod_self_right, Nat.mod_eq_of_lt hi]⟩
  · rintro ⟨h1, h2⟩
    have h3 : i + x / n * n = x := by
      rw [← h2, Nat.mul_comm]; exact Nat.mod_add_div x n
    exact ⟨x / n, (hlt _).mpr (by omega), h3⟩

theorem strideIdx_flatMap_perm (len n : ℕ) (hn : 0 < n) :
    ((List.range n).flatMap fun i => strideIdx len i n).Perm (List.range len) := by
  rw [List.perm_ext_iff_of_nodup _ List.nodup_range]
  · intro x
    simp only [List.mem_flatMap, List.mem_range]
    constructor
    · rintro ⟨i, hi, hx⟩
      exact ((mem_strideIdx hn hi).mp hx).1
    · intro hx
      exact ⟨x % n, Nat.mod_lt _ hn, (mem_strideIdx hn (Nat.mod_lt _ hn)).mpr ⟨hx, rfl⟩⟩
  · rw [List.nodup_flatMap]
    constructor
    · intro i _
      refine List.Nodup.map ?_ List.nodup_range
      intro a b hab
      exact Nat.eq_of_mul_eq_mul_right hn (Nat.add_left_cancel hab)
    · refine List.Pairwise.imp_of_mem ?_ List.nodup_range
      intro i j hi hj hij
      rw [List.mem_range] at hi hj
      intro x h1 h2
      exact hij (((mem_strideIdx hn hi).mp h1).2.symm.trans ((mem_strideIdx hn hj).mp h2).2)

theorem range_filterMap_getElem? (l : List α) :
    (List.range l.length).filterMap (fun k => l[k]?) = l := by
  induction l with
  | nil => rfl
  | cons a l ih =>
    rw [List.length_cons, List.range_succ_eq_map, List.filterMap_cons, List.filterMap_map]
    simp only [List.getElem?_cons_zero]
    congr 1

theorem rankSlices_flatten_perm (l : List α) (n : ℕ) (hn : 0 < n) :
    (rankSlices l n).flatten.Perm l := by
  have h1 : (rankSlices l n).flatten =
      ((List.range n).flatMap fun i => strideIdx l.length i n).filterMap (fun k => l[k]?) := by
    rw [rankSlices, ← List.flatMap_def, List.filterMap_flatMap]
    congr 1
    funext i
    rw [strideIdx, List.filterMap_map]
    rfl
  rw [h1]
  conv_rhs => rw [← range_filterMap_getElem? l]
  exact (strideIdx_flatMap_perm l.length n hn).filterMap _

end Stride

/-! ### Gathering -/

theorem converterRun_ok {process processMax : List Char → Except PyErr Unit} :
    ∀ {ts : List (List Char)}, (∀ t ∈ ts, process t = .ok () ∧ processMax t = .ok ()) →
      converterRun process processMax ts = .ok (ts.map m3File, ts.map m3MaxFile)
  | [], _ => rfl
  | t :: ts, h => by
    have ih := converterRun_ok (ts := ts) (fun t' ht' => h t' (by simp [ht']))
    obtain ⟨h1, h2⟩ := h t (by simp)
    simp only [converterRun, h1, h2, ih, List.map_cons]

theorem gatherRuns_ok {process processMax : List Char → Except PyErr Unit} :
    ∀ {ss : List (List (List Char))},
      (∀ s ∈ ss, ∀ t ∈ s, process t = .ok () ∧ processMax t = .ok ()) →
      gatherRuns process processMax ss =
        .ok (ss.map fun s => (s.map m3File, s.map m3MaxFile))
  | [], _ => rfl
  | s :: ss, h => by
    have ih := gatherRuns_ok (ss := ss) (fun s' hs' => h s' (by simp [hs']))
    simp only [gatherRuns, converterRun_ok (h s (by simp)), ih, List.map_cons]

theorem foldl_append_map {α β : Type} (f : α → List β) (l : List α) (acc : List β) :
    l.foldl (fun total x => total ++ f x) acc = acc ++ l.flatMap f := by
  induction l generalizing acc with
  | nil => simp
  | cons a l ih => simp [ih]

end WindMult
