import Verif.Props.TerrainDriver
import Verif.Props.TopoMirror

/-!
# The whole terrain step on mirrored ground (C129)
-/

set_option linter.unusedSectionVars false
set_option autoImplicit false

namespace WindMult
variable {K : Type} [Field K] [LinearOrder K] [IsStrictOrderedRing K] [FloorRing K]

/-! ### One cell -/

theorem CarriesWind.reach {rows' cols' rows cols : ℕ} {d' d : Dir} {fr fc : ℤ → ℤ → ℤ}
    (h : CarriesWind rows' cols' rows cols d' d fr fc) {i j : ℕ} (hi : i < rows') (hj : j < cols') (t : ℕ) :
    InRaster rows' cols' (d'.rowUp i t) (d'.colUp j t) ↔
      InRaster rows cols (d.rowUp ((fr i j).toNat : ℕ) t) (d.colUp ((fc i j).toNat : ℕ) t) := by
  have hin := (h.inside i j).1 ⟨by omega, by omega, by omega, by omega⟩
  obtain ⟨a1, a2, a3, a4⟩ := hin
  rw [h.inside, h.row, h.col, Int.toNat_of_nonneg a1, Int.toNat_of_nonneg a3]

theorem convoCell_carried {g' g : Grid K} {d' d : Dir} {fr fc : ℤ → ℤ → ℤ}
    (h : CarriesWind g'.rows g'.cols g.rows g.cols d' d fr fc)
    (hval : ∀ r c, InRaster g'.rows g'.cols r c → g'.val r.toNat c.toNat = g.val (fr r c).toNat (fc r c).toNat)
    (width lag : ℕ) {i j : ℕ} (hi : i < g'.rows) (hj : j < g'.cols) :
    convoCell d' g' width lag i j = convoCell d g width lag (fr i j).toNat (fc i j).toNat := by
  obtain ⟨a1, a2, a3, a4⟩ := (h.inside i j).1 ⟨by omega, by omega, by omega, by omega⟩
  have hi2 : (fr i j).toNat < g.rows := by omega
  have hj2 : (fc i j).toNat < g.cols := by omega
  have h0 : g'.val i j = g.val (fr i j).toNat (fc i j).toNat := by
    simpa using hval i j ⟨by omega, by omega, by omega, by omega⟩
  rcases Nat.eq_zero_or_pos width with rfl | hw
  · have e := h.reach hi hj (lag + 1)
    rw [inRaster_iff_reach d' hi hj (by omega) lag, inRaster_iff_reach d hi2 hj2 (by omega) lag] at e
    by_cases hp : 0 < allNeighb d' i j g'.rows g'.cols lag
    · rw [show ((0 : ℕ) : ℤ) = 0 from rfl, convoCell_zero d' g' lag i j hp, convoCell_zero d g lag _ _ (by
        push_cast at e; omega)]
    · rw [convoCell_none d' g' _ lag i j hi hj (by omega), convoCell_none d g _ lag _ _ hi2 hj2 (by
        push_cast at e; omega), h0]
  · rw [convoCell_ok d' g' width lag i j hw hi hj, convoCell_ok d g width lag _ _ hw hi2 hj2]
    have hset : upwindDistances g'.rows g'.cols d' width lag i j =
        upwindDistances g.rows g.cols d width lag (fr i j).toNat (fc i j).toNat := by
      unfold upwindDistances
      exact Finset.filter_congr fun t _ => h.reach hi hj t
    unfold upwindMean
    rw [hset, h0]
    congr 2
    refine congrArg (· / _) (Finset.sum_congr rfl fun t ht => ?_)
    rw [← hset] at ht
    unfold Grid.upwind
    rw [hval _ _ (Finset.mem_filter.mp ht).2, h.row, h.col, Int.toNat_of_nonneg a1, Int.toNat_of_nonneg a3]

theorem tabulateM_val {α : Type} {junk : α} {rows cols : ℕ} {f : ℕ → ℕ → Except PyErr α} {o : Grid α}
    (h : Grid.tabulateM junk rows cols f = .ok o) :
    o.rows = rows ∧ o.cols = cols ∧ ∀ i < rows, ∀ j < cols, f i j = .ok (o.val i j) := by
  have hall := (tabulateM_ok_iff junk rows cols f).mp ⟨o, h⟩
  have : ∀ i j, ∃ v, (i < rows → j < cols → f i j = .ok v) := by
    intro i j
    by_cases hh : i < rows ∧ j < cols
    · obtain ⟨v, hv⟩ := hall i hh.1 j hh.2
      exact ⟨v, fun _ _ => hv⟩
    · exact ⟨junk, fun h1 h2 => absurd ⟨h1, h2⟩ hh⟩
  choose v hv using this
  obtain ⟨g, hg, h1, h2, h3⟩ := tabulateM_ok junk rows cols f v (fun i hi j hj => hv i j hi hj)
  rw [h, Except.ok.injEq] at hg
  subst hg
  exact ⟨h1, h2, fun i hi j hj => by rw [hv i j hi hj, h3 i hi j hj]⟩

/-! ### One direction -/

/-- The raster `g'` is the image of the raster `g` under a symmetry of the compass: `(fr, fc)` gives the position in
`g` of a position in `g'`, and `σ` the direction in `g'` of a direction in `g`. -/
structure ImageOf {α : Type} (g' g : Grid α) (σ : Dir → Dir) (fr fc : ℤ → ℤ → ℤ) : Prop where
  wind : ∀ d, CarriesWind g'.rows g'.cols g.rows g.cols (σ d) d fr fc
  val : ∀ r c, InRaster g'.rows g'.cols r c → g'.val r.toNat c.toNat = g.val (fr r c).toNat (fc r c).toNat
  onto : ∀ r c, InRaster g.rows g.cols r c → ∃ r' c', InRaster g'.rows g'.cols r' c' ∧ fr r' c' = r ∧ fc r' c' = c
  turn : ∀ d, (σ d).isCardinal = d.isCardinal
  all : ∀ d, ∃ d0, σ d0 = d

theorem ImageOf.cell {α : Type} {g' g : Grid α} {σ : Dir → Dir} {fr fc : ℤ → ℤ → ℤ} (h : ImageOf g' g σ fr fc)
    {i j : ℕ} (hi : i < g'.rows) (hj : j < g'.cols) :
    g'.val i j = g.val (fr i j).toNat (fc i j).toNat ∧ (fr i j).toNat < g.rows ∧ (fc i j).toNat < g.cols := by
  have hin : InRaster g'.rows g'.cols i j := ⟨by omega, by omega, by omega, by omega⟩
  obtain ⟨a1, a2, a3, a4⟩ := ((h.wind .n).inside i j).1 hin
  exact ⟨by simpa using h.val i j hin, by omega, by omega⟩

theorem ImageOf.back {α : Type} {g' g : Grid α} {σ : Dir → Dir} {fr fc : ℤ → ℤ → ℤ} (h : ImageOf g' g σ fr fc)
    {i j : ℕ} (hi : i < g.rows) (hj : j < g.cols) :
    ∃ i' < g'.rows, ∃ j' < g'.cols, (fr (i' : ℕ) (j' : ℕ)).toNat = i ∧ (fc (i' : ℕ) (j' : ℕ)).toNat = j := by
  obtain ⟨r, c, ⟨a1, a2, a3, a4⟩, h1, h2⟩ := h.onto i j ⟨by omega, by omega, by omega, by omega⟩
  refine ⟨r.toNat, by omega, c.toNat, by omega, ?_, ?_⟩ <;>
    rw [Int.toNat_of_nonneg a1, Int.toNat_of_nonneg a3] <;> omega

theorem ImageOf.of_val {α β : Type} {g' g : Grid α} {σ : Dir → Dir} {fr fc : ℤ → ℤ → ℤ} (h : ImageOf g' g σ fr fc)
    {k' k : Grid β} (hr' : k'.rows = g'.rows) (hc' : k'.cols = g'.cols) (hr : k.rows = g.rows) (hc : k.cols = g.cols)
    (hv : ∀ i < g'.rows, ∀ j < g'.cols, k'.val i j = k.val (fr (i : ℕ) (j : ℕ)).toNat (fc (i : ℕ) (j : ℕ)).toNat) :
    ImageOf k' k σ fr fc where
  wind := by rw [hr', hc', hr, hc]; exact h.wind
  val := by
    rw [hr', hc']
    rintro r c ⟨a1, a2, a3, a4⟩
    have := hv r.toNat (by omega) c.toNat (by omega)
    rwa [Int.toNat_of_nonneg a1, Int.toNat_of_nonneg a3] at this
  onto := by rw [hr', hc', hr, hc]; exact h.onto
  turn := h.turn
  all := h.all

theorem convo_carried {g' g : Grid K} {σ : Dir → Dir} {fr fc : ℤ → ℤ → ℤ} (h : ImageOf g' g σ fr fc) (d : Dir)
    (width lag : ℕ) :
    ((∃ o', convo (σ d) g' width lag = .ok o') ↔ ∃ o, convo d g width lag = .ok o) ∧
    ∀ o' o, convo (σ d) g' width lag = .ok o' → convo d g width lag = .ok o → ImageOf o' o σ fr fc := by
  have hcell : ∀ i < g'.rows, ∀ j < g'.cols, convoCell (σ d) g' width lag i j =
      convoCell d g width lag (fr i j).toNat (fc i j).toNat :=
    fun i hi j hj => convoCell_carried (h.wind d) h.val width lag hi hj
  unfold convo
  refine ⟨?_, fun o' o e' e => ?_⟩
  · rw [tabulateM_ok_iff, tabulateM_ok_iff]
    constructor
    · intro h1 i hi j hj
      obtain ⟨i', hi', j', hj', rfl, rfl⟩ := h.back hi hj
      rw [← hcell i' hi' j' hj']
      exact h1 i' hi' j' hj'
    · intro h1 i hi j hj
      rw [hcell i hi j hj]
      exact h1 _ (h.cell hi hj).2.1 _ (h.cell hi hj).2.2
  · obtain ⟨r1, c1, v1⟩ := tabulateM_val e'
    obtain ⟨r2, c2, v2⟩ := tabulateM_val e
    refine h.of_val r1 c1 r2 c2 fun i hi j hj => ?_
    have := v1 i hi j hj
    rw [hcell i hi j hj, v2 _ (h.cell hi hj).2.1 _ (h.cell hi hj).2.2] at this
    exact (Except.ok.inj this).symm

/-- The two rasters are as high, or both are high enough for the average of the direction not to be cut short. -/
def SameReach (rows' rows : ℕ) (d : Dir) (gw : K) : Prop :=
  rows' = rows ∨ ((terrainWidths d gw).1 + (terrainWidths d gw).2 ≤ rows' ∧
    (terrainWidths d gw).1 + (terrainWidths d gw).2 ≤ rows)

theorem terrainWidths_nonneg (d : Dir) (gw : K) (h0 : 0 < gw) : 0 ≤ (terrainWidths d gw).1 := by
  unfold terrainWidths
  split_ifs
  · exact around_nonneg (by positivity)
  · have hp : 0 < gw * (1414 / 1000) := by positivity
    have : (0 : K) ≤ 500 / (gw * (1414 / 1000)) := by positivity
    simp only
    rw [pyInt, if_pos this]
    exact Int.floor_nonneg.mpr this

theorem terrainDir_carried {g' g : Grid K} {σ : Dir → Dir} {fr fc : ℤ → ℤ → ℤ} (h : ImageOf g' g σ fr fc) (d : Dir)
    {gw : K} (h0 : 0 < gw) (hreach : SameReach g'.rows g.rows d gw) {mask' mask : ℕ → ℕ → Bool}
    (hmask : ∀ i < g'.rows, ∀ j < g'.cols, mask' i j = mask (fr i j).toNat (fc i j).toNat) :
    ((∃ o', terrainDir (σ d) gw g' mask' = .ok o') ↔ ∃ o, terrainDir d gw g mask = .ok o) ∧
    ∀ o' o, terrainDir (σ d) gw g' mask' = .ok o' → terrainDir d gw g mask = .ok o → ImageOf o' o σ fr fc := by
  have hw : terrainWidths (σ d) gw = terrainWidths d gw := by
    unfold terrainWidths
    rw [h.turn]
  have ha := terrainWidths_nonneg d gw h0
  have hl := terrainWidths_lag_nonneg d gw h0
  unfold terrainDir
  rw [hw]
  unfold SameReach at hreach
  generalize (terrainWidths d gw).1 = aw at *
  generalize (terrainWidths d gw).2 = lag at *
  simp only
  by_cases hlt : (g'.rows : ℤ) < lag
  · have hlt2 : (g.rows : ℤ) < lag := by omega
    rw [if_pos hlt, if_pos hlt2]
    refine ⟨⟨fun _ => ⟨_, rfl⟩, fun _ => ⟨_, rfl⟩⟩, fun o' o e' e => ?_⟩
    cases e'
    cases e
    exact h.of_val rfl rfl rfl rfl fun i hi j hj => by simp only [Grid.map, (h.cell hi hj).1]
  · have hlt2 : ¬ (g.rows : ℤ) < lag := by omega
    rw [if_neg hlt, if_neg hlt2]
    have hav : (if (g'.rows : ℤ) < aw + lag then (g'.rows : ℤ) - lag else aw) =
        if (g.rows : ℤ) < aw + lag then (g.rows : ℤ) - lag else aw := by
      split_ifs <;> omega
    rw [hav]
    obtain ⟨avg, hav'⟩ : ∃ avg : ℕ, (if (g.rows : ℤ) < aw + lag then (g.rows : ℤ) - lag else aw) = avg :=
      ⟨(if (g.rows : ℤ) < aw + lag then (g.rows : ℤ) - lag else aw).toNat, by split_ifs <;> omega⟩
    obtain ⟨lg, rfl⟩ : ∃ lg : ℕ, lag = lg := ⟨lag.toNat, by omega⟩
    rw [hav']
    obtain ⟨c1, c2⟩ := convo_carried h d avg lg
    cases e' : convo (σ d) g' avg lg with
    | error x' =>
      cases e : convo d g avg lg with
      | error x => simp [bind, Except.bind]
      | ok o => obtain ⟨o', ho'⟩ := c1.mpr ⟨o, e⟩; rw [e'] at ho'; cases ho'
    | ok o' =>
      cases e : convo d g avg lg with
      | error x => obtain ⟨o, ho⟩ := c1.mp ⟨o', e'⟩; rw [e] at ho; cases ho
      | ok o =>
        have him := c2 o' o e' e
        refine ⟨⟨fun _ => ⟨_, rfl⟩, fun _ => ⟨_, rfl⟩⟩, fun p' p q' q => ?_⟩
        cases q'
        cases q
        obtain ⟨r1, c1', -⟩ := tabulateM_val (show Grid.tabulateM 0 g'.rows g'.cols _ = .ok o' from e')
        refine him.of_val rfl rfl rfl rfl fun i hi j hj => ?_
        simp only [hmask i (r1 ▸ hi) j (c1' ▸ hj), (him.cell hi hj).1]

/-! ### All directions -/

theorem terrainLoop_ok_iff (gw : K) (recl : Grid K) (mask : ℕ → ℕ → Bool)
    (clip : Grid (Option K) → Grid (Option K)) (ds : List Dir) (saved : List (Dir × Grid (Option K))) :
    (terrainLoop gw recl mask clip ds saved).2 = .ok () ↔ ∀ d ∈ ds, ∃ g, terrainDir d gw recl mask = .ok g := by
  induction ds generalizing saved with
  | nil => simp [terrainLoop]
  | cons d ds ih =>
    simp only [terrainLoop]
    cases hd : terrainDir d gw recl mask with
    | error x => simp [hd]
    | ok g => simp [ih, hd]

theorem class2mz_congr {C : Type} [DecidableEq C] (mz : K → K) (data' data : Grid C) (table : List (TerrainRow C K))
    {i' j' i j : ℕ} (h : data'.val i' j' = data.val i j) :
    (terrainClass2mz mz data' table).val i' j' = (terrainClass2mz mz data table).val i j := by
  induction table using List.reverseRecOn with
  | nil => rfl
  | append_singleton l r ih => rw [terrainClass2mz_append, terrainClass2mz_append, h, ih]

theorem cells_max_congr {g' g : Grid K} (h : ∀ v, v ∈ g'.cells ↔ v ∈ g.cells) : g'.cells.max? = g.cells.max? := by
  cases hm : g.cells.max? with
  | none =>
    rw [List.max?_eq_none_iff] at hm ⊢
    rw [List.eq_nil_iff_forall_not_mem]
    intro v hv
    have := (h v).mp hv
    rw [hm] at this
    simp at this
  | some mx =>
    rw [List.max?_eq_some_iff] at hm ⊢
    exact ⟨(h _).mpr hm.1, fun v hv => hm.2 v ((h v).mp hv)⟩

theorem mem_terrainOrder (d : Dir) : d ∈ Dir.terrainOrder := by cases d <;> decide

theorem class2mz_carried {C : Type} [DecidableEq C] {data' data : Grid C} {σ : Dir → Dir} {fr fc : ℤ → ℤ → ℤ}
    (h : ImageOf data' data σ fr fc) (mz : K → K) (table : List (TerrainRow C K)) :
    (∀ i < data'.rows, ∀ j < data'.cols, (terrainClass2mz mz data' table).val i j =
      (terrainClass2mz mz data table).val (fr i j).toNat (fc i j).toNat) ∧
    (terrainClass2mz mz data' table).cells.max? = (terrainClass2mz mz data table).cells.max? := by
  obtain ⟨s1', s2'⟩ := terrainClass2mz_shape mz data' table
  obtain ⟨s1, s2⟩ := terrainClass2mz_shape mz data table
  have hcls : ∀ i < data'.rows, ∀ j < data'.cols, (terrainClass2mz mz data' table).val i j =
      (terrainClass2mz mz data table).val (fr i j).toNat (fc i j).toNat :=
    fun i hi j hj => class2mz_congr mz data' data table (h.cell hi hj).1
  refine ⟨hcls, cells_max_congr fun v => ?_⟩
  rw [mem_cells, mem_cells, s1', s2', s1, s2]
  constructor
  · rintro ⟨i, hi, j, hj, rfl⟩
    exact ⟨_, (h.cell hi hj).2.1, _, (h.cell hi hj).2.2, (hcls i hi j hj).symm⟩
  · rintro ⟨i, hi, j, hj, rfl⟩
    obtain ⟨i', hi', j', hj', rfl, rfl⟩ := h.back hi hj
    exact ⟨i', hi', j', hj', hcls i' hi' j' hj'⟩

theorem terrain_carried {C : Type} [DecidableEq C] {data' data : Grid C} {σ : Dir → Dir} {fr fc : ℤ → ℤ → ℤ}
    (h : ImageOf data' data σ fr fc) (mz : K → K) {gw : K} (h0 : 0 < gw) (table : List (TerrainRow C K))
    (hreach : ∀ d, SameReach data'.rows data.rows d gw) :
    ((terrain mz gw data' table id).2 = .ok () ↔ (terrain mz gw data table id).2 = .ok ()) ∧
    ∀ d out' out, (σ d, out') ∈ (terrain mz gw data' table id).1 → (d, out) ∈ (terrain mz gw data table id).1 →
      ImageOf out' out σ fr fc := by
  obtain ⟨s1', s2'⟩ := terrainClass2mz_shape mz data' table
  obtain ⟨s1, s2⟩ := terrainClass2mz_shape mz data table
  obtain ⟨hcls, hmax⟩ := class2mz_carried h mz table
  unfold terrain
  simp only [hmax]
  cases (terrainClass2mz mz data table).cells.max? with
  | none => simp
  | some mx =>
    dsimp only
    split_ifs with hz
    · simp
    · generalize terrainClass2mz mz data' table = recl' at *
      generalize terrainClass2mz mz data table = recl at *
      have him := h.of_val (k' := (⟨recl'.rows, recl'.cols, fun i j =>
          if decide (recl'.val i j = 0) = true then 1 else recl'.val i j⟩ : Grid K))
        (k := ⟨recl.rows, recl.cols, fun i j => if decide (recl.val i j = 0) = true then 1 else recl.val i j⟩)
        s1' s2' s1 s2 (fun i hi j hj => by simp only [hcls i hi j hj])
      have hd := fun d => terrainDir_carried him d h0 (by rw [s1', s1]; exact hreach d)
        (mask' := fun i j => decide (recl'.val i j = 0)) (mask := fun i j => decide (recl.val i j = 0))
        (fun i hi j hj => by simp only [hcls i (s1' ▸ hi) j (s2' ▸ hj)])
      refine ⟨?_, fun d out' out m' m => ?_⟩
      · rw [terrainLoop_ok_iff, terrainLoop_ok_iff]
        constructor
        · intro a d _
          exact (hd d).1.mp (a _ (mem_terrainOrder _))
        · intro a d _
          obtain ⟨d0, rfl⟩ := h.all d
          exact (hd d0).1.mpr (a _ (mem_terrainOrder _))
      · obtain ⟨new', n1', n2', -⟩ := terrainLoop_spec gw _ (fun i j => decide (recl'.val i j = 0)) id
          Dir.terrainOrder []
        obtain ⟨new, n1, n2, -⟩ := terrainLoop_spec gw _ (fun i j => decide (recl.val i j = 0)) id
          Dir.terrainOrder []
        rw [n1', List.nil_append] at m'
        rw [n1, List.nil_append] at m
        obtain ⟨-, k', hk', e'⟩ := n2' _ m'
        obtain ⟨-, k, hk, e⟩ := n2 _ m
        rw [id] at e' e
        dsimp only at hk' hk e' e
        rw [e', e]
        exact (hd d).2 k' k hk' hk

theorem terrainDir_shape {d : Dir} {gw : K} {g : Grid K} {mask : ℕ → ℕ → Bool} {o : Grid (Option K)}
    (h : terrainDir d gw g mask = .ok o) : o.rows = g.rows ∧ o.cols = g.cols := by
  unfold terrainDir at h
  simp only at h
  split_ifs at h with hlt
  · cases h; exact ⟨rfl, rfl⟩
  all_goals
    cases hc : convo d g _ (terrainWidths d gw).2 with
    | error x => rw [hc] at h; cases h
    | ok k =>
      rw [hc] at h
      cases h
      obtain ⟨r1, c1, -⟩ := tabulateM_val hc
      exact ⟨r1, c1⟩

theorem terrain_shape {C : Type} [DecidableEq C] {data : Grid C} {mz : K → K} {gw : K}
    {table : List (TerrainRow C K)} {d : Dir} {out : Grid (Option K)}
    (h : (d, out) ∈ (terrain mz gw data table id).1) : out.rows = data.rows ∧ out.cols = data.cols := by
  obtain ⟨s1, s2⟩ := terrainClass2mz_shape mz data table
  unfold terrain at h
  simp only at h
  split at h
  · simp at h
  · split_ifs at h
    · simp at h
    · obtain ⟨new, n1, n2, -⟩ := terrainLoop_spec gw
        ⟨(terrainClass2mz mz data table).rows, (terrainClass2mz mz data table).cols, fun i j =>
          if decide ((terrainClass2mz mz data table).val i j = 0) then 1
          else (terrainClass2mz mz data table).val i j⟩
        (fun i j => decide ((terrainClass2mz mz data table).val i j = 0)) id Dir.terrainOrder []
      rw [n1, List.nil_append] at h
      obtain ⟨-, k, hk, e⟩ := n2 _ h
      obtain ⟨r1, c1⟩ := terrainDir_shape hk
      have e : out = k := e
      rw [e, r1, c1]
      exact ⟨s1, s2⟩

/-! ### C129 -/

theorem image_mirrorEW {α : Type} (g : Grid α) :
    ImageOf g.mirrorEW g Dir.mirrorEW (fun r _ => r) (fun _ c => g.cols - 1 - c) where
  wind := fun d => ⟨fun r c => by simp only [InRaster, Grid.mirrorEW]; omega,
    fun r c t => by cases d <;> simp only [Dir.mirrorEW, Dir.rowUp, Dir.north],
    fun r c t => by cases d <;> simp only [Dir.mirrorEW, Dir.colUp, Dir.east] <;> ring⟩
  val := by
    rintro r c ⟨p1, p2, p3, p4⟩
    simp only [Grid.mirrorEW] at p2 p4 ⊢
    congr 1
    omega
  onto := fun r c ⟨p1, p2, p3, p4⟩ => ⟨r, g.cols - 1 - c, ⟨p1, p2, by omega, by
    show (g.cols : ℤ) - 1 - c < g.cols
    omega⟩, rfl, by ring⟩
  turn := fun d => by cases d <;> rfl
  all := fun d => ⟨d.mirrorEW, by cases d <;> rfl⟩

theorem image_mirrorNS {α : Type} (g : Grid α) :
    ImageOf g.mirrorNS g Dir.mirrorNS (fun r _ => g.rows - 1 - r) (fun _ c => c) where
  wind := fun d => ⟨fun r c => by simp only [InRaster, Grid.mirrorNS]; omega,
    fun r c t => by cases d <;> simp only [Dir.mirrorNS, Dir.rowUp, Dir.north] <;> ring,
    fun r c t => by cases d <;> simp only [Dir.mirrorNS, Dir.colUp, Dir.east]⟩
  val := by
    rintro r c ⟨p1, p2, p3, p4⟩
    simp only [Grid.mirrorNS] at p2 p4 ⊢
    congr 1
    omega
  onto := fun r c ⟨p1, p2, p3, p4⟩ => ⟨g.rows - 1 - r, c, ⟨by omega, by
    show (g.rows : ℤ) - 1 - r < g.rows
    omega, p3, p4⟩, by ring, rfl⟩
  turn := fun d => by cases d <;> rfl
  all := fun d => ⟨d.mirrorNS, by cases d <;> rfl⟩

theorem image_transpose {α : Type} (g : Grid α) :
    ImageOf g.transpose g Dir.transpose (fun _ c => c) (fun r _ => r) where
  wind := fun d => ⟨fun r c => by simp only [InRaster, Grid.transpose]; omega,
    fun r c t => by cases d <;> simp only [Dir.transpose, Dir.rowUp, Dir.colUp, Dir.north, Dir.east] <;> ring,
    fun r c t => by cases d <;> simp only [Dir.transpose, Dir.rowUp, Dir.colUp, Dir.north, Dir.east] <;> ring⟩
  val := fun r c _ => rfl
  onto := fun r c ⟨p1, p2, p3, p4⟩ => ⟨c, r, ⟨p3, p4, p1, p2⟩, rfl, rfl⟩
  turn := fun d => by cases d <;> rfl
  all := fun d => ⟨d.transpose, by cases d <;> rfl⟩

variable {C : Type} [DecidableEq C]

/-- **C129** (east-west) The terrain step on the mirror image of a land-cover tile succeeds if and only if it does on
the tile, and its arrays in the mirrored directions are the mirror images of those of the tile. -/
theorem C129_mirror_east_west (mz : K → K) {gw : K} (h0 : 0 < gw) (data : Grid C) (table : List (TerrainRow C K)) :
    ((terrain mz gw data.mirrorEW table id).2 = .ok () ↔ (terrain mz gw data table id).2 = .ok ()) ∧
    ∀ d out' out, (d.mirrorEW, out') ∈ (terrain mz gw data.mirrorEW table id).1 →
      (d, out) ∈ (terrain mz gw data table id).1 → out'.Same out.mirrorEW := by
  obtain ⟨h1, h2⟩ := terrain_carried (image_mirrorEW data) mz h0 table (fun d => Or.inl rfl)
  refine ⟨h1, fun d out' out m' m => ?_⟩
  have him := h2 d out' out m' m
  obtain ⟨r', c'⟩ := terrain_shape m'
  obtain ⟨r, c⟩ := terrain_shape m
  refine ⟨r'.trans r.symm, c'.trans c.symm, fun i hi j hj => ?_⟩
  rw [(him.cell hi hj).1]
  have hj : j < data.cols := c' ▸ hj
  simp only [Grid.mirrorEW, c]
  congr 1
  omega

/-- **C129** (north-south) -/
theorem C129_mirror_north_south (mz : K → K) {gw : K} (h0 : 0 < gw) (data : Grid C) (table : List (TerrainRow C K)) :
    ((terrain mz gw data.mirrorNS table id).2 = .ok () ↔ (terrain mz gw data table id).2 = .ok ()) ∧
    ∀ d out' out, (d.mirrorNS, out') ∈ (terrain mz gw data.mirrorNS table id).1 →
      (d, out) ∈ (terrain mz gw data table id).1 → out'.Same out.mirrorNS := by
  obtain ⟨h1, h2⟩ := terrain_carried (image_mirrorNS data) mz h0 table (fun d => Or.inl rfl)
  refine ⟨h1, fun d out' out m' m => ?_⟩
  have him := h2 d out' out m' m
  obtain ⟨r', c'⟩ := terrain_shape m'
  obtain ⟨r, c⟩ := terrain_shape m
  refine ⟨r'.trans r.symm, c'.trans c.symm, fun i hi j hj => ?_⟩
  rw [(him.cell hi hj).1]
  have hi : i < data.rows := r' ▸ hi
  simp only [Grid.mirrorNS, r]
  congr 1
  omega

/-- **C129** (transposition) *Full statement:* as for the mirrors, for every tile.  False (`C129_transpose_false`).
*Proved:* the statement for square tiles and for tiles whose rows and columns both reach as far as the average of
every direction; *missing:* tiles with fewer rows or columns that are not square. -/
theorem C129_transpose_partial (mz : K → K) {gw : K} (h0 : 0 < gw) (data : Grid C) (table : List (TerrainRow C K))
    (hlarge : data.rows = data.cols ∨ ∀ d, (terrainWidths d gw).1 + (terrainWidths d gw).2 ≤ data.rows ∧
      (terrainWidths d gw).1 + (terrainWidths d gw).2 ≤ data.cols) :
    ((terrain mz gw data.transpose table id).2 = .ok () ↔ (terrain mz gw data table id).2 = .ok ()) ∧
    ∀ d out' out, (d.transpose, out') ∈ (terrain mz gw data.transpose table id).1 →
      (d, out) ∈ (terrain mz gw data table id).1 → out'.Same out.transpose := by
  obtain ⟨h1, h2⟩ := terrain_carried (image_transpose data) mz h0 table (fun d => by
    rcases hlarge with h | h
    · exact Or.inl h.symm
    · exact Or.inr ⟨(h d).2, (h d).1⟩)
  refine ⟨h1, fun d out' out m' m => ?_⟩
  have him := h2 d out' out m' m
  obtain ⟨r', c'⟩ := terrain_shape m'
  obtain ⟨r, c⟩ := terrain_shape m
  refine ⟨r'.trans c.symm, c'.trans r.symm, fun i hi j hj => ?_⟩
  rw [(him.cell hi hj).1]
  simp [Grid.transpose]

/-- Two rows of land with a city at the western end. -/
def strip : Grid ℕ := ⟨2, 5, fun _ j => if j = 0 then 1 else 2⟩

/-- **C129 is false of the code** for transposition: the average is cut short by the number of rows, in all directions.
On a strip of two rows of cells of 200 m the average for a west wind has one cell; on the strip turned to two columns
the average for a north wind has two cells. -/
theorem C129_transpose_false :
    ¬ ∀ (mz : ℚ → ℚ) (gw : ℚ) (data : Grid ℕ) (table : List (TerrainRow ℕ ℚ)), 0 < gw →
      ∀ d out' out, (d.transpose, out') ∈ (terrain mz gw data.transpose table id).1 →
        (d, out) ∈ (terrain mz gw data table id).1 → out'.Same out.transpose := by
  intro h
  have hw : ((terrain (fun z => z) (200 : ℚ) strip [⟨1, 7 / 10⟩, ⟨2, 9 / 10⟩] id).1.any
      fun p => decide (p.1 = Dir.w) && decide (p.2.val 0 3 = some (9 / 10))) = true := by decide +kernel
  have hw' : ((terrain (fun z => z) (200 : ℚ) strip.transpose [⟨1, 7 / 10⟩, ⟨2, 9 / 10⟩] id).1.any
      fun p => decide (p.1 = Dir.n) && decide (p.2.val 3 0 = some (8 / 10)) && decide (p.2.rows = 5) &&
        decide (p.2.cols = 2)) = true := by decide +kernel
  obtain ⟨⟨d, out⟩, hmem, hp⟩ := List.any_eq_true.mp hw
  obtain ⟨⟨d', out'⟩, hmem', hp'⟩ := List.any_eq_true.mp hw'
  simp only [Bool.and_eq_true, decide_eq_true_eq] at hp hp'
  obtain ⟨rfl, hv⟩ := hp
  obtain ⟨⟨⟨rfl, hv'⟩, hr⟩, hc⟩ := hp'
  have := (h (fun z => z) 200 strip _ (by norm_num) .w out' out hmem' hmem).2.2 3 (by omega) 0 (by omega)
  rw [hv'] at this
  have : some (8 / 10 : ℚ) = out.val 0 3 := this
  rw [hv] at this
  norm_num at this

/-- The hypothesis of the transposition is met by an ordinary tile (20 m cells, 40 rows of 50 cells). -/
example : ∀ d, (terrainWidths d (20 : ℚ)).1 + (terrainWidths d (20 : ℚ)).2 ≤ (40 : ℕ) := by
  intro d
  cases d <;> decide +kernel

/-- The strip and its mirror image are computed without an error, and the arrays are not constant. -/
example : (terrain (fun z => z) (200 : ℚ) strip [⟨1, 7 / 10⟩, ⟨2, 9 / 10⟩] id).2 = .ok () ∧
    ((terrain (fun z => z) (200 : ℚ) strip.mirrorEW [⟨1, 7 / 10⟩, ⟨2, 9 / 10⟩] id).1.any
      fun p => decide (p.1 = Dir.e) && decide (p.2.val 0 2 = some (7 / 10)) &&
        decide (p.2.val 0 3 = some (9 / 10))) = true := by
  decide +kernel

end WindMult
