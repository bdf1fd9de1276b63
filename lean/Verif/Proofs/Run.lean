import Verif.Proofs.RunStore
import Verif.Props.Dispatch
import Verif.Proofs.Convert

/-!
# The invariant of a whole run
-/

set_option autoImplicit false
set_option linter.unusedSectionVars false

namespace WindMult
open Function
variable {K T : Type} [Zero K] [One K] [Mul K] [Max K]

/-! ### Facts about the dispatch -/

theorem dstep_w {X : Type} {tiles : List X} {nW : ℕ} {s s' : DState X}
    (h : DStep tiles nW False s s') : s'.w = s.w ∨ s'.w = s.w + 1 := by
  cases h <;> simp

theorem dstep_computed {X : Type} {tiles : List X} {nW : ℕ} {s s' : DState X}
    (h : DStep tiles nW False s s') : s'.computed = s.computed ∨
      ∃ t, s'.computed = t :: s.computed := by
  cases h <;> simp

theorem dstep_returned {X : Type} {tiles : List X} {nW : ℕ} {s s' : DState X}
    (h : DStep tiles nW False s s') (hr : s.phase = .returned) : s'.phase = .returned := by
  cases h <;> simp_all

theorem dstep_finished {X : Type} {tiles : List X} {nW : ℕ} {s s' : DState X}
    (h : DStep tiles nW False s s') {d : ℕ} (hr : s.wk d = .finished) : s'.wk d = .finished := by
  cases h with
  | workerTake e t q _ _ hwk _ =>
    dsimp only; rw [update_apply]; split_ifs with h1
    · subst h1; rw [hr] at hwk; cases hwk
    · exact hr
  | workerStop e q _ _ hwk _ =>
    dsimp only; rw [update_apply]; split_ifs with h1
    · rfl
    · exact hr
  | workerDone e t _ _ hwk =>
    dsimp only; rw [update_apply]; split_ifs with h1
    · subst h1; rw [hr] at hwk; cases hwk
    · exact hr
  | workerCrash e t hc => exact absurd hc id
  | _ => exact hr

theorem busy_mem {X : Type} {tiles : List X} {nW k : ℕ} (hn : 1 ≤ nW) {s : DState X}
    (h : DRun tiles nW False k (DState.start nW) s) {d : ℕ} (hd1 : 1 ≤ d) (hd : d ≤ nW) {t : X}
    (hb : s.wk d = .busy t) : t ∈ tiles.take s.w := by
  have hi := inv_run hn h
  have e := hi.tilesEq
  have hm : t ∈ pend (s.loc d) := by
    unfold pend DState.loc
    simp [hb]
  have h2 : t ∈ ∑ e ∈ Finset.Icc 1 nW, pend (s.loc e) :=
    Multiset.mem_sum.mpr ⟨d, Finset.mem_Icc.mpr ⟨hd1, hd⟩, hm⟩
  have h3 : t ∈ ((tiles.take s.w : List X) : Multiset X) := by
    rw [← e]; exact Multiset.mem_add.mpr (.inr h2)
  exact Multiset.mem_coe.mp h3

theorem index_lt_of_mem_take {X : Type} {l : List X} (hnd : l.Nodup) {n i : ℕ} {t : X}
    (h : t ∈ l.take n) (hi : l[i]? = some t) : i < n := by
  obtain ⟨j, hj, e⟩ := List.mem_iff_getElem.mp h
  rw [List.length_take] at hj
  rw [List.getElem_take] at e
  have : l[j]? = some t := by rw [List.getElem?_eq_getElem (by omega), e]
  obtain ⟨hi', e'⟩ := List.getElem?_eq_some_iff.mp hi
  have := (List.Nodup.getElem_inj_iff hnd (hi := by omega) (hj := hi')).mp (e.trans e'.symm)
  omega

/-! ### Where the processes are -/

structure PosInv (c : RunCfg K T) (s : RunState K T) : Prop where
  b1 : ∀ r, r ≤ c.nW → 2 ≤ s.pos r → ∀ q, q ≤ c.nW → 1 ≤ s.pos q
  b2 : ∀ r, r ≤ c.nW → 4 ≤ s.pos r → ∀ q, q ≤ c.nW → 3 ≤ s.pos q
  b3 : ∀ r, r ≤ c.nW → 5 ≤ s.pos r → 5 ≤ s.pos 0
  b4 : 6 ≤ s.pos 0 → ∀ r, r ≤ c.nW → 6 ≤ s.pos r
  b5 : ∀ r, r ≤ c.nW → 7 ≤ s.pos r → ∀ q, q ≤ c.nW → 6 ≤ s.pos q
  b6 : ∀ r, r ≤ c.nW → s.pos r ≤ 7

theorem posInv_start (c : RunCfg K T) (st : Store K T) : PosInv c (c.start st) := by
  constructor <;> simp [RunCfg.start]

/-- Moving one rank one step on. -/
theorem posInv_move {c : RunCfg K T} {s s' : RunState K T} (h : PosInv c s) {r0 n : ℕ}
    (hr0 : r0 ≤ c.nW) (hp : s'.pos = update s.pos r0 n) (hn : s.pos r0 ≤ n) (hn7 : n ≤ 7)
    (h1 : 2 ≤ n → ∀ q, q ≤ c.nW → 1 ≤ s.pos q) (h2 : 4 ≤ n → ∀ q, q ≤ c.nW → 3 ≤ s.pos q)
    (h3 : 5 ≤ n → r0 = 0 ∨ 5 ≤ s.pos 0) (h4 : 6 ≤ n → r0 = 0 → ∀ q, 1 ≤ q → q ≤ c.nW → 6 ≤ s.pos q)
    (h5 : 7 ≤ n → ∀ q, q ≤ c.nW → 6 ≤ s.pos q) : PosInv c s' := by
  have e : ∀ q, s'.pos q = if q = r0 then n else s.pos q := fun q => by rw [hp, update_apply]
  have mono : ∀ q, s.pos q ≤ s'.pos q := by
    intro q
    rw [e]; split_ifs with b
    · subst b; exact hn
    · exact le_refl _
  constructor
  · intro r hr h' q hq
    refine le_trans ?_ (mono q)
    rw [e] at h'
    by_cases a : r = r0
    · rw [if_pos a] at h'; exact h1 h' q hq
    · rw [if_neg a] at h'; exact h.b1 r hr h' q hq
  · intro r hr h' q hq
    refine le_trans ?_ (mono q)
    rw [e] at h'
    by_cases a : r = r0
    · rw [if_pos a] at h'; exact h2 h' q hq
    · rw [if_neg a] at h'; exact h.b2 r hr h' q hq
  · intro r hr h'
    have m0 := mono 0
    rw [e] at h'
    by_cases a : r = r0
    · rw [if_pos a] at h'
      rcases h3 h' with h3 | h3
      · rw [e, if_pos h3.symm]; exact h'
      · omega
    · rw [if_neg a] at h'
      exact le_trans (h.b3 r hr h') m0
  · intro h' r hr
    have m0 := mono r
    rw [e] at h'
    by_cases a : 0 = r0
    · rw [if_pos a] at h'
      by_cases b : r = 0
      · rw [e, if_pos (b.trans a)]; exact h'
      · exact le_trans (h4 h' a.symm r (by omega) hr) m0
    · rw [if_neg a] at h'
      exact le_trans (h.b4 h' r hr) m0
  · intro r hr h' q hq
    refine le_trans ?_ (mono q)
    rw [e] at h'
    by_cases a : r = r0
    · rw [if_pos a] at h'; exact h5 h' q hq
    · rw [if_neg a] at h'; exact h.b5 r hr h' q hq
  · intro r hr
    rw [e]
    split_ifs
    · exact hn7
    · exact h.b6 r hr

theorem posInv_same {c : RunCfg K T} {s s' : RunState K T} (h : PosInv c s) (hp : s'.pos = s.pos) :
    PosInv c s' := by
  constructor <;> rw [hp]
  exacts [h.b1, h.b2, h.b3, h.b4, h.b5, h.b6]

theorem posInv_step {c : RunCfg K T} {s s' : RunState K T} (h : PosInv c s) (hs : RunStep c s s') :
    PosInv c s' := by
  cases hs with
  | prepare h0 =>
    exact posInv_move h (Nat.zero_le _) rfl (by omega) (by omega) (by omega) (by omega) (by omega)
      (by omega) (by omega)
  | skip r h1 hr h0 =>
    exact posInv_move h hr rfl (by omega) (by omega) (by omega) (by omega) (by omega) (by omega)
      (by omega)
  | leave1 r hr h0 hall =>
    exact posInv_move h hr rfl (by omega) (by omega) (fun _ => hall) (by omega) (by omega) (by omega)
      (by omega)
  | sched => exact posInv_same h rfl
  | masterOp => exact posInv_same h rfl
  | workerOp => exact posInv_same h rfl
  | serialOp => exact posInv_same h rfl
  | masterEnd h0 =>
    exact posInv_move h (Nat.zero_le _) rfl (by omega) (by omega)
      (fun _ => h.b1 0 (Nat.zero_le _) (by omega)) (by omega) (by omega) (by omega) (by omega)
  | workerEnd d hd1 hd h0 =>
    exact posInv_move h hd rfl (by omega) (by omega)
      (fun _ => h.b1 d hd (by omega)) (by omega) (by omega) (by omega) (by omega)
  | leave2 r hr h0 hall =>
    exact posInv_move h hr rfl (by omega) (by omega) (fun _ => h.b1 r hr (by omega)) (fun _ => hall)
      (by omega) (by omega) (by omega)
  | list l h0 =>
    exact posInv_move h (Nat.zero_le _) rfl (by omega) (by omega)
      (fun _ => h.b1 0 (Nat.zero_le _) (by omega)) (fun _ => h.b2 0 (Nat.zero_le _) (by omega))
      (fun _ => .inl rfl) (by omega) (by omega)
  | receive r h1 hr h0 h5 =>
    exact posInv_move h hr rfl (by omega) (by omega)
      (fun _ => h.b1 r hr (by omega)) (fun _ => h.b2 r hr (by omega))
      (fun _ => .inr h5) (by omega) (by omega)
  | convert => exact posInv_same h rfl
  | convertMax => exact posInv_same h rfl
  | send r h1 hr h0 =>
    exact posInv_move h hr rfl (by omega) (by omega)
      (fun _ => h.b1 r hr (by omega)) (fun _ => h.b2 r hr (by omega))
      (fun _ => .inr (h.b3 r hr (by omega))) (by omega) (by omega)
  | gather h0 _ hall =>
    exact posInv_move h (Nat.zero_le _) rfl (by omega) (by omega)
      (fun _ => h.b1 0 (Nat.zero_le _) (by omega)) (fun _ => h.b2 0 (Nat.zero_le _) (by omega))
      (fun _ => .inl rfl) (fun _ _ => hall) (by omega)
  | leave3 r hr h0 hall =>
    exact posInv_move h hr rfl (by omega) (by omega)
      (fun _ => h.b1 r hr (by omega)) (fun _ => h.b2 r hr (by omega))
      (fun _ => .inr (h.b3 r hr (by omega))) (fun _ _ q _ hq => hall q hq) (fun _ => hall)

/-! ### The tiles -/

structure WorkInv (c : RunCfg K T) (st0 : Store K T) (s : RunState K T) : Prop where
  d1 : 1 ≤ c.nW → ∃ k, DRun c.tiles c.nW False k (DState.start c.nW) s.disp
  d2 : 1 ≤ c.nW → 3 ≤ s.pos 0 → s.disp.phase = .returned
  d3 : ∀ d, 1 ≤ d → d ≤ c.nW → 3 ≤ s.pos d → s.disp.wk d = .finished
  s1 : c.nW = 0 → 3 ≤ s.pos 0 → ∀ t ∈ c.tiles, s.rem t = []
  r1 : 1 ≤ c.nW → ∀ i t, c.tiles[i]? = some t → s.disp.w < i → s.rem t = c.ops t
  r2 : 1 ≤ c.nW → ∀ t, c.tiles[s.disp.w]? = some t → s.rem t = c.ops t ∨ s.rem t = (c.ops t).tail
  r3 : ∀ t ∈ s.disp.computed, s.rem t = []
  p0 : s.pos 0 = 0 → s.store = st0 ∧ s.rem = c.ops
  t1 : 1 ≤ s.pos 0 → s.pos 0 ≤ 4 → TileStore c (c.wipe st0) s.rem s.store
  h0 : s.pos 0 ≤ 4 → ∀ r, s.half r = false

theorem wipe_below (c : RunCfg K T) (st0 : Store K T) (p : List Char)
    (h : withSlash c.out <+: p) : c.wipe st0 p = none := by
  unfold RunCfg.wipe
  rw [below_eq, if_pos h]

theorem workInv_start (c : RunCfg K T) (st0 : Store K T) : WorkInv c st0 (c.start st0) where
  d1 := fun _ => ⟨0, .refl _⟩
  d2 := fun _ h => by simp [RunCfg.start] at h
  d3 := fun _ _ _ h => by simp [RunCfg.start] at h
  s1 := fun _ h => by simp [RunCfg.start] at h
  r1 := fun _ _ _ _ _ => rfl
  r2 := fun _ _ _ => .inl rfl
  r3 := fun _ h => by simp [RunCfg.start, DState.start] at h
  p0 := fun _ => ⟨rfl, rfl⟩
  t1 := fun h => by simp [RunCfg.start] at h
  h0 := fun _ _ => rfl

/-- A step that only moves a rank. -/
theorem workInv_move {c : RunCfg K T} {st0 : Store K T} {s s' : RunState K T} (h : WorkInv c st0 s)
    {r0 n : ℕ} (hp : s'.pos = update s.pos r0 n) (hn : s.pos r0 < n)
    (hd : s'.disp = s.disp) (hr : s'.rem = s.rem) (hhf : s'.half = s.half)
    (h3 : 3 ≤ n → s.pos r0 < 3 → (r0 = 0 → (1 ≤ c.nW → s.disp.phase = .returned) ∧
      (c.nW = 0 → ∀ t ∈ c.tiles, s.rem t = [])) ∧ (1 ≤ r0 → s.disp.wk r0 = .finished))
    (hst : s'.store = s.store ∨ (r0 = 0 ∧ 5 ≤ n))
    (hst0 : r0 = 0 → s.pos 0 ≠ 0) : WorkInv c st0 s' := by
  have e : ∀ q, s'.pos q = if q = r0 then n else s.pos q := fun q => by rw [hp, update_apply]
  constructor
  · rw [hd]; exact h.d1
  · intro hw h'
    rw [hd]
    rw [e] at h'
    split_ifs at h' with a
    · subst a
      by_cases hlt : s.pos 0 < 3
      · exact ((h3 h' hlt).1 rfl).1 hw
      · exact h.d2 hw (by omega)
    · exact h.d2 hw h'
  · intro d hd1 hd2 h'
    rw [hd]
    rw [e] at h'
    split_ifs at h' with a
    · subst a
      by_cases hlt : s.pos d < 3
      · exact (h3 h' hlt).2 hd1
      · exact h.d3 d hd1 hd2 (by omega)
    · exact h.d3 d hd1 hd2 h'
  · intro hw h'
    rw [hr]
    rw [e] at h'
    split_ifs at h' with a
    · subst a
      by_cases hlt : s.pos 0 < 3
      · exact ((h3 h' hlt).1 rfl).2 hw
      · exact h.s1 hw (by omega)
    · exact h.s1 hw h'
  · rw [hd, hr]; exact h.r1
  · rw [hd, hr]; exact h.r2
  · rw [hd, hr]; exact h.r3
  · intro h'
    rw [e] at h'
    split_ifs at h' with a
    · omega
    · rcases hst with hst | ⟨h1, -⟩
      · rw [hst, hr]; exact h.p0 h'
      · exact absurd h1.symm a
  · intro h1 h2
    rw [e] at h1 h2
    rw [hr]
    rcases hst with hst | ⟨h3, h4⟩
    · rw [hst]
      split_ifs at h1 h2 with a
      · subst a
        have := hst0 rfl
        exact h.t1 (by omega) (by omega)
      · exact h.t1 h1 h2
    · subst h3
      rw [if_pos rfl] at h2
      omega
  · intro h'
    rw [e] at h'
    rw [hhf]
    split_ifs at h' with a
    · subst a; exact h.h0 (by omega)
    · exact h.h0 h'

/-- A file operation of a tile. -/
theorem workInv_op {c : RunCfg K T} (hc : c.Good) {st0 : Store K T} {s : RunState K T}
    (h : WorkInv c st0 s) (hpos1 : 1 ≤ s.pos 0) (hpos4 : s.pos 0 ≤ 4)
    (hs0 : c.nW = 0 → s.pos 0 < 3) {t : List Char} (ht : t ∈ c.tiles) {o : FileOp}
    {os : List FileOp} {st : Store K T} (ho : s.rem t = o :: os)
    (hex : o.exec (c.written t) s.store = .ok st)
    (hlt : 1 ≤ c.nW → ∀ i, c.tiles[i]? = some t → i < s.disp.w ∨
      (i = s.disp.w ∧ s.rem t = c.ops t)) :
    WorkInv c st0 { s with rem := update s.rem t os, store := st } := by
  refine ⟨h.d1, h.d2, h.d3, fun h1 h2 => absurd (hs0 h1) (by simpa using h2), ?_, ?_, ?_, ?_, ?_, h.h0⟩
  · intro hn i t' hi hw
    show update s.rem t os t' = _
    rw [update_apply, if_neg]
    · exact h.r1 hn i t' hi hw
    · rintro rfl
      rcases hlt hn i hi with h1 | ⟨h1, -⟩
      · exact absurd h1 (by simpa using Nat.le_of_lt hw)
      · exact absurd hw (by simp [h1])
  · intro hn t' hi
    show update s.rem t os t' = _ ∨ update s.rem t os t' = _
    rw [update_apply]
    split_ifs with e
    · subst e
      rcases hlt hn _ hi with h1 | ⟨-, h1⟩
      · exact absurd h1 (lt_irrefl _)
      · right; rw [← h1, ho]; rfl
    · exact h.r2 hn t' hi
  · intro t' ht'
    show update s.rem t os t' = _
    rw [update_apply]
    split_ifs with e
    · subst e
      rw [h.r3 t' ht'] at ho; cases ho
    · exact h.r3 t' ht'
  · intro h1
    exact absurd h1 (by show s.pos 0 ≠ 0; omega)
  · intro h1 h2
    exact tileStore_step hc (wipe_below c st0) (h.t1 h1 h2) ht ho hex

theorem workInv_step {c : RunCfg K T} (hc : c.Good) {st0 : Store K T} {s s' : RunState K T}
    (hp : PosInv c s) (h : WorkInv c st0 s) (hs : RunStep c s s') : WorkInv c st0 s' := by
  have early : ∀ d, d ≤ c.nW → s.pos d = 2 → 1 ≤ s.pos 0 ∧ s.pos 0 ≤ 4 := by
    intro d hd h2
    refine ⟨hp.b1 d hd (by omega) 0 (Nat.zero_le _), ?_⟩
    by_contra hlt
    have := hp.b2 0 (Nat.zero_le _) (by omega) d hd
    omega
  cases hs with
  | prepare h0 =>
    obtain ⟨e1, e2⟩ := h.p0 h0
    refine ⟨h.d1, ?_, ?_, ?_, h.r1, h.r2, h.r3, ?_, ?_, ?_⟩
    · intro _ h'; simp at h'
    · intro d hd1 hd2 h'
      have h' : 3 ≤ update s.pos 0 1 d := h'
      rw [update_of_ne (by omega)] at h'
      exact h.d3 d hd1 hd2 h'
    · intro _ h'; simp at h'
    · intro h'; simp at h'
    · intro _ _
      show TileStore c (c.wipe st0) s.rem (c.wipe s.store)
      rw [e1, e2]; exact tileStore_start c _
    · intro _; exact h.h0 (by omega)
  | skip r h1 hr h0 =>
    exact workInv_move h rfl (by omega) rfl rfl rfl (by omega) (.inl rfl) (by omega)
  | leave1 r hr h0 hall =>
    exact workInv_move h rfl (by omega) rfl rfl rfl (by omega) (.inl rfl)
      (fun e => by subst e; omega)
  | sched d' hn hd hmaster hworker hcut hdone =>
    obtain ⟨k, hrun⟩ := h.d1 hn
    refine ⟨fun _ => ⟨k + 1, hrun.step hd⟩, fun h1 h2 => dstep_returned hd (h.d2 h1 h2),
      fun d h1 h2 h3 => dstep_finished hd (h.d3 d h1 h2 h3), h.s1, ?_, ?_, ?_, h.p0, h.t1, h.h0⟩
    · intro h1 i t hi hw
      refine h.r1 h1 i t hi ?_
      have hw : d'.w < i := hw
      rcases dstep_w hd with e | e <;> omega
    · intro h1 t hi
      rcases dstep_w hd with e | e
      · refine h.r2 h1 t ?_
        rw [← e]; exact hi
      · left
        refine h.r1 h1 (s.disp.w + 1) t ?_ (by omega)
        rw [← e]; exact hi
    · intro t ht
      have ht : t ∈ d'.computed := ht
      rcases dstep_computed hd with e | ⟨t', e⟩
      · rw [e] at ht; exact h.r3 t ht
      · rw [e] at ht
        rcases List.mem_cons.mp ht with rfl | ht
        · exact hdone t e
        · exact h.r3 t ht
  | masterOp t o os st hn h2 ht hfull ho hex =>
    obtain ⟨e1, e2⟩ := early 0 (Nat.zero_le _) h2
    refine workInv_op hc h e1 e2 (by omega) (List.mem_of_getElem? ht) ho hex ?_
    intro _ i hi
    right
    refine ⟨?_, hfull⟩
    obtain ⟨hi1, e1⟩ := List.getElem?_eq_some_iff.mp hi
    obtain ⟨hi2, e2⟩ := List.getElem?_eq_some_iff.mp ht
    exact (List.Nodup.getElem_inj_iff hc.nodup).mp (e1.trans e2.symm)
  | workerOp d t o os st hd1 hd h2 hbusy ho hex =>
    obtain ⟨e1, e2⟩ := early d hd h2
    obtain ⟨k, hrun⟩ := h.d1 (by omega)
    have hm := busy_mem (by omega) hrun hd1 hd hbusy
    refine workInv_op hc h e1 e2 (by omega) (List.mem_of_mem_take hm) ho hex ?_
    intro _ i hi
    exact .inl (index_lt_of_mem_take hc.nodup hm hi)
  | serialOp i t o os st hn h2 ht hprev ho hex =>
    exact workInv_op hc h (by omega) (by omega) (by omega) (List.mem_of_getElem? ht) ho hex
      (by omega)
  | masterEnd h0 hret hser =>
    exact workInv_move h rfl (by omega) rfl rfl rfl (fun _ _ => ⟨fun _ => ⟨hret, hser⟩, by omega⟩)
      (.inl rfl) (by omega)
  | workerEnd d hd1 hd h0 hfin =>
    exact workInv_move h rfl (by omega) rfl rfl rfl (fun _ _ => ⟨by omega, fun _ => hfin⟩)
      (.inl rfl) (by omega)
  | leave2 r hr h0 hall =>
    exact workInv_move h rfl (by omega) rfl rfl rfl (by omega) (.inl rfl)
      (fun e => by subst e; omega)
  | list l h0 =>
    exact workInv_move h (r0 := 0) rfl (by omega) rfl rfl rfl (by omega) (.inl rfl) (by omega)
  | receive r h1 hr h0 h5 =>
    exact workInv_move h rfl (by omega) rfl rfl rfl (by omega) (.inl rfl) (by omega)
  | convert r t ts x hr h5 =>
    have h0 : 5 ≤ s.pos 0 := hp.b3 r hr (by omega)
    exact ⟨h.d1, h.d2, h.d3, h.s1, h.r1, h.r2, h.r3, fun h' => absurd h' (by show s.pos 0 ≠ 0; omega),
      fun _ h' => absurd h' (by show ¬ s.pos 0 ≤ 4; omega),
      fun h' => absurd h' (by show ¬ s.pos 0 ≤ 4; omega)⟩
  | convertMax r t ts x mx hr h5 =>
    have h0 : 5 ≤ s.pos 0 := hp.b3 r hr (by omega)
    exact ⟨h.d1, h.d2, h.d3, h.s1, h.r1, h.r2, h.r3, fun h' => absurd h' (by show s.pos 0 ≠ 0; omega),
      fun _ h' => absurd h' (by show ¬ s.pos 0 ≤ 4; omega),
      fun h' => absurd h' (by show ¬ s.pos 0 ≤ 4; omega)⟩
  | send r h1 hr h0 =>
    exact workInv_move h rfl (by omega) rfl rfl rfl (by omega) (.inl rfl) (by omega)
  | gather h0 _ hall =>
    exact workInv_move h (r0 := 0) rfl (by omega) rfl rfl rfl (by omega) (.inr ⟨rfl, by omega⟩) (by omega)
  | leave3 r hr h0 hall =>
    exact workInv_move h rfl (by omega) rfl rfl rfl (by omega) (.inl rfl)
      (fun e => by subst e; omega)

/-- Once the master is past the second barrier all tiles are done. -/
theorem rem_nil {c : RunCfg K T} {st0 : Store K T} {s : RunState K T}
    (h : WorkInv c st0 s) (h4 : 3 ≤ s.pos 0) : ∀ t ∈ c.tiles, s.rem t = [] := by
  intro t ht
  by_cases hn : c.nW = 0
  · exact h.s1 hn h4 t ht
  · obtain ⟨k, hrun⟩ := h.d1 (by omega)
    have := C08_each_tile_exactly_once c.tiles c.nW (by omega) False k s.disp hrun
      (h.d2 (by omega) h4)
    exact h.r3 t (this.mem_iff.mpr ht)

/-! ### The conversion -/

/-- The tiles handed out, in rank order. -/
def RunState.handed (c : RunCfg K T) (s : RunState K T) : List (List Char) :=
  (List.range (c.nW + 1)).flatMap s.share

structure ConvInv (c : RunCfg K T) (st1 : Store K T) (s : RunState K T) : Prop where
  nodup : (s.handed c).Nodup
  mem : ∀ t, t ∈ s.handed c ↔ t ∈ c.tiles ∧ c.empty t = false
  suf : ∀ r, r ≤ c.nW → s.todo r <:+ s.share r
  fin : ∀ t, t ∈ c.tiles → c.empty t = false → (∀ r, r ≤ c.nW → t ∉ s.todo r) →
    ∃ x mx, processTile (c.seen t) = .ok x ∧ processMaxTile x = .ok mx ∧
      s.store (c.m3 t) = some (.tif x) ∧ s.store (c.m3Max t) = some (.maxTif mx)
  half : ∀ r, r ≤ c.nW → s.half r = true → ∃ t ts x, s.todo r = t :: ts ∧
    processTile (c.seen t) = .ok x ∧ s.store (c.m3 t) = some (.tif x)
  own : ∀ t ∈ c.tiles, ∀ p, Owned c.out t p → s.store p = c.left t p
  vrt : 6 ≤ s.pos 0 → s.store c.vrt = some (.vrt ((s.handed c).map c.m3)) ∧
    s.store c.vrtMax = some (.vrt ((s.handed c).map c.m3Max))
  over : ∀ r, r ≤ c.nW → 6 ≤ s.pos r → s.todo r = []
  rest : ∀ p, (∀ t ∈ c.tiles, ¬ Owned c.out t p) →
    (∀ t ∈ c.tiles, c.empty t = false → p ≠ c.m3 t ∧ p ≠ c.m3Max t) → p ≠ c.vrt → p ≠ c.vrtMax →
    s.store p = st1 p

theorem share_flatMap {X : Type} (l : List X) (n : ℕ) :
    ((List.range n).flatMap fun r => (rankSlices l n)[r]?.getD []) = (rankSlices l n).flatten := by
  unfold rankSlices
  rw [← List.flatMap_def]
  apply List.flatMap_congr
  intro r hr
  rw [List.getElem?_map, List.getElem?_range (List.mem_range.mp hr)]
  rfl

theorem convInv_list {c : RunCfg K T} (hc : c.Good) {st0 : Store K T} {s : RunState K T}
    (hp : PosInv c s) (h : WorkInv c st0 s) (l : List (List Char)) (h4 : s.pos 0 = 4)
    (hnd : l.Nodup)
    (hl : ∀ t, t ∈ l ↔ ∃ f, f ≠ [] ∧ '/' ∉ f ∧ s.store (pjoin c.shieldDir f) ≠ none ∧
      tileOfFile f = t) :
    ConvInv c (c.wipe st0) { s with
        pos := Function.update s.pos 0 5
        share := fun r => (rankSlices l (c.nW + 1))[r]?.getD []
        todo := fun r => (rankSlices l (c.nW + 1))[r]?.getD [] } := by
  have ht := h.t1 (by omega) (by omega)
  have hrem := rem_nil h (by omega)
  have hown : ∀ t ∈ c.tiles, ∀ p, Owned c.out t p → s.store p = c.left t p := fun t h' =>
    tileStore_end hc (wipe_below c st0) ht h' (hrem t h')
  have hlist : ∀ t, t ∈ l ↔ t ∈ c.tiles ∧ c.empty t = false := fun t => (hl t).trans
    (listed_iff hc hown (fun p hp1 hp2 => by rw [ht.rest p hp1, wipe_below c st0 p hp2]) t)
  have hperm := rankSlices_flatten_perm l (c.nW + 1) (by omega)
  rw [← share_flatMap] at hperm
  constructor
  · exact hperm.nodup_iff.mpr hnd
  · intro t
    rw [← hlist]; exact hperm.mem_iff
  · intro r _; exact List.suffix_refl _
  · intro t h1 h2 h3
    have : t ∈ l := (hlist t).mpr ⟨h1, h2⟩
    obtain ⟨r, hr, hm⟩ := List.mem_flatMap.mp (hperm.mem_iff.mpr this)
    exact absurd hm (h3 r (by have := List.mem_range.mp hr; omega))
  · intro r _ hh
    rw [show s.half r = false from h.h0 (by omega) r] at hh
    cases hh
  · exact hown
  · intro h'; simp at h'
  · intro r hr h'
    by_cases e : r = 0
    · subst e; simp at h'
    · have h' : 6 ≤ update s.pos 0 5 r := h'
      rw [update_of_ne e] at h'
      have := hp.b3 r hr (by omega)
      omega
  · intro p hp1 _ _ _
    exact ht.rest p hp1

theorem convInv_step {c : RunCfg K T} (hc : c.Good) {st0 : Store K T} {s s' : RunState K T}
    (hp : PosInv c s) (hw : WorkInv c st0 s)
    (h : 5 ≤ s.pos 0 → ConvInv c (c.wipe st0) s) (hs : RunStep c s s') :
    5 ≤ s'.pos 0 → ConvInv c (c.wipe st0) s' := by
  have late : ∀ d, d ≤ c.nW → s.pos d = 2 → ¬ 5 ≤ s.pos 0 := by
    intro d hd h2 h5
    have := hp.b2 0 (Nat.zero_le _) (by omega) d hd
    omega
  have move : ∀ r0 n, r0 ≤ c.nW → s'.pos = update s.pos r0 n → s'.share = s.share →
      s'.todo = s.todo → s'.half = s.half → s'.store = s.store →
      (5 ≤ s'.pos 0 → 5 ≤ s.pos 0) → (6 ≤ s'.pos 0 → 6 ≤ s.pos 0) →
      (6 ≤ n → s.todo r0 = []) → (5 ≤ s'.pos 0 → ConvInv c (c.wipe st0) s') := by
    intro r0 n hr0 e1 e2 e3 e4 e5 e6 e7 e8 h5
    have h := h (e6 h5)
    have eh : s'.handed c = s.handed c := by unfold RunState.handed; rw [e2]
    refine ⟨by rw [eh]; exact h.nodup, by rw [eh]; exact h.mem, by rw [e2, e3]; exact h.suf,
      by rw [e3, e5]; exact h.fin, by rw [e3, e4, e5]; exact h.half, by rw [e5]; exact h.own,
      fun h6 => by rw [eh, e5]; exact h.vrt (e7 h6), ?_, by rw [e5]; exact h.rest⟩
    intro r hr h6
    rw [e3]
    rw [e1, update_apply] at h6
    split_ifs at h6 with e
    · subst e; exact e8 h6
    · exact h.over r hr h6
  cases hs with
  | prepare h0 => intro h'; simp at h'
  | skip r h1 hr h0 =>
    exact move r 1 hr rfl rfl rfl rfl rfl
      (by show 5 ≤ update s.pos r 1 0 → _; rw [update_of_ne (by omega)]; exact id)
      (by show 6 ≤ update s.pos r 1 0 → _; rw [update_of_ne (by omega)]; exact id) (by omega)
  | leave1 r hr h0 hall =>
    refine move r 2 hr rfl rfl rfl rfl rfl ?_ ?_ (by omega) <;>
      (show _ ≤ update s.pos r 2 0 → _; rw [update_apply]; split_ifs with e; all_goals omega)
  | sched d' hn hd => exact fun h' => let h := h h'; ⟨h.nodup, h.mem, h.suf, h.fin, h.half, h.own, h.vrt, h.over, h.rest⟩
  | masterOp t o os st hn h2 =>
    exact fun h' => absurd h' (late 0 (Nat.zero_le _) h2)
  | workerOp d t o os st hd1 hd h2 =>
    exact fun h' => absurd h' (late d hd h2)
  | serialOp i t o os st hn h2 =>
    exact fun h' => absurd h' (late 0 (Nat.zero_le _) h2)
  | masterEnd h0 => intro h'; simp at h'
  | workerEnd d hd1 hd h0 =>
    exact move d 3 hd rfl rfl rfl rfl rfl
      (by show 5 ≤ update s.pos d 3 0 → _; rw [update_of_ne (by omega)]; exact id)
      (by show 6 ≤ update s.pos d 3 0 → _; rw [update_of_ne (by omega)]; exact id) (by omega)
  | leave2 r hr h0 hall =>
    refine move r 4 hr rfl rfl rfl rfl rfl ?_ ?_ (by omega) <;>
      (show _ ≤ update s.pos r 4 0 → _; rw [update_apply]; split_ifs with e; all_goals omega)
  | list l h0 hnd hl => exact fun _ => convInv_list hc hp hw l h0 hnd hl
  | receive r h1 hr h0 h5 =>
    exact move r 5 hr rfl rfl rfl rfl rfl
      (by show 5 ≤ update s.pos r 5 0 → _; rw [update_of_ne (by omega)]; exact id)
      (by show 6 ≤ update s.pos r 5 0 → _; rw [update_of_ne (by omega)]; exact id) (by omega)
  | convert r t ts x hr h5 htodo hhalf hx =>
    intro h'
    have h := h h'
    have hmem : t ∈ c.tiles ∧ c.empty t = false := by
      rw [← h.mem]
      refine List.mem_flatMap.mpr ⟨r, List.mem_range.mpr (by omega), ?_⟩
      exact (h.suf r hr).subset (by rw [htodo]; simp)
    have hx' : processTile (c.seen t) = .ok x := by
      rw [← hx]
      congr 1
      funext m d
      exact (readMult_left hc hmem.1 (h.own t hmem.1) m d).symm
    refine ⟨h.nodup, h.mem, h.suf, ?_, ?_, ?_, ?_, h.over, ?_⟩
    · intro t' h1 h2 h3
      have hne : t' ≠ t := by
        rintro rfl
        exact h3 r hr (by show t' ∈ s.todo r; rw [htodo]; simp)
      obtain ⟨y, my, e1, e2, e3, e4⟩ := h.fin t' h1 h2 h3
      refine ⟨y, my, e1, e2, ?_, ?_⟩
      · show update _ _ _ _ = _
        rw [update_of_ne (fun e => hne (m3_inj c e))]; exact e3
      · show update _ _ _ _ = _
        rw [update_of_ne (m3_ne_m3Max c t t').symm]; exact e4
    · intro r' hr' hh
      by_cases e : r' = r
      · subst e
        exact ⟨t, ts, x, htodo, hx', by show update _ _ _ _ = _; rw [update_self]⟩
      · have hh : update s.half r true r' = true := hh
        rw [update_of_ne e] at hh
        obtain ⟨t', ts', y, e1, e2, e3⟩ := h.half r' hr' hh
        by_cases et : t' = t
        · subst et
          exact ⟨t', ts', x, e1, hx', by show update _ _ _ _ = _; rw [update_self]⟩
        · refine ⟨t', ts', y, e1, e2, ?_⟩
          show update _ _ _ _ = _
          rw [update_of_ne (fun e => et (m3_inj c e))]; exact e3
    · intro t' ht' p hp'
      show update _ _ _ _ = _
      rw [update_of_ne]
      · exact h.own t' ht' p hp'
      · rintro rfl; exact m3_not_owned c hc.out _ _ hp'
    · intro h6
      obtain ⟨e1, e2⟩ := h.vrt h6
      constructor
      · show update _ _ _ _ = _
        rw [update_of_ne (m3_ne_vrt c t).1.symm]; exact e1
      · show update _ _ _ _ = _
        rw [update_of_ne (m3_ne_vrt c t).2.symm]; exact e2
    · intro p h1 h2 h3 h4
      show update _ _ _ _ = _
      rw [update_of_ne (h2 t hmem.1 hmem.2).1]
      exact h.rest p h1 h2 h3 h4
  | convertMax r t ts x mx hr h5 htodo hhalf hfile hmx =>
    intro h'
    have h := h h'
    have hmem : t ∈ c.tiles ∧ c.empty t = false := by
      rw [← h.mem]
      refine List.mem_flatMap.mpr ⟨r, List.mem_range.mpr (by omega), ?_⟩
      exact (h.suf r hr).subset (by rw [htodo]; simp)
    have hx' : processTile (c.seen t) = .ok x := by
      obtain ⟨t', ts', y, e1, e2, e3⟩ := h.half r hr hhalf
      rw [htodo] at e1
      cases e1
      rw [hfile] at e3
      cases e3
      exact e2
    have hst : ∀ t', update s.store (c.m3Max t) (some (.maxTif mx)) (c.m3 t') = s.store (c.m3 t') :=
      fun t' => update_of_ne (m3_ne_m3Max c t' t) _ _
    refine ⟨h.nodup, h.mem, ?_, ?_, ?_, ?_, ?_, ?_, ?_⟩
    · intro r' hr'
      show update s.todo r ts r' <:+ s.share r'
      rw [update_apply]
      split_ifs with e
      · subst e
        exact List.IsSuffix.trans (by rw [htodo]; exact List.suffix_cons _ _) (h.suf r' hr')
      · exact h.suf r' hr'
    · intro t' h1 h2 h3
      by_cases et : t' = t
      · subst et
        refine ⟨x, mx, hx', hmx, ?_, ?_⟩
        · exact (hst t').trans hfile
        · show update _ _ _ _ = _
          rw [update_self]
      · obtain ⟨y, my, e1, e2, e3, e4⟩ := h.fin t' h1 h2 (by
          intro r' hr' hm
          refine h3 r' hr' ?_
          show t' ∈ update s.todo r ts r'
          rw [update_apply]
          split_ifs with e
          · subst e
            rw [htodo] at hm
            exact (List.mem_cons.mp hm).resolve_left et
          · exact hm)
        refine ⟨y, my, e1, e2, (hst t').trans e3, ?_⟩
        show update _ _ _ _ = _
        rw [update_of_ne (fun e => et (m3Max_inj c e))]; exact e4
    · intro r' hr' hh
      have hh : update s.half r false r' = true := hh
      rw [update_apply] at hh
      split_ifs at hh with e
      obtain ⟨t', ts', y, e1, e2, e3⟩ := h.half r' hr' hh
      refine ⟨t', ts', y, ?_, e2, (hst t').trans e3⟩
      show update s.todo r ts r' = _
      rw [update_of_ne e]; exact e1
    · intro t' ht' p hp'
      show update _ _ _ _ = _
      rw [update_of_ne]
      · exact h.own t' ht' p hp'
      · rintro rfl; exact m3Max_not_owned c hc.out _ _ hp'
    · intro h6
      obtain ⟨e1, e2⟩ := h.vrt h6
      constructor
      · show update _ _ _ _ = _
        rw [update_of_ne (m3Max_ne_vrt c t).1.symm]; exact e1
      · show update _ _ _ _ = _
        rw [update_of_ne (m3Max_ne_vrt c t).2.symm]; exact e2
    · intro r' hr' h6
      show update s.todo r ts r' = []
      rw [update_apply]
      split_ifs with e
      · subst e
        have h6 : 6 ≤ s.pos r' := h6
        omega
      · exact h.over r' hr' h6
    · intro p h1 h2 h3 h4
      show update _ _ _ _ = _
      rw [update_of_ne (h2 t hmem.1 hmem.2).2]
      exact h.rest p h1 h2 h3 h4
  | send r h1 hr h0 htodo =>
    exact move r 6 hr rfl rfl rfl rfl rfl
      (by show 5 ≤ update s.pos r 6 0 → _; rw [update_of_ne (by omega)]; exact id)
      (by show 6 ≤ update s.pos r 6 0 → _; rw [update_of_ne (by omega)]; exact id) (fun _ => htodo)
  | gather h0 htodo hall =>
    intro _
    have h := h (by omega)
    let s2 : Store K T := update (update s.store c.vrt
            (some (.vrt (((List.range (c.nW + 1)).flatMap s.share).map c.m3))))
          c.vrtMax (some (.vrt (((List.range (c.nW + 1)).flatMap s.share).map c.m3Max)))
    have oth : ∀ p, p ≠ c.vrt → p ≠ c.vrtMax → s2 p = s.store p := by
      intro p h1 h2
      show update _ _ _ _ = _
      rw [update_of_ne h2, update_of_ne h1]
    refine ⟨h.nodup, h.mem, h.suf, ?_, ?_, ?_, ?_, ?_, ?_⟩
    · intro t h1 h2 h3
      obtain ⟨y, my, e1, e2, e3, e4⟩ := h.fin t h1 h2 h3
      exact ⟨y, my, e1, e2, (oth _ (m3_ne_vrt c t).1 (m3_ne_vrt c t).2).trans e3,
        (oth _ (m3Max_ne_vrt c t).1 (m3Max_ne_vrt c t).2).trans e4⟩
    · intro r hr hh
      obtain ⟨t, ts, y, e1, e2, e3⟩ := h.half r hr hh
      exact ⟨t, ts, y, e1, e2, (oth _ (m3_ne_vrt c t).1 (m3_ne_vrt c t).2).trans e3⟩
    · intro t ht p hp'
      refine (oth p ?_ ?_).trans (h.own t ht p hp')
      · rintro rfl; exact vrt_not_owned c hc.out _ hp'
      · rintro rfl; exact vrtMax_not_owned c hc.out _ hp'
    · intro _
      constructor
      · show update _ _ _ _ = _
        rw [update_of_ne (vrt_ne_vrtMax c), update_self]; rfl
      · show update _ _ _ _ = _
        rw [update_self]; rfl
    · intro r hr h6
      by_cases e : r = 0
      · subst e; exact htodo
      · exact h.over r hr (hall r (by omega) hr)
    · intro p h1 h2 h3 h4
      exact (oth p h3 h4).trans (h.rest p h1 h2 h3 h4)
  | leave3 r hr h0 hall =>
    refine move r 7 hr rfl rfl rfl rfl rfl ?_ ?_
      (fun _ => (h (hp.b3 r hr (by omega))).over r hr (by omega)) <;>
      (show _ ≤ update s.pos r 7 0 → _; rw [update_apply]; split_ifs with e; all_goals (try subst e); all_goals omega)

/-- Everything together. -/
structure RunInv (c : RunCfg K T) (st0 : Store K T) (s : RunState K T) : Prop where
  pos : PosInv c s
  work : WorkInv c st0 s
  conv : 5 ≤ s.pos 0 → ConvInv c (c.wipe st0) s

theorem runInv {c : RunCfg K T} (hc : c.Good) {st0 : Store K T} {k : ℕ} {s : RunState K T}
    (h : RunSteps c k (c.start st0) s) : RunInv c st0 s := by
  generalize h0 : c.start st0 = s0 at h
  induction h with
  | refl s =>
    subst h0
    exact ⟨posInv_start c st0, workInv_start c st0, fun h => by simp [RunCfg.start] at h⟩
  | step _ hs ih =>
    have ih := ih h0
    exact ⟨posInv_step ih.pos hs, workInv_step hc ih.pos ih.work hs,
      convInv_step hc ih.pos ih.work ih.conv hs⟩

end WindMult
