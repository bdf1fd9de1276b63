import Verif.Proofs.Run
import Mathlib.Algebra.Order.BigOperators.Group.Finset
import Mathlib.Algebra.BigOperators.Ring.Finset

/-!
# A whole run cannot get stuck and ends
-/

set_option autoImplicit false
set_option linter.unusedSectionVars false

namespace WindMult
open Function
variable {K T : Type} [Zero K] [One K] [Mul K] [Max K]

/-! ### Who acts in a step of the dispatch -/

theorem dstep_master {X : Type} {tiles : List X} {nW : ℕ} {s s' : DState X}
    (h : DStep tiles nW False s s') (hw : s'.wk = s.wk) : s.phase ≠ .returned := by
  cases h with
  | workerTake e t q _ _ hwk _ =>
    have := congrFun hw e
    simp [hwk] at this
  | workerStop e q _ _ hwk _ =>
    have := congrFun hw e
    simp [hwk] at this
  | workerDone e t _ _ hwk =>
    have := congrFun hw e
    simp [hwk] at this
  | workerCrash e t hc => exact absurd hc id
  | _ => simp_all

theorem dstep_w_master {X : Type} {tiles : List X} {nW : ℕ} {s s' : DState X}
    (h : DStep tiles nW False s s') (hw : s'.w ≠ s.w) : s.phase ≠ .returned := by
  cases h <;> simp_all

theorem dstep_worker {X : Type} {tiles : List X} {nW : ℕ} {s s' : DState X}
    (h : DStep tiles nW False s s') {d : ℕ} (hd : s'.wk d ≠ s.wk d) :
    1 ≤ d ∧ d ≤ nW ∧ s.wk d ≠ .finished := by
  cases h with
  | workerTake e t q h1 h2 hwk _ =>
    have e1 : d = e := by
      by_contra hne
      exact hd (update_of_ne hne _ _)
    subst e1
    exact ⟨h1, h2, by rw [hwk]; simp⟩
  | workerStop e q h1 h2 hwk _ =>
    have e1 : d = e := by
      by_contra hne
      exact hd (update_of_ne hne _ _)
    subst e1
    exact ⟨h1, h2, by rw [hwk]; simp⟩
  | workerDone e t h1 h2 hwk =>
    have e1 : d = e := by
      by_contra hne
      exact hd (update_of_ne hne _ _)
    subst e1
    exact ⟨h1, h2, by rw [hwk]; simp⟩
  | workerCrash e t hc => exact absurd hc id
  | _ => exact absurd rfl hd

theorem dstep_done {X : Type} {tiles : List X} {nW : ℕ} {s s' : DState X}
    (h : DStep tiles nW False s s') {t : X} (ht : s'.computed = t :: s.computed) :
    ∃ d, 1 ≤ d ∧ d ≤ nW ∧ s.wk d = .busy t := by
  cases h with
  | workerDone e t' h1 h2 hwk =>
    simp only [List.cons.injEq, and_true] at ht
    subst ht
    exact ⟨e, h1, h2, hwk⟩
  | workerCrash e t hc => exact absurd hc id
  | _ => exact absurd ht (by simp)

theorem ops_cons (c : RunCfg K T) (t : List Char) :
    c.ops t = .create (demTemp c.out t) :: (c.ops t).tail := rfl

/-! ### Progress -/

theorem progress_tiles {c : RunCfg K T} (hc : c.Good) {st0 : Store K T} {s : RunState K T}
    (h : RunInv c st0 s) (h2 : ∀ r, r ≤ c.nW → 2 ≤ s.pos r) {r : ℕ} (hr : r ≤ c.nW)
    (hr2 : s.pos r = 2) : ∃ s', RunStep c s s' := by
  have h04 : s.pos 0 ≤ 4 := by
    by_contra hlt
    have := h.pos.b2 0 (Nat.zero_le _) (by omega) r hr
    omega
  have hts := h.work.t1 (by have := h2 0 (Nat.zero_le _); omega) h04
  have hprog : ∀ t ∈ c.tiles, ∀ o os, s.rem t = o :: os →
      ∃ st, o.exec (c.written t) s.store = .ok st := fun t ht o os ho =>
    tileStore_progress hc (wipe_below c st0) hts ht ho
  by_cases hn : c.nW = 0
  · have hr0 : r = 0 := by omega
    subst hr0
    by_cases hall : ∀ t ∈ c.tiles, s.rem t = []
    · exact ⟨_, .masterEnd s hr2 (by omega) (fun _ => hall)⟩
    · push Not at hall
      have hex : ∃ i : ℕ, ∃ t, c.tiles[i]? = some t ∧ s.rem t ≠ [] := by
        obtain ⟨t, ht, hne⟩ := hall
        obtain ⟨i, hi⟩ := List.mem_iff_getElem?.mp ht
        exact ⟨i, t, hi, hne⟩
      classical
      obtain ⟨t, hi, hne⟩ := Nat.find_spec hex
      match hrem : s.rem t with
      | [] => exact absurd hrem hne
      | o :: os =>
        obtain ⟨st, hst⟩ := hprog t (List.mem_of_getElem? hi) o os hrem
        refine ⟨_, .serialOp s (Nat.find hex) t o os st hn hr2 hi ?_ hrem hst⟩
        intro j t' hj ht'
        by_contra hne'
        exact Nat.find_min hex hj ⟨t', ht', hne'⟩
  · obtain ⟨k, hrun⟩ := h.work.d1 (by omega)
    by_cases hst : ∃ d', DStep c.tiles c.nW False s.disp d'
    · obtain ⟨d', hd⟩ := hst
      have p0 : s.disp.phase ≠ .returned → s.pos 0 = 2 := by
        intro hph
        have := h2 0 (Nat.zero_le _)
        by_contra hne
        exact hph (h.work.d2 (by omega) (by omega))
      have pd : ∀ d, 1 ≤ d → d ≤ c.nW → s.disp.wk d ≠ .finished → s.pos d = 2 := by
        intro d h1 h2' hne
        have := h2 d h2'
        by_contra hne'
        exact hne (h.work.d3 d h1 h2' (by omega))
      by_cases hcut : d'.w ≠ s.disp.w → ∀ t, c.tiles[s.disp.w]? = some t →
          s.rem t = (c.ops t).tail
      · by_cases hdone : ∀ t, d'.computed = t :: s.disp.computed → s.rem t = []
        · refine ⟨_, .sched s d' (by omega) hd (fun hw => p0 (dstep_master hd hw)) ?_ hcut hdone⟩
          intro d hne
          obtain ⟨h1, h3, h4⟩ := dstep_worker hd hne
          exact pd d h1 h3 h4
        · push Not at hdone
          obtain ⟨t, ht, hne⟩ := hdone
          obtain ⟨d, h1, h3, hb⟩ := dstep_done hd ht
          match hrem : s.rem t with
          | [] => exact absurd hrem hne
          | o :: os =>
            have hm := List.mem_of_mem_take (busy_mem (by omega) hrun h1 h3 hb)
            obtain ⟨st, hst⟩ := hprog t hm o os hrem
            exact ⟨_, .workerOp s d t o os st h1 h3 (pd d h1 h3 (by rw [hb]; simp)) hb hrem hst⟩
      · push Not at hcut
        obtain ⟨hw, t, ht, hne⟩ := hcut
        have hfull : s.rem t = c.ops t := (h.work.r2 (by omega) t ht).resolve_right hne
        obtain ⟨st, hst⟩ := hprog t (List.mem_of_getElem? ht) _ _ (hfull.trans (ops_cons c t))
        exact ⟨_, .masterOp s t _ _ st (by omega) (p0 (dstep_w_master hd hw)) ht hfull
          (hfull.trans (ops_cons c t)) hst⟩
    · have hd := C09_no_deadlock c.tiles c.nW (by omega) False k s.disp hrun
        (fun d _ _ t => no_crash_of_run hrun d t) hst
      by_cases hr0 : r = 0
      · subst hr0
        exact ⟨_, .masterEnd s hr2 (fun _ => hd.1) (fun h => absurd h hn)⟩
      · exact ⟨_, .workerEnd s r (by omega) hr hr2 (hd.2 r (by omega) hr).1⟩

theorem progress {c : RunCfg K T} (hc : c.Good)
    (hconv : ∀ t ∈ c.tiles, c.empty t = false → ∃ x mx, processTile (c.seen t) = .ok x ∧
      processMaxTile x = .ok mx) {st0 : Store K T} {s : RunState K T} (h : RunInv c st0 s)
    (hnot : ∃ r, r ≤ c.nW ∧ s.pos r ≠ 7) : ∃ s', RunStep c s s' := by
  by_cases a0 : ∃ r, r ≤ c.nW ∧ s.pos r = 0
  · obtain ⟨r, hr, e⟩ := a0
    by_cases hr0 : r = 0
    · subst hr0; exact ⟨_, .prepare s e⟩
    · exact ⟨_, .skip s r (by omega) hr e⟩
  have b1 : ∀ r, r ≤ c.nW → 1 ≤ s.pos r := fun r hr => by
    by_contra hne; exact a0 ⟨r, hr, by omega⟩
  by_cases a1 : ∃ r, r ≤ c.nW ∧ s.pos r = 1
  · obtain ⟨r, hr, e⟩ := a1
    exact ⟨_, .leave1 s r hr e b1⟩
  have b2 : ∀ r, r ≤ c.nW → 2 ≤ s.pos r := fun r hr => by
    have := b1 r hr
    by_contra hne; exact a1 ⟨r, hr, by omega⟩
  by_cases a2 : ∃ r, r ≤ c.nW ∧ s.pos r = 2
  · obtain ⟨r, hr, e⟩ := a2
    exact progress_tiles hc h b2 hr e
  have b3 : ∀ r, r ≤ c.nW → 3 ≤ s.pos r := fun r hr => by
    have := b2 r hr
    by_contra hne; exact a2 ⟨r, hr, by omega⟩
  by_cases a3 : ∃ r, r ≤ c.nW ∧ s.pos r = 3
  · obtain ⟨r, hr, e⟩ := a3
    exact ⟨_, .leave2 s r hr e b3⟩
  have b4 : ∀ r, r ≤ c.nW → 4 ≤ s.pos r := fun r hr => by
    have := b3 r hr
    by_contra hne; exact a3 ⟨r, hr, by omega⟩
  by_cases a40 : s.pos 0 = 4
  · have ht := h.work.t1 (by omega) (by omega)
    have hown : ∀ t ∈ c.tiles, ∀ p, Owned c.out t p → s.store p = c.left t p := fun t h' =>
      tileStore_end hc (wipe_below c st0) ht h' (rem_nil h.work (by omega) t h')
    refine ⟨_, .list s (c.tiles.filter fun t => c.empty t = false) a40 (hc.nodup.filter _) ?_⟩
    intro t
    rw [listed_iff hc hown (fun p hp1 hp2 => by rw [ht.rest p hp1, wipe_below c st0 p hp2]) t]
    simp
  have b50 : 5 ≤ s.pos 0 := by have := b4 0 (Nat.zero_le _); omega
  by_cases a4 : ∃ r, r ≤ c.nW ∧ s.pos r = 4
  · obtain ⟨r, hr, e⟩ := a4
    exact ⟨_, .receive s r (by by_contra h0; have : r = 0 := by omega
                               subst this; exact a40 e) hr e b50⟩
  have b5 : ∀ r, r ≤ c.nW → 5 ≤ s.pos r := fun r hr => by
    have := b4 r hr
    by_contra hne; exact a4 ⟨r, hr, by omega⟩
  have hcv := h.conv b50
  by_cases a5 : ∃ r, r ≤ c.nW ∧ s.pos r = 5 ∧ s.todo r ≠ []
  · obtain ⟨r, hr, e, hne⟩ := a5
    match htodo : s.todo r with
    | [] => exact absurd htodo hne
    | t :: ts =>
      have hmem : t ∈ c.tiles ∧ c.empty t = false := by
        rw [← hcv.mem]
        refine List.mem_flatMap.mpr ⟨r, List.mem_range.mpr (by omega), ?_⟩
        exact (hcv.suf r hr).subset (by rw [htodo]; simp)
      obtain ⟨x, mx, hx, hmx⟩ := hconv t hmem.1 hmem.2
      match hhalf : s.half r with
      | false =>
        refine ⟨_, .convert s r t ts x hr e htodo hhalf ?_⟩
        rw [← hx]
        congr 1
        funext m d
        exact readMult_left hc hmem.1 (hcv.own t hmem.1) m d
      | true =>
        obtain ⟨t', ts', y, e1, e2, e3⟩ := hcv.half r hr hhalf
        rw [htodo] at e1
        cases e1
        rw [hx] at e2
        cases e2
        exact ⟨_, .convertMax s r t ts x mx hr e htodo hhalf e3 hmx⟩
  have t5 : ∀ r, r ≤ c.nW → s.pos r = 5 → s.todo r = [] := fun r hr e => by
    by_contra hne; exact a5 ⟨r, hr, e, hne⟩
  by_cases a6 : ∃ r, 1 ≤ r ∧ r ≤ c.nW ∧ s.pos r = 5
  · obtain ⟨r, h1, hr, e⟩ := a6
    exact ⟨_, .send s r h1 hr e (t5 r hr e)⟩
  by_cases a7 : s.pos 0 = 5
  · refine ⟨_, .gather s a7 (t5 0 (Nat.zero_le _) a7) ?_⟩
    intro r h1 hr
    have := b5 r hr
    by_contra hne; exact a6 ⟨r, h1, hr, by omega⟩
  have b6 : ∀ r, r ≤ c.nW → 6 ≤ s.pos r := fun r hr => by
    have := b5 r hr
    by_contra hne
    by_cases h0 : r = 0
    · subst h0; omega
    · exact a6 ⟨r, by omega, hr, by omega⟩
  obtain ⟨r, hr, hne⟩ := hnot
  have := h.pos.b6 r hr
  have := b6 r hr
  exact ⟨_, .leave3 s r hr (by omega) b6⟩

/-! ### Termination -/

theorem sum_range_eq (n : ℕ) (f : ℕ → ℕ) :
    ∑ r ∈ Finset.range n, f r = ((List.range n).map f).sum := by
  induction n with
  | zero => rfl
  | succ n ih => rw [Finset.sum_range_succ, List.range_succ, ih]; simp

/-- Half-steps left in the conversion of one rank. -/
def convLeft (s : RunState K T) (r : ℕ) : ℕ := 2 * (s.todo r).length - (if s.half r then 1 else 0)

/-- How much is left to be done. -/
def RunCfg.left' (c : RunCfg K T) (s : RunState K T) : ℕ :=
  (∑ r ∈ Finset.range (c.nW + 1), (7 - s.pos r)) +
  (if c.nW = 0 then 0 else measure c.tiles c.nW s.disp) +
  (∑ t ∈ c.tiles.toFinset, (s.rem t).length) +
  (if s.pos 0 ≤ 4 then 2 * c.tiles.length else ∑ r ∈ Finset.range (c.nW + 1), convLeft s r)

theorem sum_pos_lt {c : RunCfg K T} {s s' : RunState K T} (h : PosInv c s') {r0 n : ℕ}
    (hr0 : r0 ≤ c.nW) (hp : s'.pos = update s.pos r0 n) (hn : s.pos r0 < n) :
    (∑ r ∈ Finset.range (c.nW + 1), (7 - s'.pos r)) <
      ∑ r ∈ Finset.range (c.nW + 1), (7 - s.pos r) := by
  have hb := h.b6 r0 hr0
  refine Finset.sum_lt_sum ?_ ⟨r0, Finset.mem_range.mpr (by omega), ?_⟩
  · intro r _
    rw [hp, update_apply]
    split_ifs with e
    · subst e; omega
    · exact le_refl _
  · rw [hp, update_self] at hb ⊢
    omega

theorem left_move {c : RunCfg K T} {s s' : RunState K T} (h : PosInv c s') {r0 n : ℕ}
    (hr0 : r0 ≤ c.nW) (hp : s'.pos = update s.pos r0 n) (hn : s.pos r0 < n)
    (hd : s'.disp = s.disp) (hr : s'.rem = s.rem) (ht : s'.todo = s.todo) (hh : s'.half = s.half)
    (h4 : s'.pos 0 ≤ 4 ↔ s.pos 0 ≤ 4) : c.left' s' < c.left' s := by
  have := sum_pos_lt h hr0 hp hn
  have e : ∀ r, convLeft s' r = convLeft s r := fun r => by unfold convLeft; rw [ht, hh]
  unfold RunCfg.left'
  rw [hd, hr]
  simp only [e, h4]
  omega

theorem left_op {c : RunCfg K T} {s : RunState K T} {t : List Char} (ht : t ∈ c.tiles) {o : FileOp}
    {os : List FileOp} {st : Store K T} (ho : s.rem t = o :: os) :
    c.left' { s with rem := update s.rem t os, store := st } < c.left' s := by
  have : (∑ t' ∈ c.tiles.toFinset, (update s.rem t os t').length) <
      ∑ t' ∈ c.tiles.toFinset, (s.rem t').length := by
    refine Finset.sum_lt_sum ?_ ⟨t, List.mem_toFinset.mpr ht, ?_⟩
    · intro t' _
      rw [update_apply]
      split_ifs with e
      · subst e; rw [ho]; simp
      · exact le_refl _
    · rw [update_self, ho]; simp
  have e : ∀ r, convLeft { s with rem := update s.rem t os, store := st } r = convLeft s r :=
    fun r => rfl
  simp only [RunCfg.left', e]
  omega

theorem left_conv {c : RunCfg K T} {s s' : RunState K T} (h5 : 5 ≤ s.pos 0) {r0 : ℕ}
    (hr0 : r0 ≤ c.nW) (hp : s'.pos = s.pos) (hd : s'.disp = s.disp) (hr : s'.rem = s.rem)
    (hne : ∀ r, r ≠ r0 → convLeft s' r = convLeft s r) (hlt : convLeft s' r0 < convLeft s r0) :
    c.left' s' < c.left' s := by
  have : (∑ r ∈ Finset.range (c.nW + 1), convLeft s' r) <
      ∑ r ∈ Finset.range (c.nW + 1), convLeft s r := by
    refine Finset.sum_lt_sum ?_ ⟨r0, Finset.mem_range.mpr (by omega), hlt⟩
    intro r _
    by_cases e : r = r0
    · subst e; omega
    · rw [hne r e]
  unfold RunCfg.left'
  have e : ¬ s.pos 0 ≤ 4 := by omega
  simp only [hp, hd, hr, if_neg e]
  omega

theorem left_step {c : RunCfg K T} (hc : c.Good) {st0 : Store K T} {s s' : RunState K T}
    (h : RunInv c st0 s) (hs : RunStep c s s') : c.left' s' < c.left' s := by
  have hp' := posInv_step h.pos hs
  have hcv' := convInv_step hc h.pos h.work h.conv hs
  cases hs with
  | prepare h0 =>
    exact left_move hp' (Nat.zero_le _) rfl (by omega) rfl rfl rfl rfl (by
      show update s.pos 0 1 0 ≤ 4 ↔ _; rw [update_self]; omega)
  | skip r h1 hr h0 =>
    exact left_move hp' hr rfl (by omega) rfl rfl rfl rfl (by
      show update s.pos r 1 0 ≤ 4 ↔ _; rw [update_of_ne (by omega)])
  | leave1 r hr h0 hall =>
    exact left_move hp' hr rfl (by omega) rfl rfl rfl rfl (by
      show update s.pos r 2 0 ≤ 4 ↔ _; rw [update_apply]; split_ifs with e
      · subst e; omega
      · rfl)
  | sched d' hn hd =>
    obtain ⟨k, hrun⟩ := h.work.d1 hn
    have hi := inv_run hn hrun
    have := measure_step (fun d hd => (hi.phaseInit d hd).1) hd
    have e : ∀ r, convLeft { s with disp := d' } r = convLeft s r := fun r => rfl
    simp only [RunCfg.left', e, if_neg (show ¬ c.nW = 0 by omega)]
    omega
  | masterOp t o os st hn h2 ht hfull ho hex => exact left_op (List.mem_of_getElem? ht) ho
  | workerOp d t o os st hd1 hd h2 hbusy ho hex =>
    obtain ⟨k, hrun⟩ := h.work.d1 (by omega)
    exact left_op (List.mem_of_mem_take (busy_mem (by omega) hrun hd1 hd hbusy)) ho
  | serialOp i t o os st hn h2 ht hprev ho hex => exact left_op (List.mem_of_getElem? ht) ho
  | masterEnd h0 =>
    exact left_move hp' (Nat.zero_le _) rfl (by omega) rfl rfl rfl rfl (by
      show update s.pos 0 3 0 ≤ 4 ↔ _; rw [update_self]; omega)
  | workerEnd d hd1 hd h0 =>
    exact left_move hp' hd rfl (by omega) rfl rfl rfl rfl (by
      show update s.pos d 3 0 ≤ 4 ↔ _; rw [update_of_ne (by omega)])
  | leave2 r hr h0 hall =>
    exact left_move hp' hr rfl (by omega) rfl rfl rfl rfl (by
      show update s.pos r 4 0 ≤ 4 ↔ _; rw [update_apply]; split_ifs with e
      · subst e; omega
      · rfl)
  | list l h0 hnd hl =>
    have hcv := hcv' (by show 5 ≤ update s.pos 0 5 0; rw [update_self])
    have hsum := sum_pos_lt hp' (Nat.zero_le _) (n := 5) rfl (by omega)
    have hnd := hcv.nodup
    have hsub := fun t ht => ((hcv.mem t).mp ht).1
    have hle := (List.subperm_of_subset hnd hsub).length_le
    simp only [RunState.handed, List.length_flatMap] at hle
    have hle2 : (∑ r ∈ Finset.range (c.nW + 1),
        ((rankSlices l (c.nW + 1))[r]?.getD []).length) ≤ c.tiles.length := by
      refine le_trans (le_of_eq ?_) hle
      exact sum_range_eq _ _
    have hconv : (∑ r ∈ Finset.range (c.nW + 1), convLeft { s with
        pos := Function.update s.pos 0 5
        share := fun r => (rankSlices l (c.nW + 1))[r]?.getD []
        todo := fun r => (rankSlices l (c.nW + 1))[r]?.getD [] } r) ≤ 2 * c.tiles.length := by
      refine le_trans (Finset.sum_le_sum (g := fun r =>
        2 * ((rankSlices l (c.nW + 1))[r]?.getD []).length) fun r _ => Nat.sub_le _ _) ?_
      rw [← Finset.mul_sum]
      omega
    have e5 : ¬ update s.pos 0 5 0 ≤ 4 := by simp
    simp only [RunCfg.left', h0, if_neg e5, le_refl, if_true]
    simp only at hsum hconv
    omega
  | receive r h1 hr h0 h5 =>
    exact left_move hp' hr rfl (by omega) rfl rfl rfl rfl (by
      show update s.pos r 5 0 ≤ 4 ↔ _; rw [update_of_ne (by omega)])
  | convert r t ts x hr h5 htodo hhalf hx =>
    refine left_conv (h.pos.b3 r hr (by omega)) hr rfl rfl rfl ?_ ?_
    · intro r' hne
      show 2 * (s.todo r').length - (if update s.half r true r' then 1 else 0) = _
      rw [update_of_ne hne]; rfl
    · show 2 * (s.todo r).length - (if update s.half r true r then 1 else 0) <
        2 * (s.todo r).length - (if s.half r then 1 else 0)
      rw [update_self, hhalf, htodo]
      simp
  | convertMax r t ts x mx hr h5 htodo hhalf hfile hmx =>
    refine left_conv (h.pos.b3 r hr (by omega)) hr rfl rfl rfl ?_ ?_
    · intro r' hne
      show 2 * (update s.todo r ts r').length - (if update s.half r false r' then 1 else 0) = _
      rw [update_of_ne hne, update_of_ne hne]; rfl
    · show 2 * (update s.todo r ts r).length - (if update s.half r false r then 1 else 0) <
        2 * (s.todo r).length - (if s.half r then 1 else 0)
      rw [update_self, update_self, hhalf, htodo]
      simp
      omega
  | send r h1 hr h0 =>
    exact left_move hp' hr rfl (by omega) rfl rfl rfl rfl (by
      show update s.pos r 6 0 ≤ 4 ↔ _; rw [update_of_ne (by omega)])
  | gather h0 _ hall =>
    exact left_move hp' (Nat.zero_le _) rfl (by omega) rfl rfl rfl rfl (by
      show update s.pos 0 6 0 ≤ 4 ↔ _; rw [update_self]; omega)
  | leave3 r hr h0 hall =>
    exact left_move hp' hr rfl (by omega) rfl rfl rfl rfl (by
      show update s.pos r 7 0 ≤ 4 ↔ _; rw [update_apply]; split_ifs with e
      · subst e; omega
      · rfl)

theorem ops_length (c : RunCfg K T) (t : List Char) : (c.ops t).length ≤ 37 := by
  unfold RunCfg.ops tileOps
  cases c.empty t <;> cases c.noLand t <;>
    simp [Dir.terrainOrder, Dir.shieldOrder, Dir.topoOrder]

theorem left_start (c : RunCfg K T) (st0 : Store K T) :
    c.left' (c.start st0) ≤ 45 * c.tiles.length + 9 * c.nW + 9 := by
  have e1 : (∑ r ∈ Finset.range (c.nW + 1), (7 - (c.start st0).pos r)) = (c.nW + 1) * 7 := by
    simp [RunCfg.start]
  have e2 : (∑ t ∈ c.tiles.toFinset, ((c.start st0).rem t).length) ≤ 37 * c.tiles.length := by
    calc _ ≤ ∑ t ∈ c.tiles.toFinset, 37 := Finset.sum_le_sum fun t _ => ops_length c t
      _ = c.tiles.toFinset.card * 37 := by simp
      _ ≤ _ := by have := List.toFinset_card_le c.tiles; omega
  have e3 : (if c.nW = 0 then 0 else measure c.tiles c.nW (c.start st0).disp) ≤
      6 * c.tiles.length + 2 * c.nW + 2 := by
    split_ifs
    · omega
    · exact (measure_start c.tiles c.nW).le
  have e4 : (c.start st0).pos 0 ≤ 4 := by simp [RunCfg.start]
  unfold RunCfg.left'
  rw [e1, if_pos e4]
  omega

theorem left_run {c : RunCfg K T} (hc : c.Good) {st0 : Store K T} {k : ℕ} {s : RunState K T}
    (h : RunSteps c k (c.start st0) s) : k + c.left' s ≤ 45 * c.tiles.length + 9 * c.nW + 9 := by
  generalize h0 : c.start st0 = s0 at h
  induction h with
  | refl s => subst h0; have := left_start c st0; omega
  | step hr hs ih =>
    have := ih h0
    subst h0
    have := left_step hc (runInv hc hr) hs
    omega

end WindMult
