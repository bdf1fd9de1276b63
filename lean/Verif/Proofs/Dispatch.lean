import Verif.Model.Dispatch
import Mathlib.Algebra.BigOperators.Group.Finset.Basic
import Mathlib.Algebra.Order.BigOperators.Group.Finset
import Mathlib.Data.Multiset.Basic
import Mathlib.Algebra.Order.Group.Multiset
import Mathlib.Data.Finset.Card
import Mathlib.Order.Interval.Finset.Nat
import Mathlib.Tactic.Linarith
import Mathlib.Tactic.Ring
import Mathlib.Tactic.Abel

set_option linter.unusedSectionVars false

set_option autoImplicit false

namespace WindMult
open Finset Function
variable {T : Type}

/-! ### Sums over workers after changing one worker -/

theorem sum_update_workers {M : Type} [AddCommMonoid M] {X : Type} {nW d : ℕ} (hd1 : 1 ≤ d)
    (hd : d ≤ nW) (F : ℕ → X → M) (f : ℕ → X) (x : X) :
    (∑ e ∈ Icc 1 nW, F e (update f d x e)) + F d (f d)
      = (∑ e ∈ Icc 1 nW, F e (f e)) + F d x := by
  have hmem : d ∈ Icc 1 nW := mem_Icc.mpr ⟨hd1, hd⟩
  rw [← Finset.add_sum_erase _ _ hmem, ← Finset.add_sum_erase _ (fun e => F e (f e)) hmem]
  have : ∑ e ∈ (Icc 1 nW).erase d, F e (update f d x e) = ∑ e ∈ (Icc 1 nW).erase d, F e (f e) := by
    apply Finset.sum_congr rfl
    intro e he
    rw [update_of_ne (Finset.ne_of_mem_erase he)]
  rw [this, update_self]
  abel

/-! ### Termination measure -/

/-- Weight of one queued message. -/
def msgWt : Option T → ℕ
  | some _ => 4
  | none => 1

def wkWt : WState T → ℕ
  | .busy _ => 3
  | _ => 0

def phaseWt (nW : ℕ) : MPhase → ℕ
  | .init d => 2 * (nW + 1 - d) + 2
  | .loop _ => 1
  | .returned => 0

/-- Everything about one worker. -/
structure WLocal (T : Type) where
  work : List (Option T)
  results : ℕ
  wk : WState T

def DState.loc (s : DState T) (d : ℕ) : WLocal T := ⟨s.work d, s.results d, s.wk d⟩

def locWt (l : WLocal T) : ℕ := (l.work.map msgWt).sum + 2 * l.results + wkWt l.wk

def measure (tiles : List T) (nW : ℕ) (s : DState T) : ℕ :=
  6 * (tiles.length - s.w) + (∑ d ∈ Icc 1 nW, locWt (s.loc d)) + phaseWt nW s.phase

/-! ### Local shapes -/

/-- The shapes the state of one worker can take. -/
inductive Shape : WLocal T → Prop
  | idle : Shape ⟨[], 0, .waiting⟩
  | sent (t : T) : Shape ⟨[some t], 0, .waiting⟩
  | busy (t : T) : Shape ⟨[], 0, .busy t⟩
  | replied : Shape ⟨[], 1, .waiting⟩
  | stopSent : Shape ⟨[none], 0, .waiting⟩
  | finished : Shape ⟨[], 0, .finished⟩
  | crashed (t : T) : Shape ⟨[], 0, .crashed t⟩

/-- Number of results the worker still owes or has pending (0 or 1). -/
def owing (l : WLocal T) : ℕ :=
  (l.work.filter Option.isSome).length + l.results +
    (match l.wk with | .busy _ => 1 | .crashed _ => 1 | _ => 0)

/-- Tiles sent to the worker and not yet computed. -/
def pend (l : WLocal T) : Multiset T :=
  ((l.work.filterMap id : List T) : Multiset T) +
    (match l.wk with | .busy t => {t} | .crashed t => {t} | _ => 0)

theorem pend_idle : pend (⟨[], 0, .waiting⟩ : WLocal T) = 0 := rfl
theorem pend_sent (t : T) : pend (⟨[some t], 0, .waiting⟩ : WLocal T) = {t} := by simp [pend]
theorem pend_busy (t : T) : pend (⟨[], 0, .busy t⟩ : WLocal T) = {t} := by simp [pend]
theorem pend_crashed (t : T) : pend (⟨[], 0, .crashed t⟩ : WLocal T) = {t} := by simp [pend]
theorem pend_replied : pend (⟨[], 1, .waiting⟩ : WLocal T) = 0 := rfl
theorem pend_stop : pend (⟨[none], 0, .waiting⟩ : WLocal T) = 0 := rfl
theorem pend_finished : pend (⟨[], 0, .finished⟩ : WLocal T) = 0 := rfl
theorem owing_idle : owing (⟨[], 0, .waiting⟩ : WLocal T) = 0 := rfl
theorem owing_sent (t : T) : owing (⟨[some t], 0, .waiting⟩ : WLocal T) = 1 := rfl
theorem owing_busy (t : T) : owing (⟨[], 0, .busy t⟩ : WLocal T) = 1 := rfl
theorem owing_crashed (t : T) : owing (⟨[], 0, .crashed t⟩ : WLocal T) = 1 := rfl
theorem owing_replied : owing (⟨[], 1, .waiting⟩ : WLocal T) = 1 := rfl
theorem owing_stop : owing (⟨[none], 0, .waiting⟩ : WLocal T) = 0 := rfl
theorem owing_finished : owing (⟨[], 0, .finished⟩ : WLocal T) = 0 := rfl

structure DInv (tiles : List T) (nW : ℕ) (s : DState T) : Prop where
  wle : s.w ≤ tiles.length
  shape : ∀ d, 1 ≤ d → d ≤ nW → Shape (s.loc d)
  tilesEq : (s.computed : Multiset T) + ∑ d ∈ Icc 1 nW, pend (s.loc d)
    = ((tiles.take s.w : List T) : Multiset T)
  phaseInit : ∀ d, s.phase = .init d → 1 ≤ d ∧ d ≤ nW + 1 ∧ s.w = min (d - 1) tiles.length ∧
    (∑ e ∈ Icc 1 nW, owing (s.loc e)) = s.w ∧
    s.p = (if d - 1 ≤ tiles.length then nW else tiles.length) ∧
    (∀ e, d ≤ e → e ≤ nW → s.loc e = ⟨[], 0, .waiting⟩) ∧
    (∀ e, 1 ≤ e → e < d → s.loc e ≠ ⟨[], 0, .waiting⟩)
  phaseLoop : ∀ k, s.phase = .loop k → s.p = min nW tiles.length ∧
    min nW tiles.length ≤ s.w ∧
    (∑ e ∈ Icc 1 nW, owing (s.loc e)) + k = s.p ∧ (0 < k → s.w = tiles.length) ∧
    (∀ e, 1 ≤ e → e ≤ nW → s.loc e ≠ ⟨[], 0, .waiting⟩)
  phaseRet : s.phase = .returned → s.w = tiles.length ∧
    (∑ e ∈ Icc 1 nW, owing (s.loc e)) = 0 ∧
    (∀ e, 1 ≤ e → e ≤ nW → s.loc e ≠ ⟨[], 0, .waiting⟩)

theorem loc_eq_update {s s' : DState T} {d : ℕ} {l : WLocal T}
    (h : ∀ e, s'.loc e = if e = d then l else s.loc e) : s'.loc = update s.loc d l := by
  funext e
  rw [h, update_apply]

theorem sum_loc {M : Type} [AddCommMonoid M] {nW d : ℕ} (hd1 : 1 ≤ d) (hd : d ≤ nW)
    (F : WLocal T → M) {s s' : DState T} {l : WLocal T} (h : s'.loc = update s.loc d l) :
    (∑ e ∈ Icc 1 nW, F (s'.loc e)) + F (s.loc d) = (∑ e ∈ Icc 1 nW, F (s.loc e)) + F l := by
  rw [h]
  exact sum_update_workers hd1 hd (fun _ => F) s.loc l

/-! ### The invariant holds initially -/

theorem inv_start (tiles : List T) (nW : ℕ) : DInv tiles nW (DState.start nW) where
  wle := by simp [DState.start]
  shape := fun d _ _ => Shape.idle
  tilesEq := by simp [DState.start, DState.loc, pend]
  phaseInit := by
    intro d hd
    simp only [DState.start, MPhase.init.injEq] at hd
    subst hd
    refine ⟨le_refl _, by omega, by simp [DState.start], ?_, by simp [DState.start], fun _ _ _ => rfl,
      fun e h1 h2 => by omega⟩
    simp [DState.start, DState.loc, owing]
  phaseLoop := by intro k hk; simp [DState.start] at hk
  phaseRet := by intro h; simp [DState.start] at h

theorem take_succ_of_getElem? {l : List T} {n : ℕ} {t : T} (h : l[n]? = some t) :
    l.take (n + 1) = l.take n ++ [t] := by
  rw [List.take_add_one, h]; rfl

theorem lt_of_getElem? {l : List T} {n : ℕ} {t : T} (h : l[n]? = some t) : n < l.length := by
  by_contra hc
  rw [List.getElem?_eq_none (by omega)] at h
  cases h

theorem coe_take_succ {l : List T} {n : ℕ} {t : T} (h : l[n]? = some t) :
    ((l.take (n + 1) : List T) : Multiset T) = ((l.take n : List T) : Multiset T) + {t} := by
  rw [take_succ_of_getElem? h, ← Multiset.coe_add, Multiset.coe_singleton]

/-- Changing worker `d` preserves shapes elsewhere. -/
theorem shape_update {nW d : ℕ} {s s' : DState T} {l : WLocal T}
    (h : s'.loc = update s.loc d l) (hs : ∀ e, 1 ≤ e → e ≤ nW → Shape (s.loc e)) (hl : Shape l) :
    ∀ e, 1 ≤ e → e ≤ nW → Shape (s'.loc e) := by
  intro e h1 h2
  rw [h, update_apply]
  split_ifs
  · exact hl
  · exact hs e h1 h2

/-- A worker-side step: worker `d` moves from `l0` to `l` with the same debt, the master's
variables do not change. -/
theorem inv_worker {tiles : List T} {nW : ℕ} {s s' : DState T} (h : DInv tiles nW s) {d : ℕ}
    (hd1 : 1 ≤ d) (hd : d ≤ nW) {l : WLocal T} (hloc : s'.loc = update s.loc d l)
    (hw : s'.w = s.w) (hp : s'.p = s.p) (hph : s'.phase = s.phase) (hl : Shape l)
    (how : owing l = owing (s.loc d)) (hne : l ≠ ⟨[], 0, .waiting⟩)
    (hne' : s.loc d ≠ ⟨[], 0, .waiting⟩)
    (hc : (s'.computed : Multiset T) + pend l = (s.computed : Multiset T) + pend (s.loc d)) :
    DInv tiles nW s' := by
  have hsum := sum_loc (nW := nW) hd1 hd pend hloc
  have hsumo := sum_loc (nW := nW) hd1 hd owing hloc
  have ho : (∑ e ∈ Icc 1 nW, owing (s'.loc e)) = ∑ e ∈ Icc 1 nW, owing (s.loc e) := by omega
  have hnonidle : ∀ e, s.loc e ≠ ⟨[], 0, .waiting⟩ → s'.loc e ≠ ⟨[], 0, .waiting⟩ := by
    intro e he
    rw [hloc, update_apply]
    split_ifs
    · exact hne
    · exact he
  refine ⟨by rw [hw]; exact h.wle, shape_update hloc h.shape hl, ?_, ?_, ?_, ?_⟩
  · rw [hw, ← h.tilesEq]
    have e1 : (s'.computed : Multiset T) + ∑ e ∈ Icc 1 nW, pend (s'.loc e)
        + (pend (s.loc d) + pend l) = s.computed + ∑ e ∈ Icc 1 nW, pend (s.loc e)
        + (pend (s.loc d) + pend l) := by
      calc (s'.computed : Multiset T) + ∑ e ∈ Icc 1 nW, pend (s'.loc e) + (pend (s.loc d) + pend l)
          = (s'.computed + pend l) + (∑ e ∈ Icc 1 nW, pend (s'.loc e) + pend (s.loc d)) := by abel
        _ = (s.computed + pend (s.loc d)) + (∑ e ∈ Icc 1 nW, pend (s.loc e) + pend l) := by
            rw [hc, hsum]
        _ = _ := by abel
    exact add_right_cancel e1
  · intro k hk
    rw [hph] at hk
    obtain ⟨h1, h2, h3, h4, h5, h6, h7⟩ := h.phaseInit k hk
    refine ⟨h1, h2, by rw [hw, h3], by rw [ho, h4, hw], by rw [hp, h5], ?_, ?_⟩
    · intro e he1 he2
      have hed : e ≠ d := by
        rintro rfl
        exact hne' (h6 e he1 he2)
      rw [hloc, update_of_ne hed]
      exact h6 e he1 he2
    · exact fun e he1 he2 => hnonidle e (h7 e he1 he2)
  · intro k hk
    rw [hph] at hk
    obtain ⟨h1, h2, h3, h4, h5⟩ := h.phaseLoop k hk
    exact ⟨by rw [hp, h1], by rw [hw]; exact h2, by rw [ho, hp]; exact h3, by rw [hw]; exact h4,
      fun e he1 he2 => hnonidle e (h5 e he1 he2)⟩
  · intro hk
    rw [hph] at hk
    obtain ⟨h1, h2, h3⟩ := h.phaseRet hk
    exact ⟨by rw [hw, h1], by rw [ho, h2], fun e he1 he2 => hnonidle e (h3 e he1 he2)⟩

theorem loc_of_results {s : DState T} {d : ℕ} (hsh : Shape (s.loc d)) (hres : 0 < s.results d) :
    s.loc d = ⟨[], 1, .waiting⟩ := by
  have hr : (s.loc d).results = s.results d := rfl
  cases hc : s.loc d with
  | mk a b c =>
    rw [hc] at hsh hr
    cases hsh <;> simp at hr <;> first | rfl | omega

theorem loc_of_take {s : DState T} {d : ℕ} {t : T} {q : List (Option T)} (hsh : Shape (s.loc d))
    (hq : s.work d = some t :: q) : q = [] ∧ s.loc d = ⟨[some t], 0, .waiting⟩ := by
  have hr : (s.loc d).work = s.work d := rfl
  rw [hq] at hr
  cases hc : s.loc d with
  | mk a b c =>
    rw [hc] at hsh hr
    simp only at hr
    cases hsh <;> simp_all

theorem loc_of_stop {s : DState T} {d : ℕ} {q : List (Option T)} (hsh : Shape (s.loc d))
    (hq : s.work d = none :: q) : q = [] ∧ s.loc d = ⟨[none], 0, .waiting⟩ := by
  have hr : (s.loc d).work = s.work d := rfl
  rw [hq] at hr
  cases hc : s.loc d with
  | mk a b c =>
    rw [hc] at hsh hr
    simp only at hr
    cases hsh <;> simp_all

theorem loc_of_busy {s : DState T} {d : ℕ} {t : T} (hsh : Shape (s.loc d))
    (hwk : s.wk d = .busy t) : s.loc d = ⟨[], 0, .busy t⟩ := by
  have hr : (s.loc d).wk = s.wk d := rfl
  rw [hwk] at hr
  cases hc : s.loc d with
  | mk a b c =>
    rw [hc] at hsh hr
    simp only at hr
    cases hsh <;> simp_all

theorem inv_step {tiles : List T} {nW : ℕ} (hnW : 1 ≤ nW) {crashes : Prop} {s s' : DState T}
    (h : DInv tiles nW s) (hs : DStep tiles nW crashes s s') : DInv tiles nW s' := by
  cases hs with
  | dispatch d t hphase hd hw =>
    obtain ⟨h1, h2, h3, h4, h5, h6, h7⟩ := h.phaseInit d hphase
    have hlt := lt_of_getElem? hw
    have hl : s.loc d = ⟨[], 0, .waiting⟩ := h6 d (le_refl _) hd
    have hwork : s.work d = [] := congrArg WLocal.work hl
    have hres : s.results d = 0 := congrArg WLocal.results hl
    have hwk : s.wk d = .waiting := congrArg WLocal.wk hl
    generalize hs' : ({ s with work := update s.work d (s.work d ++ [some t]), w := s.w + 1, phase := .init (d + 1) } : DState T) = s'
    have hloc : s'.loc = update s.loc d ⟨[some t], 0, .waiting⟩ := by
      apply loc_eq_update
      intro e
      subst hs'
      by_cases hed : e = d
      · subst hed; simp [DState.loc, hwork, hres, hwk]
      · simp [DState.loc, hed]
    have hpend := sum_loc (nW := nW) h1 hd pend hloc
    have how := sum_loc (nW := nW) h1 hd owing hloc
    rw [hl, pend_idle, pend_sent, add_zero] at hpend
    rw [hl, owing_idle, owing_sent] at how
    have ew : s'.w = s.w + 1 := by subst hs'; rfl
    have ep : s'.p = s.p := by subst hs'; rfl
    have ec : s'.computed = s.computed := by subst hs'; rfl
    refine ⟨?_, shape_update hloc h.shape (Shape.sent t), ?_, ?_, ?_, ?_⟩
    · omega
    · rw [hpend, ew, ec, coe_take_succ hw, ← h.tilesEq]
      abel
    · intro d' hd'
      have : d' = d + 1 := by subst hs'; simp at hd'; exact hd'.symm
      subst this
      refine ⟨by omega, by omega, by omega, by omega, ?_, ?_, ?_⟩
      · rw [ep, h5]; split_ifs <;> omega
      · intro e he1 he2
        rw [hloc, update_of_ne (by omega)]
        exact h6 e (by omega) he2
      · intro e he1 he2
        rw [hloc, update_apply]
        split_ifs with hed
        · simp
        · exact h7 e he1 (by omega)
    · intro k hk; subst hs'; simp at hk
    · intro hk; subst hs'; simp at hk
  | dispatchNone d hphase hd hw =>
    obtain ⟨h1, h2, h3, h4, h5, h6, h7⟩ := h.phaseInit d hphase
    have hl : s.loc d = ⟨[], 0, .waiting⟩ := h6 d (le_refl _) hd
    have hwork : s.work d = [] := congrArg WLocal.work hl
    have hres : s.results d = 0 := congrArg WLocal.results hl
    have hwk : s.wk d = .waiting := congrArg WLocal.wk hl
    generalize hs' : ({ s with work := update s.work d (s.work d ++ [none]), p := s.w, phase := .init (d + 1) } : DState T) = s'
    have hloc : s'.loc = update s.loc d ⟨[none], 0, .waiting⟩ := by
      apply loc_eq_update
      intro e
      subst hs'
      by_cases hed : e = d
      · subst hed; simp [DState.loc, hwork, hres, hwk]
      · simp [DState.loc, hed]
    have hpend := sum_loc (nW := nW) h1 hd pend hloc
    have how := sum_loc (nW := nW) h1 hd owing hloc
    rw [hl, pend_idle, pend_stop, add_zero, add_zero] at hpend
    rw [hl, owing_idle, owing_stop] at how
    have ew : s'.w = s.w := by subst hs'; rfl
    have ep : s'.p = s.w := by subst hs'; rfl
    have ec : s'.computed = s.computed := by subst hs'; rfl
    have := h.wle
    refine ⟨?_, shape_update hloc h.shape Shape.stopSent, ?_, ?_, ?_, ?_⟩
    · omega
    · rw [hpend, ew, ec]
      exact h.tilesEq
    · intro d' hd'
      have : d' = d + 1 := by subst hs'; simp at hd'; exact hd'.symm
      subst this
      refine ⟨by omega, by omega, by omega, by omega, ?_, ?_, ?_⟩
      · rw [ep]; split_ifs <;> omega
      · intro e he1 he2
        rw [hloc, update_of_ne (by omega)]
        exact h6 e (by omega) he2
      · intro e he1 he2
        rw [hloc, update_apply]
        split_ifs with hed
        · simp
        · exact h7 e he1 (by omega)
    · intro k hk; subst hs'; simp at hk
    · intro hk; subst hs'; simp at hk
  | endInit d hphase hd =>
    obtain ⟨h1, h2, h3, h4, h5, h6, h7⟩ := h.phaseInit d hphase
    have hd' : d = nW + 1 := by omega
    subst hd'
    refine ⟨h.wle, h.shape, h.tilesEq, by intro d hd; simp at hd, ?_, by intro hd; simp at hd⟩
    intro k hk
    simp at hk
    subst hk
    have hloc : ∀ e, DState.loc { s with phase := MPhase.loop 0 } e = s.loc e := fun _ => rfl
    simp only [hloc]
    refine ⟨?_, by omega, ?_, by omega, fun e he1 he2 => h7 e he1 (by omega)⟩
    · rw [h5]; split_ifs <;> omega
    · rw [h4, h5]; split_ifs <;> omega
  | recvMore d k t hphase hk hd1 hd hres hw =>
    obtain ⟨h1, h2, h3, h4, h5⟩ := h.phaseLoop k hphase
    have hlt := lt_of_getElem? hw
    have hl := loc_of_results (h.shape d hd1 hd) hres
    have hwork : s.work d = [] := congrArg WLocal.work hl
    have hres : s.results d = 1 := congrArg WLocal.results hl
    have hwk : s.wk d = .waiting := congrArg WLocal.wk hl
    generalize hs' : ({ s with results := update s.results d (s.results d - 1), work := update s.work d (s.work d ++ [some t]), w := s.w + 1 } : DState T) = s'
    have hloc : s'.loc = update s.loc d ⟨[some t], 0, .waiting⟩ := by
      apply loc_eq_update
      intro e
      subst hs'
      by_cases hed : e = d
      · subst hed; simp [DState.loc, hwork, hres, hwk]
      · simp [DState.loc, hed]
    have hpend := sum_loc (nW := nW) hd1 hd pend hloc
    have how := sum_loc (nW := nW) hd1 hd owing hloc
    rw [hl, pend_replied, pend_sent, add_zero] at hpend
    rw [hl, owing_replied, owing_sent] at how
    have ew : s'.w = s.w + 1 := by subst hs'; rfl
    have ep : s'.p = s.p := by subst hs'; rfl
    have ec : s'.computed = s.computed := by subst hs'; rfl
    refine ⟨?_, shape_update hloc h.shape (Shape.sent t), ?_, ?_, ?_, ?_⟩
    · omega
    · rw [hpend, ew, ec, coe_take_succ hw, ← h.tilesEq]
      abel
    · intro d' hd'; subst hs'; rw [hphase] at hd'; simp at hd'
    · intro k' hk'
      have : k' = k := by subst hs'; rw [hphase] at hk'; simp at hk'; exact hk'.symm
      subst this
      refine ⟨by omega, by omega, by omega, by omega, ?_⟩
      intro e he1 he2
      rw [hloc, update_apply]
      split_ifs with hed
      · simp
      · exact h5 e he1 he2
    · intro hk'; subst hs'; rw [hphase] at hk'; simp at hk'
  | recvLast d k hphase hk hd1 hd hres hw =>
    obtain ⟨h1, h2, h3, h4, h5⟩ := h.phaseLoop k hphase
    have hl := loc_of_results (h.shape d hd1 hd) hres
    have hwork : s.work d = [] := congrArg WLocal.work hl
    have hres : s.results d = 1 := congrArg WLocal.results hl
    have hwk : s.wk d = .waiting := congrArg WLocal.wk hl
    generalize hs' : ({ s with results := update s.results d (s.results d - 1), work := update s.work d (s.work d ++ [none]), phase := .loop (k + 1) } : DState T) = s'
    have hloc : s'.loc = update s.loc d ⟨[none], 0, .waiting⟩ := by
      apply loc_eq_update
      intro e
      subst hs'
      by_cases hed : e = d
      · subst hed; simp [DState.loc, hwork, hres, hwk]
      · simp [DState.loc, hed]
    have hpend := sum_loc (nW := nW) hd1 hd pend hloc
    have how := sum_loc (nW := nW) hd1 hd owing hloc
    rw [hl, pend_replied, pend_stop, add_zero, add_zero] at hpend
    rw [hl, owing_replied, owing_stop] at how
    have ew : s'.w = s.w := by subst hs'; rfl
    have ep : s'.p = s.p := by subst hs'; rfl
    have ec : s'.computed = s.computed := by subst hs'; rfl
    have := h.wle
    refine ⟨?_, shape_update hloc h.shape Shape.stopSent, ?_, ?_, ?_, ?_⟩
    · omega
    · rw [hpend, ew, ec]
      exact h.tilesEq
    · intro d' hd'; subst hs'; simp at hd'
    · intro k' hk'
      have : k' = k + 1 := by subst hs'; simp at hk'; exact hk'.symm
      subst this
      refine ⟨by omega, by omega, by omega, by omega, ?_⟩
      intro e he1 he2
      rw [hloc, update_apply]
      split_ifs with hed
      · simp
      · exact h5 e he1 he2
    · intro hk'; subst hs'; simp at hk'
  | masterReturn k hphase hk =>
    obtain ⟨h1, h2, h3, h4, h5⟩ := h.phaseLoop k hphase
    refine ⟨h.wle, h.shape, h.tilesEq, by intro d hd; simp at hd, by intro d hd; simp at hd, ?_⟩
    intro _
    have hloc : ∀ e, DState.loc { s with phase := MPhase.returned } e = s.loc e := fun _ => rfl
    simp only [hloc]
    have := h.wle
    refine ⟨?_, by omega, h5⟩
    rcases Nat.eq_zero_or_pos k with h0 | h0
    · omega
    · exact h4 h0
  | workerTake d t q hd1 hd hwk hq =>
    obtain ⟨hq0, hl⟩ := loc_of_take (h.shape d hd1 hd) hq
    refine inv_worker h hd1 hd (l := ⟨[], 0, .busy t⟩) ?_ rfl rfl rfl (Shape.busy t) ?_ ?_ ?_ ?_
    · apply loc_eq_update
      intro e
      by_cases hed : e = d
      · subst hed
        have hres : s.results e = 0 := congrArg WLocal.results hl
        simp [DState.loc, hq0, hres]
      · simp [DState.loc, hed]
    · rw [hl, owing_busy, owing_sent]
    · simp
    · rw [hl]; simp
    · rw [hl, pend_busy, pend_sent]
  | workerStop d q hd1 hd hwk hq =>
    obtain ⟨hq0, hl⟩ := loc_of_stop (h.shape d hd1 hd) hq
    refine inv_worker h hd1 hd (l := ⟨[], 0, .finished⟩) ?_ rfl rfl rfl Shape.finished ?_ ?_ ?_ ?_
    · apply loc_eq_update
      intro e
      by_cases hed : e = d
      · subst hed
        have hres : s.results e = 0 := congrArg WLocal.results hl
        simp [DState.loc, hq0, hres]
      · simp [DState.loc, hed]
    · rw [hl, owing_finished, owing_stop]
    · simp
    · rw [hl]; simp
    · rw [hl, pend_finished, pend_stop]
  | workerDone d t hd1 hd hwk =>
    have hl := loc_of_busy (h.shape d hd1 hd) hwk
    refine inv_worker h hd1 hd (l := ⟨[], 1, .waiting⟩) ?_ rfl rfl rfl Shape.replied ?_ ?_ ?_ ?_
    · apply loc_eq_update
      intro e
      by_cases hed : e = d
      · subst hed
        have hres : s.results e = 0 := congrArg WLocal.results hl
        have hwork : s.work e = [] := congrArg WLocal.work hl
        simp [DState.loc, hwork, hres]
      · simp [DState.loc, hed]
    · rw [hl, owing_busy, owing_replied]
    · simp
    · rw [hl]; simp
    · rw [hl, pend_busy, pend_replied, add_zero, ← Multiset.cons_coe, ← Multiset.singleton_add]
      abel
  | workerCrash d t hc hd1 hd hwk =>
    have hl := loc_of_busy (h.shape d hd1 hd) hwk
    refine inv_worker h hd1 hd (l := ⟨[], 0, .crashed t⟩) ?_ rfl rfl rfl (Shape.crashed t) ?_ ?_ ?_ ?_
    · apply loc_eq_update
      intro e
      by_cases hed : e = d
      · subst hed
        have hres : s.results e = 0 := congrArg WLocal.results hl
        have hwork : s.work e = [] := congrArg WLocal.work hl
        simp [DState.loc, hwork, hres]
      · simp [DState.loc, hed]
    · rw [hl, owing_busy, owing_crashed]
    · simp
    · rw [hl]; simp
    · rw [hl, pend_busy, pend_crashed]

theorem inv_run {tiles : List T} {nW : ℕ} (hnW : 1 ≤ nW) {crashes : Prop} {k : ℕ} {s : DState T}
    (h : DRun tiles nW crashes k (DState.start nW) s) : DInv tiles nW s := by
  generalize h0 : DState.start nW = s0 at h
  induction h with
  | refl s => subst h0; exact inv_start tiles nW
  | step _ h' ih => exact inv_step hnW (ih h0) h'

/-! ### Every step decreases the measure -/

theorem measure_of_loc {tiles : List T} {nW d : ℕ} {s s' : DState T} (hd1 : 1 ≤ d) (hd : d ≤ nW)
    {l : WLocal T} (hloc : s'.loc = update s.loc d l)
    (hlt : 6 * (tiles.length - s'.w) + phaseWt nW s'.phase + locWt l
      < 6 * (tiles.length - s.w) + phaseWt nW s.phase + locWt (s.loc d)) :
    measure tiles nW s' < measure tiles nW s := by
  have := sum_loc (nW := nW) hd1 hd locWt hloc
  unfold measure
  omega

theorem measure_step {tiles : List T} {nW : ℕ} {crashes : Prop} {s s' : DState T}
    (hinit : ∀ d, s.phase = .init d → 1 ≤ d)
    (hs : DStep tiles nW crashes s s') : measure tiles nW s' < measure tiles nW s := by
  have loc_upd : ∀ (s s' : DState T) (d : ℕ) (l : WLocal T), (∀ e, e ≠ d → s'.loc e = s.loc e) →
      s'.loc d = l → s'.loc = update s.loc d l := by
    intro s s' d l h1 h2
    funext e
    by_cases hed : e = d
    · subst hed; rw [update_self, h2]
    · rw [update_of_ne hed, h1 e hed]
  cases hs with
  | dispatch d t hphase hd hw =>
    have hlt := lt_of_getElem? hw
    refine measure_of_loc (hinit d hphase) hd
      (loc_upd _ _ d _ (fun e he => by simp [DState.loc, he]) rfl) ?_
    simp [DState.loc, locWt, hphase, phaseWt, msgWt]
    omega
  | dispatchNone d hphase hd hw =>
    refine measure_of_loc (hinit d hphase) hd
      (loc_upd _ _ d _ (fun e he => by simp [DState.loc, he]) rfl) ?_
    simp [DState.loc, locWt, hphase, phaseWt, msgWt]
    omega
  | endInit d hphase hd =>
    have e : ∀ d, DState.loc { s with phase := MPhase.loop 0 } d = s.loc d := fun _ => rfl
    simp [measure, hphase, phaseWt, e]
  | recvMore d k t hphase hk hd1 hd hres hw =>
    have hlt := lt_of_getElem? hw
    refine measure_of_loc hd1 hd
      (loc_upd _ _ d _ (fun e he => by simp [DState.loc, he]) rfl) ?_
    simp [DState.loc, locWt, msgWt]
    omega
  | recvLast d k hphase hk hd1 hd hres hw =>
    refine measure_of_loc hd1 hd
      (loc_upd _ _ d _ (fun e he => by simp [DState.loc, he]) rfl) ?_
    simp [DState.loc, locWt, msgWt, hphase, phaseWt]
    omega
  | masterReturn k hphase hk =>
    have e : ∀ d, DState.loc { s with phase := MPhase.returned } d = s.loc d := fun _ => rfl
    simp [measure, hphase, phaseWt, e]
  | workerTake d t q hd1 hd hwk hq =>
    refine measure_of_loc hd1 hd
      (loc_upd _ _ d _ (fun e he => by simp [DState.loc, he]) rfl) ?_
    simp [DState.loc, locWt, msgWt, hq, hwk, wkWt]
    omega
  | workerStop d q hd1 hd hwk hq =>
    refine measure_of_loc hd1 hd
      (loc_upd _ _ d _ (fun e he => by simp [DState.loc, he]) rfl) ?_
    simp [DState.loc, locWt, msgWt, hq, hwk, wkWt]
  | workerDone d t hd1 hd hwk =>
    refine measure_of_loc hd1 hd
      (loc_upd _ _ d _ (fun e he => by simp [DState.loc, he]) rfl) ?_
    simp [DState.loc, locWt, hwk, wkWt]
    omega
  | workerCrash d t hc hd1 hd hwk =>
    refine measure_of_loc hd1 hd
      (loc_upd _ _ d _ (fun e he => by simp [DState.loc, he]) rfl) ?_
    simp [DState.loc, locWt, hwk, wkWt]

theorem measure_start (tiles : List T) (nW : ℕ) :
    measure tiles nW (DState.start nW : DState T) = 6 * tiles.length + 2 * nW + 2 := by
  simp [measure, DState.start, DState.loc, locWt, wkWt, phaseWt]
  omega

theorem measure_run {tiles : List T} {nW : ℕ} (hnW : 1 ≤ nW) {crashes : Prop} {k : ℕ}
    {s : DState T} (h : DRun tiles nW crashes k (DState.start nW) s) :
    k + measure tiles nW s ≤ 6 * tiles.length + 2 * nW + 2 := by
  generalize h0 : DState.start nW = s0 at h
  induction h with
  | refl s => subst h0; rw [measure_start]; omega
  | step hr h' ih =>
    have := ih h0
    subst h0
    have hi := inv_run hnW hr
    have := measure_step (fun d hd => (hi.phaseInit d hd).1) h'
    omega

end WindMult
