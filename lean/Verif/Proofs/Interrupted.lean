import Verif.Spec.Interrupted
import Verif.Proofs.Run

/-!
# Whatever is in the output folder during a run is right
-/

set_option autoImplicit false
set_option linter.unusedSectionVars false

namespace WindMult
open Function
variable {K T : Type} [Zero K] [One K] [Mul K] [Max K]

/-- What the operations of a tile write is right. -/
theorem create_right {c : RunCfg K T} (hc : c.Good) {t : List Char} (ht : t ∈ c.tiles) {p : List Char}
    (h : FileOp.create p ∈ c.ops t) : c.Right p (c.written t p) := by
  have hn := hc.names t ht
  obtain ⟨-, -, -, hd⟩ := temps_distinct hc.out hn
  have hw : ∀ m d, c.seen t m d = some (c.files t m d) →
      c.Right (savedNc c.out t d m) (c.written t (savedNc c.out t d m)) := by
    intro m d hs
    rw [written_saved c hc.out hn]
    exact ⟨t, ht, m, d, savedNc_eq_openedNc hc.out hn d m, hs⟩
  have hscr : ∀ p, (p = demTemp c.out t ∨ p = landTemp c.out t ∨ p = shieldTemp (landTemp c.out t)) →
      c.Right p (c.written t p) := by
    intro p hp
    have : c.written t p = .scratch := by
      unfold RunCfg.written
      split
      · rename_i m d h
        have := List.find?_some h
        have := of_decide_eq_true this
        obtain ⟨h1, h2, h3⟩ := hd d m
        rcases hp with rfl | rfl | rfl
        · exact absurd this.symm h1
        · exact absurd this.symm h2
        · exact absurd this.symm h3
      · rfl
    rw [this]
    exact ⟨t, ht, hp⟩
  unfold RunCfg.ops tileOps at h
  cases he : c.empty t
  · have hms : ∀ d, c.seen t .ms d = some (c.files t .ms d) := fun d => by
      rw [RunCfg.seen, if_pos ⟨he, by simp⟩]
    have hmt : ∀ d, c.seen t .mt d = some (c.files t .mt d) := fun d => by
      rw [RunCfg.seen, if_pos ⟨he, by simp⟩]
    cases hl : c.noLand t
    · have hmz : ∀ d, c.seen t .mz d = some (c.files t .mz d) := fun d => by
        rw [RunCfg.seen, if_pos ⟨he, fun _ => hl⟩]
      simp only [he, hl, Bool.false_eq_true, ↓reduceIte, List.mem_cons, List.mem_append, List.mem_map,
        FileOp.create.injEq, reduceCtorEq, false_or, or_false, List.not_mem_nil, or_assoc] at h
      rcases h with rfl | rfl | ⟨d, -, rfl⟩ | rfl | ⟨d, -, rfl⟩ | ⟨d, -, rfl⟩
      · exact hscr _ (.inl rfl)
      · exact hscr _ (.inr (.inl rfl))
      · exact hw .mz d (hmz d)
      · exact hscr _ (.inr (.inr rfl))
      · exact hw .ms d (hms d)
      · exact hw .mt d (hmt d)
    · simp only [he, hl, Bool.false_eq_true, ↓reduceIte, List.mem_cons, List.mem_append, List.mem_map,
        FileOp.create.injEq, reduceCtorEq, false_or, or_false, List.not_mem_nil, or_assoc] at h
      rcases h with rfl | rfl | rfl | ⟨d, -, rfl⟩ | ⟨d, -, rfl⟩
      · exact hscr _ (.inl rfl)
      · exact hscr _ (.inr (.inl rfl))
      · exact hscr _ (.inr (.inr rfl))
      · exact hw .ms d (hms d)
      · exact hw .mt d (hmt d)
  · simp only [he, ↓reduceIte, List.mem_cons, FileOp.create.injEq, reduceCtorEq, or_false,
      List.not_mem_nil] at h
    subst h
    exact hscr _ (.inl rfl)

theorem exec_new {w : List Char → Content K T} {st st' : Store K T} {a : FileOp}
    (h : a.exec w st = .ok st') (p : List Char) :
    st' p = none ∨ st' p = st p ∨ (a = .create p ∧ st' p = some (w p)) := by
  cases a with
  | create q =>
    cases h
    simp only [update_apply]
    split_ifs with e
    · subst e; simp
    · simp
  | remove q =>
    simp only [FileOp.exec] at h
    split_ifs at h
    cases h
    simp only [update_apply]
    split_ifs <;> simp
  | removeIfThere q =>
    cases h
    simp only [update_apply]
    split_ifs <;> simp
  | expect q =>
    simp only [FileOp.exec] at h
    split_ifs at h
    cases h
    simp
  | removeXml dir =>
    cases h
    dsimp only
    split_ifs <;> simp

/-- Every file in the output folder is right. -/
def AllRight (c : RunCfg K T) (st : Store K T) : Prop :=
  ∀ p, withSlash c.out <+: p → ∀ x, st p = some x → c.Right p x

theorem allRight_op {c : RunCfg K T} (hc : c.Good) {s : RunState K T} {st1 : Store K T}
    (ht1 : TileStore c st1 s.rem s.store) (h : AllRight c s.store) {t : List Char} (ht : t ∈ c.tiles)
    {o : FileOp} {os : List FileOp} {st : Store K T} (ho : s.rem t = o :: os)
    (hst : o.exec (c.written t) s.store = .ok st) : AllRight c st := by
  intro p hp x hx
  rcases exec_new hst p with h1 | h1 | ⟨h1, h2⟩
  · rw [h1] at hx; cases hx
  · rw [h1] at hx; exact h p hp x hx
  · rw [h2] at hx
    cases hx
    obtain ⟨done, -, hd, -⟩ := ht1.own t ht
    refine create_right hc ht ?_
    rw [← h1, ← hd, ho]; simp

theorem allRight_update {c : RunCfg K T} {st : Store K T} (h : AllRight c st) {q : List Char}
    {y : Content K T} (hy : c.Right q y) : AllRight c (update st q (some y)) := by
  intro p hp x hx
  rw [update_apply] at hx
  split_ifs at hx with e
  · subst e; cases hx; exact hy
  · exact h p hp x hx

theorem allRight_step {c : RunCfg K T} (hc : c.Good) {st0 : Store K T} {s s' : RunState K T}
    (hi : RunInv c st0 s) (h : 1 ≤ s.pos 0 → AllRight c s.store) (hs : RunStep c s s') :
    1 ≤ s'.pos 0 → AllRight c s'.store := by
  have one : ∀ r, r ≤ c.nW → 2 ≤ s.pos r → 1 ≤ s.pos 0 := fun r hr h2 =>
    hi.pos.b1 r hr h2 0 (Nat.zero_le _)
  -- a rank other than the master moves, or the master moves on
  have same : ∀ r0 n, (r0 = 0 → s.pos 0 ≠ 0) → 1 ≤ update s.pos r0 n 0 → AllRight c s.store := by
    intro r0 n h0 h1
    rw [update_apply] at h1
    split_ifs at h1 with e
    · exact h (by have := h0 e.symm; omega)
    · exact h h1
  have late : ∀ d, d ≤ c.nW → s.pos d = 2 → s.pos 0 ≤ 4 := by
    intro d hd h2
    by_contra h5
    have := hi.pos.b2 0 (Nat.zero_le _) (by omega) d hd
    omega
  cases hs with
  | prepare h0 =>
    intro _ p hp x hx
    exact absurd ((wipe_below c s.store p hp).symm.trans hx) (by simp)
  | skip r h1 hr h0 => exact same r 1 (by omega)
  | leave1 r hr h0 hall => exact same r 2 (by rintro rfl; omega)
  | sched d' hn hd => exact h
  | masterOp t o os st hn h2 ht hfull ho hst =>
    intro h1
    exact allRight_op hc (hi.work.t1 h1 (late 0 (Nat.zero_le _) h2)) (h h1)
      (List.mem_of_getElem? ht) ho hst
  | workerOp d t o os st hd1 hd h2 hbusy ho hst =>
    intro h1
    obtain ⟨k, hk⟩ := hi.work.d1 (by omega)
    exact allRight_op hc (hi.work.t1 h1 (late d hd h2)) (h h1)
      (List.mem_of_mem_take (busy_mem (by omega) hk hd1 hd hbusy)) ho hst
  | serialOp i t o os st hn h2 ht hprev ho hst =>
    intro h1
    exact allRight_op hc (hi.work.t1 h1 (late 0 (Nat.zero_le _) h2)) (h h1)
      (List.mem_of_getElem? ht) ho hst
  | masterEnd h0 => exact same 0 3 (by omega)
  | workerEnd d hd1 hd h0 => exact same d 3 (by omega)
  | leave2 r hr h0 hall => exact same r 4 (by rintro rfl; omega)
  | list l h0 hnd hl => exact same 0 5 (by omega)
  | receive r h1 hr h0 h5 => exact same r 5 (by omega)
  | convert r t ts x hr h5 htodo hhalf hx =>
    intro h1
    have hcv := hi.conv (hi.pos.b3 r hr (by omega))
    have hmem : t ∈ c.tiles ∧ c.empty t = false := by
      rw [← hcv.mem]
      refine List.mem_flatMap.mpr ⟨r, List.mem_range.mpr (by omega), ?_⟩
      exact (hcv.suf r hr).subset (by rw [htodo]; simp)
    refine allRight_update (h h1) ⟨t, hmem.1, hmem.2, rfl, ?_⟩
    rw [← hx]
    congr 1
    funext m d
    exact (readMult_left hc hmem.1 (hcv.own t hmem.1) m d).symm
  | convertMax r t ts x mx hr h5 htodo hhalf hfile hmx =>
    intro h1
    have hcv := hi.conv (hi.pos.b3 r hr (by omega))
    have hmem : t ∈ c.tiles ∧ c.empty t = false := by
      rw [← hcv.mem]
      refine List.mem_flatMap.mpr ⟨r, List.mem_range.mpr (by omega), ?_⟩
      exact (hcv.suf r hr).subset (by rw [htodo]; simp)
    refine allRight_update (h h1) ⟨t, hmem.1, hmem.2, rfl, x, ?_, hmx⟩
    obtain ⟨t', ts', y, e1, e2, e3⟩ := hcv.half r hr hhalf
    rw [htodo] at e1
    cases e1
    rw [hfile] at e3
    cases e3
    exact e2
  | send r h1 hr h5 htodo => exact same r 6 (by omega)
  | gather h5 htodo hall =>
    intro _
    have hcv := hi.conv (by omega)
    have hperm : (s.handed c).Perm (c.tiles.filter fun t => c.empty t = false) := by
      rw [List.perm_ext_iff_of_nodup hcv.nodup (hc.nodup.filter _)]
      intro t
      rw [hcv.mem, List.mem_filter, decide_eq_true_eq]
    have h1 : c.Right c.vrt (.vrt ((s.handed c).map c.m3)) := ⟨_, hperm, .inl ⟨rfl, rfl⟩⟩
    have h2 : c.Right c.vrtMax (.vrt ((s.handed c).map c.m3Max)) := ⟨_, hperm, .inr ⟨rfl, rfl⟩⟩
    exact allRight_update (allRight_update (h (by omega)) h1) h2
  | leave3 r hr h6 hall => exact same r 7 (by rintro rfl; omega)

theorem allRight {c : RunCfg K T} (hc : c.Good) {st0 : Store K T} {k : ℕ} {s : RunState K T}
    (hrun : RunSteps c k (c.start st0) s) (h1 : 1 ≤ s.pos 0) : AllRight c s.store := by
  generalize h0 : c.start st0 = s0 at hrun
  induction hrun with
  | refl s =>
    subst h0
    simp [RunCfg.start] at h1
  | step hr hs ih =>
    subst h0
    exact allRight_step hc (runInv hc hr) (fun h => ih h rfl) hs h1

/-- Outside the output folder nothing ever changes. -/
theorem run_outside {c : RunCfg K T} (hc : c.Good) {st0 : Store K T} {k : ℕ} {s : RunState K T}
    (hrun : RunSteps c k (c.start st0) s) (p : List Char) (hp : ¬ withSlash c.out <+: p) :
    s.store p = st0 p := by
  have hi := runInv hc hrun
  have hw : c.wipe st0 p = st0 p := by
    unfold RunCfg.wipe
    rw [below_eq, if_neg hp]
  by_cases h0 : s.pos 0 = 0
  · rw [(hi.work.p0 h0).1]
  by_cases h4 : s.pos 0 ≤ 4
  · rw [(hi.work.t1 (by omega) h4).rest p fun t _ ho => hp (owned_prefix hc.out ho), hw]
  · rw [(hi.conv (by omega)).rest p, hw]
    · exact fun t _ ho => hp (owned_prefix hc.out ho)
    · exact fun t _ _ => ⟨fun e => hp (by rw [e, m3_eq]; exact List.prefix_append _ _),
        fun e => hp (by rw [e, m3Max_eq]; exact List.prefix_append _ _)⟩
    · exact fun e => hp (by rw [e, vrt_eq]; exact List.prefix_append _ _)
    · exact fun e => hp (by rw [e, vrtMax_eq]; exact List.prefix_append _ _)

end WindMult
