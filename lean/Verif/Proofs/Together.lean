import Verif.Model.Together
import Verif.Proofs.Run
import Verif.Proofs.RunProgress

/-!
# A run reads and writes nothing outside its output folder
-/

set_option autoImplicit false
set_option linter.unusedSectionVars false

namespace WindMult
open Function
variable {K T : Type} [Zero K] [One K] [Mul K] [Max K]

/-- Where a run is, apart from the files. -/
structure Going (c : RunCfg K T) (s : RunState K T) : Prop where
  names : ∀ t ∈ c.tiles, ∀ d, d ≤ c.nW → s.pos d = 2 → ∀ o ∈ s.rem t, OpOk c.out t o
  disp : 1 ≤ c.nW → ∃ k, DRun c.tiles c.nW False k (DState.start c.nW) s.disp
  todo : ∀ r, r ≤ c.nW → s.pos r = 5 → ∀ t ∈ s.todo r, TileName t

theorem going_of_inv {c : RunCfg K T} (hc : c.Good) {st0 : Store K T} {s : RunState K T} (hi : RunInv c st0 s) :
    Going c s where
  names := by
    intro t ht d hd h2 o ho
    have h1 : 1 ≤ s.pos 0 := hi.pos.b1 d hd (by omega) 0 (Nat.zero_le _)
    have h4 : s.pos 0 ≤ 4 := by
      by_contra h5
      have := hi.pos.b2 0 (Nat.zero_le _) (by omega) d hd
      omega
    obtain ⟨done, -, hdn, -⟩ := (hi.work.t1 h1 h4).own t ht
    refine ops_ok (hc.names t ht) (c.empty t) (c.noLand t) o ?_
    show o ∈ c.ops t
    rw [← hdn]
    exact List.mem_append_right _ ho
  disp := hi.work.d1
  todo := by
    intro r hr h5 t ht
    have hcv := hi.conv (hi.pos.b3 r hr (by omega))
    have hmem : t ∈ c.tiles ∧ c.empty t = false := by
      rw [← hcv.mem]
      exact List.mem_flatMap.mpr ⟨r, List.mem_range.mpr (by omega), (hcv.suf r hr).subset ht⟩
    exact hc.names t hmem.1

theorem going_store {c : RunCfg K T} {s : RunState K T} (h : Going c s) (st : Store K T) :
    Going c { s with store := st } := ⟨h.names, h.disp, h.todo⟩

/-- An operation of a tile behaves the same on stores that agree below the output folder, and changes nothing
elsewhere. -/
theorem exec_frame {out t : List Char} (ho : ¬ ['/', '/'] <:+ out) (ht : TileName t) {w : List Char → Content K T}
    {a : FileOp} (ha : OpOk out t a) {st g st' : Store K T} (hag : ∀ p, withSlash out <+: p → g p = st p)
    (h : a.exec w st = .ok st') :
    ∃ g', a.exec w g = .ok g' ∧ (∀ p, withSlash out <+: p → g' p = st' p) ∧
      (∀ p, ¬ withSlash out <+: p → g' p = g p) ∧ ∀ p, ¬ withSlash out <+: p → st' p = st p := by
  have hout : ∀ {f f' : Store K T}, a.exec w f = .ok f' → ∀ p, ¬ withSlash out <+: p → f' p = f p := by
    intro f f' hf p hp
    rcases exec_other ho ht ha hf (fun h => hp (owned_prefix ho h)) with h1 | ⟨-, h1, -⟩
    · exact h1
    · exact absurd h1 hp
  suffices hs : ∃ g', a.exec w g = .ok g' ∧ ∀ p, withSlash out <+: p → g' p = st' p by
    obtain ⟨g', h1, h2⟩ := hs
    exact ⟨g', h1, h2, hout h1, hout h⟩
  cases a with
  | create q =>
    cases h
    refine ⟨_, rfl, fun p hp => ?_⟩
    simp only [update_apply, hag p hp]
  | remove q =>
    simp only [FileOp.exec] at h ⊢
    split_ifs at h with hc
    cases h
    rw [← hag q (owned_prefix ho ha)] at hc
    rw [if_pos hc]
    refine ⟨_, rfl, fun p hp => ?_⟩
    simp only [update_apply, hag p hp]
  | removeIfThere q =>
    cases h
    refine ⟨_, rfl, fun p hp => ?_⟩
    simp only [update_apply, hag p hp]
  | expect q =>
    simp only [FileOp.exec] at h ⊢
    split_ifs at h with hc
    cases h
    rw [← hag q (owned_prefix ho ha)] at hc
    rw [if_pos hc]
    exact ⟨g, rfl, hag⟩
  | removeXml dir =>
    cases h
    refine ⟨_, rfl, fun p hp => ?_⟩
    simp only [hag p hp]

/-- A step of a run can be done the same way on other files that agree below the output folder, with the same effect
there and none elsewhere. -/
theorem frame_step {c : RunCfg K T} (hc : c.Good) {s s' : RunState K T} (hg : Going c s) (hs : RunStep c s s')
    {st : Store K T} (hag : ∀ p, withSlash c.out <+: p → st p = s.store p) :
    ∃ st', RunStep c { s with store := st } { s' with store := st' } ∧
      (∀ p, withSlash c.out <+: p → st' p = s'.store p) ∧ (∀ p, ¬ withSlash c.out <+: p → st' p = st p) ∧
      ∀ p, ¬ withSlash c.out <+: p → s'.store p = s.store p := by
  -- one more file below the folder
  have upd : ∀ (f g : Store K T) q y, withSlash c.out <+: q → (∀ p, withSlash c.out <+: p → g p = f p) →
      (∀ p, withSlash c.out <+: p → update g q y p = update f q y p) ∧
      (∀ p, ¬ withSlash c.out <+: p → update g q y p = g p) ∧
      ∀ p, ¬ withSlash c.out <+: p → update f q y p = f p := by
    intro f g q y hq hfg
    refine ⟨fun p hp => by simp only [update_apply, hfg p hp], fun p hp => ?_, fun p hp => ?_⟩ <;>
    · rw [update_of_ne]
      rintro rfl
      exact hp hq
  have same : ∀ f : Store K T, ∀ p, ¬ withSlash c.out <+: p → f p = f p := fun _ _ _ => rfl
  cases hs with
  | prepare h0 =>
    refine ⟨c.wipe st, .prepare { s with store := st } h0, fun p hp => ?_, fun p hp => ?_, fun p hp => ?_⟩
    · rw [wipe_below c st p hp]; exact (wipe_below c s.store p hp).symm
    · unfold RunCfg.wipe; rw [below_eq, if_neg hp]
    · show c.wipe s.store p = _
      unfold RunCfg.wipe; rw [below_eq, if_neg hp]
  | skip r h1 hr h0 => exact ⟨st, .skip { s with store := st } r h1 hr h0, hag, same _, same _⟩
  | leave1 r hr h0 hall => exact ⟨st, .leave1 { s with store := st } r hr h0 hall, hag, same _, same _⟩
  | sched d' hn hd hm hw hcut hdone =>
    exact ⟨st, .sched { s with store := st } d' hn hd hm hw hcut hdone, hag, same _, same _⟩
  | masterOp t o os st1 hn h2 ht hfull ho hst =>
    have hmem := List.mem_of_getElem? ht
    obtain ⟨g', h1, h2', h3, h4⟩ := exec_frame hc.out (hc.names t hmem)
      (hg.names t hmem 0 (Nat.zero_le _) h2 o (by rw [ho]; simp)) hag hst
    exact ⟨g', .masterOp { s with store := st } t o os g' hn h2 ht hfull ho h1, h2', h3, h4⟩
  | workerOp d t o os st1 hd1 hd h2 hbusy ho hst =>
    obtain ⟨k, hk⟩ := hg.disp (by omega)
    have hmem := List.mem_of_mem_take (busy_mem (by omega) hk hd1 hd hbusy)
    obtain ⟨g', h1, h2', h3, h4⟩ := exec_frame hc.out (hc.names t hmem)
      (hg.names t hmem d hd h2 o (by rw [ho]; simp)) hag hst
    exact ⟨g', .workerOp { s with store := st } d t o os g' hd1 hd h2 hbusy ho h1, h2', h3, h4⟩
  | serialOp i t o os st1 hn h2 ht hprev ho hst =>
    have hmem := List.mem_of_getElem? ht
    obtain ⟨g', h1, h2', h3, h4⟩ := exec_frame hc.out (hc.names t hmem)
      (hg.names t hmem 0 (Nat.zero_le _) h2 o (by rw [ho]; simp)) hag hst
    exact ⟨g', .serialOp { s with store := st } i t o os g' hn h2 ht hprev ho h1, h2', h3, h4⟩
  | masterEnd h0 hret hser => exact ⟨st, .masterEnd { s with store := st } h0 hret hser, hag, same _, same _⟩
  | workerEnd d hd1 hd h0 hfin =>
    exact ⟨st, .workerEnd { s with store := st } d hd1 hd h0 hfin, hag, same _, same _⟩
  | leave2 r hr h0 hall => exact ⟨st, .leave2 { s with store := st } r hr h0 hall, hag, same _, same _⟩
  | list l h0 hnd hl =>
    refine ⟨st, .list { s with store := st } l h0 hnd (fun t => ?_), hag, same _, same _⟩
    rw [hl t]
    refine exists_congr fun f => and_congr_right fun _ => and_congr_right fun hf => ?_
    show _ ↔ st (pjoin c.shieldDir f) ≠ none ∧ _
    rw [hag (pjoin c.shieldDir f) (by rw [shieldFile_eq c hf]; exact List.prefix_append _ _)]
  | receive r h1 hr h0 h5 => exact ⟨st, .receive { s with store := st } r h1 hr h0 h5, hag, same _, same _⟩
  | convert r t ts x hr h5 htodo hhalf hx =>
    have hn := hg.todo r hr h5 t (by rw [htodo]; simp)
    obtain ⟨u1, u2, u3⟩ := upd s.store st (c.m3 t) (some (.tif x))
      (by rw [m3_eq]; exact List.prefix_append _ _) hag
    refine ⟨_, .convert { s with store := st } r t ts x hr h5 htodo hhalf ?_, u1, u2, u3⟩
    rw [← hx]
    congr 1
    funext m d
    unfold readMult
    dsimp only
    rw [hag (openedNc c.out t d m)]
    rw [← savedNc_eq_openedNc hc.out hn, savedNc_rel hc.out hn]
    exact List.prefix_append _ _
  | convertMax r t ts x mx hr h5 htodo hhalf hfile hmx =>
    obtain ⟨u1, u2, u3⟩ := upd s.store st (c.m3Max t) (some (.maxTif mx))
      (by rw [m3Max_eq]; exact List.prefix_append _ _) hag
    refine ⟨_, .convertMax { s with store := st } r t ts x mx hr h5 htodo hhalf ?_ hmx, u1, u2, u3⟩
    rw [← hfile]
    exact hag _ (by rw [m3_eq]; exact List.prefix_append _ _)
  | send r h1 hr h5 htodo => exact ⟨st, .send { s with store := st } r h1 hr h5 htodo, hag, same _, same _⟩
  | gather h5 htodo hall =>
    obtain ⟨u1, u2, u3⟩ := upd s.store st c.vrt
      (some (.vrt (((List.range (c.nW + 1)).flatMap s.share).map c.m3)))
      (by rw [vrt_eq]; exact List.prefix_append _ _) hag
    obtain ⟨v1, v2, v3⟩ := upd _ _ c.vrtMax
      (some (.vrt (((List.range (c.nW + 1)).flatMap s.share).map c.m3Max)))
      (by rw [vrtMax_eq]; exact List.prefix_append _ _) u1
    exact ⟨_, .gather { s with store := st } h5 htodo hall, v1, fun p hp => (v2 p hp).trans (u2 p hp),
      fun p hp => (v3 p hp).trans (u3 p hp)⟩
  | leave3 r hr h6 hall => exact ⟨st, .leave3 { s with store := st } r hr h6 hall, hag, same _, same _⟩

/-- A run among others does what it could do alone. -/
theorem shared_alone {c : RunCfg K T} (hc : c.Good) {st0 : Store K T} {k : ℕ} {s : RunState K T}
    (h : SharedSteps c k (c.start st0) s) :
    ∃ st, RunSteps c k (c.start st0) { s with store := st } ∧ ∀ p, withSlash c.out <+: p → st p = s.store p := by
  generalize h0 : c.start st0 = s0 at h
  induction h with
  | refl s => exact ⟨s.store, .refl _, fun _ _ => rfl⟩
  | @own k s1 s2 s3 h h' ih =>
    subst h0
    obtain ⟨st, h1, h2⟩ := ih rfl
    have hg := going_store (going_of_inv hc (runInv hc h1)) s2.store
    obtain ⟨st', e1, e2, -, -⟩ := frame_step hc hg h' h2
    exact ⟨st', .step h1 e1, e2⟩
  | other h st h' ih =>
    subst h0
    obtain ⟨st1, h1, h2⟩ := ih rfl
    exact ⟨st1, h1, fun p hp => (h2 p hp).trans (h' p (by rw [below_eq]; exact hp)).symm⟩

end WindMult
