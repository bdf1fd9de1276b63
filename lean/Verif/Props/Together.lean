import Verif.Proofs.Together
import Verif.Props.Folder

/-!
# C148: several runs at the same time
-/

set_option autoImplicit false
set_option linter.unusedSectionVars false

namespace WindMult
open Spec Function
variable {K T : Type} [Zero K] [One K] [Mul K] [Max K]

theorem slash_under (a p : List Char) : withSlash a <+: under a p := by
  rw [under_eq]; exact List.prefix_append _ _

/-- **C148** Whatever other programs do outside the output folder of a run: at any moment, the run is where it could be
after as many steps alone, and the files below its folder are the same. -/
theorem C148_shared (c : RunCfg K T) (hc : c.Good) (st0 : Store K T) (k : ℕ) (s : RunState K T)
    (hrun : SharedSteps c k (c.start st0) s) :
    ∃ s1, RunSteps c k (c.start st0) s1 ∧ s1.pos = s.pos ∧
      ∀ p, s.store (under c.out p) = s1.store (under c.out p) := by
  obtain ⟨st, h1, h2⟩ := shared_alone hc hrun
  exact ⟨_, h1, rfl, fun p => (h2 _ (slash_under _ p)).symm⟩

variable {ι : Type} [DecidableEq ι]

/-- Seen from one of the runs, the others are other programs that leave its folder alone. -/
theorem together_shared (cs : ι → RunCfg K T) (hc : ∀ i, (cs i).Good)
    (hap : ∀ i j, i ≠ j → Apart (cs i).out (cs j).out) (st0 : Store K T) (k : ι → ℕ) (g : Together ι K T)
    (hrun : TogetherSteps cs k (.start cs st0) g) :
    (∀ i, SharedSteps (cs i) (k i) ((cs i).start st0) { g.state i with store := g.store }) ∧
      ∀ p, (∀ i, ¬ withSlash (cs i).out <+: p) → g.store p = st0 p := by
  generalize h0 : Together.start cs st0 = g0 at hrun
  induction hrun with
  | refl g => subst h0; exact ⟨fun i => .refl _, fun _ _ => rfl⟩
  | @step k g1 g2 g3 h i h' ih =>
    subst h0
    obtain ⟨ih, ihout⟩ := ih rfl
    obtain ⟨s', h'⟩ := h'
    obtain ⟨st, a1, a2⟩ := shared_alone (hc i) (ih i)
    have hg := going_store (going_of_inv (hc i) (runInv (hc i) a1)) g2.store
    obtain ⟨-, -, -, -, hout⟩ := frame_step (hc i) hg h' (fun p hp => rfl)
    refine ⟨fun j => ?_, fun p hp => (hout p (hp i)).trans (ihout p hp)⟩
    by_cases e : j = i
    · subst e
      simp only [update_self]
      exact .own (ih j) h'
    · simp only [update_of_ne e]
      refine .other (ih j) s'.store fun p hp => hout p fun hp' => ?_
      have := hap i j (Ne.symm e)
      rw [below_eq] at hp
      unfold Apart at this
      rw [under_eq, under_eq, List.append_nil, List.append_nil] at this
      exact (List.prefix_or_prefix_of_prefix hp' hp).elim this.1 this.2

/-- **C148** Any number of runs at the same time, with any numbers of processes each, into folders apart from each
other, their steps interleaved in any way: at any moment each of them is where it could be after as many steps alone,
with the same files below its folder, and nothing has changed outside their folders. -/
theorem C148_together (cs : ι → RunCfg K T) (hc : ∀ i, (cs i).Good)
    (hap : ∀ i j, i ≠ j → Apart (cs i).out (cs j).out) (st0 : Store K T) (k : ι → ℕ) (g : Together ι K T)
    (hrun : TogetherSteps cs k (.start cs st0) g) :
    (∀ i, ∃ s1, RunSteps (cs i) (k i) ((cs i).start st0) s1 ∧ s1.pos = (g.state i).pos ∧
      ∀ p, g.store (under (cs i).out p) = s1.store (under (cs i).out p)) ∧
    ∀ p, (∀ i, ¬ under (cs i).out [] <+: p) → g.store p = st0 p := by
  obtain ⟨h1, h2⟩ := together_shared cs hc hap st0 k g hrun
  refine ⟨fun i => C148_shared (cs i) (hc i) st0 _ _ (h1 i), fun p hp => h2 p fun i h => hp i ?_⟩
  rw [under_eq, List.append_nil]; exact h

/-- **C148** So a run that is through has left the results it would have left alone, whatever the others have done so
far: the multipliers, the GeoTIFFs, the maxima, the virtual rasters, and nothing else below its folder. -/
theorem C148_results (cs : ι → RunCfg K T) (hc : ∀ i, (cs i).Good)
    (hap : ∀ i j, i ≠ j → Apart (cs i).out (cs j).out) (st0 : Store K T) (k : ι → ℕ) (g : Together ι K T)
    (hrun : TogetherSteps cs k (.start cs st0) g) (i : ι) (hdone : (cs i).Done (g.state i)) :
    (∀ t ∈ (cs i).tiles, ∀ m d, g.store (openedNc (cs i).out t d m) = ((cs i).seen t m d).map .mult) ∧
    (∀ t ∈ (cs i).tiles, (cs i).empty t = false → ∃ x mx, processTile ((cs i).seen t) = .ok x ∧
      processMaxTile x = .ok mx ∧ g.store (under (cs i).out (tifPath t)) = some (.tif x) ∧
      g.store (under (cs i).out (tifMaxPath t)) = some (.maxTif mx)) ∧
    (∃ l : List (List Char), l.Perm ((cs i).tiles.filter fun t => (cs i).empty t = false) ∧
      g.store (under (cs i).out vrtPath) = some (.vrt (l.map fun t => under (cs i).out (tifPath t))) ∧
      g.store (under (cs i).out vrtMaxPath) = some (.vrt (l.map fun t => under (cs i).out (tifMaxPath t)))) ∧
    ∀ p, g.store (under (cs i).out p) ≠ none →
      (∃ t ∈ (cs i).tiles, (cs i).empty t = false ∧
        ((∃ m d, under (cs i).out p = openedNc (cs i).out t d m) ∨ p = tifPath t ∨ p = tifMaxPath t)) ∨
      p = vrtPath ∨ p = vrtMaxPath := by
  obtain ⟨s1, h1, h2, h3⟩ := (C148_together cs hc hap st0 k g hrun).1 i
  have hd : (cs i).Done s1 := fun r hr => by rw [h2]; exact hdone r hr
  obtain ⟨a1, a2, ⟨l, a3, a4, a5⟩, a6, -⟩ := C93_outcome _ (hc i) st0 _ s1 h1 hd
  simp only [vrt_under, vrtMax_under, m3_under, m3Max_under, funext (m3_under (cs i)),
    funext (m3Max_under (cs i))] at a2 a4 a5 a6
  refine ⟨fun t ht m d => ?_, fun t ht he => ?_, ⟨l, a3, ?_, ?_⟩, fun p hp => ?_⟩
  · rw [openedNc_under _ ((hc i).names t ht), h3, ← openedNc_under _ ((hc i).names t ht)]
    exact a1 t ht m d
  · obtain ⟨x, mx, b1, b2, b3, b4⟩ := a2 t ht he
    exact ⟨x, mx, b1, b2, by rw [h3, b3], by rw [h3, b4]⟩
  · rw [h3, a4]
  · rw [h3, a5]
  · rw [h3] at hp
    rcases a6 _ (below_prefix _ p) hp with ⟨t, ht, he, h | h | h⟩ | h | h
    · exact .inl ⟨t, ht, he, .inl h⟩
    · exact .inl ⟨t, ht, he, .inr (.inl (under_inj h))⟩
    · exact .inl ⟨t, ht, he, .inr (.inr (under_inj h))⟩
    · exact .inr (.inl (under_inj h))
    · exact .inr (.inr (under_inj h))

/-- **C148** None of the runs holds up another: each takes boundedly many steps, and as long as it is not through it
can take one, whatever the others have done and however far they are. -/
theorem C148_finishes (cs : ι → RunCfg K T) (hc : ∀ i, (cs i).Good) (hsh : ∀ i, (cs i).Shapes)
    (hap : ∀ i j, i ≠ j → Apart (cs i).out (cs j).out) (st0 : Store K T) (k : ι → ℕ) (g : Together ι K T)
    (hrun : TogetherSteps cs k (.start cs st0) g) (i : ι) :
    k i ≤ 45 * (cs i).tiles.length + 9 * (cs i).nW + 9 ∧
      (¬ (cs i).Done (g.state i) → ∃ g', TogetherStep cs i g g') := by
  obtain ⟨st, h1, h2⟩ := shared_alone (hc i) ((together_shared cs hc hap st0 k g hrun).1 i)
  obtain ⟨a, b⟩ := C94_finishes _ (hc i) (hsh i) st0 _ _ h1
  refine ⟨a, fun hnot => ?_⟩
  obtain ⟨s', hs'⟩ := b hnot
  obtain ⟨st', e, -⟩ := frame_step (hc i) (going_of_inv (hc i) (runInv (hc i) h1)) hs'
    (st := g.store) (fun p hp => (h2 p hp).symm)
  exact ⟨_, .mk g _ e⟩

/-- **C148** So finitely many runs can all be completed, from any moment on. -/
theorem C148_completes [Fintype ι] (cs : ι → RunCfg K T) (hc : ∀ i, (cs i).Good) (hsh : ∀ i, (cs i).Shapes)
    (hap : ∀ i j, i ≠ j → Apart (cs i).out (cs j).out) (st0 : Store K T) (k : ι → ℕ) (g : Together ι K T)
    (hrun : TogetherSteps cs k (.start cs st0) g) :
    ∃ k' g', TogetherSteps cs k' (.start cs st0) g' ∧ (∀ i, k i ≤ k' i) ∧ ∀ i, (cs i).Done (g'.state i) := by
  have main : ∀ n k g, ∑ i, (45 * (cs i).tiles.length + 9 * (cs i).nW + 9 - k i) = n →
      TogetherSteps cs k (.start cs st0) g →
      ∃ k' g', TogetherSteps cs k' (.start cs st0) g' ∧ (∀ i, k i ≤ k' i) ∧ ∀ i, (cs i).Done (g'.state i) := by
    intro n
    induction n using Nat.strong_induction_on with
    | _ n ih =>
      intro k g hn hr
      by_cases hd : ∀ i, (cs i).Done (g.state i)
      · exact ⟨k, g, hr, fun _ => le_rfl, hd⟩
      push Not at hd
      obtain ⟨i, hi⟩ := hd
      obtain ⟨g', hg'⟩ := (C148_finishes cs hc hsh hap st0 k g hr i).2 hi
      have hr' := TogetherSteps.step hr i hg'
      have hb := (C148_finishes cs hc hsh hap st0 _ g' hr' i).1
      rw [update_self] at hb
      obtain ⟨k', g'', h1, h2, h3⟩ := ih _ (by
        rw [← hn]
        refine Finset.sum_lt_sum (fun j _ => ?_) ⟨i, Finset.mem_univ _, ?_⟩
        · by_cases e : j = i
          · subst e; rw [update_self]; omega
          · rw [update_of_ne e]
        · rw [update_self]; omega) _ _ rfl hr'
      refine ⟨k', g'', h1, fun j => ?_, h3⟩
      have := h2 j
      by_cases e : j = i
      · subst e; rw [update_self] at this; omega
      · rw [update_of_ne e] at this; exact this
  exact main _ k g rfl hrun

/-! ### The hypotheses can be met, and are needed -/

/-- Two runs: into `/o` with two workers, into `results` with three. -/
def sampleTogether : Bool → RunCfg ℚ Unit
  | false => sampleRun 2
  | true => sampleRunIn "results".toList 3

theorem sampleTogether_good (i : Bool) : (sampleTogether i).Good := by
  cases i
  · exact sampleRun_good 2
  · exact sampleRunIn_good _ (by decide) 3

theorem sampleTogether_apart (i j : Bool) (h : i ≠ j) : Apart (sampleTogether i).out (sampleTogether j).out := by
  cases i <;> cases j <;> first | exact absurd rfl h | (unfold Apart; decide)

/-- Both started and both through, with a GeoTIFF of the tile `c` each. -/
example (st0 : Store ℚ Unit) : ∃ k g, TogetherSteps sampleTogether k (.start sampleTogether st0) g ∧
    g.store "/o/M3/c.tif".toList ≠ none ∧ g.store "results/M3/c.tif".toList ≠ none := by
  have hsh : ∀ i, (sampleTogether i).Shapes := fun i => by
    cases i
    · exact sampleRun_shapes 2
    · exact sampleRun_shapes 3
  obtain ⟨k, g, h1, -, h2⟩ := C148_completes sampleTogether sampleTogether_good hsh sampleTogether_apart st0 _ _
    (.refl _)
  have hr := fun i => (C148_results sampleTogether sampleTogether_good sampleTogether_apart st0 k g h1 i (h2 i)).2.1
  refine ⟨k, g, h1, ?_, ?_⟩
  · obtain ⟨x, mx, -, -, e, -⟩ := hr false ['c'] (by decide) (by decide)
    rw [show "/o/M3/c.tif".toList = under (sampleTogether false).out (tifPath ['c']) by decide, e]
    exact Option.some_ne_none _
  · obtain ⟨x, mx, -, -, e, -⟩ := hr true ['c'] (by decide) (by decide)
    rw [show "results/M3/c.tif".toList = under (sampleTogether true).out (tifPath ['c']) by decide, e]
    exact Option.some_ne_none _

/-- A run during which someone removes everything elsewhere, first thing. -/
example (st0 : Store ℚ Unit) : ∃ s, SharedSteps (sampleRun 2) 1 ((sampleRun 2).start st0) s ∧ s.pos 0 = 1 ∧
    ∀ p, s.store p = none := by
  refine ⟨_, .other (.own (.refl _) (.prepare _ rfl)) (fun _ => none) (fun p hp => ?_), rfl, fun _ => rfl⟩
  exact (if_pos hp).symm

/-- A run of one of several, the others not begun. -/
theorem together_first (cs : ι → RunCfg K T) (i : ι) (st0 : Store K T) (m : ℕ) (s : RunState K T)
    (hrun : RunSteps (cs i) m ((cs i).start st0) s) :
    ∃ k g, TogetherSteps cs k (.start cs st0) g ∧ { g.state i with store := g.store } = s ∧
      ∀ j, j ≠ i → g.state j = (cs j).start st0 := by
  generalize h0 : (cs i).start st0 = s0 at hrun
  induction hrun with
  | refl s => subst h0; exact ⟨_, _, .refl _, rfl, fun _ _ => rfl⟩
  | step h h' ih =>
    subst h0
    obtain ⟨k, g, h1, h2, h3⟩ := ih rfl
    subst h2
    refine ⟨_, _, .step h1 i (.mk g _ h'), ?_, fun j hj => ?_⟩
    · simp only [update_self]
    · simp only [update_of_ne hj]
      exact h3 j hj

/-- Two runs into one folder. -/
def sampleOneFolder : Bool → RunCfg ℚ Unit := fun _ => sampleRun 2

/-- Two runs at the same time into one folder disturb each other: the second to start removes the results of the first,
which may be through. -/
theorem C148_one_folder (st0 : Store ℚ Unit) : ∃ k g, TogetherSteps sampleOneFolder k (.start sampleOneFolder st0) g ∧
    (sampleOneFolder false).Done (g.state false) ∧ ∀ p, g.store (under "/o".toList p) = none := by
  obtain ⟨m, s, h1, -, h2⟩ := C94_completes _ (sampleRun_good 2) (sampleRun_shapes 2) st0 0 _ (.refl _)
  obtain ⟨k, g, a1, a2, a3⟩ := together_first sampleOneFolder false st0 m s h1
  subst a2
  have h0 : ({ g.state true with store := g.store } : RunState ℚ Unit).pos 0 = 0 := by
    rw [a3 true (by decide)]; rfl
  refine ⟨_, _, .step a1 true (.mk g _ (.prepare _ h0)), ?_, fun p => ?_⟩
  · simp only [update_of_ne (show false ≠ true by decide)]
    exact h2
  · exact wipe_below (sampleOneFolder true) g.store _ (slash_under _ p)

end WindMult
