import Verif.Spec.Folder
import Verif.Props.Run
import Verif.Props.Interrupted

/-!
# C143: the output folder
-/

set_option autoImplicit false
set_option linter.unusedSectionVars false

namespace WindMult
open Spec
variable {K T : Type} [Zero K] [One K] [Mul K] [Max K]

theorem under_eq (a p : List Char) : under a p = withSlash a ++ p := by
  unfold under withSlash
  split_ifs <;> simp

theorem under_inj {a p q : List Char} (h : under a p = under a q) : p = q := by
  rw [under_eq, under_eq] at h
  exact List.append_cancel_left h

theorem openedNc_under (out : List Char) {t : List Char} (ht : TileName t) (d : Dir) (m : Mult) :
    openedNc out t d m = under out (m.folder ++ '/' :: openedName t d m) := by
  rw [under_eq, openedNc, pjoin_eq (openedName_noSlash ht.1 d m),
    withSlash_folder _ _ (by cases m <;> decide) (by cases m <;> decide), pjoin_eq (by cases m <;> decide)]
  simp

theorem m3_under (c : RunCfg K T) (t : List Char) : c.m3 t = under c.out (tifPath t) := by
  rw [m3_eq, under_eq]; rfl

theorem m3Max_under (c : RunCfg K T) (t : List Char) : c.m3Max t = under c.out (tifMaxPath t) := by
  rw [m3Max_eq, under_eq]; rfl

theorem vrt_under (c : RunCfg K T) : c.vrt = under c.out vrtPath := by
  rw [vrt_eq, under_eq]; rfl

theorem vrtMax_under (c : RunCfg K T) : c.vrtMax = under c.out vrtMaxPath := by
  rw [vrtMax_eq, under_eq]; rfl

theorem below_under (c : RunCfg K T) : c.below = under c.out [] := by
  rw [below_eq, under_eq, List.append_nil]

theorem below_prefix (c : RunCfg K T) (p : List Char) : c.below <+: under c.out p := by
  rw [below_eq, under_eq]; exact List.prefix_append _ _

/-- **C143** The name of the output folder does not matter, nor what is in it or elsewhere before: two completed runs
over the same tiles, into any two folders, with any numbers of processes, leave the same file (or none) at every path
below their folders, except that each virtual raster lists the GeoTIFFs of its own folder, in some order. -/
theorem C143_folder (c c' : RunCfg K T) (hc : c.Good) (hout : ¬ ['/', '/'] <:+ c'.out) (htiles : c'.tiles.Perm c.tiles)
    (hpar : c'.empty = c.empty ∧ c'.noLand = c.noLand ∧ c'.files = c.files) (st0 st0' : Store K T)
    (k k' : ℕ) (s s' : RunState K T)
    (hrun : RunSteps c k (c.start st0) s) (hdone : c.Done s)
    (hrun' : RunSteps c' k' (c'.start st0') s') (hdone' : c'.Done s') :
    (∀ p, p ≠ vrtPath → p ≠ vrtMaxPath → s'.store (under c'.out p) = s.store (under c.out p)) ∧
    ∃ l l' : List (List Char), l.Perm l' ∧
      s.store (under c.out vrtPath) = some (.vrt (l.map fun t => under c.out (tifPath t))) ∧
      s.store (under c.out vrtMaxPath) = some (.vrt (l.map fun t => under c.out (tifMaxPath t))) ∧
      s'.store (under c'.out vrtPath) = some (.vrt (l'.map fun t => under c'.out (tifPath t))) ∧
      s'.store (under c'.out vrtMaxPath) = some (.vrt (l'.map fun t => under c'.out (tifMaxPath t))) := by
  have hc' : c'.Good :=
    ⟨hout, fun t ht => hc.names t (htiles.mem_iff.mp ht), htiles.nodup_iff.mpr hc.nodup⟩
  obtain ⟨e1, e2, e3⟩ := hpar
  obtain ⟨a1, a2, ⟨l, a3, a4, a5⟩, a6, -⟩ := C93_outcome _ hc st0 k s hrun hdone
  obtain ⟨b1, b2, ⟨l', b3, b4, b5⟩, b6, -⟩ := C93_outcome _ hc' st0' k' s' hrun' hdone'
  have hseen : ∀ t, c'.seen t = c.seen t := fun t => by
    funext m d
    unfold RunCfg.seen
    rw [e1, e2, e3]
  simp only [vrt_under, vrtMax_under, funext (m3_under c), funext (m3Max_under c), funext (m3_under c'),
    funext (m3Max_under c')] at a4 a5 b4 b5
  refine ⟨fun p hv hm => ?_, l, l', a3.trans ?_, a4, a5, b4, b5⟩
  swap
  · rw [e1] at b3
    exact (htiles.filter _).symm.trans b3.symm
  have hknown : ∀ t ∈ c.tiles, c.empty t = false →
      (∃ m d, p = m.folder ++ '/' :: openedName t d m) ∨ p = tifPath t ∨ p = tifMaxPath t →
      s'.store (under c'.out p) = s.store (under c.out p) := by
    intro t ht he h
    have hn := hc.names t ht
    have ht' := htiles.mem_iff.mpr ht
    obtain ⟨x, mx, h1, h2, h3, h4⟩ := a2 t ht he
    obtain ⟨x', mx', h1', h2', h3', h4'⟩ := b2 t ht' (by rw [e1]; exact he)
    rw [hseen] at h1'
    have e : x' = x := Except.ok.inj (h1'.symm.trans h1)
    subst e
    have e : mx' = mx := Except.ok.inj (h2'.symm.trans h2)
    subst e
    rcases h with ⟨m, d, rfl⟩ | rfl | rfl
    · rw [← openedNc_under _ hn, ← openedNc_under _ hn, a1 t ht m d, b1 t ht' m d, hseen]
    · rw [← m3_under, ← m3_under, h3, h3']
    · rw [← m3Max_under, ← m3Max_under, h4, h4']
  by_cases h1 : s.store (under c.out p) = none
  · by_cases h2 : s'.store (under c'.out p) = none
    · rw [h1, h2]
    · rcases b6 _ (below_prefix c' p) h2 with ⟨t, ht, he, h⟩ | h | h
      · have htc := htiles.mem_iff.mp ht
        rw [e1] at he
        refine hknown t htc he ?_
        rcases h with ⟨m, d, h⟩ | h | h
        · rw [openedNc_under _ (hc.names t htc)] at h
          exact .inl ⟨m, d, under_inj h⟩
        · rw [m3_under] at h; exact .inr (.inl (under_inj h))
        · rw [m3Max_under] at h; exact .inr (.inr (under_inj h))
      · rw [vrt_under] at h; exact absurd (under_inj h) hv
      · rw [vrtMax_under] at h; exact absurd (under_inj h) hm
  · rcases a6 _ (below_prefix c p) h1 with ⟨t, ht, he, h⟩ | h | h
    · refine hknown t ht he ?_
      rcases h with ⟨m, d, h⟩ | h | h
      · rw [openedNc_under _ (hc.names t ht)] at h
        exact .inl ⟨m, d, under_inj h⟩
      · rw [m3_under] at h; exact .inr (.inl (under_inj h))
      · rw [m3Max_under] at h; exact .inr (.inr (under_inj h))
    · rw [vrt_under] at h; exact absurd (under_inj h) hv
    · rw [vrtMax_under] at h; exact absurd (under_inj h) hm

/-- **C143** Runs into folders apart from each other leave each other's results alone: whatever a run into another
folder does, and whenever it is stopped, every file below a folder apart from its own is as it was before. -/
theorem C143_apart (c : RunCfg K T) (hc : c.Good) (other : List Char) (hap : Apart c.out other) (st0 : Store K T)
    (k : ℕ) (s : RunState K T) (hrun : RunSteps c k (c.start st0) s) (p : List Char) :
    s.store (under other p) = st0 (under other p) := by
  refine (C136_any_moment c hc st0 k s hrun).1 _ fun h => ?_
  have h' : under other [] <+: under other p := by
    rw [under_eq, under_eq, List.append_nil]; exact List.prefix_append _ _
  rw [below_under] at h
  exact (List.prefix_or_prefix_of_prefix h h').elim hap.1 hap.2

/-- **C143** So two runs, one after the other, into folders apart from each other leave both results. -/
theorem C143_both (c c' : RunCfg K T) (hc : c.Good) (hc' : c'.Good) (hap : Apart c'.out c.out) (st0 : Store K T)
    (k k' : ℕ) (s s' : RunState K T) (hrun : RunSteps c k (c.start st0) s) (hdone : c.Done s)
    (hrun' : RunSteps c' k' (c'.start s.store) s') (hdone' : c'.Done s') (t : List Char) (m : Mult) (d : Dir) :
    (t ∈ c.tiles → s'.store (openedNc c.out t d m) = (c.seen t m d).map .mult) ∧
      (t ∈ c'.tiles → s'.store (openedNc c'.out t d m) = (c'.seen t m d).map .mult) := by
  refine ⟨fun ht => ?_, fun ht => (C93_outcome c' hc' _ k' s' hrun' hdone').1 t ht m d⟩
  rw [openedNc_under _ (hc.names t ht), C143_apart c' hc' c.out hap _ k' s' hrun', ← openedNc_under _ (hc.names t ht)]
  exact (C93_outcome c hc _ k s hrun hdone).1 t ht m d

/-! ### The hypotheses can be met, and are needed -/

/-- The sample run into another folder. -/
def sampleRunIn (out : List Char) (nW : ℕ) : RunCfg ℚ Unit := { sampleRun nW with out := out }

theorem sampleRunIn_good (out : List Char) (h : ¬ ['/', '/'] <:+ out) (nW : ℕ) : (sampleRunIn out nW).Good :=
  ⟨h, (sampleRun_good nW).names, (sampleRun_good nW).nodup⟩

/-- A run into `/o` with two workers and one into `results` with three, each completed. -/
example (st0 st0' : Store ℚ Unit) : ∃ k s k' s', RunSteps (sampleRun 2) k ((sampleRun 2).start st0) s ∧
    RunSteps (sampleRunIn "results".toList 3) k' ((sampleRunIn "results".toList 3).start st0') s' ∧
    s.store "/o/M3_max/c.tif".toList ≠ none ∧
    s'.store "results/M3_max/c.tif".toList = s.store "/o/M3_max/c.tif".toList := by
  obtain ⟨k, s, h1, -, h2⟩ := C94_completes _ (sampleRun_good 2) (sampleRun_shapes 2) st0 0 _ (.refl _)
  have hg := sampleRunIn_good "results".toList (by decide) 3
  obtain ⟨k', s', h1', -, h2'⟩ := C94_completes _ hg (sampleRun_shapes 3) st0' 0 _ (.refl _)
  refine ⟨k, s, k', s', h1, h1', ?_, ?_⟩
  · obtain ⟨x, mx, -, -, -, e⟩ := (C93_outcome _ (sampleRun_good 2) st0 k s h1 h2).2.1 ['c'] (by decide) (by decide)
    rw [show "/o/M3_max/c.tif".toList = (sampleRun 2).m3Max ['c'] by decide, e]
    exact Option.some_ne_none _
  · exact (C143_folder (sampleRun 2) (sampleRunIn "results".toList 3) (sampleRun_good 2) hg.out (.refl _)
      ⟨rfl, rfl, rfl⟩ st0 st0' k k' s s' h1 h2 h1' h2').1 "M3_max/c.tif".toList (by decide) (by decide)

/-- `/o` and `results` are apart, and so are `/o` and `/o2`. -/
example : Apart "/o".toList "results".toList ∧ Apart "/o".toList "/o2".toList := by
  unfold Apart; decide

/-- Folders inside each other are not apart, and the results of the run into the inner one are lost when a run into
the outer one starts. -/
theorem C143_inner_lost (st0 : Store ℚ Unit) : ∃ k s k' s',
    RunSteps (sampleRunIn "/o/north".toList 2) k ((sampleRunIn "/o/north".toList 2).start st0) s ∧
    RunSteps (sampleRun 2) k' ((sampleRun 2).start s.store) s' ∧ (sampleRun 2).Done s' ∧
    s.store "/o/north/M3/c.tif".toList ≠ none ∧ s'.store "/o/north/M3/c.tif".toList = none := by
  have hg := sampleRunIn_good "/o/north".toList (by decide) 2
  obtain ⟨k, s, h1, -, h2⟩ := C94_completes _ hg (sampleRun_shapes 2) st0 0 _ (.refl _)
  obtain ⟨k', s', h1', -, h2'⟩ := C94_completes _ (sampleRun_good 2) (sampleRun_shapes 2) s.store 0 _ (.refl _)
  refine ⟨k, s, k', s', h1, h1', h2', ?_, ?_⟩
  · obtain ⟨x, mx, -, -, e, -⟩ := (C93_outcome _ hg st0 k s h1 h2).2.1 ['c'] (by decide) (by decide)
    rw [show "/o/north/M3/c.tif".toList = (sampleRunIn "/o/north".toList 2).m3 ['c'] by decide, e]
    exact Option.some_ne_none _
  · by_contra hne
    obtain ⟨-, -, -, h, -⟩ := C93_outcome _ (sampleRun_good 2) s.store k' s' h1' h2'
    have hlen : ∀ t ∈ (sampleRun 2).tiles, ("/o/north/M3/c.tif".toList : List Char) ≠ (sampleRun 2).m3 t ∧
        ("/o/north/M3/c.tif".toList : List Char) ≠ (sampleRun 2).m3Max t ∧
        ∀ m d, ("/o/north/M3/c.tif".toList : List Char) ≠ openedNc (sampleRun 2).out t d m := by
      intro t ht
      simp only [sampleRun, List.mem_cons, List.not_mem_nil, or_false] at ht
      rcases ht with rfl | rfl | rfl <;>
        exact ⟨by decide, by decide, fun m d => by cases m <;> cases d <;> decide⟩
    rcases h _ (by decide) hne with ⟨t, ht, -, ⟨m, d, e⟩ | e | e⟩ | e | e
    · exact (hlen t ht).2.2 m d e
    · exact (hlen t ht).1 e
    · exact (hlen t ht).2.1 e
    · exact absurd e (by decide)
    · exact absurd e (by decide)

end WindMult
