import Verif.Spec.DummyMpi
import Verif.Proofs.Convert

/-!
# C156: the program without mpi4py
-/

set_option autoImplicit false

namespace WindMult

/-- C156: a program that finishes on one process with mpi4py and asks for no `MPI.Status()` finishes without mpi4py in
the same state. -/
theorem C156_same {σ V W : Type} (p : MpiCalls σ V W) (hp : NoStatus p) (s s' : σ)
    (h : oneProcessRun p s = .ok s') : dummyRun p s = .ok s' := by
  induction hp generalizing s with
  | done => exact h
  | work f k _ ih =>
    rw [oneProcessRun] at h
    rw [dummyRun]
    cases e : f s with
    | ok t => rw [e] at h; exact ih t h
    | error x => rw [e] at h; cases h
  | look k _ ih => exact ih s s h
  | rank k _ ih => exact ih 0 s h
  | size k _ ih => exact ih 1 s h
  | barrier k _ ih => exact ih s h
  | scatter l k _ ih =>
    match l, h with
    | some [v], h => exact ih v s h
    | none, h => cases h
    | some [], h => cases h
    | some (_ :: _ :: _), h => cases h
  | gather w k _ ih => exact ih _ s h
  | send d k _ _ => cases h
  | recv k _ _ => cases h

/-- C156: the exception is needed: what asks for `MPI.Status()` fails without mpi4py, although it would finish with it. -/
theorem C156_status {σ V W : Type} (s : σ) : ∃ p : MpiCalls σ V W, oneProcessRun p s = .ok s ∧
    dummyRun p s = .error .runtimeError :=
  ⟨.status .done, rfl, rfl⟩

/-- C156: a list of several parts is an error with mpi4py and one process; without mpi4py the program goes on with the
first part, whatever the others are. -/
theorem C156_scatter {σ V W : Type} (v w : V) (l : List V) (k : V → MpiCalls σ V W) (s : σ) :
    oneProcessRun (.scatter (some (v :: w :: l)) k) s = .error .valueError ∧
    ∀ l', dummyRun (.scatter (some (v :: l')) k) s = dummyRun (k v) s :=
  ⟨rfl, fun _ => rfl⟩

theorem rankSlices_one {N : Type} (l : List N) : rankSlices l 1 = [l] := by
  have h : strideSlice l 0 1 = l := by
    apply List.ext_getElem?
    intro k
    rw [strideSlice_getElem? l 0 1 k (by norm_num)]
    simp
  simp [rankSlices, List.range_succ, h]

theorem dummyRun_tiles {σ T N W : Type} (p : LocalParts σ T N W) (tiles : List T) (k : MpiCalls σ (List N) W) (s : σ) :
    dummyRun (tiles.foldr (fun t c => .work (p.tile t) c) k) s =
      (tiles.foldlM (fun s t => p.tile t s) s >>= dummyRun k) := by
  induction tiles generalizing s with
  | nil => rfl
  | cons t l ih =>
    rw [List.foldr_cons, dummyRun, List.foldlM_cons]
    cases p.tile t s with
    | ok s' => exact ih s'
    | error e => rfl

theorem oneProcessRun_tiles {σ T N W : Type} (p : LocalParts σ T N W) (tiles : List T) (k : MpiCalls σ (List N) W)
    (s : σ) : oneProcessRun (tiles.foldr (fun t c => .work (p.tile t) c) k) s =
      (tiles.foldlM (fun s t => p.tile t s) s >>= oneProcessRun k) := by
  induction tiles generalizing s with
  | nil => rfl
  | cons t l ih =>
    rw [List.foldr_cons, oneProcessRun, List.foldlM_cons]
    cases p.tile t s with
    | ok s' => exact ih s'
    | error e => rfl

/-- C156: the program needs nothing that is missing without mpi4py: with and without it, one process does what a
program without parallel processing would do, with the same error if there is one. -/
theorem C156_program {σ T N W : Type} (p : LocalParts σ T N W) (tiles : List T) (s : σ) :
    dummyRun (runCalls p tiles) s = plainRun p tiles s ∧ oneProcessRun (runCalls p tiles) s = plainRun p tiles s := by
  constructor
  · simp only [runCalls, tilesCalls, dummyRun, plainRun]
    simp only [gt_iff_lt, lt_self_iff_false, and_false, if_false, and_self, if_true, false_and]
    rw [dummyRun]
    cases p.openDem s with
    | error e => rfl
    | ok s1 =>
      simp only [dummyRun_tiles]
      change _ = (tiles.foldlM (fun s t => p.tile t s) s1 >>= _)
      congr 1
      funext s2
      simp only [dummyRun, convertCalls, if_true, rankSlices_one]
      cases p.convert (p.names s2) s2 with
      | error e => rfl
      | ok s3 =>
        dsimp only
        change _ = p.build [p.results s3] s3
        cases p.build [p.results s3] s3 <;> rfl
  · simp only [runCalls, tilesCalls, oneProcessRun, plainRun]
    simp only [gt_iff_lt, lt_self_iff_false, and_false, if_false, and_self, if_true, false_and]
    rw [oneProcessRun]
    cases p.openDem s with
    | error e => rfl
    | ok s1 =>
      simp only [oneProcessRun_tiles]
      change _ = (tiles.foldlM (fun s t => p.tile t s) s1 >>= _)
      congr 1
      funext s2
      simp only [oneProcessRun, convertCalls, if_true, rankSlices_one]
      cases p.convert (p.names s2) s2 with
      | error e => rfl
      | ok s3 =>
        dsimp only
        change _ = p.build [p.results s3] s3
        cases p.build [p.results s3] s3 <;> rfl

/-! ### Examples -/

/-- Tiles write their names, the conversion stops at a tile named `x`. -/
def localExample : LocalParts (List String) String String (List String) where
  openDem := .ok
  tile := fun t s => .ok (s ++ [t])
  names := id
  convert := fun l s => if "x" ∈ l then .error .osError else .ok (s ++ l.map (· ++ ".tif"))
  results := fun s => s.drop (s.length / 2)
  build := fun l s => .ok (s ++ l.flatten.map (· ++ " in vrt"))

example : dummyRun (runCalls localExample ["a", "b"]) [] =
    .ok ["a", "b", "a.tif", "b.tif", "a.tif in vrt", "b.tif in vrt"] ∧
    dummyRun (runCalls localExample ["a", "x"]) [] = .error .osError := by
  rw [(C156_program localExample ["a", "b"] []).1, (C156_program localExample ["a", "x"] []).1]
  decide +kernel

/-- A program without `MPI.Status()`: it scatters one part and gathers it. -/
example : dummyRun (.scatter (some [3]) fun v => .gather (v + 1) fun g => .work (fun s => .ok (s, g).1) .done :
    MpiCalls ℕ ℕ ℕ) 7 = .ok 7 :=
  C156_same _ (.scatter _ _ fun _ => .gather _ _ fun _ => .work _ _ .done) 7 7 rfl

/-- The second part is lost. -/
example : dummyRun (.scatter (some [[1], [2]]) fun v => .work (fun s => .ok (s ++ v)) .done :
    MpiCalls (List ℕ) (List ℕ) ℕ) [] = .ok [1] := rfl

end WindMult
