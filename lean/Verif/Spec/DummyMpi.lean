import Verif.Model.DummyMpi

/-!
# Programs without a parallel environment (for C156)
-/

set_option autoImplicit false

namespace WindMult

/-- The program asks for no `MPI.Status()`. -/
inductive NoStatus {σ V W : Type} : MpiCalls σ V W → Prop
  | done : NoStatus .done
  | work (f : σ → Except PyErr σ) (k : MpiCalls σ V W) : NoStatus k → NoStatus (.work f k)
  | look (k : σ → MpiCalls σ V W) : (∀ s, NoStatus (k s)) → NoStatus (.look k)
  | rank (k : ℕ → MpiCalls σ V W) : (∀ n, NoStatus (k n)) → NoStatus (.rank k)
  | size (k : ℕ → MpiCalls σ V W) : (∀ n, NoStatus (k n)) → NoStatus (.size k)
  | barrier (k : MpiCalls σ V W) : NoStatus k → NoStatus (.barrier k)
  | scatter (l : Option (List V)) (k : V → MpiCalls σ V W) : (∀ v, NoStatus (k v)) → NoStatus (.scatter l k)
  | gather (w : W) (k : Option (List W) → MpiCalls σ V W) : (∀ g, NoStatus (k g)) → NoStatus (.gather w k)
  | send (d : ℕ) (k : MpiCalls σ V W) : NoStatus k → NoStatus (.send d k)
  | recv (k : MpiCalls σ V W) : NoStatus k → NoStatus (.recv k)

/-- The end of the program as one would write it without parallel processing: the DEM, the tiles in their order, the
conversion of all tiles that were written, and the virtual rasters of its results. -/
def plainRun {σ T N W : Type} (p : LocalParts σ T N W) (tiles : List T) (s : σ) : Except PyErr σ := do
  let s1 ← p.openDem s
  let s2 ← tiles.foldlM (fun s t => p.tile t s) s1
  let s3 ← p.convert (p.names s2) s2
  p.build [p.results s3] s3

end WindMult
