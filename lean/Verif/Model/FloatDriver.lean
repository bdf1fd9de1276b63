import Verif.Model.FloatTerrain
import Verif.Model.TerrainFormula
import Verif.Model.Pipeline

/-!
# The terrain driver with rounded arithmetic: initial multipliers, cell size, widths, averages
(`/repo/terrain/terrain_mult.py` 34-248)

Overflow, underflow and NaN arising in the arithmetic are not modelled.
-/

set_option autoImplicit false

namespace WindMult
variable {u h : ℝ}

/-- `np.log` as far as it is used: for positive arguments the result is within one unit in the last place
(relative error `2 h`). `/repo/terrain/terrain_mult.py` 193. -/
structure FpLog (h : ℝ) where
  log : ℝ → ℝ
  near : ∀ x, 0 < x → |log x - Real.log x| ≤ 2 * h * |Real.log x|

/-- The formula for `Mz` in `terrain_class2mz_orig` (`/repo/terrain/terrain_mult.py` 193) in the format `W`
(`float64`): the four literals are rounded, and every operation. -/
noncomputable def mzFormulaFl (W : FpRound h) (L : FpLog h) (z : ℝ) : ℝ :=
  W.rnd (W.rnd (-W.rnd 0.2827 * L.log (W.rnd (W.rnd (W.rnd 0.4554 * L.log z) + W.rnd 3.734))) +
    W.rnd 1.0762)

/-- An order of adding up the cells of an array.  `np.mean` adds pairwise, in an order depending on size and memory
layout; here the order is an argument. `/repo/terrain/terrain_mult.py` 67. -/
inductive SumTree
  | cell (i j : ℕ)
  | add (l r : SumTree)

namespace SumTree

/-- The cells added up. `/repo/terrain/terrain_mult.py` 67. -/
def cells : SumTree → List (ℕ × ℕ)
  | cell i j => [(i, j)]
  | add l r => l.cells ++ r.cells

/-- The largest number of additions a cell goes through. `/repo/terrain/terrain_mult.py` 67. -/
def depth : SumTree → ℕ
  | cell _ _ => 0
  | add l r => max l.depth r.depth + 1

/-- The sum, every addition rounded. `np.mean`, `/repo/terrain/terrain_mult.py` 67. -/
noncomputable def sumFl (A : FpRound u) (g : Grid ℝ) : SumTree → ℝ
  | cell i j => g.val i j
  | add l r => A.rnd (l.sumFl A g + r.sumFl A g)

/-- Every cell of an array of this shape is added once. `np.mean`, `/repo/terrain/terrain_mult.py` 67. -/
def Covers (t : SumTree) (rows cols : ℕ) : Prop :=
  t.cells.Perm ((List.range rows).flatMap fun i => (List.range cols).map fun j => (i, j))

end SumTree

/-- `np.mean` of a `float32` array (`/repo/terrain/terrain_mult.py` 67): the sum in the format `A`, the quotient
rounded by `D`, the result stored by `S`. -/
noncomputable def meanFl (A D S : FpRound u) (t : SumTree) (g : Grid ℝ) : ℝ :=
  S.rnd (D.rnd (t.sumFl A g / ((g.rows * g.cols : ℕ) : ℝ)))

/-- `gridwidth` (`/repo/terrain/terrain_mult.py` 67, `/repo/shielding/shield_mult.py` 283,
`/repo/topographic/topo_mult.py` 75); halving is exact. -/
noncomputable def gridWidthFl (A D S : FpRound u) (t : SumTree) (xm ym : Grid ℝ) : ℝ :=
  1 / 2 * S.rnd (meanFl A D S t xm + meanFl A D S t ym)

/-- Averaging width and lag in cells before the tile-size check (`/repo/terrain/terrain_mult.py` 103-111) in the
format `Q`: quotients, the literal 1.414 and the product are rounded. -/
noncomputable def terrainWidthsFl (Q : FpRound u) (d : Dir) (gw : ℝ) : ℤ × ℤ :=
  if d.isCardinal then (around (Q.rnd (500 / gw)), around (Q.rnd (200 / gw)))
  else (pyInt (Q.rnd (500 / Q.rnd (gw * Q.rnd (1414 / 1000)))),
    pyInt (Q.rnd (200 / Q.rnd (gw * Q.rnd (1414 / 1000)))))

/-- `kernel_size = int(100.0 / gridwidth)` (`/repo/shielding/shield_mult.py` 296). -/
noncomputable def kernelSizeFl (Q : FpRound u) (gw : ℝ) : ℤ := pyInt (Q.rnd (100 / gw))

/-- The formats of the terrain computation.  A format with a smaller unit than `u` (`float64` in place of `float32`)
is also one for `u`. `/repo/terrain/terrain_mult.py` 34-248. -/
structure TerrainFp (u h : ℝ) where
  sum : FpRound u
  quot : FpRound u
  store : FpRound u
  wide : FpRound h
  log : FpLog h

/-- `terrain_class2mz_orig` (`/repo/terrain/terrain_mult.py` 178-196): the multipliers are stored as `float32`. -/
noncomputable def terrainClass2mzFl {C : Type} [DecidableEq C] (F : TerrainFp u h) (data : Grid C)
    (table : List (TerrainRow C ℝ)) : Grid ℝ :=
  terrainClass2mz (fun z => F.store.rnd (mzFormulaFl F.wide F.log z)) data table

/-- The loop body of `terrain` for one direction (`/repo/terrain/terrain_mult.py` 106-129). -/
noncomputable def terrainDirFl (F : TerrainFp u h) (d : Dir) (gw : ℝ) (recl : Grid ℝ) (mask : ℕ → ℕ → Bool) :
    Except PyErr (Grid (Option ℝ)) :=
  let aw := (terrainWidthsFl F.quot d gw).1
  let lag := (terrainWidthsFl F.quot d gw).2
  if (recl.rows : ℤ) < lag then
    .ok (recl.map some)
  else do
    let avg := if (recl.rows : ℤ) < aw + lag then (recl.rows : ℤ) - lag else aw
    let out ← convoFl F.sum F.quot F.store d recl avg lag
    return ⟨out.rows, out.cols, fun i j => if mask i j then none else some (out.val i j)⟩

/-- The direction loop of `terrain` (`/repo/terrain/terrain_mult.py` 100-150). -/
noncomputable def terrainLoopFl (F : TerrainFp u h) (gw : ℝ) (recl : Grid ℝ) (mask : ℕ → ℕ → Bool)
    (clip : Grid (Option ℝ) → Grid (Option ℝ)) :
    List Dir → List (Dir × Grid (Option ℝ)) → List (Dir × Grid (Option ℝ)) × Except PyErr Unit
  | [], saved => (saved, .ok ())
  | d :: ds, saved =>
    match terrainDirFl F d gw recl mask with
    | .error e => (saved, .error e)
    | .ok g => terrainLoopFl F gw recl mask clip ds (saved ++ [(d, clip g)])

/-- `terrain` (`/repo/terrain/terrain_mult.py` 34-157) with rounded arithmetic, from the reading of the tile on;
see `terrain` for what is left out.  `gw` is the computed grid width. -/
noncomputable def terrainFl {C : Type} [DecidableEq C] (F : TerrainFp u h) (gw : ℝ) (data : Grid C)
    (table : List (TerrainRow C ℝ)) (clip : Grid (Option ℝ) → Grid (Option ℝ)) :
    List (Dir × Grid (Option ℝ)) × Except PyErr Unit :=
  let recl := terrainClass2mzFl F data table
  match recl.cells.max? with
  | none => ([], .error .valueError)
  | some mx =>
    if mx = 0 then ([], .ok ())
    else
      let mask := fun i j => decide (recl.val i j = 0)
      terrainLoopFl F gw ⟨recl.rows, recl.cols, fun i j => if mask i j then 1 else recl.val i j⟩ mask
        clip Dir.terrainOrder []

end WindMult
