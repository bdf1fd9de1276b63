import Verif.Model.TopoGrid
import Verif.Model.FloatTerrain

/-!
# Topographic multiplier with rounded arithmetic (`/repo/topographic/mh.py`, `multiplier_calc.py`,
`topo_mult.py`)

`fl` rounds the result of every operation on floats; indices are exact.  Comparisons and `np.floor` are exact
on floats.  Which operations are in `float32` or `float64` depends on the version of numpy; `fl` is one
rounding for all.
-/

set_option autoImplicit false

namespace WindMult

/-- `lu` (`/repo/topographic/mh.py` 28, 76): `abs(ridge - valley) * data_spacing / 2`. -/
noncomputable def halfDistanceFl (fl : ℝ → ℝ) (ridge valley : ℕ) (ds : ℝ) : ℝ :=
  fl (fl (|(ridge : ℝ) - (valley : ℝ)| * ds) / 2)

/-- `slope` (`/repo/topographic/mh.py` 29, 77): `h / (2 * lu)`. -/
noncomputable def slopeFl (fl : ℝ → ℝ) (h : ℝ) (ridge valley : ℕ) (ds : ℝ) : ℝ :=
  fl (h / fl (2 * halfDistanceFl fl ridge valley ds))

/-- `beta_ind` (`/repo/topographic/mh.py` 30). -/
noncomputable def betaIndFl (fl : ℝ → ℝ) (nrow ridge valley : ℕ) (ds : ℝ) : ℤ :=
  min ((nrow : ℤ) - 1) ⌊fl ((ridge : ℝ) + fl (fl (2 * halfDistanceFl fl ridge valley ds) / ds))⌋

/-- `escarpment_factor` (`/repo/topographic/mh.py` 11-49), every operation rounded. -/
noncomputable def escarpmentFactorFl (fl : ℝ → ℝ) (profile : Line ℝ) (ridge valley : ℕ) (ds : ℝ) : ℝ :=
  let h := fl (profile.val ridge - profile.val valley)
  let slope := slopeFl fl h ridge valley ds
  let betaInd := betaIndFl fl profile.size ridge valley ds
  let hR2beta := fl (profile.val ridge - profile.val betaInd.toNat)
  let dR2beta := fl (((betaInd : ℝ) - (ridge : ℝ)) * ds)
  if 0 < dR2beta then
    let slopeR2ml2 := fl (hR2beta / dR2beta)
    let escarp := fl (5 / 2 - fl (fl (3 / 2 * slopeR2ml2) / slope))
    if escarp < 1 / 2 then 1 / 2 else if 3 < escarp then 3 else escarp
  else 1

/-- What the body of the loop of `mh_calc` (`/repo/topographic/mh.py` 101-131) assigns, every operation
rounded; the decimal constants are rounded too. -/
noncomputable def mhBodyFl (fl : ℝ → ℝ) (h l1c l2c slope esc x : ℝ) : Option ℝ :=
  if 0 ≤ x ∧ x < l2c then
    let v := fl (1 + fl (fl (h / fl (7 / 2 * fl (10 + l1c))) * fl (1 - fl (|x| / l2c))))
    some (if fl (171 / 100) < v then fl (171 / 100) else v)
  else if fl (45 / 100) < slope ∧ x < 0 ∧ fl (-h / 4) < x ∧ |fl (esc - 1)| < fl (2 / 10) then
    some (fl (1 + fl (fl (71 / 100) * fl (1 - fl (|x| / fl (esc * l2c))))))
  else if x < 0 ∧ fl (-esc * l2c) < x then
    let v := fl (1 + fl (fl (h / fl (7 / 2 * fl (10 + l1c))) * fl (1 - fl (|x| / fl (esc * l2c)))))
    some (if fl (171 / 100) < v then fl (171 / 100) else v)
  else none

/-- `mh_calc` (`/repo/topographic/mh.py` 52-133), every operation rounded. -/
noncomputable def mhCalcFl (fl : ℝ → ℝ) (profile : Line ℝ) (ridge valley : ℕ) (ds : ℝ) : Line ℝ :=
  let nrow := profile.size
  let h := fl (profile.val ridge - profile.val valley)
  let lu := halfDistanceFl fl ridge valley ds
  let slope := slopeFl fl h ridge valley ds
  let l1c := max (fl (fl (36 / 100) * lu)) (fl (fl (4 / 10) * h))
  let l2c := fl (4 * l1c)
  let esc := escarpmentFactorFl fl profile ridge valley ds
  let fl2 : ℤ := max 0 ((ridge : ℤ) - ⌊fl (l2c / ds)⌋)
  if slope < fl (5 / 100) ∨ h < 10 ∨ lu < ds then ⟨nrow, fun _ => 1⟩
  else
    let l1 : ℤ := fl2 - 1
    let l2 : ℤ := min ((nrow : ℤ) - 1) ((ridge : ℤ) + ⌊fl (fl (esc * l2c) / ds)⌋) + 1
    ⟨nrow, mhLoop nrow (fun k => mhBodyFl fl h l1c l2c slope esc (fl (((ridge : ℝ) - (k : ℝ)) * ds)))
      (pyRange l1 l2) fun _ => 1⟩

/-- The loops of `multiplier_calc` (`/repo/topographic/multiplier_calc.py` 49-59), as `multiplierLoop`. -/
noncomputable def multiplierLoopFl (fl : ℝ → ℝ) (fwd : Line ℝ) (valleys : List ℕ) (ds : ℝ) (shift : ℕ) :
    ℕ → List ℕ → Line ℝ → Except PyErr (Line ℝ)
  | _, [], m => .ok m
  | i, r :: rs, m =>
    match valleys[i - shift]? with
    | none => .error .indexError
    | some v =>
      let m' := mhCalcFl fl fwd r v ds
      multiplierLoopFl fl fwd valleys ds shift (i + 1) rs ⟨m.size, fun p => max (m.val p) (m'.val p)⟩

/-- `multiplier_calc` (`/repo/topographic/multiplier_calc.py` 16-61).  `np.floor` is exact; `findpeaks` only
uses the signs of differences, and rounding keeps the sign of a difference, so it is used as it is. -/
noncomputable def multiplierCalcFl (fl : ℝ → ℝ) (line : Line ℝ) (ds : ℝ) : Except PyErr (Line ℝ) := do
  let ones : Line ℝ := ⟨line.size, fun _ => 1⟩
  let fwd : Line ℝ := ⟨line.size, fun i => (⌊line.val i⌋ : ℝ)⟩
  let ridges ← findpeaks fwd
  let valleys ← findvalleys fwd
  match ridges with
  | [] => return ones
  | r0 :: rest =>
    if rest = [] ∧ r0 = 0 then return ones
    else if r0 = 0 then multiplierLoopFl fl fwd valleys ds 1 1 rest ones
    else multiplierLoopFl fl fwd valleys ds 0 0 (r0 :: rest) ones

/-- The loop over the starting positions (`/repo/topographic/topo_mult.py` 109-122), as `topoLines`. -/
noncomputable def topoLinesFl (fl : ℝ → ℝ) (nr nc : ℕ) (d : Dir) (data : ℕ → Option ℝ) (spacing : ℝ) :
    List ℕ → (ℕ → ℝ) → Except PyErr (ℕ → ℝ)
  | [], mh => .ok mh
  | s :: ss, mh => do
    let path := makePath nr nc s d
    let m ← multiplierCalcFl fl (lineAlong data path) spacing
    topoLinesFl fl nr nc d data spacing ss (scatter m.val 0 path mh)

/-- `remove_conservatism` on one cell (`/repo/topographic/topo_mult.py` 173-191), every operation rounded. -/
noncomputable def removeConservatismFl (fl : ℝ → ℝ) (x : ℝ) : ℝ :=
  if 1 < x ∧ x < fl (14 / 10) then fl (x * fl (125 / 100 - fl (25 / 100 * x)))
  else if fl (14 / 10) ≤ x then fl (x * fl (9 / 10)) else x

/-- `tasmania` on one cell (`/repo/topographic/topo_mult.py` 156-170), every operation rounded. -/
noncomputable def tasmaniaCellFl (fl : ℝ → ℝ) (mh : ℝ) (dem : Option ℝ) : ℝ :=
  match dem with
  | none => mh
  | some z => if 500 < z then fl (mh * fl (1 + fl (fl (15 / 100000) * z))) else mh

/-- `signal.convolve(mhdata, np.ones((3, 3)) / 9., mode='same')` on one cell
(`/repo/topographic/topo_mult.py` 136-137): the nine products are rounded and added one after the other.  The
order of the sum is that of the model; scipy may use another, or for large kernels an FFT. -/
noncomputable def smoothCellFl (fl : ℝ → ℝ) (g : Grid ℝ) (i j : ℕ) : ℝ :=
  ((List.range 3).flatMap fun (a : ℕ) => (List.range 3).map fun (b : ℕ) =>
    fl (g.orZero ((i : ℤ) + a - 1) ((j : ℤ) + b - 1) * fl (1 / 9))).foldl (fun s t => fl (s + t)) 0

/-- One direction of `topomult` up to the correction and the Tasmania factor
(`/repo/topographic/topo_mult.py` 87-133), as `topoRaw`; the spacing of the points is an argument. -/
noncomputable def topoRawFl (fl : ℝ → ℝ) (dem : Grid (Option ℝ)) (spacing xLeft yUpper : ℝ) (d : Dir) :
    Except PyErr (Grid ℝ) := do
  let mh ← topoLinesFl fl dem.rows dem.cols d dem.flattenT spacing (startIdx dem.rows dem.cols d) (fun _ => 1)
  let g : Grid ℝ := ⟨dem.rows, dem.cols, fun i j => removeConservatismFl fl (mh (j * dem.rows + i))⟩
  if 143 < xLeft ∧ 40 < yUpper then
    return ⟨g.rows, g.cols, fun i j => tasmaniaCellFl fl (g.val i j) (dem.val i j)⟩
  else return g

/-- One direction of `topomult` (`/repo/topographic/topo_mult.py` 84-138), as `topoDir`. -/
noncomputable def topoDirFl (fl : ℝ → ℝ) (dem : Grid (Option ℝ)) (spacing xLeft yUpper : ℝ) (d : Dir) :
    Except PyErr (Grid (Option ℝ)) := do
  let g ← topoRawFl fl dem spacing xLeft yUpper d
  return ⟨g.rows, g.cols, fun i j =>
    match dem.val i j with
    | none => none
    | some _ => some (smoothCellFl fl g i j)⟩

end WindMult
