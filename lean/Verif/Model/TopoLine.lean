import Verif.Model.Basic

/-!
# Topographic multiplier of a line
(`/repo/topographic/findpeaks.py`, `mh.py`, `multiplier_calc.py`)
-/

set_option autoImplicit false

namespace WindMult
variable {K : Type} [Field K] [LinearOrder K] [IsStrictOrderedRing K] [FloorRing K]

/-- A one-dimensional numpy array: a length and its entries (entries beyond the length are junk).
`line`, `/repo/topographic/topo_mult.py` 116. -/
structure Line (α : Type) where
  size : ℕ
  val : ℕ → α

/-- `np.diff(y)[i]` (`/repo/topographic/findpeaks.py` 20). -/
def Line.dy (y : Line K) (i : ℕ) : K := y.val (i + 1) - y.val i

/-- `np.compress(np.append([0], np.diff(ind)) != 1, ind)` (`/repo/topographic/findpeaks.py` 63-64)
after its first entry. -/
def compressDiff : ℕ → List ℕ → List ℕ
  | _, [] => []
  | prev, x :: xs => if (x : ℤ) - prev ≠ 1 then x :: compressDiff x xs else compressDiff x xs

/-- The indices of the changes, `(dy != 0).nonzero()[0]` (`/repo/topographic/findpeaks.py` 29, 46,
56). -/
def changes (y : Line K) : List ℕ :=
  (List.range (y.size - 1)).filter fun i => decide (y.dy i ≠ 0)

/-- The intersection of lines 34-40 of `/repo/topographic/findpeaks.py`. -/
def peakCandidates (y : Line K) : List ℕ :=
  (List.range y.size).filter fun i =>
    decide ((if i < y.size - 1 then y.dy i else 0) ≤ 0) &&
    decide (0 < (if i = 0 then (1 : K) else y.dy (i - 1)))

/-- Removal of a starting plateau that is a valley (`/repo/topographic/findpeaks.py` 44-51).
`non_zero_ind[0][0]` on an empty array raises `IndexError`. -/
def trimStart (y : Line K) : List ℕ → Except PyErr (List ℕ)
  | [] => .error .indexError
  | i0 :: rest =>
    if i0 = 0 ∧ y.dy 0 = 0 then
      match changes y with
      | [] => .error .indexError
      | k :: _ => .ok (if 0 < y.dy k then rest else i0 :: rest)
    else .ok (i0 :: rest)

/-- Removal of an ending plateau that is a valley (`/repo/topographic/findpeaks.py` 53-60); `ind[-1]`
on an empty array raises `IndexError`. -/
def trimEnd (y : Line K) (ind : List ℕ) : Except PyErr (List ℕ) :=
  match ind.getLast? with
  | none => .error .indexError
  | some l =>
    if l = y.size ∧ y.dy (y.size - 2) = 0 then
      match (changes y).getLast? with
      | none => .error .indexError
      | some k => .ok (if y.dy k < 0 then ind.dropLast.dropLast else ind)
    else .ok ind

/-- `/repo/topographic/findpeaks.py` 63-64. -/
def compressInd : List ℕ → List ℕ
  | [] => []
  | x :: xs => x :: compressDiff x xs

/-- `findpeaks` (`/repo/topographic/findpeaks.py` 11-66). -/
def findpeaks (y : Line K) : Except PyErr (List ℕ) :=
  if y.size = 0 then .ok []
  else if y.size = 1 then .ok [0]
  else if changes y = [] then .ok []
  else if peakCandidates y = [] then .ok []
  else do
    let ind ← trimStart y (peakCandidates y)
    let ind ← trimEnd y ind
    return compressInd ind

/-- `findvalleys` (`/repo/topographic/findpeaks.py` 69-86). -/
def findvalleys (y : Line K) : Except PyErr (List ℕ) := do
  let ind ← findpeaks (⟨y.size, fun k => - y.val (y.size - 1 - k)⟩ : Line K)
  return (ind.map fun i => y.size - i - 1).reverse

/-- `lu` (`/repo/topographic/mh.py` 28, 76). -/
def halfDistance (ridge valley : ℕ) (ds : K) : K := |(ridge : K) - (valley : K)| * ds / 2

/-- `escarpment_factor` (`/repo/topographic/mh.py` 11-49).  `ridge` and `valley` index the line;
numpy division by zero (never reached, C45) is Lean's `x / 0 = 0`. -/
def escarpmentFactor (profile : Line K) (ridge valley : ℕ) (ds : K) : K :=
  let nrow := profile.size
  let h := profile.val ridge - profile.val valley
  let lu := halfDistance ridge valley ds
  let slope := h / (2 * lu)
  let betaInd : ℤ := min ((nrow : ℤ) - 1) ⌊(ridge : K) + 2 * lu / ds⌋
  let hR2beta := profile.val ridge - profile.val betaInd.toNat
  let dR2beta := ((betaInd : K) - (ridge : K)) * ds
  if 0 < dR2beta then
    let slopeR2ml2 := hR2beta / dR2beta
    let escarp := 5 / 2 - 3 / 2 * slopeR2ml2 / slope
    if escarp < 1 / 2 then 1 / 2 else if 3 < escarp then 3 else escarp
  else 1

/-- numpy assignment `m[k] = v` for an index that may be negative (`k ≥ -len`).
`/repo/topographic/mh.py` 106-131. -/
def pySet {α : Type} (n : ℕ) (m : ℕ → α) (k : ℤ) (v : α) : ℕ → α :=
  let p : ℤ := if k < 0 then k + n else k
  fun i => if (i : ℤ) = p then v else m i

/-- What the body of the loop of `mh_calc` (`/repo/topographic/mh.py` 101-131) assigns to `m[k]`, if
anything; `x` is the distance of point `k` before the ridge. -/
def mhBody (h l1c l2c slope esc x : K) : Option K :=
  if 0 ≤ x ∧ x < l2c then
    let v := 1 + h / (7 / 2 * (10 + l1c)) * (1 - |x| / l2c)
    some (if 171 / 100 < v then 171 / 100 else v)
  else if 45 / 100 < slope ∧ x < 0 ∧ -h / 4 < x ∧ |esc - 1| < 2 / 10 then
    some (1 + 71 / 100 * (1 - |x| / (esc * l2c)))
  else if x < 0 ∧ -esc * l2c < x then
    let v := 1 + h / (7 / 2 * (10 + l1c)) * (1 - |x| / (esc * l2c))
    some (if 171 / 100 < v then 171 / 100 else v)
  else none

/-- The loop `for k in range(l1, l2)` of `mh_calc`. `/repo/topographic/mh.py` 101-131. -/
def mhLoop (n : ℕ) (body : ℤ → Option K) : List ℤ → (ℕ → K) → ℕ → K
  | [], m => m
  | k :: ks, m =>
    match body k with
    | none => mhLoop n body ks m
    | some v => mhLoop n body ks (pySet n m k v)

/-- The integers of Python's `range(a, b)`. `/repo/topographic/mh.py` 101. -/
def pyRange (a b : ℤ) : List ℤ := (List.range (b - a).toNat).map fun (t : ℕ) => a + t

/-- `mh_calc` (`/repo/topographic/mh.py` 52-133).  The column vector is a line. -/
def mhCalc (profile : Line K) (ridge valley : ℕ) (ds : K) : Line K :=
  let nrow := profile.size
  let h := profile.val ridge - profile.val valley
  let lu := halfDistance ridge valley ds
  let slope := h / (2 * lu)
  let l1c := max (36 / 100 * lu) (4 / 10 * h)
  let l2c := 4 * l1c
  let esc := escarpmentFactor profile ridge valley ds
  let fl2 : ℤ := max 0 ((ridge : ℤ) - ⌊l2c / ds⌋)
  if slope < 5 / 100 ∨ h < 10 ∨ lu < ds then ⟨nrow, fun _ => 1⟩
  else
    let l1 : ℤ := fl2 - 1
    let l2 : ℤ := min ((nrow : ℤ) - 1) ((ridge : ℤ) + ⌊esc * l2c / ds⌋) + 1
    ⟨nrow, mhLoop nrow (fun k => mhBody h l1c l2c slope esc (((ridge : K) - (k : K)) * ds))
      (pyRange l1 l2) fun _ => 1⟩

/-- The loops of `multiplier_calc` (`/repo/topographic/multiplier_calc.py` 49-59) over the ridges
numbered `i`, `i+1`, …; `shift` is 1 in case (1), where ridge `i` goes with valley `i - 1`. -/
def multiplierLoop (fwd : Line K) (valleys : List ℕ) (ds : K) (shift : ℕ) :
    ℕ → List ℕ → Line K → Except PyErr (Line K)
  | _, [], m => .ok m
  | i, r :: rs, m =>
    match valleys[i - shift]? with
    | none => .error .indexError
    | some v =>
      let m' := mhCalc fwd r v ds
      multiplierLoop fwd valleys ds shift (i + 1) rs ⟨m.size, fun p => max (m.val p) (m'.val p)⟩

/-- `multiplier_calc` (`/repo/topographic/multiplier_calc.py` 16-61). -/
def multiplierCalc (line : Line K) (ds : K) : Except PyErr (Line K) := do
  let ones : Line K := ⟨line.size, fun _ => 1⟩
  let fwd : Line K := ⟨line.size, fun i => (⌊line.val i⌋ : K)⟩
  let ridges ← findpeaks fwd
  let valleys ← findvalleys fwd
  match ridges with
  | [] => return ones
  | r0 :: rest =>
    if rest = [] ∧ r0 = 0 then return ones
    else if r0 = 0 then multiplierLoop fwd valleys ds 1 1 rest ones
    else multiplierLoop fwd valleys ds 0 0 (r0 :: rest) ones

end WindMult
