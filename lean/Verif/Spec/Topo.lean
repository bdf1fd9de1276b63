import Verif.Model.TopoLine

/-!
# Vocabulary of the topographic specifications

Only the type `Line` (length and entries) is taken from the model.
-/

set_option autoImplicit false

namespace WindMult
variable {K : Type} [Field K] [LinearOrder K] [IsStrictOrderedRing K] [FloorRing K]

/-- All entries are equal. -/
def Line.Flat (y : Line K) : Prop := ∀ i, i + 1 < y.size → y.val (i + 1) = y.val i

/-- The first change along the line is a fall. -/
def Line.FallsFirst (y : Line K) : Prop :=
  ∃ k, k + 1 < y.size ∧ y.val (k + 1) < y.val k ∧ ∀ k' < k, y.val (k' + 1) = y.val k'

/-- The last change along the line is a fall. -/
def Line.FallsLast (y : Line K) : Prop :=
  ∃ k, k + 1 < y.size ∧ y.val (k + 1) < y.val k ∧
    ∀ k', k < k' → k' + 1 < y.size → y.val (k' + 1) = y.val k'

/-- Position `i` is a ridge: no rise follows, and it is reached by a strict rise – or it is the
start of a line whose first change is a fall. -/
def Line.IsRidge (y : Line K) (i : ℕ) : Prop :=
  i < y.size ∧ (i + 1 < y.size → y.val (i + 1) ≤ y.val i) ∧
    (if i = 0 then y.FallsFirst else y.val (i - 1) < y.val i)

/-- Position `i` is a valley: no rise leads to it, and a strict rise follows – or it is the end of a
line whose last change is a fall. -/
def Line.IsValley (y : Line K) (i : ℕ) : Prop :=
  i < y.size ∧ (0 < i → y.val i ≤ y.val (i - 1)) ∧
    (if i + 1 = y.size then y.FallsLast else y.val i < y.val (i + 1))

/-- The line rises strictly all the way from `a` to `b`. -/
def Line.RisesBetween (y : Line K) (a b : ℕ) : Prop :=
  a < b ∧ b < y.size ∧ ∀ i, a ≤ i → i < b → y.val i < y.val (i + 1)

/-- A hill of the line: a valley, and the ridge the ground rises to from it without a break. -/
def Line.IsHill (y : Line K) (v r : ℕ) : Prop :=
  y.IsValley v ∧ y.IsRidge r ∧ y.RisesBetween v r

/-- Escarpment factor of the hill `v`–`r`: compare the mean slope behind the crest, measured to the
mirror image of the foot (or the line end if that is nearer), with the slope in front of it. -/
def Line.escarpment (y : Line K) (v r : ℕ) : K :=
  let b := min (y.size - 1) (2 * r - v)
  let front := (y.val r - y.val v) / ((r - v : ℕ) : K)
  let behind := (y.val r - y.val b) / ((b - r : ℕ) : K)
  if b ≤ r then 1 else max (1 / 2) (min 3 (5 / 2 - 3 / 2 * (behind / front)))

/-- Multiplier of a point at (signed) distance `x` in front of the crest of a hill of height `H`,
half distance `Lu` and escarpment factor `k`: it falls off linearly from the crest over `L2` in
front and `k * L2` behind, is capped at 1.71, and is taken from 1.71 in the separation zone. -/
def hillMultiplier (H Lu k x : K) : K :=
  let L1 := max (36 / 100 * Lu) (4 / 10 * H)
  let reach := if 0 ≤ x then 4 * L1 else k * (4 * L1)
  if |x| < reach then
    if x < 0 ∧ |x| < H / 4 ∧ 45 / 100 < H / (2 * Lu) ∧ |k - 1| < 2 / 10 then
      1 + 71 / 100 * (1 - |x| / reach)
    else min (171 / 100) (1 + H / (35 / 10 * (10 + L1)) * (1 - |x| / reach))
  else 1

/-- Hills that count: slope at least 0.05, at least 10 m high, half distance at least one cell. -/
def hillCounts (H Lu ds : K) : Prop := 5 / 100 ≤ H / (2 * Lu) ∧ 10 ≤ H ∧ ds ≤ Lu

/-- Half the horizontal distance from foot to crest. -/
def halfWidth (v r : ℕ) (ds : K) : K := ((r - v : ℕ) : K) * ds / 2

/-- What the hill `v`–`r` contributes at point `p` of the line. -/
def Line.hillValue (y : Line K) (v r : ℕ) (ds : K) (p : ℤ) : K :=
  hillMultiplier (y.val r - y.val v) (halfWidth v r ds) (y.escarpment v r) (((r : K) - (p : K)) * ds)

end WindMult
