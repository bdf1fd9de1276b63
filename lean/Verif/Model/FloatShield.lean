import Verif.Model.Shield
import Verif.Model.FloatTerrain

/-!
# Shielding multiplier with rounded arithmetic (`/repo/shielding/shield_mult.py` 244-397, 543-554)

`S` is the format of the arrays of shielding values (`float32`), `W` that of the slopes, of the kernel and of the
sums in `ndimage.convolve` (`float64`).
-/

set_option autoImplicit false

namespace WindMult
variable {u w : ℝ}

/-- The kernel as stored: `kernel / kernel.sum()` (`/repo/shielding/shield_mult.py` 415, 436).  The sum is a whole
number and exact; the quotients are rounded; flipping does not change them. -/
noncomputable def kernFl (W : FpRound w) (d : Dir) (size : ℕ) : Grid ℝ :=
  ⟨(kern d size : Grid ℝ).rows, (kern d size : Grid ℝ).cols, fun a b => W.rnd ((kern d size : Grid ℝ).val a b)⟩

/-- Sum of floats that may be NaN, rounded. In `ndimage.convolve`, `/repo/shielding/shield_mult.py` 553. -/
noncomputable def nanAddFl (W : FpRound w) (x y : Option ℝ) : Option ℝ :=
  match x, y with
  | some a, some b => some (W.rnd (a + b))
  | _, _ => none

/-- `blur_image` (`/repo/shielding/shield_mult.py` 543-554), as `ndConvolve` with value 1 outside: each product
and each sum is rounded by `W`, the result is stored in the format of the input. -/
noncomputable def blurImageFl (S : FpRound u) (W : FpRound w) (im : Grid (Option ℝ)) (ker : Grid ℝ) :
    Grid (Option ℝ) :=
  ⟨im.rows, im.cols, fun i j =>
    ((List.range ker.rows).foldl (fun acc a =>
      (List.range ker.cols).foldl (fun acc b =>
        if ker.val a b = 0 then acc
        else nanAddFl W acc ((im.padded (some 1) ((i : ℤ) + (ker.rows / 2 : ℕ) - a)
            ((j : ℤ) + (ker.cols / 2 : ℕ) - b)).map (fun v => W.rnd (ker.val a b * v))))
        acc) (some 0)).map S.rnd⟩

/-- `combine` on one cell (`/repo/shielding/shield_mult.py` 364-397), every operation rounded: differences and
products of shielding values by `S`, everything with a slope in it by `W`, assignments to the array by `S`.  The
literals are rounded as well: 0.9 to the format of the array it is compared with. -/
noncomputable def combineCellFl (S : FpRound u) (W : FpRound w) (d : Dir) (ms slope : Option ℝ) (aspect : ℕ) :
    Option ℝ :=
  let conservatism := S.rnd (9 / 10)
  let up := W.rnd (123 / 10)
  let low := W.rnd (327 / 100)
  let mask := ms.isNone
  let out : ℝ := ms.getD (-99)
  let facing := decide (aspect = direAspect d)
  let uplimit := nanTest slope (fun s => decide (up ≤ s)) && facing
  let middle := nanTest slope (fun s => decide (low < s) && decide (s < up)) && facing
  let out := if uplimit then 1 else out
  let out := if middle then
      S.rnd (W.rnd (W.rnd (W.rnd (S.rnd (1 - out) * W.rnd (slope.getD 0 - low)) / W.rnd (up - low)) + out))
    else out
  let smaller := decide (out < conservatism)
  let bigger := decide (conservatism ≤ out)
  let out := if smaller then S.rnd (out * conservatism) else out
  let out := if bigger then S.rnd (out ^ 2) else out
  if mask then none else some out

/-- `combine` on arrays, rounded. `/repo/shielding/shield_mult.py` 350-397. -/
noncomputable def combineFl (S : FpRound u) (W : FpRound w) (d : Dir) (ms slope : Grid (Option ℝ))
    (aspect : Grid ℕ) : Grid (Option ℝ) :=
  ⟨ms.rows, ms.cols, fun i j => combineCellFl S W d (ms.val i j) (slope.val i j) (aspect.val i j)⟩

end WindMult
