import Verif.Model.PixelSize
import Verif.Model.FloatSlope

/-!
# Pixel sizes in rounded arithmetic (`/repo/utilities/vincenty.py` 171-255,
`/repo/utilities/get_pixel_size_grid.py`, `/repo/utilities/blrb.py`)

All in `float64`; only the grids the sizes are stored in are `float32`.  The model of the same code over ℝ is in
`Model/Vincenty.lean`, `Model/PixelSize.lean` and `Model/Blrb.lean`.
-/

set_option autoImplicit false

noncomputable section

namespace WindMult
variable {w u : ℝ}

/-- The functions of Python's `math` that `vinc_dist` uses (`/repo/utilities/vincenty.py` 194-255), as far as they are
used: each is the real function with a relative error of at most `2 w` (one unit in the last place), `sq` is
`pow(_, 2)`.  `math.sqrt` is correctly rounded and needs no field. -/
structure FpMath (w : ℝ) where
  sin : ℝ → ℝ
  cos : ℝ → ℝ
  tan : ℝ → ℝ
  atan : ℝ → ℝ
  asin : ℝ → ℝ
  atan2 : ℝ → ℝ → ℝ
  sq : ℝ → ℝ
  sin_near : ∀ x, |sin x - Real.sin x| ≤ 2 * w * |Real.sin x|
  cos_near : ∀ x, |cos x - Real.cos x| ≤ 2 * w * |Real.cos x|
  tan_near : ∀ x, |tan x - Real.tan x| ≤ 2 * w * |Real.tan x|
  atan_near : ∀ x, |atan x - Real.arctan x| ≤ 2 * w * |Real.arctan x|
  asin_near : ∀ x, |x| ≤ 1 → |asin x - Real.arcsin x| ≤ 2 * w * |Real.arcsin x|
  atan2_near : ∀ y x, |atan2 y x - WindMult.atan2 y x| ≤ 2 * w * |WindMult.atan2 y x|
  sq_near : ∀ x, |sq x - x ^ 2| ≤ 2 * w * x ^ 2

/-- `sqr_sin_sigma` (`/repo/utilities/vincenty.py` 214-216). -/
def sqrSinSigmaFl (W : FpRound w) (M : FpMath w) (U1 U2 lam : ℝ) : ℝ :=
  W.rnd (M.sq (W.rnd (M.cos U2 * M.sin lam)) +
    M.sq (W.rnd (W.rnd (M.cos U1 * M.sin U2) - W.rnd (W.rnd (M.sin U1 * M.cos U2) * M.cos lam))))

/-- `Cos_sigma` (`/repo/utilities/vincenty.py` 220-221). -/
def cosSigmaFl (W : FpRound w) (M : FpMath w) (U1 U2 lam : ℝ) : ℝ :=
  W.rnd (W.rnd (M.sin U1 * M.sin U2) + W.rnd (W.rnd (M.cos U1 * M.cos U2) * M.cos lam))

/-- `Sin_alpha` (`/repo/utilities/vincenty.py` 225-226). -/
def sinAlphaFl (W : FpRound w) (M : FpMath w) (U1 U2 lam sigma : ℝ) : ℝ :=
  W.rnd (W.rnd (W.rnd (M.cos U1 * M.cos U2) * M.sin lam) / M.sin sigma)

/-- `pow(math.cos(alpha), 2)` (`/repo/utilities/vincenty.py` 230). -/
def cosSqFl (M : FpMath w) (alpha : ℝ) : ℝ := M.sq (M.cos alpha)

/-- `Cos2sigma_m` (`/repo/utilities/vincenty.py` 229-230); multiplication by two is exact. -/
def cos2SigmaMFl (W : FpRound w) (M : FpMath w) (U1 U2 sigma alpha : ℝ) : ℝ :=
  W.rnd (M.cos sigma - W.rnd (W.rnd (2 * M.sin U1 * M.sin U2) / cosSqFl M alpha))

/-- `C` (`/repo/utilities/vincenty.py` 232-233) as a function of `pow(math.cos(alpha), 2)`. -/
def seriesCFl (W : FpRound w) (f z : ℝ) : ℝ :=
  W.rnd (W.rnd (W.rnd (f / 16) * z) * W.rnd (4 + W.rnd (f * W.rnd (4 - W.rnd (3 * z)))))

/-- The next `lembda` (`/repo/utilities/vincenty.py` 237-240). -/
def nextLamFl (W : FpRound w) (M : FpMath w) (f omega C alpha sigma c2 : ℝ) : ℝ :=
  W.rnd (omega + W.rnd (W.rnd (W.rnd (W.rnd (1 - C) * f) * M.sin alpha) *
    W.rnd (sigma + W.rnd (W.rnd (C * M.sin sigma) *
      W.rnd (c2 + W.rnd (W.rnd (C * M.cos sigma) * W.rnd (-1 + 2 * M.sq c2)))))))

open Classical in
/-- One iteration (`/repo/utilities/vincenty.py` 214-240).  `ZeroDivisionError` for `sin(sigma) = 0` and
`cos(alpha) ** 2 = 0`, `ValueError` when the argument of `math.asin` exceeds one. -/
def vincStepFl (W : FpRound w) (M : FpMath w) (f omega U1 U2 lam : ℝ) : Except PyErr VincState :=
  let sqrSinSigma := sqrSinSigmaFl W M U1 U2 lam
  let sinSigma := W.rnd (√sqrSinSigma)
  let cosSigma := cosSigmaFl W M U1 U2 lam
  let sigma := M.atan2 sinSigma cosSigma
  if M.sin sigma = 0 then .error .zeroDivisionError
  else
    let sinAlpha := sinAlphaFl W M U1 U2 lam sigma
    if 1 < |sinAlpha| then .error .valueError
    else
      let alpha := M.asin sinAlpha
      if cosSqFl M alpha = 0 then .error .zeroDivisionError
      else
        let cos2SigmaM := cos2SigmaMFl W M U1 U2 sigma alpha
        .ok { sqrSinSigma, sinSigma, cosSigma, sigma, alpha, cos2SigmaM,
              lam := nextLamFl W M f omega (seriesCFl W f (cosSqFl M alpha)) alpha sigma cos2SigmaM }

/-- The loop condition (`/repo/utilities/vincenty.py` 207-212). -/
def vincGoesOnFl (W : FpRound w) (last lam : ℝ) : Prop :=
  last < -3000000 ∨ (lam ≠ 0 ∧ |W.rnd (W.rnd (last - lam) / lam)| > W.rnd (1 / 1000000000))

open Classical in
/-- The loop (`/repo/utilities/vincenty.py` 207-240), as `vincLoop`. -/
def vincLoopFl (W : FpRound w) (M : FpMath w) (f omega U1 U2 : ℝ) : ℕ → ℝ → ℝ → Option VincState →
    Option (Except PyErr (Option VincState))
  | fuel, last, lam, st =>
    if vincGoesOnFl W last lam then
      match fuel with
      | 0 => none
      | fuel + 1 =>
        match vincStepFl W M f omega U1 U2 lam with
        | .error e => some (.error e)
        | .ok st' => vincLoopFl W M f omega U1 U2 fuel lam st'.lam (some st')
    else some (.ok st)

/-- `u2` (`/repo/utilities/vincenty.py` 242). -/
def u2Fl (W : FpRound w) (a b z : ℝ) : ℝ :=
  W.rnd (W.rnd (z * W.rnd (W.rnd (a * a) - W.rnd (b * b))) / W.rnd (b * b))

/-- `A` (`/repo/utilities/vincenty.py` 244). -/
def seriesAFl (W : FpRound w) (u2 : ℝ) : ℝ :=
  W.rnd (1 + W.rnd (W.rnd (u2 / 16384) *
    W.rnd (4096 + W.rnd (u2 * W.rnd (-768 + W.rnd (u2 * W.rnd (320 - W.rnd (175 * u2))))))))

/-- `B` (`/repo/utilities/vincenty.py` 246). -/
def seriesBFl (W : FpRound w) (u2 : ℝ) : ℝ :=
  W.rnd (W.rnd (u2 / 1024) *
    W.rnd (256 + W.rnd (u2 * W.rnd (-128 + W.rnd (u2 * W.rnd (74 - W.rnd (47 * u2)))))))

/-- `delta_sigma` (`/repo/utilities/vincenty.py` 248-253); multiplication by two and four is exact. -/
def deltaSigmaFl (W : FpRound w) (M : FpMath w) (B S T q c2 : ℝ) : ℝ :=
  W.rnd (W.rnd (B * S) * W.rnd (c2 + W.rnd (W.rnd (B / 4) *
    W.rnd (W.rnd (T * W.rnd (-1 + 2 * M.sq c2)) -
      W.rnd (W.rnd (W.rnd (W.rnd (B / 6) * c2) * W.rnd (-3 + 4 * q)) * W.rnd (-3 + 4 * M.sq c2))))))

/-- The distance (`/repo/utilities/vincenty.py` 192, 242-255). -/
def vincLengthFl (W : FpRound w) (M : FpMath w) (f a : ℝ) (st : VincState) : ℝ :=
  let b := W.rnd (a * W.rnd (1 - f))
  let u2 := u2Fl W a b (cosSqFl M st.alpha)
  W.rnd (W.rnd (b * seriesAFl W u2) * W.rnd (st.sigma -
    deltaSigmaFl W M (seriesBFl W u2) st.sinSigma st.cosSigma st.sqrSinSigma st.cos2SigmaM))

open Classical in
/-- `vinc_dist` (`/repo/utilities/vincenty.py` 171-287): the distance.  The azimuths (257-285) are not used by the
callers and cannot raise an exception. -/
def vincDistFl (W : FpRound w) (M : FpMath w) (fuel : ℕ) (f a phi1 lam1 phi2 lam2 : ℝ) :
    Option (Except PyErr ℝ) :=
  if |W.rnd (phi2 - phi1)| < W.rnd (1 / 100000000) ∧ |W.rnd (lam2 - lam1)| < W.rnd (1 / 100000000) then
    some (.ok 0)
  else
    let U1 := M.atan (W.rnd (W.rnd (1 - f) * M.tan phi1))
    let U2 := M.atan (W.rnd (W.rnd (1 - f) * M.tan phi2))
    let omega := W.rnd (lam2 - lam1)
    match vincLoopFl W M f omega U1 U2 fuel (-4000000) omega none with
    | none => none
    | some (.error e) => some (.error e)
    | some (.ok none) => some (.error .nameError)
    | some (.ok (some st)) => some (.ok (vincLengthFl W M f a st))

/-- `Earth.F` (`/repo/utilities/get_pixel_size_grid.py` 38-40); `Earth.A` is exact. -/
def earthFFl (W : FpRound w) : ℝ := W.rnd (W.rnd (6378137 - W.rnd (6356752.3142 : ℝ)) / 6378137)

/-- `get_pixel_size` (`/repo/utilities/get_pixel_size_grid.py` 53-111), simplified as `getPixelSize`.  Adding one half
to an index is exact. -/
def getPixelSizeFl (W : FpRound w) (M : FpMath w) (fuel : ℕ) (r : RasterInfo ℝ) (x y : ℤ) :
    Except PyErr (ℝ × ℝ) := do
  let xw := W.rnd (r.gt0 + W.rnd (x * r.gt1))
  let yn := W.rnd (r.gt3 + W.rnd (y * r.gt5))
  let xc := W.rnd (r.gt0 + W.rnd ((x + 1 / 2) * r.gt1))
  let yc := W.rnd (r.gt3 + W.rnd ((y + 1 / 2) * r.gt5))
  let xe := W.rnd (r.gt0 + W.rnd ((x + 1) * r.gt1))
  let ys := W.rnd (r.gt3 + W.rnd ((y + 1) * r.gt5))
  let rad := fun v => W.rnd (v * radiansPerDegreeFl W)
  let sx ← ended (vincDistFl W M fuel (earthFFl W) earthA (rad yc) (rad xw) (rad yc) (rad xe))
  let sy ← ended (vincDistFl W M fuel (earthFFl W) earthA (rad yn) (rad xc) (rad ys) (rad xc))
  return (sx, sy)

/-- The interpolation weight `s` (or `t`) (`/repo/utilities/blrb.py` 50-53); block sizes are multiples of one half and
exact. -/
def blrbWeightFl (W : FpRound w) (n : ℝ) (r : ℕ) : Option ℝ :=
  if n - 1 = 0 then none else some (W.rnd ((r : ℝ) / (n - 1)))

/-- `bilinear` (`/repo/utilities/blrb.py` 24-56). -/
def bilinearFl (W : FpRound w) (nr nc fUL fUR fLR fLL : ℝ) : Grid (Option ℝ) where
  rows := ⌈nr⌉.toNat
  cols := ⌈nc⌉.toNat
  val := fun i j =>
    match blrbWeightFl W nr i, blrbWeightFl W nc j with
    | some s, some t =>
      some (W.rnd (W.rnd (s * W.rnd (W.rnd (t * fLR) + W.rnd (W.rnd (1 - t) * fLL))) +
        W.rnd (W.rnd (1 - s) * W.rnd (W.rnd (t * fUR) + W.rnd (W.rnd (1 - t) * fUL)))))
    | _, _ => none

/-- `interpolate_block` with a grid (`/repo/utilities/blrb.py` 108-150).  The values are rounded by `S` when they are
stored in the grid. -/
def interpolateBlockFl (W : FpRound w) (S : FpRound u) (eval : ℤ → ℤ → Except PyErr ℝ) (oi oj ni nj : ℝ)
    (grid : Grid (Option ℝ)) : Except PyErr (Grid (Option ℝ)) := do
  let i0 := ⌊oi⌋
  let j0 := ⌊oj⌋
  let i1 := ⌈oi + ni - 1⌉
  let j1 := ⌈oj + nj - 1⌉
  let fUL ← eval i0 j0
  let fLL ← eval i1 j0
  let fUR ← eval i0 j1
  let fLR ← eval i1 j1
  assignBlock grid i0 i1 j0 j1 ((bilinearFl W ni nj fUL fUR fLR fLL).map (·.map S.rnd))

/-- `interpolate_grid` (`/repo/utilities/blrb.py` 154-198). -/
def interpolateGridFl (W : FpRound w) (S : FpRound u) (eval : ℤ → ℤ → Except PyErr ℝ) :
    ℕ → ℝ → ℝ → ℝ → ℝ → Grid (Option ℝ) → Except PyErr (Grid (Option ℝ))
  | 0, oi, oj, ni, nj, grid => interpolateBlockFl W S eval oi oj ni nj grid
  | depth + 1, oi, oj, ni, nj, grid =>
    (subdivide oi oj ni nj).foldlM
      (fun g b => interpolateGridFl W S eval depth b.1.1 b.1.2 b.2.1 b.2.2 g) grid

/-- `get_pixel_size_grids` (`/repo/utilities/get_pixel_size_grid.py` 114-155): grids of format `S`, computed in format
`W`. -/
def pixelSizesFl (W : FpRound w) (M : FpMath w) (S : FpRound u) (fuel : ℕ) (r : RasterInfo ℝ) :
    Except PyErr (Grid ℝ × Grid ℝ) := do
  let zeros : Grid (Option ℝ) := ⟨r.yDim, r.xDim, fun _ _ => some 0⟩
  let gx ← interpolateGridFl W S (fun x y => (getPixelSizeFl W M fuel r x y).map Prod.fst) 1 0 0 r.yDim r.xDim zeros
  let gy ← interpolateGridFl W S (fun x y => (getPixelSizeFl W M fuel r x y).map Prod.snd) 1 0 0 r.yDim r.xDim zeros
  return (gx.map (·.getD 0), gy.map (·.getD 0))

end WindMult
