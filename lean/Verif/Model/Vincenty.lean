import Verif.Model.Basic
import Mathlib.Analysis.SpecialFunctions.Complex.Arg
import Mathlib.Analysis.SpecialFunctions.Complex.Arctan
import Mathlib.Analysis.SpecialFunctions.Trigonometric.Inverse
import Mathlib.Analysis.SpecialFunctions.Trigonometric.Arctan

/-!
# Vincenty's inverse formula (`/repo/utilities/vincenty.py` 171-287)

Real numbers instead of floats.  The loop carries a bound on the number of iterations; `none` means
that the bound was reached.
-/

set_option autoImplicit false

noncomputable section

namespace WindMult

/-- `math.atan2(y, x)`: the angle of the point `(x, y)`, in `(-π, π]`, zero for the origin.
`/repo/utilities/vincenty.py` 223, 257, 266. -/
def atan2 (y x : ℝ) : ℝ := Complex.arg ⟨x, y⟩

/-- The variables of one iteration that are used after the loop (`/repo/utilities/vincenty.py` 214-240). -/
structure VincState where
  sqrSinSigma : ℝ
  sinSigma : ℝ
  cosSigma : ℝ
  sigma : ℝ
  alpha : ℝ
  cos2SigmaM : ℝ
  lam : ℝ

/-- One iteration (`/repo/utilities/vincenty.py` 214-240).  `ZeroDivisionError` when
`sin(sigma) = 0`.  `math.asin` raises no error here: its argument is at most one in absolute value
(`abs_sinAlpha_le`).  The division by `cos(alpha) ** 2` in 229-230 has a zero denominator only on
the equator, where the numerator is zero as well (`equator_of_cosAlpha`); with floats the
denominator is then about `1e-33` and the quotient `0`, as Lean's `0 / 0`. -/
def vincStep (f omega U1 U2 lam : ℝ) : Except PyErr VincState :=
  let sqrSinSigma := (Real.cos U2 * Real.sin lam) ^ 2 +
    (Real.cos U1 * Real.sin U2 - Real.sin U1 * Real.cos U2 * Real.cos lam) ^ 2
  let sinSigma := Real.sqrt sqrSinSigma
  let cosSigma := Real.sin U1 * Real.sin U2 + Real.cos U1 * Real.cos U2 * Real.cos lam
  let sigma := atan2 sinSigma cosSigma
  if Real.sin sigma = 0 then .error .zeroDivisionError
  else
    let sinAlpha := Real.cos U1 * Real.cos U2 * Real.sin lam / Real.sin sigma
    let alpha := Real.arcsin sinAlpha
    let cos2SigmaM := Real.cos sigma - 2 * Real.sin U1 * Real.sin U2 / Real.cos alpha ^ 2
    let C := (f / 16) * Real.cos alpha ^ 2 * (4 + f * (4 - 3 * Real.cos alpha ^ 2))
    .ok { sqrSinSigma, sinSigma, cosSigma, sigma, alpha, cos2SigmaM,
          lam := omega + (1 - C) * f * Real.sin alpha *
            (sigma + C * Real.sin sigma * (cos2SigmaM +
              C * Real.cos sigma * (-1 + 2 * cos2SigmaM ^ 2))) }

/-- The loop condition (`/repo/utilities/vincenty.py` 207-212). -/
def vincGoesOn (last lam : ℝ) : Prop :=
  last < -3000000 ∨ (lam ≠ 0 ∧ |(last - lam) / lam| > 1 / 1000000000)

open Classical in
/-- The loop (`/repo/utilities/vincenty.py` 207-240), entered with `lembda = lam`,
`last_lembda = last` and the variables of the iteration before; at most `fuel` iterations.  The
first iteration always takes place, as `last_lembda` starts with `-4000000`. -/
def vincLoop (f omega U1 U2 : ℝ) : ℕ → ℝ → ℝ → Option VincState →
    Option (Except PyErr (Option VincState))
  | fuel, last, lam, st =>
    if vincGoesOn last lam then
      match fuel with
      | 0 => none
      | fuel + 1 =>
        match vincStep f omega U1 U2 lam with
        | .error e => some (.error e)
        | .ok st' => vincLoop f omega U1 U2 fuel lam st'.lam (some st')
    else some (.ok st)

/-- The distance (`/repo/utilities/vincenty.py` 242-255), with `b = a (1 - f)` (192). -/
def vincLength (f a : ℝ) (st : VincState) : ℝ :=
  let b := a * (1 - f)
  let u2 := Real.cos st.alpha ^ 2 * (a * a - b * b) / (b * b)
  let A := 1 + (u2 / 16384) * (4096 + u2 * (-768 + u2 * (320 - 175 * u2)))
  let B := (u2 / 1024) * (256 + u2 * (-128 + u2 * (74 - 47 * u2)))
  let deltaSigma := B * st.sinSigma * (st.cos2SigmaM + (B / 4) *
    (st.cosSigma * (-1 + 2 * st.cos2SigmaM ^ 2) -
      (B / 6) * st.cos2SigmaM * (-3 + 4 * st.sqrSinSigma) * (-3 + 4 * st.cos2SigmaM ^ 2)))
  b * A * (st.sigma - deltaSigma)

open Classical in
/-- `/repo/utilities/vincenty.py` 276-279 and 281-285. -/
def vincNormalise (x : ℝ) : ℝ :=
  let x := if x < 0 then x + 2 * Real.pi else x
  if x > 2 * Real.pi then x - 2 * Real.pi else x

open Classical in
/-- `vinc_dist` (`/repo/utilities/vincenty.py` 171-287): distance and the two azimuths.  The use of
a variable before its assignment after an unentered loop (impossible, see `vincLoop`) would be a
`NameError`. -/
def vincDist (fuel : ℕ) (f a phi1 lam1 phi2 lam2 : ℝ) : Option (Except PyErr (ℝ × ℝ × ℝ)) :=
  if |phi2 - phi1| < 1 / 100000000 ∧ |lam2 - lam1| < 1 / 100000000 then some (.ok (0, 0, 0))
  else
    let U1 := Real.arctan ((1 - f) * Real.tan phi1)
    let U2 := Real.arctan ((1 - f) * Real.tan phi2)
    let omega := lam2 - lam1
    match vincLoop f omega U1 U2 fuel (-4000000) omega none with
    | none => none
    | some (.error e) => some (.error e)
    | some (.ok none) => some (.error .nameError)
    | some (.ok (some st)) =>
      some (.ok (vincLength f a st,
        vincNormalise (atan2 (Real.cos U2 * Real.sin st.lam)
          (Real.cos U1 * Real.sin U2 - Real.sin U1 * Real.cos U2 * Real.cos st.lam)),
        vincNormalise (atan2 (Real.cos U1 * Real.sin st.lam)
          (-Real.sin U1 * Real.cos U2 + Real.cos U1 * Real.sin U2 * Real.cos st.lam) +
            2 * Real.pi / 2)))

end WindMult
