import Verif.Model.Vincenty

/-!
# Vincenty's direct formula and great circles (`/repo/utilities/vincenty.py` 9-126 and 303-399)

Real numbers instead of floats.  As in `Model/Vincenty.lean` the loop carries a bound on the number of
iterations; `none` means that the bound was reached.
-/

set_option autoImplicit false

noncomputable section

namespace WindMult

/-- `u2` (`/repo/utilities/vincenty.py` 328 with 320), `q` is `cosalpha_sq`. -/
def directU2 (f a q : ℝ) : ℝ :=
  let b := a * (1 - f)
  q * (a * a - b * b) / (b * b)

/-- `A` (`/repo/utilities/vincenty.py` 329-330). -/
def directA (u2 : ℝ) : ℝ := 1 + (u2 / 16384) * (4096 + u2 * (-768 + u2 * (320 - 175 * u2)))

/-- `B` (`/repo/utilities/vincenty.py` 331). -/
def directB (u2 : ℝ) : ℝ := (u2 / 1024) * (256 + u2 * (-128 + u2 * (74 - 47 * u2)))

/-- `delta_sigma` (`/repo/utilities/vincenty.py` 342-352), with the parenthesis as it is: the term with
`B / 6` is inside the product with `cos(sigma)`. -/
def directDelta (B sigma1 sigma : ℝ) : ℝ :=
  let tsm := 2 * sigma1 + sigma
  B * Real.sin sigma * (Real.cos tsm + (B / 4) * (Real.cos sigma * (-1 + 2 * Real.cos tsm ^ 2 -
    (B / 6) * Real.cos tsm * (-3 + 4 * Real.sin sigma ^ 2) * (-3 + 4 * Real.cos tsm ^ 2))))

open Classical in
/-- The loop (`/repo/utilities/vincenty.py` 341-355) with `s0 = s / (b * A)`, entered with
`last_sigma = last`, `sigma` and `two_sigma_m` if it has been assigned; at most `fuel` iterations.
Returns `sigma` and `two_sigma_m`.  The division in the condition fails for `sigma = 0`. -/
def directLoop (B sigma1 s0 : ℝ) : ℕ → ℝ → ℝ → Option ℝ → Option (Except PyErr (ℝ × Option ℝ))
  | fuel, last, sigma, tsm =>
    if sigma = 0 then some (.error .zeroDivisionError)
    else if |(last - sigma) / sigma| > 1 / 1000000000 then
      match fuel with
      | 0 => none
      | fuel + 1 =>
        directLoop B sigma1 s0 fuel sigma (s0 + directDelta B sigma1 sigma) (some (2 * sigma1 + sigma))
    else some (.ok (sigma, tsm))

open Classical in
/-- `vinc_pt` (`/repo/utilities/vincenty.py` 303-399): latitude and longitude of the point reached, and
the reverse azimuth.  The divisions by `b * b` (328) and `b * A` (334) fail if the divisor is zero.
The use of `two_sigma_m` after an unentered loop is a `NameError` (`UnboundLocalError` is one). -/
def vincPt (fuel : ℕ) (f a phi1 lam1 alpha12 s : ℝ) : Option (Except PyErr (ℝ × ℝ × ℝ)) :=
  let alpha12 := vincNormalise alpha12
  let b := a * (1 - f)
  let tanU1 := (1 - f) * Real.tan phi1
  let U1 := Real.arctan tanU1
  let sigma1 := atan2 tanU1 (Real.cos alpha12)
  let sinAlpha := Real.cos U1 * Real.sin alpha12
  let q := 1 - sinAlpha * sinAlpha
  let u2 := directU2 f a q
  if b * b = 0 ∨ b * directA u2 = 0 then some (.error .zeroDivisionError)
  else
    let s0 := s / (b * directA u2)
    match directLoop (directB u2) sigma1 s0 fuel (2 * s0 + 2) s0 none with
    | none => none
    | some (.error e) => some (.error e)
    | some (.ok (_, none)) => some (.error .nameError)
    | some (.ok (sigma, some tsm)) =>
      let phi2 := atan2
        (Real.sin U1 * Real.cos sigma + Real.cos U1 * Real.sin sigma * Real.cos alpha12)
        ((1 - f) * Real.sqrt (sinAlpha ^ 2 + (Real.sin U1 * Real.sin sigma -
          Real.cos U1 * Real.cos sigma * Real.cos alpha12) ^ 2))
      let lam := atan2 (Real.sin sigma * Real.sin alpha12)
        (Real.cos U1 * Real.cos sigma - Real.sin U1 * Real.sin sigma * Real.cos alpha12)
      let C := (f / 16) * q * (4 + f * (4 - 3 * q))
      let omega := lam - (1 - C) * f * sinAlpha * (sigma + C * Real.sin sigma *
        (Real.cos tsm + C * Real.cos sigma * (-1 + 2 * Real.cos tsm ^ 2)))
      some (.ok (phi2, lam1 + omega, vincNormalise (atan2 sinAlpha
        (-Real.sin U1 * Real.sin sigma + Real.cos U1 * Real.cos sigma * Real.cos alpha12) +
          2 * Real.pi / 2)))

/-- `math.radians` (36-39) and `math.degrees` (e.g. 80-81) of `/repo/utilities/vincenty.py`. -/
def radians (x : ℝ) : ℝ := x * Real.pi / 180

/-- `math.degrees` (`/repo/utilities/vincenty.py` 80-81, 106-125). -/
def degrees (x : ℝ) : ℝ := x * 180 / Real.pi

/-- The attributes of a `GreatCircle` (`/repo/utilities/vincenty.py` 43-61).  `antipodal` is not
stored: it is `gcarclen = π`. -/
structure GreatCircle where
  a : ℝ
  f : ℝ
  lat1 : ℝ
  lat2 : ℝ
  lon1 : ℝ
  lon2 : ℝ
  distance : ℝ
  azimuth12 : ℝ
  azimuth21 : ℝ
  gcarclen : ℝ

/-- `gcarclen` (`/repo/utilities/vincenty.py` 54-58).  `math.asin` fails above one, which is impossible
without rounding. -/
def haversine (lat1 lon1 lat2 lon2 : ℝ) : ℝ :=
  2 * Real.arcsin (Real.sqrt (Real.sin ((lat1 - lat2) / 2) ^ 2 +
    Real.cos lat1 * Real.cos lat2 * Real.sin ((lon1 - lon2) / 2) ^ 2))

open Classical in
/-- `GreatCircle.__init__` (`/repo/utilities/vincenty.py` 20-61); degrees. -/
def greatCircle (fuel : ℕ) (rmajor rminor lon1 lat1 lon2 lat2 : ℝ) :
    Option (Except PyErr GreatCircle) :=
  if rmajor = 0 then some (.error .zeroDivisionError)
  else
    let f := (rmajor - rminor) / rmajor
    match vincDist fuel f rmajor (radians lat1) (radians lon1) (radians lat2) (radians lon2) with
    | none => none
    | some (.error e) => some (.error e)
    | some (.ok (d, a12, a21)) =>
      some (.ok { a := rmajor, f, lat1 := radians lat1, lat2 := radians lat2, lon1 := radians lon1,
                  lon2 := radians lon2, distance := d, azimuth12 := a12, azimuth21 := a21,
                  gcarclen := haversine (radians lat1) (radians lon1) (radians lat2) (radians lon2) })

open Classical in
/-- The intermediate point at the fraction `t` on a sphere (`/repo/utilities/vincenty.py` 98-106):
longitude and latitude in degrees.  If `d` is zero numpy divides zero by zero: all values are `nan`,
here `none`.  (`sin(d)` is also zero for `d = π`, but then `points` has failed before.) -/
def sphereAt (g : GreatCircle) (t : ℝ) : Option (ℝ × ℝ) :=
  let d := g.gcarclen
  if Real.sin d = 0 then none
  else
    let A := Real.sin ((1 - t) * d) / Real.sin d
    let B := Real.sin (t * d) / Real.sin d
    let x := A * Real.cos g.lat1 * Real.cos g.lon1 + B * Real.cos g.lat2 * Real.cos g.lon2
    let y := A * Real.cos g.lat1 * Real.sin g.lon1 + B * Real.cos g.lat2 * Real.sin g.lon2
    let z := A * Real.sin g.lat1 + B * Real.sin g.lat2
    some (degrees (atan2 y x), degrees (atan2 z (Real.sqrt (x ^ 2 + y ^ 2))))

/-- The loop on an ellipsoid (`/repo/utilities/vincenty.py` 115-123): `n` further points from
`(latpt, lonpt)` in the direction `azimuth`, each followed by a new direction towards the end. -/
def ellipsoidLoop (fuel : ℕ) (g : GreatCircle) (incdist : ℝ) :
    ℕ → ℝ → ℝ → ℝ → Option (Except PyErr (List (ℝ × ℝ)))
  | 0, _, _, _ => some (.ok [])
  | n + 1, latpt, lonpt, azimuth =>
    match vincPt fuel g.f g.a latpt lonpt azimuth incdist with
    | none => none
    | some (.error e) => some (.error e)
    | some (.ok (lat, lon, _)) =>
      match vincDist fuel g.f g.a lat lon g.lat2 g.lon2 with
      | none => none
      | some (.error e) => some (.error e)
      | some (.ok (_, az, _)) =>
        match ellipsoidLoop fuel g incdist n lat lon az with
        | none => none
        | some (.error e) => some (.error e)
        | some (.ok l) => some (.ok ((degrees lon, degrees lat) :: l))

open Classical in
/-- `GreatCircle.points` (`/repo/utilities/vincenty.py` 63-126): the points as pairs of longitude and
latitude in degrees (the code returns two sequences). -/
def GreatCircle.points (fuel : ℕ) (g : GreatCircle) (npoints : ℤ) :
    Option (Except PyErr (List (Option (ℝ × ℝ)))) :=
  if npoints ≤ 1 then some (.error .valueError)
  else if npoints = 2 then
    some (.ok [some (degrees g.lon1, degrees g.lat1), some (degrees g.lon2, degrees g.lat2)])
  else if g.gcarclen = Real.pi then some (.error .valueError)
  else if g.f = 0 then
    some (.ok ((List.range npoints.toNat).map fun k : ℕ => sphereAt g (1 / ((npoints : ℝ) - 1) * k)))
  else
    match ellipsoidLoop fuel g (g.distance / ((npoints : ℝ) - 1)) (npoints - 2).toNat g.lat1 g.lon1
        g.azimuth12 with
    | none => none
    | some (.error e) => some (.error e)
    | some (.ok l) =>
      some (.ok (some (degrees g.lon1, degrees g.lat1) :: l.map some ++
        [some (degrees g.lon2, degrees g.lat2)]))

end WindMult
