import Verif.Model.Basic
import Verif.Model.Dir

/-!
# Shielding multiplier (`/repo/shielding/shield_mult.py`)

Numbers with NaN are `Option K`; a comparison with NaN is false.
-/

set_option autoImplicit false

namespace WindMult
variable {K : Type} [Field K] [LinearOrder K] [IsStrictOrderedRing K] [FloorRing K]

/-- Elementwise test of a float that may be NaN: false on NaN. `/repo/shielding/shield_mult.py` 376-382,
390-391. -/
def nanTest (x : Option K) (p : K → Bool) : Bool :=
  match x with
  | none => false
  | some v => p v

/-- `DIRE_ASPECT` restricted to the eight directions (`/repo/utilities/value_lookup.py` 25-33). -/
def direAspect : Dir → ℕ
  | .n => 1 | .ne => 2 | .e => 3 | .se => 4 | .s => 5 | .sw => 6 | .w => 7 | .nw => 8

/-- `reclassify_aspect` on one cell (`/repo/shielding/shield_mult.py` 66-86): masked assignments in
program order, a later one overwriting an earlier one. -/
def reclassifyAspect (a : Option K) : ℕ :=
  let out := 9
  let out := if nanTest a (fun x => decide (0 ≤ x) && decide (x < 45 / 2)) then 1 else out
  let out := if nanTest a (fun x => decide (675 / 2 ≤ x) && decide (x ≤ 360)) then 1 else out
  (List.range' 2 7).foldl (fun (out i : ℕ) =>
    if nanTest a (fun x => decide (45 / 2 + ((i : K) - 2) * 45 ≤ x) &&
        decide (x < 135 / 2 + ((i : K) - 2) * 45)) then i else out) out

/-- `terrain_class2ms_orig` on one cell (`/repo/shielding/shield_mult.py` 200-218).  `nodata` is the
band's no-data value if it has one; `table` lists category and shielding percentage.  The category
array is assumed signed and wide enough to hold -99 (the tiles of a run are `Int32` or
`Float32`, see `Model/DataTypes.lean`).
The write to and re-read from the temporary raster is left out. -/
def class2msCell (nodata : Option ℤ) (table : List (ℤ × K)) (cat : ℤ) : Option K :=
  let data := if nodata = some cat then -99 else cat
  let out := table.foldl (fun out row => if data = row.1 then row.2 / 100 else out) (1 : K)
  if data = -99 then none else some out

/-- `terrain_class2ms_orig` on the array. `/repo/shielding/shield_mult.py` 167-241. -/
def class2ms (nodata : Option ℤ) (table : List (ℤ × K)) (data : Grid ℤ) : Grid (Option K) :=
  data.map (class2msCell nodata table)

/-- `combine` on one cell (`/repo/shielding/shield_mult.py` 364-397): the successive in-place masked
assignments. -/
def combineCell (d : Dir) (ms slope : Option K) (aspect : ℕ) : Option K :=
  let mask := ms.isNone
  let out : K := ms.getD (-99)
  let facing := decide (aspect = direAspect d)
  let uplimit := nanTest slope (fun s => decide (123 / 10 ≤ s)) && facing
  let middle := nanTest slope (fun s => decide (327 / 100 < s) && decide (s < 123 / 10)) && facing
  let out := if uplimit then 1 else out
  let out := if middle then
      (1 - out) * (slope.getD 0 - 327 / 100) / (123 / 10 - 327 / 100) + out else out
  let smaller := decide (out < 9 / 10)
  let bigger := decide (9 / 10 ≤ out)
  let out := if smaller then out * (9 / 10) else out
  let out := if bigger then out ^ 2 else out
  if mask then none else some out

/-- `combine` on arrays. `/repo/shielding/shield_mult.py` 350-397. -/
def combine (d : Dir) (ms slope : Grid (Option K)) (aspect : Grid ℕ) : Grid (Option K) :=
  ⟨ms.rows, ms.cols, fun i j => combineCell d (ms.val i j) (slope.val i j) (aspect.val i j)⟩

/-! ### Kernels -/

/-- numpy slice assignment `a[r0:r1, c0:c1] = v` (bounds not negative; cells beyond the shape are
junk anyway). `/repo/shielding/shield_mult.py` 413, 432-434. -/
def Grid.fillBox {α : Type} (g : Grid α) (r0 r1 c0 c1 : ℕ) (v : α) : Grid α :=
  ⟨g.rows, g.cols, fun i j => if r0 ≤ i ∧ i < r1 ∧ c0 ≤ j ∧ j < c1 then v else g.val i j⟩

/-- `numpy.rot90(m, 1)` (counter-clockwise). `/repo/shielding/shield_mult.py` 449, 462, 488. -/
def Grid.rot90 {α : Type} (g : Grid α) : Grid α :=
  ⟨g.cols, g.rows, fun i j => g.val j (g.cols - 1 - i)⟩

/-- `numpy.flipud`. `/repo/shielding/shield_mult.py` 501, 514. -/
def Grid.flipud {α : Type} (g : Grid α) : Grid α :=
  ⟨g.rows, g.cols, fun i j => g.val (g.rows - 1 - i) j⟩

/-- `numpy.fliplr`. `/repo/shielding/shield_mult.py` 501, 540. -/
def Grid.fliplr {α : Type} (g : Grid α) : Grid α :=
  ⟨g.rows, g.cols, fun i j => g.val i (g.cols - 1 - j)⟩

/-- `kernel.sum()`. `/repo/shielding/shield_mult.py` 415, 436. -/
def Grid.total (g : Grid K) : K :=
  ((List.range g.rows).map fun i => ((List.range g.cols).map fun j => g.val i j).sum).sum

/-- `kernel / kernel.sum()` (the sum is not 0 for sizes of at least 1). `/repo/shielding/shield_mult.py`
415, 436. -/
def Grid.normalise (g : Grid K) : Grid K :=
  ⟨g.rows, g.cols, fun i j => g.val i j / g.total⟩

/-- The kernel of `init_kern_diag` before normalisation
(`/repo/shielding/shield_mult.py` 409-413). -/
def initKernDiagRaw (size : ℕ) : Grid K :=
  (List.range' 1 size).foldl
    (fun g i => g.fillBox (i - 1) size (size + i) (size + i + 1) 1)
    ⟨2 * size + 1, 2 * size + 1, fun _ _ => 0⟩

/-- `init_kern_diag` (`/repo/shielding/shield_mult.py` 400-415). -/
def initKernDiag (size : ℕ) : Grid K := (initKernDiagRaw size).normalise

/-- The kernel of `init_kern` before normalisation (`/repo/shielding/shield_mult.py` 428-434). -/
def initKernRaw (size : ℕ) : Grid K :=
  (List.range' 2 (size - 1)).foldl
    (fun g i => g.fillBox (size + i) (2 * size + 1) (size - 1) (size + 2) 1)
    ((List.range' 1 size).foldl
      (fun g i => g.fillBox (i + size) (i + size + 1) size (size + 1) 1)
      ⟨2 * size + 1, 2 * size + 1, fun _ _ => 0⟩)

/-- `init_kern` (`/repo/shielding/shield_mult.py` 418-436). -/
def initKern (size : ℕ) : Grid K := (initKernRaw size).normalise

/-- `kern_w` … `kern_se` (`/repo/shielding/shield_mult.py` 439-540), selected by name as in line
305. -/
def kern : Dir → ℕ → Grid K
  | .w, size => (initKern size).rot90
  | .e, size => (initKern size).rot90.rot90.rot90
  | .n, size => initKern size
  | .s, size => (initKern size).rot90.rot90
  | .ne, size => (initKernDiag size).fliplr.flipud
  | .nw, size => (initKernDiag size).flipud
  | .sw, size => initKernDiag size
  | .se, size => (initKernDiag size).fliplr

/-! ### Convolution -/

/-- An array extended by a constant outside its shape (`mode='constant'`).
`/repo/shielding/shield_mult.py` 553. -/
def Grid.padded {α : Type} (cval : α) (g : Grid α) (r c : ℤ) : α :=
  if 0 ≤ r ∧ r < g.rows ∧ 0 ≤ c ∧ c < g.cols then g.val r.toNat c.toNat else cval

/-- Addition of floats that may be NaN. In `ndimage.convolve`, `/repo/shielding/shield_mult.py` 553. -/
def nanAdd (x y : Option K) : Option K :=
  match x, y with
  | some a, some b => some (a + b)
  | _, _ => none

/-- `scipy.ndimage.convolve(im, kernel, mode='constant', cval=…)` for a kernel of odd side
(`/repo/shielding/shield_mult.py` 553): the kernel is applied flipped; `ndimage` skips the entries
that are zero, so a NaN under a zero weight does not matter. -/
def ndConvolve (cval : K) (im : Grid (Option K)) (ker : Grid K) : Grid (Option K) :=
  ⟨im.rows, im.cols, fun i j =>
    (List.range ker.rows).foldl (fun acc a =>
      (List.range ker.cols).foldl (fun acc b =>
        if ker.val a b = 0 then acc
        else nanAdd acc ((im.padded (some cval) ((i : ℤ) + (ker.rows / 2 : ℕ) - a)
            ((j : ℤ) + (ker.cols / 2 : ℕ) - b)).map (fun v => ker.val a b * v)))
        acc) (some 0)⟩

/-- `blur_image` (`/repo/shielding/shield_mult.py` 543-554). -/
def blurImage (im : Grid (Option K)) (ker : Grid K) : Grid (Option K) := ndConvolve 1 im ker

/-- The direction loop of `convo_combine` (`/repo/shielding/shield_mult.py` 290-330): returns what
is saved for each direction.  If the kernel size is 0, `outdata = data` is the *same* array object
as `data`, and `combine` overwrites it in place, so that the next direction starts from the result
of the previous one; the first component of the state is that array. -/
def convoCombineLoop (kernelSize : ℤ) (slope : Grid (Option K)) (aspect : Grid ℕ)
    (clip : Grid (Option K) → Grid (Option K)) :
    List Dir → Grid (Option K) → List (Dir × Grid (Option K))
  | [], _ => []
  | d :: ds, data =>
    if 0 < kernelSize then
      let result := combine d (blurImage data (kern d kernelSize.toNat)) slope aspect
      (d, clip result) :: convoCombineLoop kernelSize slope aspect clip ds data
    else
      let result := combine d data slope aspect
      (d, clip result) :: convoCombineLoop kernelSize slope aspect clip ds result

/-- `convo_combine` (`/repo/shielding/shield_mult.py` 244-330) from the reading of the array on;
`gw` is the mean cell size in metres. -/
def convoCombine (gw : K) (data slope : Grid (Option K)) (aspect : Grid ℕ)
    (clip : Grid (Option K) → Grid (Option K)) : List (Dir × Grid (Option K)) :=
  convoCombineLoop (pyInt (100 / gw)) slope aspect clip Dir.terrainOrder data

end WindMult
