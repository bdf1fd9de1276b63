import Verif.Model.Basic
import Verif.Model.Dir

/-!
# Conversion of the NetCDF tiles into GeoTIFFs (`/repo/utilities/convert.py`,
`/repo/utilities/mpi_runner.py`)
-/

set_option autoImplicit false

namespace WindMult

/-- The values of `Converter.types` (`/repo/utilities/convert.py` 31): `'Ms'`, `'Mz'`, `'Mt'`. -/
inductive Mult
  | ms | mz | mt
  deriving DecidableEq, Repr

/-- `Converter.types.items()` in dictionary order (`/repo/utilities/convert.py` 31, 112). -/
def Mult.order : List Mult := [.ms, .mz, .mt]

/-- `Converter.directions` (`/repo/utilities/convert.py` 30). -/
def Dir.convertOrder : List Dir := [.e, .n, .ne, .nw, .s, .se, .sw, .w]

/-- A single-band GDAL data set: the band as `BandReadAsArray` returns it and the geotransform
(`/repo/utilities/convert.py` 117-131).  `T` is the type of geotransforms, only copied around. -/
structure Raster (K T : Type) where
  band : Grid K
  transform : T

/-- A float as numpy sees it: a number or NaN (the multiplier files are written from float arrays
with NaN, `/repo/terrain/terrain_mult.py` 129, `/repo/shielding/shield_mult.py` 395,
`/repo/topographic/topo_mult.py` 138; netCDF4 stores NaN as it is). -/
inductive NanNum (K : Type)
  | nan
  | num (x : K)
  deriving DecidableEq

namespace NanNum
variable {K : Type}

/-- The arrays of `/repo/utilities/convert.py` 96 are filled with 0. -/
instance [Zero K] : Zero (NanNum K) := ⟨num 0⟩
/-- `np.ones`, `/repo/utilities/convert.py` 124. -/
instance [One K] : One (NanNum K) := ⟨num 1⟩

/-- `np.multiply` (`/repo/utilities/convert.py` 135): NaN if a factor is. -/
instance [Mul K] : Mul (NanNum K) := ⟨fun a b =>
  match a, b with
  | num x, num y => num (x * y)
  | _, _ => nan⟩

/-- `np.max` (`/repo/utilities/convert.py` 57) of two numbers: NaN if one is. -/
instance [Max K] : Max (NanNum K) := ⟨fun a b =>
  match a, b with
  | num x, num y => num (max x y)
  | _, _ => nan⟩

end NanNum

/-! The conversion works for any kind of cell value: `K` is a type of numbers, or `NanNum` of it
where cells may be NaN. -/

section
variable {K T : Type} [Zero K] [One K] [Mul K] [Max K]

/-- `band.WriteArray(a)` at offset (0, 0) (`/repo/utilities/convert.py` 124, 140-141): GDAL raises
`ValueError` when the array sticks out of the band, otherwise overwrites the top-left block. -/
def writeArray (band a : Grid K) : Except PyErr (Grid K) :=
  if band.cols < a.cols ∨ band.rows < a.rows then .error .valueError
  else .ok ⟨band.rows, band.cols,
    fun i j => if i < a.rows ∧ j < a.cols then a.val i j else band.val i j⟩

/-- A new in-memory band, `driver.Create('', nx, ny, …)` (`/repo/utilities/convert.py` 96, 121):
`ny` rows, `nx` columns of zeros. -/
def newBand (nx ny : ℕ) : Grid K := ⟨ny, nx, fun _ _ => 0⟩

/-- The `try … except RuntimeError` around `gdal.Open` (`/repo/utilities/convert.py` 116-124).
`file` is `none` when the file cannot be opened; `transform` is `none` while the local variable
of that name is unbound (using it then raises `UnboundLocalError`, a `NameError`).  The
replacement array is `np.ones((nx, ny))`: `nx` rows, `ny` columns. -/
def openOrOnes (nx ny : ℕ) (transform : Option T) (file : Option (Raster K T)) :
    Except PyErr (Raster K T) :=
  match file with
  | some r => .ok r
  | none =>
    match transform with
    | none => .error .nameError
    | some t =>
      match writeArray (newBand nx ny) ⟨nx, ny, fun _ _ => 1⟩ with
      | .error e => .error e
      | .ok b => .ok ⟨b, t⟩

/-- One broadcast dimension of a numpy elementwise operation. `np.multiply`,
`/repo/utilities/convert.py` 135. -/
def broadcastDim (m n : ℕ) : Except PyErr ℕ :=
  if m = n then .ok m else if m = 1 then .ok n else if n = 1 then .ok m else .error .valueError

/-- `np.multiply(a, b)` on the `.data` of two masked arrays (`/repo/utilities/convert.py` 135).
The ufunc multiplies the raw data also under the mask; the mask itself is never used again, since
only `.data` is written (140-141), so it is not modelled. -/
def npMultiply (a b : Grid K) : Except PyErr (Grid K) :=
  match broadcastDim a.rows b.rows, broadcastDim a.cols b.cols with
  | .ok r, .ok c => .ok ⟨r, c, fun i j =>
      a.val (if a.rows = 1 then 0 else i) (if a.cols = 1 then 0 else j) *
      b.val (if b.rows = 1 then 0 else i) (if b.cols = 1 then 0 else j)⟩
  | .error e, _ => .error e
  | _, .error e => .error e

/-- `reduce(np.multiply, bands)` (`/repo/utilities/convert.py` 135); `TypeError` of an empty list
cannot occur (three entries) and is mapped to `valueError`. -/
def reduceMultiply : List (Grid K) → Except PyErr (Grid K)
  | [] => .error .valueError
  | b :: bs => bs.foldlM npMultiply b

/-- The inner loop over the multiplier types for one direction (`/repo/utilities/convert.py`
109-132).  State: the bands read so far and `transform`, which is bound by the first pass of the
whole tile (`first`, 130-132) and never rebound. -/
def readBands (files : Mult → Dir → Option (Raster K T)) (nx ny : ℕ) (d : Dir) :
    List Mult → Option T → Except PyErr (List (Grid K) × Option T)
  | [], tr => .ok ([], tr)
  | m :: ms, tr =>
    match openOrOnes nx ny tr (files m d) with
    | .error e => .error e
    | .ok ds =>
      match readBands files nx ny d ms (some (tr.getD ds.transform)) with
      | .error e => .error e
      | .ok (bs, tr') => .ok (ds.band :: bs, tr')

/-- The rows of an array in reverse order, `a[::-1]` (`/repo/utilities/convert.py` 140). -/
def flipRows (a : Grid K) : Grid K := ⟨a.rows, a.cols, fun i j => a.val (a.rows - 1 - i) j⟩

/-- Writing one direction band (`/repo/utilities/convert.py` 138-145): the flipped array, then the
array itself; a `ValueError` is logged and leaves what was written before. -/
def writeBand (nx ny : ℕ) (a : Grid K) : Grid K :=
  match writeArray (newBand nx ny) (flipRows a) with
  | .error _ => newBand nx ny
  | .ok b =>
    match writeArray b a with
    | .error _ => b
    | .ok b' => b'

/-- The outer loop over the directions (`/repo/utilities/convert.py` 108-149): the bands of the
output data set with their descriptions, in band order. -/
def directionLoop (files : Mult → Dir → Option (Raster K T)) (nx ny : ℕ) :
    List Dir → Option T → Except PyErr (List (Dir × Grid K) × Option T)
  | [], tr => .ok ([], tr)
  | d :: ds, tr =>
    match readBands files nx ny d Mult.order tr with
    | .error e => .error e
    | .ok (bands, tr') =>
      match reduceMultiply bands with
      | .error e => .error e
      | .ok product =>
        match directionLoop files nx ny ds tr' with
        | .error e => .error e
        | .ok (rest, tr'') => .ok ((d, writeBand nx ny product) :: rest, tr'')

/-- The GeoTIFF written for a tile: described bands and geotransform (`/repo/utilities/convert.py`
151-162). -/
structure TileTif (K T : Type) where
  bands : List (Dir × Grid K)
  transform : T

/-- `Converter.process_tile` (`/repo/utilities/convert.py` 81-164) as a function of the contents of
the multiplier files of the tile (`none`: the file cannot be opened).  Storing as `Float32`
is not modelled. -/
def processTile (files : Mult → Dir → Option (Raster K T)) : Except PyErr (TileTif K T) :=
  match files .ms .n with
  | none => .error .runtimeError
  | some tmp =>
    match directionLoop files tmp.band.cols tmp.band.rows Dir.convertOrder none with
    | .error e => .error e
    | .ok (_, none) => .error .nameError
    | .ok (bands, some t) => .ok ⟨bands, t⟩

/-- `np.max(np.dstack(bands), axis=2)` for equally shaped bands (`/repo/utilities/convert.py` 57).
`np.dstack` drops the masks of its arguments, so this is the maximum of the raw data. -/
def maxBands : List (Grid K) → Except PyErr (Grid K)
  | [] => .error .valueError
  | b :: bs => .ok ⟨b.rows, b.cols, fun i j => bs.foldl (fun m c => max m (c.val i j)) (b.val i j)⟩

/-- The loop of `process_max_tile` that reads as many bands as there are directions
(`/repo/utilities/convert.py` 49-55). -/
def bandsByIndex (tif : TileTif K T) : ℕ → List Dir → Except PyErr (List (Grid K))
  | _, [] => .ok []
  | k, _ :: ds =>
    match tif.bands[k]? with
    | none => .error .runtimeError
    | some b =>
      match bandsByIndex tif (k + 1) ds with
      | .error e => .error e
      | .ok bs => .ok (b.2 :: bs)

/-- `Converter.process_max_tile` (`/repo/utilities/convert.py` 37-79) as a function of the GeoTIFF
it opens. -/
def processMaxTile (tif : TileTif K T) : Except PyErr (Raster K T) :=
  match bandsByIndex tif 0 Dir.convertOrder with
  | .error e => .error e
  | .ok bs =>
    match maxBands bs with
    | .error e => .error e
    | .ok m => .ok ⟨m, tif.transform⟩

end

/-- Python extended slice `l[i::n]` for `n ≥ 1` (`/repo/utilities/mpi_runner.py` 26): the elements at
`i`, `i + n`, `i + 2n`, …; there are `⌈(len - i) / n⌉` of them. -/
def strideSlice {α : Type} (l : List α) (i n : ℕ) : List α :=
  (List.range ((l.length - i + (n - 1)) / n)).filterMap fun k => l[i + k * n]?

/-- `[tiles[i::comm.size] for i in range(comm.size)]` (`/repo/utilities/mpi_runner.py` 26). -/
def rankSlices {α : Type} (l : List α) (size : ℕ) : List (List α) :=
  (List.range size).map fun i => strideSlice l i size

/-- `file.split('_')[0]` (`/repo/utilities/mpi_runner.py` 24). -/
def tileOfFile (file : List Char) : List Char := file.takeWhile (· ≠ '_')

/-- `pjoin(self.path, "M3", f"{tile}.tif")` (`/repo/utilities/convert.py` 155), relative to the data
path. -/
def m3File (tile : List Char) : List Char := ['M', '3', '/'] ++ tile ++ ['.', 't', 'i', 'f']

/-- `pjoin(self.path, "M3_max", f"{tile}.tif")` (`/repo/utilities/convert.py` 70), relative to the
data path. -/
def m3MaxFile (tile : List Char) : List Char := ['M', '3', '_', 'm', 'a', 'x', '/'] ++ tile ++ ['.', 't', 'i', 'f']

/-- `Converter.run` (`/repo/utilities/convert.py` 166-170): the two lists of file names.  `process`
and `processMax` stand for `process_tile` and `process_max_tile`, of which only success matters
here; the file name is appended after the file is written (77, 162). -/
def converterRun (process processMax : List Char → Except PyErr Unit) :
    List (List Char) → Except PyErr (List (List Char) × List (List Char))
  | [] => .ok ([], [])
  | t :: ts =>
    match process t with
    | .error e => .error e
    | .ok _ =>
      match processMax t with
      | .error e => .error e
      | .ok _ =>
        match converterRun process processMax ts with
        | .error e => .error e
        | .ok (a, b) => .ok (m3File t :: a, m3MaxFile t :: b)

/-- `comm.gather` of the ranks' results (`/repo/utilities/mpi_runner.py` 34-38): in rank order; if a
rank raises, the run fails. -/
def gatherRuns (process processMax : List Char → Except PyErr Unit) :
    List (List (List Char)) → Except PyErr (List (List (List Char) × List (List Char)))
  | [] => .ok []
  | s :: ss =>
    match converterRun process processMax s with
    | .error e => .error e
    | .ok r =>
      match gatherRuns process processMax ss with
      | .error e => .error e
      | .ok rs => .ok (r :: rs)

/-- `parallelise_convert_on_tiles` (`/repo/utilities/mpi_runner.py` 14-52): the two lists handed to
`gdal.BuildVRT`.  `tiles` is `list({…})` (24), that is the set of tile names in some order. -/
def vrtLists (process processMax : List Char → Except PyErr Unit) (tiles : List (List Char))
    (size : ℕ) : Except PyErr (List (List Char) × List (List Char)) :=
  match gatherRuns process processMax (rankSlices tiles size) with
  | .error e => .error e
  | .ok results =>
    .ok (results.foldl (fun total element => total ++ element.1) [],
         results.foldl (fun total element => total ++ element.2) [])

end WindMult
