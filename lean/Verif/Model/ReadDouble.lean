import Verif.Model.RunTexts
import Verif.Model.FloatGeo

/-!
# Numbers from text files, in double precision
-/

set_option autoImplicit false

namespace WindMult

variable (R : Rounding)

/-- Digits accumulated in double precision, `number = number * 10. + digit`, as in the conversion of numbers by
`pd.read_csv` (`/repo/terrain/terrain_mult.py` 168, `/repo/shielding/shield_mult.py` 162). -/
noncomputable def accumulate (ds : List ℕ) : ℝ :=
  ds.foldl (fun (n : ℝ) (d : ℕ) => R.rnd (R.rnd (n * 10) + (d : ℝ))) 0

/-- Multiplication by a power of ten: by a constant for the power if the exponent is positive, else division by
the constant for the opposite power (`pd.read_csv`, `/repo/terrain/terrain_mult.py` 168).  Exponents beyond ±308 are
left out, as is overflow in general. -/
noncomputable def scaleTen (y : ℝ) (k : ℤ) : ℝ :=
  if 0 < k then R.rnd (y * R.rnd (10 ^ k.toNat)) else R.rnd (y / R.rnd (10 ^ (-k).toNat))

/-- The conversion of a field to a double by `pd.read_csv` (`/repo/terrain/terrain_mult.py` 168,
`/repo/shielding/shield_mult.py` 162; default `float_precision`): the first 17 digits are accumulated, surplus digits
before the point count as zeros and those behind it are dropped; then sign and power of ten.  A column of whole numbers
is converted to integers instead, which makes no difference up to 2⁵³. -/
noncomputable def readDouble (s : List Char) : Option ℝ :=
  let sg := takeSign (stripBlanks s)
  let ip := takeDigits sg.2
  let fp := takeFraction ip.2
  if ip.1 = [] ∧ fp.1 = [] then none
  else match readExponent fp.2 with
    | none => none
    | some x =>
      let w := ip.1.take 17
      let f := fp.1.take (17 - w.length)
      let y := accumulate R (w ++ f)
      some (scaleTen R (if sg.1 then -y else y) (x + (ip.1.length - w.length : ℕ) - f.length))

/-- As `tableRows`, with the numbers of the column in double precision (`/repo/terrain/terrain_mult.py` 190-195,
`/repo/shielding/shield_mult.py` 211-214). -/
noncomputable def tableRowsFl (t : CsvTable) (name : List Char) : Except PyErr (List (ℤ × Option ℝ)) :=
  if t.rows = [] then .ok []
  else match t.header.idxOf? "CATEGORY".toList, t.header.idxOf? name with
    | some kc, some kv => do
      let cats := typedColumn (t.rows.map fun r => r.getD kc [])
      let texts := t.rows.map fun r => r.getD kv []
      let rows ← ((cats.zip (typedColumn texts)).zip texts).mapM fun p => do
        let row ← tableRow p.1.1 p.1.2
        return row.map fun x => (x.1, x.2.bind fun _ => readDouble R p.2)
      return rows.filterMap id
    | _, _ => .error .keyError

/-- As `terrainTableOf`, in double precision (`/repo/terrain/terrain_mult.py` 159-195). -/
noncomputable def terrainTableFl (text : List Char) : Except PyErr (List (ℤ × Option ℝ)) := do
  tableRowsFl R (← readCsv text) "ROUGHNESS_LENGTH_m".toList

/-- As `shieldTableOf`, in double precision (`/repo/shielding/shield_mult.py` 153-164, 208-214). -/
noncomputable def shieldTableFl (text : List Char) : Except PyErr (List (ℤ × Option ℝ)) := do
  tableRowsFl R (← readCsv text) "SHIELDING".toList

/-- What a run takes from its text files, in double precision. `/repo/all_multipliers.py` 717-759,
`/repo/terrain/terrain_mult.py` 166-168, `/repo/shielding/shield_mult.py` 160-162. -/
structure SettingsFl where
  upwind : ℝ
  landFile : String
  demFile : String
  out : String
  terrain : List (ℤ × Option ℝ)
  shield : List (ℤ × Option ℝ)

/-- As `startSettings`, in double precision (`/repo/all_multipliers.py` 717-759; the table
`/repo/terrain/terrain_mult.py` 166-168 and `/repo/shielding/shield_mult.py` 160-162): `float`
(`/repo/all_multipliers.py` 721) rounds correctly, the numbers of the table are read by `readDouble`.  The other
simplifications are those of `startSettings`. -/
noncomputable def startSettingsFl (files : String → Option (List Char)) (arg : Option String) (verbose : Bool)
    (st : CfgState) : Except PyErr SettingsFl := do
  let st ← match arg with
    | some name => if name = "" then .ok st else setConfigText (files name) st
    | none => .ok st
  let _ ← configGet st "inputValues" "root"
  let up ← configUpwind st
  let _ ← configGet st "Logging" "LogFile"
  let level ← configGet st "Logging" "LogLevel"
  let _ ← if verbose then .ok true else configBool st "Logging" "Verbose"
  if level ∈ logLevels then pure () else .error .runtimeError
  let land ← configGet st "inputValues" "terrain_data"
  let dem ← configGet st "inputValues" "dem_data"
  let out ← configGet st "Output" "output_dir"
  let name ← configGet st "inputValues" "terrain_table"
  match files name with
  | none => .error .osError
  | some text =>
    let terr ← terrainTableFl R text
    let sh ← shieldTableFl R text
    .ok ⟨R.rnd (up : ℝ), land, dem, out, terr, sh⟩

/-- The inputs with the tables that were read, in double precision (`/repo/terrain/terrain_mult.py` 190-195,
`/repo/shielding/shield_mult.py` 211-214).  Rows whose number is missing are left out, see `Inputs.withTables`. -/
noncomputable def Inputs.withTablesFl (c : Inputs) (s : SettingsFl) : Inputs :=
  { c with
    terrainTable := s.terrain.filterMap fun p => p.2.map fun y => ⟨p.1, y⟩
    shieldTable := s.shield.filterMap fun p => p.2.map fun y => (p.1, y) }

end WindMult
