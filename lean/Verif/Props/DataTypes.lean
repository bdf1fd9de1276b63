import Verif.Spec.DataTypes
import Verif.Proofs.FloatDigits
import Verif.Props.Pipeline

/-!
# C128: the data types of the input rasters
-/

set_option autoImplicit false

namespace WindMult

theorem roundDigits_binary {p : ℕ} (hp : 1 ≤ p) {x : ℝ} (h : BinaryOf p x) : roundDigits p x = x := by
  obtain ⟨n, k, rfl, hn⟩ := h
  exact roundDigits_exact p n k hn hp

theorem stored_of {t : BandType} {x : ℝ} (h : t = .int32 ∨ BinaryOf 24 x) : t.stored x = x := by
  unfold BandType.stored
  split_ifs with ht
  · rfl
  · rcases h with rfl | h
    · exact absurd rfl ht
    · exact roundDigits_binary (by norm_num) h

theorem storedCode_of {t : BandType} {n : ℤ} (h : t = .int32 ∨ BinaryOf 24 n) : t.storedCode n = n := by
  unfold BandType.storedCode
  split_ifs with ht
  · rfl
  · rcases h with rfl | h
    · exact absurd rfl ht
    · rw [roundDigits_binary (by norm_num) h, around_intCast]

theorem binaryOf_zero (p : ℕ) : BinaryOf p 0 := ⟨0, 0, by simp, by simp⟩

/-- What resampling takes from a raster satisfies what all cells of the raster satisfy. -/
theorem reprojectNearest_map {α : Type} (src : RasterInfo ℝ) (cells : Grid (Option α)) (dst : RasterInfo ℝ) (fill : α)
    (f : α → α) (h0 : f fill = fill)
    (h : ∀ i < src.yDim, ∀ j < src.xDim, ∀ x, cells.val i j = some x → f x = x) :
    (reprojectNearest src cells dst fill).map f = reprojectNearest src cells dst fill := by
  unfold reprojectNearest Grid.map
  congr 1
  funext i j
  dsimp only
  split_ifs with hc
  · obtain ⟨c0, c1, r0, r1⟩ := hc
    cases hx : cells.val _ _ with
    | none => exact h0
    | some x => exact h _ (by omega) _ (by omega) x hx
  · exact h0

theorem holds_binary {t : BandType} (ht : t ≠ .uint32) (ht' : t ≠ .float64) {x : ℝ} (h : t.Holds x) :
    t = .int32 ∨ BinaryOf 24 x := by
  have whole : ∀ lo hi : ℤ, -2 ^ 24 ≤ lo → hi ≤ 2 ^ 24 → WholeIn lo hi x → BinaryOf 24 x := by
    rintro lo hi h1 h2 ⟨n, rfl, h3, h4⟩
    exact ⟨n, 0, by simp, abs_le.mpr ⟨h1.trans h3, h4.trans h2⟩⟩
  cases t with
  | uint8 => exact Or.inr (whole _ _ (by norm_num) (by norm_num) h)
  | uint16 => exact Or.inr (whole _ _ (by norm_num) (by norm_num) h)
  | int16 => exact Or.inr (whole _ _ (by norm_num) (by norm_num) h)
  | uint32 => exact absurd rfl ht
  | int32 => exact Or.inl rfl
  | float32 => exact Or.inr h
  | float64 => exact absurd rfl ht'

/-- **C128** *Full statement:* whatever type the elevations and the land-cover codes are stored with, as long as the
type can hold them, a tile gives the same files and ends the same way.  False for a DEM of 32-bit integers
(`C128_int32_dem`) and for land-cover codes above 2²⁴ in a raster of unsigned 32-bit integers (`C128_large_codes`), for
doubles up to rounding.  *Proved:* the statement for the elevation types `uint8`, `uint16`, `int16` and `float32` and
for these and `int32` as land cover; *missing:* the types `uint32` and `float64`, and `int32` for elevations. -/
theorem C128_types_partial (c : Inputs) (demT lcvT : BandType) (EB E : Extent ℝ)
    (hd : demT ≠ .int32 ∧ demT ≠ .uint32 ∧ demT ≠ .float64) (hl : lcvT ≠ .uint32 ∧ lcvT ≠ .float64)
    (dem : c.DemIn demT) (codes : c.CodesIn lcvT) :
    tileStepTyped demT lcvT c EB E = tileStep c EB E := by
  have h1 : (cutDem c.r c.dem EB 0).map demT.stored = cutDem c.r c.dem EB 0 :=
    reprojectNearest_map _ _ _ _ _ (stored_of (Or.inr (binaryOf_zero _)))
      (fun i hi j hj x hx => stored_of (holds_binary hd.2.1 hd.2.2 (dem i hi j hj x hx)))
  have h2 : (cutLandcover c.lr c.lcv (clipInfo c.r EB) 0).map lcvT.storedCode =
      cutLandcover c.lr c.lcv (clipInfo c.r EB) 0 :=
    reprojectNearest_map _ _ _ _ _ (storedCode_of (Or.inr (by simpa using binaryOf_zero 24)))
      (fun i hi j hj x hx => storedCode_of (holds_binary hl.1 hl.2 (codes i hi j hj x hx)))
  have h3 : demT.tile ≠ .int32 := by
    unfold BandType.tile
    rw [if_neg hd.1]
    decide
  unfold tileStepTyped tileStep
  simp only [h1, h2, if_neg h3]
  rfl

/-- **C128** (negation) With a DEM of 32-bit integers every tile that has data and would be computed ends with
`ValueError`, with the terrain and the shielding files written and without any topographic file. -/
theorem C128_int32_dem (c : Inputs) (lcvT : BandType) (EB E : Extent ℝ) (hl : lcvT ≠ .uint32 ∧ lcvT ≠ .float64)
    (codes : c.CodesIn lcvT) (data : c.checksum (cutDem c.r c.dem EB 0) ≠ 0)
    (ok : (tileStep c EB E).2 = .ok ()) :
    tileStepTyped .int32 lcvT c EB E =
      (⟨(tileStep c EB E).1.mz, (tileStep c EB E).1.ms, []⟩, .error .valueError) := by
  have h1 : (cutDem c.r c.dem EB 0).map BandType.int32.stored = cutDem c.r c.dem EB 0 :=
    reprojectNearest_map _ _ _ _ _ (stored_of (Or.inl rfl)) (fun i hi j hj x hx => stored_of (Or.inl rfl))
  have h2 : (cutLandcover c.lr c.lcv (clipInfo c.r EB) 0).map lcvT.storedCode =
      cutLandcover c.lr c.lcv (clipInfo c.r EB) 0 :=
    reprojectNearest_map _ _ _ _ _ (storedCode_of (Or.inr (by simpa using binaryOf_zero 24)))
      (fun i hi j hj x hx => storedCode_of (holds_binary hl.1 hl.2 (codes i hi j hj x hx)))
  have h3 : BandType.int32.tile = .int32 := rfl
  unfold tileStepTyped
  unfold tileStep at ok ⊢
  simp only [h1, h2, if_pos h3, if_neg data] at ok ⊢
  cases hp : c.pixelSizes (clipInfo c.r EB) with
  | error x => rw [hp] at ok; exact absurd ok (by simp)
  | ok v =>
    obtain ⟨xm, ym⟩ := v
    rw [hp] at ok
    dsimp only at ok ⊢
    split at ok
    · exact absurd ok (by simp)
    · next hz => rw [hz]

/-- **C128** (negation) Two different codes of a land-cover raster of unsigned 32-bit integers can be the same in the
tile; those of a raster of signed 32-bit integers cannot. -/
theorem C128_large_codes :
    (BandType.uint32.Holds ((2 ^ 24 + 1 : ℤ) : ℝ) ∧ BandType.uint32.storedCode (2 ^ 24 + 1) = 2 ^ 24 ∧
      BandType.uint32.storedCode (2 ^ 24) = 2 ^ 24) ∧
    ∀ m n : ℤ, BandType.int32.storedCode m = BandType.int32.storedCode n → m = n := by
  refine ⟨⟨⟨2 ^ 24 + 1, rfl, by norm_num, by norm_num⟩, ?_, ?_⟩, fun m n h => ?_⟩
  · have e1 : roundDigits 24 ((2 ^ 24 + 1 : ℤ) : ℝ) = 2 ^ 24 := by
      rw [roundDigits_of_log (e := 24) 24 (by norm_num) (by norm_num)]
      have : around (((2 ^ 24 + 1 : ℤ) : ℝ) * 2 ^ (((24 : ℕ) : ℤ) - 1 - 24)) = 2 ^ 23 := by
        unfold around
        norm_num
      rw [this]
      norm_num
    unfold BandType.storedCode
    rw [if_neg (by decide), e1]
    have := around_intCast (K := ℝ) (2 ^ 24)
    rwa [show ((2 ^ 24 : ℤ) : ℝ) = 2 ^ 24 by norm_num] at this
  · exact storedCode_of (Or.inr ⟨2 ^ 24, 0, by simp, by norm_num⟩)
  · rwa [storedCode_of (Or.inl rfl), storedCode_of (Or.inl rfl)] at h

theorem sample_dem (t : BandType) (ht : t = .int16 ∨ t = .int32) : sampleInputs.DemIn t := by
  intro i hi j hj x hx
  have hi : i < 30 := hi
  have hj : j < 30 := hj
  have hx : (if i = 3 ∧ j = 4 then none else some (20 * (i : ℝ) + j)) = some x := hx
  split_ifs at hx
  simp only [Option.some.injEq] at hx
  have : x = ((20 * i + j : ℤ) : ℝ) := by rw [← hx]; push_cast; rfl
  rcases ht with rfl | rfl <;> exact ⟨20 * i + j, this, by omega, by omega⟩

theorem sample_codes : sampleInputs.CodesIn .uint8 := by
  intro i hi j hj x hx
  have hx : (if i = 0 then none else some (if j < 15 then (1 : ℤ) else 2)) = some x := hx
  split_ifs at hx <;> simp only [Option.some.injEq] at hx <;> subst hx <;> exact ⟨_, rfl, by norm_num, by norm_num⟩

/-- The sample raster with elevations as 16-bit integers and codes as bytes. -/
example : tileStepTyped .int16 .uint8 sampleInputs
    ⟨150 + 2 / 10, -(30 + 2 / 10), 150 + 28 / 10, -(30 + 28 / 10)⟩ ⟨151, -31, 152, -32⟩ =
    tileStep sampleInputs ⟨150 + 2 / 10, -(30 + 2 / 10), 150 + 28 / 10, -(30 + 28 / 10)⟩ ⟨151, -31, 152, -32⟩ :=
  C128_types_partial _ _ _ _ _ (by decide) (by decide) (sample_dem _ (Or.inl rfl)) sample_codes

/-- The full statement is false: the same elevations as 32-bit integers end the tile. -/
theorem C128_false : ∃ (c : Inputs) (EB E : Extent ℝ), c.DemIn .int16 ∧ c.DemIn .int32 ∧ c.CodesIn .uint8 ∧
    (tileStepTyped .int16 .uint8 c EB E).2 = .ok () ∧ (tileStepTyped .int32 .uint8 c EB E).2 = .error .valueError := by
  have ok := (C81_tile_completes sampleCase).1
  refine ⟨_, ⟨150 + 2 / 10, -(30 + 2 / 10), 150 + 28 / 10, -(30 + 28 / 10)⟩, ⟨151, -31, 152, -32⟩,
    sample_dem _ (Or.inl rfl), sample_dem _ (Or.inr rfl), sample_codes, ?_, ?_⟩
  · rw [C128_types_partial _ _ _ _ _ (by decide) (by decide) (sample_dem _ (Or.inl rfl)) sample_codes]
    exact ok
  · rw [C128_int32_dem _ _ _ _ (by decide) sample_codes (by show (1 : ℕ) ≠ 0; decide) ok]

end WindMult
