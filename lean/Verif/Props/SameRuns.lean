import Verif.Spec.SameRuns
import Verif.Model.TypedRun
import Verif.Props.DataTypes
import Verif.Props.Datum
import Verif.Props.TextLayout
import Verif.Props.Metadata
import Verif.Props.EndToEnd

/-!
# C128, C140, C142 for whole runs
-/

set_option autoImplicit false

namespace WindMult
open Spec

/-- Inputs that give the same files for every tile give the same runs. -/
theorem sameRuns_of_tiles {c c' : Inputs} {out : List Char} {nW nW' : ℕ}
    {tiles : List (List Char × Extent ℝ × Extent ℝ)} (hg : (c.runCfg out nW tiles).Good)
    (h : ∀ t EB E, (t, EB, E) ∈ tiles →
      (c'.checksum (cutDem c'.r c'.dem EB 0) = 0 ↔ c.checksum (cutDem c.r c.dem EB 0) = 0) ∧
      tileStep c' EB E = tileStep c EB E ∧ tileFiles c' EB E = tileFiles c EB E) :
    SameRuns (c.runCfg out nW tiles) (c'.runCfg out nW' tiles) := by
  intro st0 k k' s s' h1 h2 h3 h4
  refine C95_same_result (c.runCfg out nW tiles) (c'.runCfg out nW' tiles) hg rfl (.refl _) ⟨?_, ?_, ?_⟩ st0 k k' s s'
    h1 h2 h3 h4
  · funext t
    simp only [Inputs.runCfg]
    cases ht : tiles.lookup t with
    | none => rfl
    | some x => simp only [(h t x.1 x.2 (atts_mem_of_lookup ht)).1]
  · funext t
    simp only [Inputs.runCfg]
    cases ht : tiles.lookup t with
    | none => rfl
    | some x => simp only [(h t x.1 x.2 (atts_mem_of_lookup ht)).2.1]
  · funext t
    simp only [Inputs.runCfg]
    cases ht : tiles.lookup t with
    | none => rfl
    | some x => simp only [(h t x.1 x.2 (atts_mem_of_lookup ht)).2.2]

variable {c : Inputs} {up : ℝ} {cat : Grid ℤ} {str : ℝ → List Char} {out : List Char}
  {tiles : List (List Char × Extent ℝ × Extent ℝ)}

/-- **C128** (whole runs) *Full statement:* whatever type the elevations and the land-cover codes are stored with, as
long as the type can hold them, a run leaves the same files.  False as for `C128_types_partial`.  *Proved:* for the
elevation types `uint8`, `uint16`, `int16` and `float32` and for these and `int32` as land cover; *missing:* the types
`uint32` and `float64`, and `int32` for elevations. -/
theorem C128_run_partial (h : RunCase c up cat str out tiles) (nW nW' : ℕ) (demT lcvT : BandType)
    (hd : demT ≠ .int32 ∧ demT ≠ .uint32 ∧ demT ≠ .float64) (hl : lcvT ≠ .uint32 ∧ lcvT ≠ .float64)
    (dem : c.DemIn demT) (codes : c.CodesIn lcvT) :
    SameRuns (c.runCfg out nW tiles) (c.runCfgTyped demT lcvT out nW' tiles) := by
  intro st0 k k' s s' h1 h2 h3 h4
  refine C95_same_result (c.runCfg out nW tiles) (c.runCfgTyped demT lcvT out nW' tiles) (h.good nW) rfl (.refl _) ⟨?_, ?_, ?_⟩ st0 k k' s s' h1 h2 h3 h4
  · funext t
    simp only [Inputs.runCfg, Inputs.runCfgTyped]
    cases ht : tiles.lookup t with
    | none => rfl
    | some x =>
      have : (cutDem c.r c.dem x.1 0).map demT.stored = cutDem c.r c.dem x.1 0 :=
        reprojectNearest_map _ _ _ _ _ (stored_of (Or.inr (binaryOf_zero _)))
          (fun i hi j hj x hx => stored_of (holds_binary hd.2.1 hd.2.2 (dem i hi j hj x hx)))
      simp only [this]
  · funext t
    simp only [Inputs.runCfg, Inputs.runCfgTyped]
    cases ht : tiles.lookup t with
    | none => rfl
    | some x => simp only [C128_types_partial c demT lcvT _ _ hd hl dem codes]
  · funext t m d
    simp only [Inputs.runCfg, Inputs.runCfgTyped]
    cases ht : tiles.lookup t with
    | none => rfl
    | some x =>
      have e : tileFilesTyped demT lcvT c x.1 x.2 m d = tileFiles c x.1 x.2 m d := by
        cases m <;> simp only [tileFiles, tileFilesTyped, C128_types_partial c demT lcvT _ _ hd hl dem codes]
      simp only [e]

/-- **C140** (whole runs) *Full claim:* if each land-cover code is replaced by another number, in the raster and in the
table, a run leaves the same files.  False as for `C140_codes_partial`.  *Proved:* for every recoding that keeps 0 and
-99; *missing:* the other recodings. -/
theorem C140_run_partial (h : RunCase c up cat str out tiles) (nW nW' : ℕ) (f : ℤ → ℤ) (hf : Function.Injective f)
    (h0 : f 0 = 0) (h99 : f (-99) = -99) :
    SameRuns (c.runCfg out nW tiles) ((recoded f c).runCfg out nW' tiles) :=
  sameRuns_of_tiles (h.good nW) fun _ EB E _ => ⟨Iff.rfl, C140_codes_partial f hf h0 h99 c EB E⟩

/-- **C140** (whole runs) Order, repeated and unused rows of the tables do not matter for a run. -/
theorem C140_tables_run (h : RunCase c up cat str out tiles) (nW nW' : ℕ) (roughness shielding : List (ℤ × ℝ))
    (hz : ∀ code, Occurs c code → ∀ v, Gives roughness code v ↔ Gives (roughnessRows c) code v)
    (hs : ∀ code, Occurs c code → ∀ v, Gives shielding code v ↔ Gives c.shieldTable code v) :
    SameRuns (c.runCfg out nW tiles) ((withRows c roughness shielding).runCfg out nW' tiles) :=
  sameRuns_of_tiles (h.good nW) fun _ EB E _ => ⟨Iff.rfl, C140_tables c roughness shielding hz hs EB E⟩

/-- **C142** (whole runs) *Full claim:* if all elevations are raised by the same amount, a run leaves the same files.
False as for `C142_tile_partial`.  *Proved:* for whole metres, elevations without gaps, tiles that are not in Tasmania
and are not taken for empty at one height only; *missing:* the rest. -/
theorem C142_run_partial (h : RunCase c up cat str out tiles) (nW nW' : ℕ) (height : ℤ)
    (hdata : ∀ px py : ℕ, px < c.r.xDim → py < c.r.yDim → c.dem.val py px ≠ none)
    (hck : ∀ k EB, (TileGrid.init up c.r).getTileExtentBuffer k = .ok EB →
      (c.checksum (cutDem c.r (raisedInputs height c).dem EB 0) = 0 ↔ c.checksum (cutDem c.r c.dem EB 0) = 0))
    (hT : ∀ k EB, (TileGrid.init up c.r).getTileExtentBuffer k = .ok EB → ¬ CornerInTasmania EB) :
    SameRuns (c.runCfg out nW tiles) ((raisedInputs height c).runCfg out nW' tiles) := by
  refine sameRuns_of_tiles (h.good nW) fun t EB E hmem => ?_
  obtain ⟨k, hk⟩ := List.mem_iff_getElem?.mp hmem
  obtain ⟨h1, -, h3, h4⟩ := ((getTiles_ok h.listed).2 k t EB E).mp hk
  refine ⟨hck k EB h3, ?_⟩
  rcases h.each k h1 with ⟨EB', e1, e2⟩ | ⟨L, B, E', EB', xm, ym, gw, t⟩
  · rw [h3] at e1
    cases e1
    have e3 := (hck k EB h3).mpr e2
    have : tileStep (raisedInputs height c) EB E = tileStep c EB E := by
      unfold tileStep
      rw [if_pos e2, if_pos (show (raisedInputs height c).checksum (cutDem (raisedInputs height c).r (raisedInputs height c).dem EB 0) = 0 from e3)]
    refine ⟨this, ?_⟩
    funext m d
    unfold tileFiles
    rw [this]
    rfl
  · have e1 := t.extentB
    rw [h3] at e1
    cases e1
    obtain ⟨-, B', -, b2, ⟨a0, a1, a2, a3, a4⟩, ⟨c0, c1, c2, c3, c4⟩, -⟩ := C03_buffer_surrounds_core up c.r h.pw h.ph h.upPos k h1
    rw [t.limitsB] at b2
    cases b2
    refine C142_tile_partial c up h.pw h.ph h.upPos k h1 B EB E t.limitsB h3 (fun px py hb => ?_) height (hck k EB h3)
      (fun x y hxy => ?_) (hT k EB h3)
    · obtain ⟨u1, u2, u3, u4⟩ := hb
      exact hdata px py (by omega) (by omega)
    · rw [t.sizes] at hxy
      cases hxy
      rw [← t.width]
      exact t.gwPos

/-! ### The hypotheses can be met -/

/-- The two tiles of C97 with elevations in 16 bits and codes in 8 bits. -/
example (str : ℝ → List Char) (hstr : RendersDecimal str) : ∃ cat tiles,
    RunCase standardInputs 0.01 cat str ['/', 'o'] tiles ∧
    SameRuns (standardInputs.runCfg ['/', 'o'] 3 tiles)
      (standardInputs.runCfgTyped .int16 .uint8 ['/', 'o'] 0 tiles) := by
  obtain ⟨cat, tiles, h, -⟩ := standardRun str hstr
  refine ⟨cat, tiles, h, C128_run_partial h 3 0 _ _ (by decide) (by decide) ?_ ?_⟩
  · intro i hi j hj x hx
    have hi : i < 100 := hi
    have hj : j < 1300 := hj
    obtain rfl : (i : ℝ) + j = x := Option.some.inj hx
    exact ⟨(i + j : ℕ), by push_cast; rfl, by omega, by omega⟩
  · intro i hi j hj x hx
    obtain rfl : (if j < 1245 then (1 : ℤ) else 2) = x := Option.some.inj hx
    split_ifs <;> exact ⟨_, rfl, by norm_num, by norm_num⟩

/-- The two tiles of C97, renumbered: class 1 becomes 1000 and the other way round. -/
example (str : ℝ → List Char) (hstr : RendersDecimal str) : ∃ cat tiles,
    RunCase standardInputs 0.01 cat str ['/', 'o'] tiles ∧
    SameRuns (standardInputs.runCfg ['/', 'o'] 3 tiles)
      ((recoded (Equiv.swap 1 1000) standardInputs).runCfg ['/', 'o'] 0 tiles) := by
  obtain ⟨cat, tiles, h, -⟩ := standardRun str hstr
  exact ⟨cat, tiles, h, C140_run_partial h 3 0 _ (Equiv.injective _) (by decide) (by decide)⟩

/-- Another value for class 1 in front of the row for it does not matter. -/
example (str : ℝ → List Char) (hstr : RendersDecimal str) : ∃ cat tiles,
    RunCase standardInputs 0.01 cat str ['/', 'o'] tiles ∧
    SameRuns (standardInputs.runCfg ['/', 'o'] 3 tiles)
      ((withRows standardInputs [(1, 0.3), (1, 1)] [(1, 80)]).runCfg ['/', 'o'] 0 tiles) := by
  obtain ⟨cat, tiles, h, -⟩ := standardRun str hstr
  refine ⟨cat, tiles, h, C140_tables_run h 3 0 _ _ (fun code _ v => ?_) fun code _ v => Iff.rfl⟩
  by_cases hc : code = 1
  · subst hc
    exact (gives_append_same [(1, 0.3)] 1 1 v).trans (gives_append_same [] 1 1 v).symm
  · have : ∀ l : List (ℤ × ℝ), (∀ x ∈ l, x.1 = 1) → ¬ Gives l code v := by
      rintro l hl ⟨b, a, rfl, -⟩
      exact hc (hl (code, v) (by simp))
    exact ⟨fun g => absurd g (this _ (by simp)), fun g => absurd g (this _ (by simp [roughnessRows, standardInputs]))⟩

/-- The two tiles of C97, 100 m higher. -/
example (str : ℝ → List Char) (hstr : RendersDecimal str) : ∃ cat tiles,
    RunCase standardInputs 0.01 cat str ['/', 'o'] tiles ∧
    SameRuns (standardInputs.runCfg ['/', 'o'] 3 tiles)
      ((raisedInputs (100 : ℤ) standardInputs).runCfg ['/', 'o'] 0 tiles) := by
  obtain ⟨cat, tiles, h, -⟩ := standardRun str hstr
  refine ⟨cat, tiles, h, C142_run_partial h 3 0 100 (fun px py _ _ => by simp [standardInputs])
    (fun k EB _ => by simp [standardInputs]) fun k EB hEB hT => ?_⟩
  rw [standardGrid] at hEB
  have hk : k < 2 := by
    by_contra hk
    have : (tileGridLoop 2 1 1250 1250 12 12 1300 100)[k]? = none :=
      List.getElem?_eq_none (by
        have : (tileGridLoop 2 1 1250 1250 12 12 1300 100).length = 2 := rfl
        omega)
    simp only [TileGrid.getTileExtentBuffer, TileGrid.getGridlimitBuffer, TileGrid.idx, this] at hEB
    cases hEB
  have hy : EB.yStart = -35 := by
    interval_cases k
    · cases hEB
      norm_num [TileGrid.extentOf]
    · cases hEB
      norm_num [TileGrid.extentOf]
  have := hT.2
  rw [hy] at this
  norm_num at this

end WindMult
