import Verif.Proofs.Near
import Verif.Props.ConvertNan
import Verif.Props.Convert
import Verif.Props.Terrain

/-!
# C102: the error of the floating-point arithmetic in the terrain averages and the products
-/

set_option autoImplicit false

namespace WindMult
open Spec

variable {u v w : ℝ}

/-- C102: if the reclassified array holds the initial multipliers up to a relative error `ε`, the
averages stored by `convo` are the upwind means of the initial multipliers up to the error of the data,
of `width` additions, one division and one conversion to the format of the output. -/
theorem C102_terrain (A : FpRound u) (D : FpRound v) (S : FpRound w) (hu : 0 ≤ u) (hv : 0 ≤ v)
    (hw : 0 ≤ w) (d : Dir) (exact stored : Grid ℝ) (ε : ℝ) (hε : 0 ≤ ε) (width lag : ℕ) (h1 : 1 ≤ width)
    (hr : stored.rows = exact.rows) (hc : stored.cols = exact.cols)
    (hn : ∀ i < exact.rows, ∀ j < exact.cols, 0 ≤ exact.val i j ∧
      |stored.val i j - exact.val i j| ≤ ε * exact.val i j) :
    ∃ out, convoFl A D S d stored width lag = .ok out ∧ out.rows = exact.rows ∧ out.cols = exact.cols ∧
      ∀ i < exact.rows, ∀ j < exact.cols,
        |out.val i j - upwindMean exact d width lag i j| ≤
          ((1 + ε) * (1 + u) ^ width * (1 + v) * (1 + w) - 1) * upwindMean exact d width lag i j := by
  have hn' : ∀ i < exact.rows, ∀ j < exact.cols, Near (1 + ε) (exact.val i j) (stored.val i j) := by
    intro i hi j hj
    refine ⟨(hn i hi j hj).1, ?_⟩
    rw [add_sub_cancel_left]
    exact (hn i hi j hj).2
  have key : ∀ i j, ∃ t, i < exact.rows → j < exact.cols →
      convoCellFl A D S d stored width lag i j = .ok t ∧
        Near ((1 + ε) * (1 + u) ^ width * (1 + v) * (1 + w)) (upwindMean exact d width lag i j) t := by
    intro i j
    by_cases hij : i < exact.rows ∧ j < exact.cols
    · obtain ⟨t, ht⟩ := convoCellFl_near A D S hu hv hw d (by linarith) hr hc hn' width lag i j _
        (convoCell_ok d exact width lag i j h1 hij.1 hij.2)
      exact ⟨t, fun _ _ => ht⟩
    · exact ⟨0, fun hi hj => absurd ⟨hi, hj⟩ hij⟩
  choose t ht using key
  obtain ⟨out, ho, h2, h3, h4⟩ := tabulateM_ok 0 exact.rows exact.cols
    (fun i j => convoCellFl A D S d stored width lag i j) t (fun i hi j hj => (ht i j hi hj).1)
  refine ⟨out, ?_, h2, h3, ?_⟩
  · unfold convoFl
    rw [hr, hc]
    exact ho
  · intro i hi j hj
    rw [h4 i hi j hj]
    exact (ht i j hi hj).2.2

/-- A growth factor with many small steps. -/
theorem one_add_pow_le {h : ℝ} (hh : 0 ≤ h) (n : ℕ) (hn : n * h ≤ 1 / 2) :
    (1 + h) ^ n ≤ 1 + 2 * n * h := by
  induction n with
  | zero => simp
  | succ n ih =>
    push_cast at hn ⊢
    have h1 := ih (by linarith)
    rw [pow_succ]
    have h2 : (1 + h) ^ n * (1 + h) ≤ (1 + 2 * n * h) * (1 + h) := by gcongr
    have h3 : (n : ℝ) * h * h ≤ 1 / 2 * h := by gcongr; linarith
    nlinarith

/-- C102: with data stored in `float32`, sums in `float32` or better, quotients in `float32` or better
and results stored in `float32`, the averages over up to a million cells are right up to a relative
error of `(width + 3) · 2⁻²³`. -/
theorem C102_terrain_float32 (A : FpRound u) (D : FpRound v) (S : FpRound w) (hu : 0 ≤ u) (hv : 0 ≤ v)
    (hw : 0 ≤ w) (hu' : u ≤ 1 / 2 ^ 24) (hv' : v ≤ 1 / 2 ^ 24) (hw' : w ≤ 1 / 2 ^ 24) (d : Dir)
    (exact stored : Grid ℝ) (width lag : ℕ) (h1 : 1 ≤ width) (h2 : width ≤ 1000000)
    (hr : stored.rows = exact.rows) (hc : stored.cols = exact.cols)
    (hn : ∀ i < exact.rows, ∀ j < exact.cols, 0 ≤ exact.val i j ∧
      |stored.val i j - exact.val i j| ≤ 1 / 2 ^ 24 * exact.val i j) :
    ∃ out, convoFl A D S d stored width lag = .ok out ∧ out.rows = exact.rows ∧ out.cols = exact.cols ∧
      ∀ i < exact.rows, ∀ j < exact.cols,
        |out.val i j - upwindMean exact d width lag i j| ≤
          (width + 3) / 2 ^ 23 * upwindMean exact d width lag i j := by
  obtain ⟨out, ho, h3, h4, h5⟩ :=
    C102_terrain A D S hu hv hw d exact stored (1 / 2 ^ 24) (by positivity) width lag h1 hr hc hn
  refine ⟨out, ho, h3, h4, ?_⟩
  intro i hi j hj
  have hpos : 0 ≤ upwindMean exact d width lag i j := by
    unfold upwindMean
    split_ifs with hne
    · refine div_nonneg (Finset.sum_nonneg ?_) (Nat.cast_nonneg _)
      intro t ht
      have hin := (Finset.mem_filter.mp ht).2
      obtain ⟨a1, a2, a3, a4⟩ := hin
      exact (hn _ (by omega) _ (by omega)).1
    · exact (hn i hi j hj).1
  refine (h5 i hi j hj).trans (mul_le_mul_of_nonneg_right ?_ hpos)
  have hN : (width : ℝ) ≤ 1000000 := by exact_mod_cast h2
  have hk := one_add_pow_le (h := 1 / 2 ^ 24) (by positivity) (width + 3) (by
    push_cast
    rw [mul_one_div, div_le_iff₀ (by positivity)]
    norm_num
    linarith)
  have : (1 + 1 / 2 ^ 24) * (1 + u) ^ width * (1 + v) * (1 + w) ≤ (1 + (1 / 2 ^ 24 : ℝ)) ^ (width + 3) := by
    calc (1 + 1 / 2 ^ 24) * (1 + u) ^ width * (1 + v) * (1 + w)
        ≤ (1 + 1 / 2 ^ 24) * (1 + 1 / 2 ^ 24) ^ width * (1 + 1 / 2 ^ 24) * (1 + (1 / 2 ^ 24 : ℝ)) := by
          gcongr
      _ = _ := by ring
  have e : (2 : ℝ) * ((width + 3 : ℕ) : ℝ) * (1 / 2 ^ 24) = (width + 3) / 2 ^ 23 := by
    push_cast
    ring
  linarith

/-- Wind from the west over seven cells, data and results in 24 digits: averages over two cells. -/
example : ∃ out, convoFl (digits 24) (digits 53) (digits 24) .w
      ⟨1, 7, fun _ j => roundDigits 24 (1 / (j + 1))⟩ (2 : ℕ) (1 : ℕ) = .ok out ∧
    out.rows = 1 ∧ out.cols = 7 ∧ ∀ i < 1, ∀ j < 7,
      |out.val i j - upwindMean ⟨1, 7, fun _ j => 1 / ((j : ℝ) + 1)⟩ .w 2 1 i j| ≤
        ((2 : ℕ) + 3) / 2 ^ 23 * upwindMean ⟨1, 7, fun _ j => 1 / ((j : ℝ) + 1)⟩ .w 2 1 i j := by
  refine C102_terrain_float32 (digits 24) (digits 53) (digits 24) (by positivity) (by positivity)
    (by positivity) le_rfl (by norm_num) le_rfl .w ⟨1, 7, fun _ j => 1 / ((j : ℝ) + 1)⟩ _ 2 1
    (by norm_num) (by norm_num) rfl rfl ?_
  intro i _ j _
  have : (0 : ℝ) ≤ 1 / ((j : ℝ) + 1) := by positivity
  refine ⟨this, ?_⟩
  have h := roundDigits_near 24 (1 / ((j : ℝ) + 1))
  rwa [abs_of_nonneg this] at h

/-! ### The conversion -/

section
variable {T : Type} {R : FpRound w}

/-- The stored multiplier is the exact one up to the relative error `ε m`, wherever it is. -/
def Stored (R : FpRound w) (exact : Mult → Dir → Option (Raster ℝ T))
    (stored : Mult → Dir → Option (Raster (Fl R) T)) (nx ny : ℕ) (ε : Mult → ℝ) : Prop :=
  ∀ m d, ∀ i < ny, ∀ j < nx, 0 ≤ multiplierAt (exact m d) i j ∧
    |(multiplierAt (stored m d) i j).val - multiplierAt (exact m d) i j| ≤
      ε m * multiplierAt (exact m d) i j

theorem productAt_near (hw : 0 ≤ w) {exact : Mult → Dir → Option (Raster ℝ T)}
    {stored : Mult → Dir → Option (Raster (Fl R) T)} {nx ny : ℕ} {ε : Mult → ℝ}
    (h : Stored R exact stored nx ny ε) (d : Dir) {i j : ℕ} (hi : i < ny) (hj : j < nx) :
    Near ((1 + ε .ms) * (1 + ε .mz) * (1 + ε .mt) * (1 + w) ^ 2) (productAt exact d i j)
      (productAt stored d i j).val := by
  have hm : ∀ m, Near (1 + ε m) (multiplierAt (exact m d) i j) (multiplierAt (stored m d) i j).val := by
    intro m
    refine ⟨(h m d i hi j hj).1, ?_⟩
    rw [add_sub_cancel_left]
    exact (h m d i hi j hj).2
  have h1 := (((((hm .ms).mul (hm .mz)).rnd R hw).mul (hm .mt)).rnd R hw)
  exact h1.mono (le_of_eq (by ring))

/-- C102: in the bands of a converted tile each cell is the product of the three exact multipliers up to
the errors of the files and of two multiplications. -/
theorem C102_product (hw : 0 ≤ w) (exact : Mult → Dir → Option (Raster ℝ T))
    (stored : Mult → Dir → Option (Raster (Fl R) T)) (nx ny : ℕ) (ε : Mult → ℝ)
    (h : Stored R exact stored nx ny ε)
    (hs : TileShape stored nx ny) (hn : (stored .ms .n).isSome) (he : (stored .ms .e).isSome)
    (hsq : (∃ m d, stored m d = none) → nx = ny) :
    ∃ tif, processTile stored = .ok tif ∧ (∀ d, (tif.bands.map Prod.fst).count d = 1) ∧
      ∀ d g, (d, g) ∈ tif.bands → g.rows = ny ∧ g.cols = nx ∧ ∀ i < ny, ∀ j < nx,
        |(g.val i j).val - productAt exact d i j| ≤
          ((1 + ε .ms) * (1 + ε .mz) * (1 + ε .mt) * (1 + w) ^ 2 - 1) * productAt exact d i j := by
  obtain ⟨tif, h1, h2, h3⟩ := C16_bands stored nx ny hs hn he hsq
  refine ⟨tif, h1, h2, fun d g hg => ⟨(h3 d g hg).1, (h3 d g hg).2.1, fun i hi j hj => ?_⟩⟩
  rw [(h3 d g hg).2.2 i hi j hj]
  exact (productAt_near hw h d hi hj).2

/-- C102: the maximum raster is the maximum of the exact products up to the same error; taking the
maximum adds none. -/
theorem C102_maximum (hw : 0 ≤ w) (exact : Mult → Dir → Option (Raster ℝ T))
    (stored : Mult → Dir → Option (Raster (Fl R) T)) (nx ny : ℕ) (ε : Mult → ℝ)
    (h : Stored R exact stored nx ny ε)
    (hs : TileShape stored nx ny) (hn : (stored .ms .n).isSome) (he : (stored .ms .e).isSome)
    (hsq : (∃ m d, stored m d = none) → nx = ny) :
    ∃ tif r, processTile stored = .ok tif ∧ processMaxTile tif = .ok r ∧
      r.band.rows = ny ∧ r.band.cols = nx ∧ ∀ i < ny, ∀ j < nx, ∀ M : ℝ,
        (∀ d, productAt exact d i j ≤ M) → (∃ d, M = productAt exact d i j) →
        |(r.band.val i j).val - M| ≤
          ((1 + ε .ms) * (1 + ε .mz) * (1 + ε .mt) * (1 + w) ^ 2 - 1) * M := by
  obtain ⟨tif, r, h1, h2, h3, h4, h5⟩ := processMaxTile_ok hs hn he hsq
  refine ⟨tif, r, h1, h2, h3, h4, ?_⟩
  intro i hi j hj M hM hM'
  rw [h5 i hi j hj]
  have hnear := Near.foldl_max (fun d => productAt exact d i j) (fun d => productAt stored d i j)
    [Dir.n, .ne, .nw, .s, .se, .sw, .w] (fun d _ => productAt_near hw h d hi hj) _ _
    (productAt_near hw h .e hi hj)
  have e : [Dir.n, .ne, .nw, .s, .se, .sw, .w].foldl (fun m d => max m (productAt exact d i j))
      (productAt exact .e i j) = M := by
    apply le_antisymm
    · rcases (foldl_max_mem (fun d => productAt exact d i j) [Dir.n, .ne, .nw, .s, .se, .sw, .w]
        (productAt exact .e i j)).2 with h | ⟨d, -, h⟩
      · rw [h]
        exact hM _
      · rw [h]
        exact hM _
    · obtain ⟨d, rfl⟩ := hM'
      by_cases hd : d = .e
      · rw [hd]
        exact foldl_max_ge (fun d => productAt exact d i j) _ _
      · exact (foldl_max_mem (fun d => productAt exact d i j) [Dir.n, .ne, .nw, .s, .se, .sw, .w] _).1 d
          (by cases d <;> simp at hd ⊢)
  rw [e] at hnear
  exact hnear.2

/-- The exact multipliers of an example tile of two cells: 1/3 and 1/5 everywhere. -/
noncomputable def thirdFiles : Mult → Dir → Option (Raster ℝ Unit) :=
  fun _ _ => some ⟨⟨1, 2, fun _ j => if j = 0 then 1 / 3 else 1 / 5⟩, ()⟩

/-- The same multipliers stored in 24 binary digits. -/
noncomputable def thirdStored : Mult → Dir → Option (Raster (Fl (digits 24)) Unit) :=
  fun _ _ => some ⟨⟨1, 2, fun _ j => ⟨roundDigits 24 (if j = 0 then 1 / 3 else 1 / 5)⟩⟩, ()⟩

theorem thirdStored_near : Stored (digits 24) thirdFiles thirdStored 2 1 (fun _ => 1 / 2 ^ 24) := by
  intro m d i _ j _
  have : (0 : ℝ) ≤ if j = 0 then 1 / 3 else 1 / 5 := by split_ifs <;> norm_num
  refine ⟨this, ?_⟩
  have h := roundDigits_near 24 (if j = 0 then 1 / 3 else 1 / 5)
  rwa [abs_of_nonneg this] at h

theorem thirdStored_shape : TileShape thirdStored 2 1 := by
  intro m d r hr
  simp only [thirdStored, Option.some.injEq] at hr
  subst hr
  exact ⟨rfl, rfl⟩

example : ∃ tif, processTile thirdStored = .ok tif ∧ (∀ d, (tif.bands.map Prod.fst).count d = 1) ∧
      ∀ d g, (d, g) ∈ tif.bands → g.rows = 1 ∧ g.cols = 2 ∧ ∀ i < 1, ∀ j < 2,
        |(g.val i j).val - productAt thirdFiles d i j| ≤
          ((1 + 1 / 2 ^ 24) * (1 + 1 / 2 ^ 24) * (1 + 1 / 2 ^ 24) * (1 + 1 / 2 ^ 24) ^ 2 - 1) *
            productAt thirdFiles d i j :=
  C102_product (by positivity) thirdFiles thirdStored 2 1 _ thirdStored_near thirdStored_shape rfl rfl
    (by rintro ⟨m, d, h⟩; simp [thirdStored] at h)

example : ∃ tif r, processTile thirdStored = .ok tif ∧ processMaxTile tif = .ok r ∧
      r.band.rows = 1 ∧ r.band.cols = 2 ∧ ∀ i < 1, ∀ j < 2, ∀ M : ℝ,
        (∀ d, productAt thirdFiles d i j ≤ M) → (∃ d, M = productAt thirdFiles d i j) →
        |(r.band.val i j).val - M| ≤
          ((1 + 1 / 2 ^ 24) * (1 + 1 / 2 ^ 24) * (1 + 1 / 2 ^ 24) * (1 + 1 / 2 ^ 24) ^ 2 - 1) * M :=
  C102_maximum (by positivity) thirdFiles thirdStored 2 1 _ thirdStored_near thirdStored_shape rfl rfl
    (by rintro ⟨m, d, h⟩; simp [thirdStored] at h)

end

end WindMult
