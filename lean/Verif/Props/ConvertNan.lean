import Verif.Proofs.Convert
import Mathlib.Data.Rat.Floor

/-!
# C75: cells without a value in the converted tiles

The multiplier files hold NaN where a multiplier has no value.
-/

set_option linter.unusedSectionVars false

set_option autoImplicit false

namespace WindMult
open Spec

/-- The maximum raster of any converted tile, as a running maximum over the directions. -/
theorem processMaxTile_ok {K T : Type} [Zero K] [One K] [Mul K] [Max K]
    {files : Mult → Dir → Option (Raster K T)} {nx ny : ℕ}
    (hs : TileShape files nx ny) (hn : (files .ms .n).isSome) (he : (files .ms .e).isSome)
    (hsq : (∃ m d, files m d = none) → nx = ny) :
    ∃ tif r, processTile files = .ok tif ∧ processMaxTile tif = .ok r ∧
      r.band.rows = ny ∧ r.band.cols = nx ∧ ∀ i < ny, ∀ j < nx, r.band.val i j =
        [Dir.n, .ne, .nw, .s, .se, .sw, .w].foldl (fun m d => max m (productAt files d i j))
          (productAt files .e i j) := by
  obtain ⟨rn, hn⟩ := Option.isSome_iff_exists.mp hn
  obtain ⟨re, he⟩ := Option.isSome_iff_exists.mp he
  obtain ⟨tif, h1, -, h3, h4⟩ := processTile_ok hs hn he hsq
  have hlen : tif.bands.length = 0 + Dir.convertOrder.length := by
    rw [← h3]; simp
  have hb := bandsByIndex_eq tif Dir.convertOrder 0 hlen
  rw [List.drop_zero] at hb
  match hbs : tif.bands with
  | [] => rw [hbs] at hlen; simp [Dir.convertOrder] at hlen
  | (d0, b) :: bs =>
    rw [hbs] at hb h4 h3
    have hd0 : d0 = .e ∧ bs.map Prod.fst = [Dir.n, .ne, .nw, .s, .se, .sw, .w] := by
      simpa [Dir.convertOrder] using h3
    have hb0 := h4 d0 b (by simp)
    refine ⟨tif, ⟨⟨b.rows, b.cols, fun i j =>
      (bs.map Prod.snd).foldl (fun m c => max m (c.val i j)) (b.val i j)⟩, tif.transform⟩, h1, ?_,
      hb0.1, hb0.2.1, ?_⟩
    · simp only [processMaxTile, hb, List.map_cons, maxBands]
    · intro i hi j hj
      show (bs.map Prod.snd).foldl (fun m c => max m (c.val i j)) (b.val i j) = _
      rw [← hd0.2, List.foldl_map, List.foldl_map, hb0.2.2 i hi j hj, hd0.1]
      apply List.foldl_ext
      intro m c hc
      rw [(h4 c.1 c.2 (by simp [hc])).2.2 i hi j hj]

variable {K T : Type} [Field K] [LinearOrder K]

theorem NanNum.mul_eq_nan {a b : NanNum K} : a * b = nan ↔ a = nan ∨ b = nan := by
  cases a <;> cases b <;> simp [HMul.hMul, Mul.mul]

theorem NanNum.max_eq_nan {a b : NanNum K} : max a b = nan ↔ a = nan ∨ b = nan := by
  cases a <;> cases b <;> simp [max, Max.max]

theorem NanNum.foldl_max_eq_nan {α : Type} (f : α → NanNum K) (l : List α) (a : NanNum K) :
    l.foldl (fun m c => max m (f c)) a = nan ↔ a = nan ∨ ∃ c ∈ l, f c = nan := by
  induction l generalizing a with
  | nil => simp
  | cons c l ih => rw [List.foldl_cons, ih, NanNum.max_eq_nan]; simp [or_assoc]

theorem NanNum.foldl_max_num {α : Type} (f : α → NanNum K) (l : List α) (g : α → K)
    (h : ∀ c ∈ l, f c = num (g c)) (a : K) :
    l.foldl (fun m c => max m (f c)) (num a) = num (l.foldl (fun m c => max m (g c)) a) := by
  induction l generalizing a with
  | nil => rfl
  | cons c l ih =>
    rw [List.foldl_cons, List.foldl_cons, h c (by simp)]
    exact ih (fun c' hc' => h c' (by simp [hc'])) (max a (g c))

theorem productAt_eq_nan (files : Mult → Dir → Option (Raster (NanNum K) T)) (d : Dir) (i j : ℕ) :
    productAt files d i j = .nan ↔ ∃ m r, files m d = some r ∧ r.band.val i j = .nan := by
  have hm : ∀ m, multiplierAt (files m d) i j = .nan ↔
      ∃ r, files m d = some r ∧ r.band.val i j = .nan := by
    intro m
    cases hf : files m d with
    | none =>
      simp only [multiplierAt]
      constructor
      · intro h; cases h
      · rintro ⟨r, hr, -⟩; cases hr
    | some r => simp [multiplierAt]
  rw [productAt, NanNum.mul_eq_nan, NanNum.mul_eq_nan, hm, hm, hm]
  constructor
  · rintro ((h | h) | h) <;> exact ⟨_, h⟩
  · rintro ⟨m, h⟩
    cases m
    · exact .inl (.inl h)
    · exact .inl (.inr h)
    · exact .inr h

/-- C75: in the converted tile a cell of the band of direction `d` is NaN exactly if one of the
three multipliers of `d` is NaN there (a missing file is not); otherwise it is the product of the
three numbers. -/
theorem C75_product (files : Mult → Dir → Option (Raster (NanNum K) T)) (nx ny : ℕ)
    (hs : TileShape files nx ny) (hn : (files .ms .n).isSome) (he : (files .ms .e).isSome)
    (hsq : (∃ m d, files m d = none) → nx = ny) :
    ∃ tif, processTile files = .ok tif ∧ (∀ d, (tif.bands.map Prod.fst).count d = 1) ∧
      ∀ d g, (d, g) ∈ tif.bands → ∀ i < ny, ∀ j < nx,
        (g.val i j = .nan ↔ ∃ m r, files m d = some r ∧ r.band.val i j = .nan) ∧
        ∀ x y z : K, multiplierAt (files .ms d) i j = .num x →
          multiplierAt (files .mz d) i j = .num y → multiplierAt (files .mt d) i j = .num z →
          g.val i j = .num (x * y * z) := by
  obtain ⟨rn, hn⟩ := Option.isSome_iff_exists.mp hn
  obtain ⟨re, he⟩ := Option.isSome_iff_exists.mp he
  obtain ⟨tif, h1, -, h3, h4⟩ := processTile_ok hs hn he hsq
  refine ⟨tif, h1, fun d => by rw [h3]; cases d <;> decide, ?_⟩
  intro d g hg i hi j hj
  rw [(h4 d g hg).2.2 i hi j hj]
  constructor
  · exact productAt_eq_nan files d i j
  · intro x y z hx hy hz
    rw [productAt, hx, hy, hz]
    rfl

/-- C75: in the maximum raster a cell is NaN exactly if one of the three multipliers of *some*
direction is NaN there; otherwise it is the largest of the eight products. -/
theorem C75_maximum (files : Mult → Dir → Option (Raster (NanNum K) T)) (nx ny : ℕ)
    (hs : TileShape files nx ny) (hn : (files .ms .n).isSome) (he : (files .ms .e).isSome)
    (hsq : (∃ m d, files m d = none) → nx = ny) :
    ∃ tif r, processTile files = .ok tif ∧ processMaxTile tif = .ok r ∧
      r.band.rows = ny ∧ r.band.cols = nx ∧ ∀ i < ny, ∀ j < nx,
        (r.band.val i j = .nan ↔
          ∃ m d s, files m d = some s ∧ s.band.val i j = .nan) ∧
        ∀ p : Dir → K, (∀ d, productAt files d i j = .num (p d)) →
          ∃ v, r.band.val i j = .num v ∧ (∀ d, p d ≤ v) ∧ ∃ d, v = p d := by
  obtain ⟨tif, r, h1, h2, h3, h4, h5⟩ := processMaxTile_ok hs hn he hsq
  refine ⟨tif, r, h1, h2, h3, h4, ?_⟩
  intro i hi j hj
  rw [h5 i hi j hj]
  have hmem : ∀ d : Dir, d = .e ∨ d ∈ [Dir.n, .ne, .nw, .s, .se, .sw, .w] := by
    intro d; cases d <;> decide
  constructor
  · rw [NanNum.foldl_max_eq_nan]
    have key := fun d => productAt_eq_nan files d i j
    constructor
    · rintro (h | ⟨d, -, h⟩)
      · obtain ⟨m, s, h⟩ := (key _).mp h
        exact ⟨m, _, s, h⟩
      · obtain ⟨m, s, h⟩ := (key _).mp h
        exact ⟨m, _, s, h⟩
    · rintro ⟨m, d, s, h⟩
      have := (key d).mpr ⟨m, s, h⟩
      rcases hmem d with rfl | hd
      · exact .inl this
      · exact .inr ⟨d, hd, this⟩
  · intro p hp
    rw [hp, NanNum.foldl_max_num _ _ p (fun d _ => hp d)]
    refine ⟨_, rfl, ?_, ?_⟩
    · intro d
      rcases hmem d with rfl | hd
      · exact foldl_max_ge p _ _
      · exact (foldl_max_mem p _ _).1 d hd
    · rcases (foldl_max_mem p [Dir.n, .ne, .nw, .s, .se, .sw, .w] (p .e)).2 with h | ⟨d, -, h⟩
      · exact ⟨_, h⟩
      · exact ⟨d, h⟩

/-- A 1 × 2 tile, NaN in the terrain multiplier of the first cell for wind from the south only. -/
def exampleNanFiles : Mult → Dir → Option (Raster (NanNum ℚ) Unit)
  | .mz, .s => some ⟨⟨1, 2, fun _ j => if j = 0 then .nan else .num 2⟩, ()⟩
  | .mt, _ => some ⟨⟨1, 2, fun _ _ => .num 3⟩, ()⟩
  | _, _ => some ⟨⟨1, 2, fun _ _ => NanNum.num (1 / 2)⟩, ()⟩

example : ∃ tif r, processTile exampleNanFiles = .ok tif ∧ processMaxTile tif = .ok r ∧
    r.band.val 0 0 = .nan ∧ r.band.val 0 1 ≠ .nan := by
  obtain ⟨tif, r, h1, h2, -, -, h5⟩ := C75_maximum exampleNanFiles 2 1 (by
    intro m d r h
    cases m <;> cases d <;> (cases h; exact ⟨rfl, rfl⟩)) rfl rfl (by
    rintro ⟨m, d, h⟩
    cases m <;> cases d <;> cases h)
  refine ⟨tif, r, h1, h2, ((h5 0 (by decide) 0 (by decide)).1).mpr
    ⟨.mz, .s, _, rfl, rfl⟩, ?_⟩
  intro h
  obtain ⟨m, d, s, hs, hv⟩ := ((h5 0 (by decide) 1 (by decide)).1).mp h
  cases m <;> cases d <;> (cases hs; cases hv)

end WindMult
