import Verif.Proofs.FloatShield
import Verif.Props.FloatTerrain

/-!
# Rounding in the shielding multipliers (C111)
-/

set_option autoImplicit false

namespace WindMult
variable {u w : ℝ}

/-- The stored shielding values: NaN at the same cells as the exact ones, which are between 0 and 1; elsewhere up to
the relative error `ε`. -/
def StoredShielding (exact stored : Grid (Option ℝ)) (ε : ℝ) : Prop :=
  stored.rows = exact.rows ∧ stored.cols = exact.cols ∧ ∀ i < exact.rows, ∀ j < exact.cols,
    (exact.val i j = none ∧ stored.val i j = none) ∨
    ∃ x y, exact.val i j = some x ∧ stored.val i j = some y ∧ 0 ≤ x ∧ x ≤ 1 ∧ |y - x| ≤ ε * x

theorem StoredShielding.near {exact stored : Grid (Option ℝ)} {ε : ℝ} (h : StoredShielding exact stored ε) :
    ∀ i < exact.rows, ∀ j < exact.cols, NearOpt (1 + ε) (exact.val i j) (stored.val i j) := by
  intro i hi j hj
  rcases h.2.2 i hi j hj with ⟨h1, h2⟩ | ⟨x, y, h1, h2, h3, -, h5⟩
  · rw [h1, h2]; trivial
  · rw [h1, h2]
    exact ⟨h3, by rw [add_sub_cancel_left]; exact h5⟩

theorem shieldMean_unit (exact : Grid (Option ℝ)) (d : Dir) (k i j : ℕ) (hk : 1 ≤ k)
    (h : ∀ i < exact.rows, ∀ j < exact.cols, ∀ x, exact.val i j = some x → 0 ≤ x ∧ x ≤ 1) {m : ℝ}
    (hm : shieldMean exact d k i j = some m) : 0 ≤ m ∧ m ≤ 1 := by
  unfold shieldMean at hm
  split_ifs at hm
  simp only [Option.some.injEq] at hm
  have hp := card_pos' (K := ℝ) d k hk
  have hcell : ∀ r c : ℤ, 0 ≤ (exact.cellOrOne r c).getD 0 ∧ (exact.cellOrOne r c).getD 0 ≤ 1 := by
    intro r c
    unfold Grid.cellOrOne
    split_ifs with hin
    · obtain ⟨a1, a2, a3, a4⟩ := hin
      cases e : exact.val r.toNat c.toNat with
      | none => simp
      | some x => exact h _ (by omega) _ (by omega) x e
    · norm_num
  rw [← hm]
  constructor
  · exact div_nonneg (Finset.sum_nonneg fun o _ => (hcell _ _).1) hp.le
  · rw [div_le_one hp]
    calc _ ≤ ∑ o ∈ shieldCells d k, (1 : ℝ) := Finset.sum_le_sum fun o _ => (hcell _ _).2
      _ = _ := by simp

/-- **C111** The shielding multiplier of a cell computed with rounded operations is NaN exactly if one of the cells
that shield it is; otherwise it differs from the exact one – the mean over the shielding cells, adjusted for the
slope, with the conservatism removed – by at most `2.1 δ + 24 u + η / 4`, where `δ` is the relative error of the
mean, `u` the error of one operation, and `η` the error of the slope in degrees; provided that rounding does not
move the aspect to another sector. -/
theorem C111_shielding (S : FpRound u) (W : FpRound w) (hw0 : 0 ≤ w) (hw : w ≤ u) (hu : u ≤ 1 / 10000) (d : Dir)
    (k : ℕ) (hk : 1 ≤ k) (exact stored slope slopef : Grid (Option ℝ)) (aspect aspectf : Grid ℝ) (ε δ η : ℝ)
    (hε : 0 ≤ ε) (hη : 0 ≤ η) (hs : StoredShielding exact stored ε)
    (hδ : (1 + ε) * (1 + w) ^ ((shieldCells d k).card + 2) * (1 + u) - 1 ≤ δ) (hδ1 : δ ≤ 1 / 100)
    (i j : ℕ) (hslope : SlopeNear η (slope.val i j) (slopef.val i j))
    (ha : 0 ≤ aspect.val i j ∧ aspect.val i j ≤ 360) (haf : 0 ≤ aspectf.val i j ∧ aspectf.val i j ≤ 360)
    (hsector : InSector d (aspectf.val i j) ↔ InSector d (aspect.val i j))
    [Decidable (InSector d (aspect.val i j))] :
    let out := combineFl S W d (blurImageFl S W stored (kernFl W d k)) slopef
      (aspectf.map fun a => reclassifyAspect (some a))
    (out.val i j = none ↔ shieldMean exact d k i j = none) ∧
    ∀ m, shieldMean exact d k i j = some m →
      ∃ y, out.val i j = some y ∧
        |y - (if slopeAdjusted (InSector d (aspect.val i j)) m (slope.val i j) < 0.9
            then slopeAdjusted (InSector d (aspect.val i j)) m (slope.val i j) * 0.9
            else slopeAdjusted (InSector d (aspect.val i j)) m (slope.val i j) ^ 2)| ≤
          2.1 * δ + 24 * u + η / 4 := by
  have hu0 : 0 ≤ u := hw0.trans hw
  have hmean := blurFl_near S W hu0 hw0 (by linarith) d k hk exact stored hs.1 hs.2.1 ε hε hs.near i j
  intro out
  have hout : out.val i j = combineCellFl S W d ((blurImageFl S W stored (kernFl W d k)).val i j) (slopef.val i j)
      (reclassifyAspect (some (aspectf.val i j))) := rfl
  generalize (blurImageFl S W stored (kernFl W d k)).val i j = mf at hmean hout
  rw [hout]
  constructor
  · cases hm : shieldMean exact d k i j <;> cases mf <;> rw [hm] at hmean <;> simp only [NearOpt] at hmean
    · simp [combineCellFl]
    · rw [combineCellFl_value S W hw]
      simp
  · intro m hm
    cases mf with
    | none => rw [hm] at hmean; exact absurd hmean (by simp [NearOpt])
    | some mf =>
      rw [hm] at hmean
      simp only [NearOpt] at hmean
      obtain ⟨hm0, hm1⟩ := shieldMean_unit exact d k i j hk (fun a ha b hb x hx => by
        rcases hs.2.2 a ha b hb with ⟨h1, -⟩ | ⟨x', y, h1, -, h3, h4, -⟩
        · rw [h1] at hx; cases hx
        · rw [h1] at hx; cases hx; exact ⟨h3, h4⟩) hm
      have hclose : |mf - m| ≤ δ := by
        refine hmean.2.trans ?_
        have h0 : 0 ≤ (1 + ε) * (1 + w) ^ ((shieldCells d k).card + 2) * (1 + u) - 1 := by
          have h1 : 1 ≤ (1 + w) ^ ((shieldCells d k).card + 2) := one_le_pow₀ (by linarith)
          have h2 : 1 ≤ (1 + ε) * (1 + w) ^ ((shieldCells d k).card + 2) := by nlinarith
          nlinarith
        nlinarith
      obtain ⟨x, y, h1, h2, h3⟩ := combineFl_near hu0 hu S W hw d hm0 hm1 hclose hδ1 hη hslope
        (aspect := reclassifyAspect (some (aspect.val i j))) (aspectf := reclassifyAspect (some (aspectf.val i j)))
        (by rw [C29_class_iff_sector d _ ha.1 ha.2, C29_class_iff_sector d _ haf.1 haf.2]; exact hsector)
      rw [C34_value d m _ _ ha.1 ha.2, Option.some.injEq] at h1
      rw [h1]
      exact ⟨y, h2, h3⟩

/-- The number of shielding cells. -/
theorem shieldCells_card_le (d : Dir) (k : ℕ) : (shieldCells d k).card ≤ (2 * k + 1) ^ 2 := by
  unfold shieldCells
  refine (Finset.card_filter_le _ _).trans ?_
  rw [Finset.card_product, Int.card_Icc, sq]
  apply le_of_eq
  congr 1 <;> omega

/-- **C111** In the formats of the code – values stored with 24 binary digits, kernel, sums and slopes with 53 – and
cells of at least 1 m: the error is at most `2⁻¹⁹` plus a quarter of the error of the slope. -/
theorem C111_formats (S : FpRound (1 / 2 ^ 24)) (W : FpRound (1 / 2 ^ 53)) (d : Dir) (k : ℕ) (hk : 1 ≤ k)
    (hk1 : k ≤ 100) (exact stored slope slopef : Grid (Option ℝ)) (aspect aspectf : Grid ℝ) (η : ℝ) (hη : 0 ≤ η)
    (hs : StoredShielding exact stored (1 / 2 ^ 23)) (i j : ℕ)
    (hslope : SlopeNear η (slope.val i j) (slopef.val i j))
    (ha : 0 ≤ aspect.val i j ∧ aspect.val i j ≤ 360) (haf : 0 ≤ aspectf.val i j ∧ aspectf.val i j ≤ 360)
    (hsector : InSector d (aspectf.val i j) ↔ InSector d (aspect.val i j))
    [Decidable (InSector d (aspect.val i j))] (m : ℝ) (hm : shieldMean exact d k i j = some m) :
    ∃ y, (combineFl S W d (blurImageFl S W stored (kernFl W d k)) slopef
        (aspectf.map fun a => reclassifyAspect (some a))).val i j = some y ∧
      |y - (if slopeAdjusted (InSector d (aspect.val i j)) m (slope.val i j) < 0.9
          then slopeAdjusted (InSector d (aspect.val i j)) m (slope.val i j) * 0.9
          else slopeAdjusted (InSector d (aspect.val i j)) m (slope.val i j) ^ 2)| ≤ 1 / 2 ^ 19 + η / 4 := by
  have hcard : ((shieldCells d k).card : ℝ) ≤ 40401 := by
    have h1 := shieldCells_card_le d k
    have h2 : (2 * k + 1) ^ 2 ≤ 201 ^ 2 := Nat.pow_le_pow_left (by omega) 2
    have h3 : ((shieldCells d k).card : ℝ) ≤ ((201 ^ 2 : ℕ) : ℝ) := Nat.cast_le.mpr (h1.trans h2)
    refine h3.trans ?_
    norm_num
  have hpow : (1 + (1 : ℝ) / 2 ^ 53) ^ ((shieldCells d k).card + 2) ≤ 1 + 1 / 2 ^ 30 := by
    refine (one_add_pow_le (by positivity) _ ?_).trans ?_
    · push_cast; norm_num; linarith
    · push_cast; norm_num; linarith
  obtain ⟨y, h1, h2⟩ := (C111_shielding S W (by positivity) (by norm_num) (by norm_num) d k hk exact stored slope slopef
    aspect aspectf (1 / 2 ^ 23) (3.1 / 2 ^ 24) η (by positivity) hη hs (by
      have : (1 + (1 : ℝ) / 2 ^ 23) * (1 + 1 / 2 ^ 53) ^ ((shieldCells d k).card + 2) * (1 + 1 / 2 ^ 24) ≤
          (1 + 1 / 2 ^ 23) * (1 + 1 / 2 ^ 30) * (1 + 1 / 2 ^ 24) := by gcongr
      refine (sub_le_sub_right this 1).trans ?_
      norm_num) (by norm_num) i j hslope ha haf hsector).2 m hm
  refine ⟨y, h1, h2.trans ?_⟩
  have : (2.1 : ℝ) * (3.1 / 2 ^ 24) + 24 * (1 / 2 ^ 24) ≤ 1 / 2 ^ 19 := by norm_num
  linarith

/-- A tile of 2 × 3 cells with shielding 0.85 in the west and no-data in the south-east corner, on a slope of 7°. -/
noncomputable def suburb : Grid (Option ℝ) :=
  ⟨2, 3, fun i j => if i = 1 ∧ j = 2 then none else if j = 0 then some (85 / 100) else some 1⟩

/-- The same in single precision. -/
noncomputable def suburbStored : Grid (Option ℝ) := ⟨2, 3, fun i j => (suburb.val i j).map (roundDigits 24)⟩

theorem suburb_stored : StoredShielding suburb suburbStored (1 / 2 ^ 23) := by
  refine ⟨rfl, rfl, fun i _ j _ => ?_⟩
  by_cases h : i = 1 ∧ j = 2
  · left; simp [suburb, suburbStored, h]
  · right
    refine ⟨if j = 0 then 85 / 100 else 1, roundDigits 24 (if j = 0 then 85 / 100 else 1), ?_, ?_, ?_, ?_, ?_⟩
    · simp only [suburb, if_neg h]; split_ifs <;> rfl
    · simp only [suburbStored, suburb, if_neg h]; split_ifs <;> rfl
    · split_ifs <;> norm_num
    · split_ifs <;> norm_num
    · have h1 := roundDigits_near 24 (if j = 0 then 85 / 100 else (1 : ℝ))
      have h0 : (0 : ℝ) ≤ if j = 0 then 85 / 100 else 1 := by split_ifs <;> norm_num
      rw [abs_of_nonneg h0] at h1
      refine h1.trans (mul_le_mul_of_nonneg_right (by norm_num) h0)

theorem suburb_mean : shieldMean suburb .w 1 0 1 = some (85 / 100) := by
  have hcells : shieldCells .w 1 = {(0, -1)} := by decide
  unfold shieldMean
  have hone : suburb.cellOrOne ((0 : ℕ) + 0) ((1 : ℕ) + -1) = some (85 / 100) := by
    simp [Grid.cellOrOne, InRaster, suburb]
  rw [hcells, if_neg]
  · rw [Finset.sum_singleton, Finset.card_singleton]
    simp only [hone]
    norm_num
  · rintro ⟨o, ho, h⟩
    rw [Finset.mem_singleton.mp ho] at h
    simp only [hone] at h
    cases h

/-- West wind at cell (0, 1), which is shielded by cell (0, 0) only, on a slope facing west. -/
example : ∃ y, (combineFl (digits 24) (digits 53) .w (blurImageFl (digits 24) (digits 53) suburbStored
      (kernFl (digits 53) .w 1)) ⟨2, 3, fun _ _ => some (7 + 1 / 2 ^ 40)⟩
      (Grid.map (fun a => reclassifyAspect (some a)) (⟨2, 3, fun _ _ => 271⟩ : Grid ℝ))).val 0 1 = some y ∧
    |y - (85 / 100 + 15 / 100 * (373 / 903)) ^ 2| ≤ 1 / 2 ^ 19 + 1 / 2 ^ 40 / 4 := by
  classical
  have hsec : InSector .w (270 : ℝ) := ⟨0, by norm_num [Dir.bearing], by norm_num [Dir.bearing]⟩
  have := C111_formats (digits 24) (digits 53) .w 1 le_rfl (by norm_num) suburb suburbStored
    ⟨2, 3, fun _ _ => some 7⟩ ⟨2, 3, fun _ _ => some (7 + 1 / 2 ^ 40)⟩ ⟨2, 3, fun _ _ => 270⟩ ⟨2, 3, fun _ _ => 271⟩
    (1 / 2 ^ 40) (by positivity) suburb_stored 0 1 (by norm_num [SlopeNear]) (by norm_num) (by norm_num)
    (by
      refine ⟨fun _ => hsec, fun _ => ⟨0, by norm_num [Dir.bearing], by norm_num [Dir.bearing]⟩⟩) (85 / 100) suburb_mean
  have hw : slopeWeight (some (7 : ℝ)) = 373 / 903 := by
    rw [slopeWeight_eq]
    norm_num
  have hadj : slopeAdjusted (K := ℝ) (InSector .w (270 : ℝ)) (85 / 100) (some 7) = 85 / 100 + 15 / 100 * (373 / 903) := by
    unfold slopeAdjusted
    rw [if_pos hsec, hw]
    norm_num
  simp only [hadj] at this
  rw [if_neg (by norm_num)] at this
  exact this

end WindMult
