import Verif.Proofs.Paths

/-!
# The loop over the lines of a raster
-/

set_option linter.unusedSectionVars false
set_option autoImplicit false

namespace WindMult
variable {K : Type} [Field K] [LinearOrder K] [IsStrictOrderedRing K] [FloorRing K]

theorem scatter_out {α : Type} (v : ℕ → α) (ks : List ℤ) :
    ∀ (t : ℕ) (mh : ℕ → α) (q : ℕ), (∀ k ∈ ks, q ≠ k.toNat) → scatter v t ks mh q = mh q := by
  induction ks with
  | nil => intro t mh q _; rfl
  | cons k ks ih =>
    intro t mh q h
    unfold scatter
    rw [ih _ _ _ (fun k' hk' => h k' (List.mem_cons_of_mem _ hk')),
      if_neg (h k List.mem_cons_self)]

theorem scatter_in {α : Type} (v : ℕ → α) (ks : List ℤ) :
    ∀ (t : ℕ) (mh : ℕ → α) (q j : ℕ) (hj : j < ks.length),
      q = (ks[j]).toNat → (∀ j' (hj' : j' < ks.length), q = (ks[j']).toNat → j' = j) →
      scatter v t ks mh q = v (t + j) := by
  induction ks with
  | nil => intro t mh q j hj; simp at hj
  | cons k ks ih =>
    intro t mh q j hj hq huniq
    unfold scatter
    cases j with
    | zero =>
      rw [scatter_out]
      · rw [if_pos (by simpa using hq)]; rfl
      · intro k' hk' he
        obtain ⟨i, hi, rfl⟩ := List.getElem_of_mem hk'
        have := huniq (i + 1) (by simpa using hi) (by simpa using he)
        omega
    | succ j =>
      rw [ih (t + 1) _ q j (by simpa using hj) (by simpa using hq)]
      · congr 1; omega
      · intro j' hj' he
        have := huniq (j' + 1) (by simpa using hj') (by simpa using he)
        omega

/-- The loop over the starting positions, with any function for the multipliers of a line. -/
def linesWith (f : Line K → Except PyErr (Line K)) (nr nc : ℕ) (d : Dir) (data : ℕ → Option K) :
    List ℕ → (ℕ → K) → Except PyErr (ℕ → K)
  | [], mh => .ok mh
  | s :: ss, mh => do
    let path := makePath nr nc s d
    let m ← f (lineAlong data path)
    linesWith f nr nc d data ss (scatter m.val 0 path mh)

theorem topoLines_eq (nr nc : ℕ) (d : Dir) (data : ℕ → Option K) (spacing : K) (ss : List ℕ) :
    ∀ mh, topoLines nr nc d data spacing ss mh =
      linesWith (fun l => multiplierCalc l spacing) nr nc d data ss mh := by
  induction ss with
  | nil => intro mh; rfl
  | cons s ss ih =>
    intro mh
    unfold topoLines linesWith
    simp only [ih]

/-- The loop over the lines never fails, and each cell gets the value of the step of the path that
visits it. -/
theorem linesWith_spec (f : Line K → Except PyErr (Line K)) (hf : ∀ l, ∃ m, f l = .ok m)
    (nr nc : ℕ) (hr : 0 < nr) (hc : 0 < nc) (d : Dir) (data : ℕ → Option K) :
    ∀ (ss : List ℕ) (mh : ℕ → K), ss.Nodup → (∀ s ∈ ss, s ∈ startIdx nr nc d) →
    ∃ mh', linesWith f nr nc d data ss mh = .ok mh' ∧
      (∀ q, (∀ s ∈ ss, ∀ k ∈ makePath nr nc s d, q ≠ k.toNat) → mh' q = mh q) ∧
      ∀ s ∈ ss, ∀ t (ht : t < (makePath nr nc s d).length),
        ∃ m, f (lineAlong data (makePath nr nc s d)) = .ok m ∧
          mh' ((makePath nr nc s d)[t]).toNat = m.val t := by
  have hnn : ∀ s ∈ startIdx nr nc d, ∀ k ∈ makePath nr nc s d, 0 ≤ k := by
    intro s hs k hk
    obtain ⟨r, c, n, _, _, _, h3, h4⟩ := startIdx_path nr nc hr hc d s hs
    rw [h4, List.mem_map] at hk
    obtain ⟨t, ht, rfl⟩ := hk
    have := h3.2.1 t (List.mem_range.mp ht)
    simp only [Nat.cast_zero, zero_sub] at this
    exact (cellIndex_range nr nc _ _ this).1
  intro ss
  induction ss with
  | nil =>
    intro mh _ _
    exact ⟨mh, rfl, fun q _ => rfl, by simp⟩
  | cons s ss ih =>
    intro mh hnd hsub
    obtain ⟨hns, hnd'⟩ := List.nodup_cons.mp hnd
    obtain ⟨m, hm⟩ := hf (lineAlong data (makePath nr nc s d))
    obtain ⟨mh', h1, h2, h3⟩ := ih (scatter m.val 0 (makePath nr nc s d) mh) hnd'
      (fun s' hs' => hsub s' (List.mem_cons_of_mem _ hs'))
    refine ⟨mh', ?_, ?_, ?_⟩
    · unfold linesWith
      simp only [hm]
      exact h1
    · intro q hq
      rw [h2 q (fun s' hs' => hq s' (List.mem_cons_of_mem _ hs')),
        scatter_out _ _ _ _ _ (hq s List.mem_cons_self)]
    · intro s' hs' t ht
      rcases List.mem_cons.mp hs' with rfl | hs'
      · refine ⟨m, hm, ?_⟩
        have hnn' := hnn s' (hsub s' List.mem_cons_self)
        rw [h2]
        · have := scatter_in m.val (makePath nr nc s' d) 0 mh
            ((makePath nr nc s' d)[t]).toNat t ht rfl (by
              intro j' hj' he
              have e : (makePath nr nc s' d)[t] = (makePath nr nc s' d)[j'] := by
                have a := hnn' _ (List.getElem_mem ht)
                have b := hnn' _ (List.getElem_mem hj')
                omega
              exact (path_cell_unique nr nc hr hc d s' s' (hsub s' List.mem_cons_self)
                (hsub s' List.mem_cons_self) t j' ht hj' e).2.symm)
          rw [this, Nat.zero_add]
        · intro s'' hs'' k hk he
          obtain ⟨j, hj, rfl⟩ := List.getElem_of_mem hk
          have e : (makePath nr nc s' d)[t] = (makePath nr nc s'' d)[j] := by
            have a := hnn' _ (List.getElem_mem ht)
            have b := hnn s'' (hsub s'' (List.mem_cons_of_mem _ hs'')) _ (List.getElem_mem hj)
            omega
          have := (path_cell_unique nr nc hr hc d s' s'' (hsub s' List.mem_cons_self)
            (hsub s'' (List.mem_cons_of_mem _ hs'')) t j ht hj e).1
          exact hns (this ▸ hs'')
      · exact h3 s' hs' t ht

/-- The value the line loop gives to a cell: that of the transect through it. -/
theorem linesWith_cell (f : Line K → Except PyErr (Line K)) (hf : ∀ l, ∃ m, f l = .ok m)
    (dem : Grid (Option K)) (hr : 0 < dem.rows) (hc : 0 < dem.cols) (d : Dir) :
    ∃ mh, linesWith f dem.rows dem.cols d dem.flattenT (startIdx dem.rows dem.cols d)
        (fun _ => 1) = .ok mh ∧
      ∀ (r c : ℕ) (u n : ℕ), IsTransect dem.rows dem.cols d r c u n →
        ∃ m, f (transectLine dem d r c u n) = .ok m ∧
          mh (c * dem.rows + r) = m.val u := by
  obtain ⟨mh, h1, _, h3⟩ := linesWith_spec f hf dem.rows dem.cols hr hc d dem.flattenT
    (startIdx dem.rows dem.cols d) (fun _ => 1) (List.nodup_dedup _) (fun s hs => hs)
  refine ⟨mh, h1, ?_⟩
  intro r c u n hT
  obtain ⟨s, hs, hpath⟩ := makePath_transect dem.rows dem.cols d r c u n hT
  have hlen : (makePath dem.rows dem.cols s d).length = n := by rw [hpath]; simp
  have hu := hT.1
  obtain ⟨m, hm, hval⟩ := h3 s hs u (by rw [hlen]; exact hu)
  -- the two lines agree where it matters
  have hline : lineAlong dem.flattenT (makePath dem.rows dem.cols s d) =
      transectLine dem d r c u n := by
    unfold lineAlong transectLine
    rw [hlen]
    congr 1
    funext t
    by_cases ht : t < n
    swap
    · have hnone : (makePath dem.rows dem.cols s d)[t]? = none := by
        rw [List.getElem?_eq_none_iff, hlen]; omega
      rw [hnone, if_neg ht]
    have hget : (makePath dem.rows dem.cols s d)[t]? =
        some (cellIndex dem.rows (d.rowUp r ((u : ℤ) - t)) (d.colUp c ((u : ℤ) - t))) := by
      rw [hpath]
      simp [ht]
    rw [hget, if_pos ht]
    simp only
    congr 1
    have hin := hT.2.1 t ht
    obtain ⟨a1, a2, a3, a4⟩ := hin
    obtain ⟨r0, hr0⟩ : ∃ r0 : ℕ, d.rowUp r ((u : ℤ) - t) = r0 := ⟨_, (Int.toNat_of_nonneg a1).symm⟩
    obtain ⟨c0, hc0⟩ : ∃ c0 : ℕ, d.colUp c ((u : ℤ) - t) = c0 := ⟨_, (Int.toNat_of_nonneg a3).symm⟩
    rw [hr0] at a2 ⊢
    rw [hc0] at a4 ⊢
    have a2' : r0 < dem.rows := by exact_mod_cast a2
    unfold Grid.flattenT cellIndex
    have e : ((r0 : ℤ) + (c0 : ℤ) * (dem.rows : ℤ)).toNat = r0 + c0 * dem.rows := by
      rw [← Nat.cast_mul, ← Nat.cast_add, Int.toNat_natCast]
    rw [e, (cell_div_mod dem.rows r0 c0 a2').1, (cell_div_mod dem.rows r0 c0 a2').2]
    rfl
  have hgetu : (makePath dem.rows dem.cols s d)[u]'(by rw [hlen]; exact hu) =
      cellIndex dem.rows r c := by
    simp only [hpath, List.getElem_map, List.getElem_range, sub_self, rowUp_zero, colUp_zero]
  rw [hgetu] at hval
  have eidx : (cellIndex dem.rows (r : ℤ) (c : ℤ)).toNat = c * dem.rows + r := by
    unfold cellIndex
    rw [← Nat.cast_mul, ← Nat.cast_add, Int.toNat_natCast, Nat.add_comm]
  rw [eidx] at hval
  exact ⟨m, by rw [← hline, hm], hval⟩

/-- The value the line loop gives to a cell: that of the transect through it. -/
theorem topoLines_cell (dem : Grid (Option K)) (hr : 0 < dem.rows) (hc : 0 < dem.cols) (d : Dir)
    (spacing : K) :
    ∃ mh, topoLines dem.rows dem.cols d dem.flattenT spacing (startIdx dem.rows dem.cols d)
        (fun _ => 1) = .ok mh ∧
      ∀ (r c : ℕ) (u n : ℕ), IsTransect dem.rows dem.cols d r c u n →
        ∃ m, multiplierCalc (transectLine dem d r c u n) spacing = .ok m ∧
          mh (c * dem.rows + r) = m.val u := by
  rw [topoLines_eq]
  exact linesWith_cell _ (fun l => by obtain ⟨m, h, _⟩ := multiplierCalc_spec l spacing; exact ⟨m, h⟩) dem hr hc d

end WindMult
