import Verif.Props.Terrain
import Verif.Props.TopoGrid

/-!
# The eight directions of the topographic step are mirror images of each other (C125)
-/

set_option linter.unusedSectionVars false
set_option autoImplicit false

namespace WindMult
variable {K : Type} [Field K] [LinearOrder K] [IsStrictOrderedRing K] [FloorRing K]

/-- `(fr, fc)` carries the positions of a raster `rows' × cols'` to those of a raster `rows × cols`, and steps
against the wind `d'` to steps against the wind `d`. -/
structure CarriesWind (rows' cols' rows cols : ℕ) (d' d : Dir) (fr fc : ℤ → ℤ → ℤ) : Prop where
  inside : ∀ r c, InRaster rows' cols' r c ↔ InRaster rows cols (fr r c) (fc r c)
  row : ∀ r c t, fr (d'.rowUp r t) (d'.colUp c t) = d.rowUp (fr r c) t
  col : ∀ r c t, fc (d'.rowUp r t) (d'.colUp c t) = d.colUp (fc r c) t

theorem CarriesWind.transect {rows' cols' rows cols : ℕ} {d' d : Dir} {fr fc : ℤ → ℤ → ℤ}
    (h : CarriesWind rows' cols' rows cols d' d fr fc) {r c : ℤ} {u n : ℕ}
    (hT : IsTransect rows' cols' d' r c u n) : IsTransect rows cols d (fr r c) (fc r c) u n := by
  obtain ⟨h1, h2, h3, h4⟩ := hT
  refine ⟨h1, fun t ht => ?_, ?_, ?_⟩
  · have := (h.inside _ _).1 (h2 t ht)
    rwa [h.row, h.col] at this
  · have := mt (h.inside _ _).2 h3
    rwa [h.row, h.col] at this
  · have := mt (h.inside _ _).2 h4
    rwa [h.row, h.col] at this

theorem CarriesWind.line {dem' dem : Grid (Option K)} {d' d : Dir} {fr fc : ℤ → ℤ → ℤ}
    (h : CarriesWind dem'.rows dem'.cols dem.rows dem.cols d' d fr fc)
    (hval : ∀ r c, InRaster dem'.rows dem'.cols r c →
      dem'.val r.toNat c.toNat = dem.val (fr r c).toNat (fc r c).toNat)
    {r c : ℤ} {u n : ℕ} (hT : IsTransect dem'.rows dem'.cols d' r c u n) :
    transectLine dem' d' r c u n = transectLine dem d (fr r c) (fc r c) u n := by
  unfold transectLine
  congr 1
  funext t
  split
  · next ht => rw [hval _ _ (hT.2.1 t ht), h.row, h.col]
  · rfl

theorem topoRaw_carried {dem' dem : Grid (Option K)} {d' d : Dir} {fr fc : ℤ → ℤ → ℤ}
    (h : CarriesWind dem'.rows dem'.cols dem.rows dem.cols d' d fr fc)
    (hval : ∀ r c, InRaster dem'.rows dem'.cols r c →
      dem'.val r.toNat c.toNat = dem.val (fr r c).toNat (fc r c).toNat)
    (hr' : 0 < dem'.rows) (hc' : 0 < dem'.cols) (hr : 0 < dem.rows) (hc : 0 < dem.cols)
    (cellsize root2 xLeft yUpper : K) (hsp : lineSpacing d' cellsize root2 = lineSpacing d cellsize root2) :
    ∃ raw' raw, topoRaw dem' cellsize root2 xLeft yUpper d' = .ok raw' ∧
      topoRaw dem cellsize root2 xLeft yUpper d = .ok raw ∧
      raw'.rows = dem'.rows ∧ raw'.cols = dem'.cols ∧ raw.rows = dem.rows ∧ raw.cols = dem.cols ∧
      ∀ r c, raw'.orZero r c = raw.orZero (fr r c) (fc r c) := by
  obtain ⟨raw', a1, a2, a3, a4⟩ := C54_cell_from_transect dem' hr' hc' cellsize root2 xLeft yUpper d'
  obtain ⟨raw, b1, b2, b3, b4⟩ := C54_cell_from_transect dem hr hc cellsize root2 xLeft yUpper d
  refine ⟨raw', raw, a1, b1, a2, a3, b2, b3, fun r c => ?_⟩
  by_cases hin : InRaster dem'.rows dem'.cols r c
  · have hin2 := (h.inside r c).1 hin
    have e1 : raw'.orZero r c = raw'.val r.toNat c.toNat := by
      unfold Grid.orZero; rw [a2, a3]; exact if_pos hin
    have e2 : raw.orZero (fr r c) (fc r c) = raw.val (fr r c).toNat (fc r c).toNat := by
      unfold Grid.orZero; rw [b2, b3]; exact if_pos hin2
    rw [e1, e2]
    have hin' := hin
    have hin2' := hin2
    obtain ⟨p1, p2, p3, p4⟩ := hin'
    obtain ⟨q1, q2, q3, q4⟩ := hin2'
    obtain ⟨⟨u, n, hT⟩, a5⟩ := a4 r.toNat c.toNat (by omega) (by omega)
    have b5 := (b4 (fr r c).toNat (fc r c).toNat (by omega) (by omega)).2 u n
    obtain ⟨m', c1, c2⟩ := a5 u n hT
    rw [Int.toNat_of_nonneg p1, Int.toNat_of_nonneg p3] at hT c1
    rw [Int.toNat_of_nonneg q1, Int.toNat_of_nonneg q3] at b5
    obtain ⟨m, d1, d2⟩ := b5 (h.transect hT)
    rw [h.line hval hT, hsp, d1] at c1
    cases c1
    rw [c2, d2, hval r c hin]
  · have e1 : raw'.orZero r c = 0 := by
      unfold Grid.orZero; rw [a2, a3]; exact if_neg hin
    have e2 : raw.orZero (fr r c) (fc r c) = 0 := by
      unfold Grid.orZero; rw [b2, b3]; exact if_neg (mt (h.inside r c).2 hin)
    rw [e1, e2]

theorem topoDir_of_raw {dem : Grid (Option K)} {cellsize root2 xLeft yUpper : K} {d : Dir} {raw : Grid K}
    (h : topoRaw dem cellsize root2 xLeft yUpper d = .ok raw) :
    topoDir dem cellsize root2 xLeft yUpper d = .ok ⟨raw.rows, raw.cols, fun i j =>
      match dem.val i j with
      | none => none
      | some _ => some (smoothCell raw i j)⟩ := by
  unfold topoDir; rw [h]; rfl

/-- **C125** (east-west): the topographic multipliers of the mirror image of a raster, in the mirrored
direction, are the mirror image of those of the raster. -/
theorem C125_mirror_east_west (dem : Grid (Option K)) (hr : 0 < dem.rows) (hc : 0 < dem.cols)
    (cellsize root2 xLeft yUpper : K) (d : Dir) :
    ∃ out out', topoDir dem cellsize root2 xLeft yUpper d = .ok out ∧
      topoDir dem.mirrorEW cellsize root2 xLeft yUpper d.mirrorEW = .ok out' ∧ out'.Same out.mirrorEW := by
  have h : CarriesWind dem.mirrorEW.rows dem.mirrorEW.cols dem.rows dem.cols d.mirrorEW d
      (fun r _ => r) (fun _ c => dem.cols - 1 - c) :=
    ⟨fun r c => by simp only [InRaster, Grid.mirrorEW]; omega,
      fun r c t => by cases d <;> simp only [Dir.mirrorEW, Dir.rowUp, Dir.north],
      fun r c t => by cases d <;> simp only [Dir.mirrorEW, Dir.colUp, Dir.east] <;> ring⟩
  obtain ⟨raw', raw, a1, b1, a2, a3, b2, b3, hv⟩ := topoRaw_carried h (by
      intro r c hin
      obtain ⟨p1, p2, p3, p4⟩ := hin
      simp only [Grid.mirrorEW] at p2 p4 ⊢
      congr 1; omega) hr hc hr hc cellsize root2 xLeft yUpper (by cases d <;> rfl)
  refine ⟨_, _, topoDir_of_raw b1, topoDir_of_raw a1, a2.trans b2.symm, a3.trans b3.symm, ?_⟩
  intro i hi j hj
  simp only [Grid.mirrorEW] at a2 a3 hi hj ⊢
  rw [a3] at hj
  rw [b3]
  have hs : smoothCell raw' i j = smoothCell raw i (dem.cols - 1 - j) := by
    simp only [smoothCell_eq, hv]
    rw [show ((dem.cols - 1 - j : ℕ) : ℤ) = (dem.cols : ℤ) - 1 - j by omega,
      show (dem.cols : ℤ) - 1 - (j - 1) = dem.cols - 1 - j + 1 by ring,
      show (dem.cols : ℤ) - 1 - (j + 1) = dem.cols - 1 - j - 1 by ring]
    ring
  rw [hs]

/-- **C125** (north-south) -/
theorem C125_mirror_north_south (dem : Grid (Option K)) (hr : 0 < dem.rows) (hc : 0 < dem.cols)
    (cellsize root2 xLeft yUpper : K) (d : Dir) :
    ∃ out out', topoDir dem cellsize root2 xLeft yUpper d = .ok out ∧
      topoDir dem.mirrorNS cellsize root2 xLeft yUpper d.mirrorNS = .ok out' ∧ out'.Same out.mirrorNS := by
  have h : CarriesWind dem.mirrorNS.rows dem.mirrorNS.cols dem.rows dem.cols d.mirrorNS d
      (fun r _ => dem.rows - 1 - r) (fun _ c => c) :=
    ⟨fun r c => by simp only [InRaster, Grid.mirrorNS]; omega,
      fun r c t => by cases d <;> simp only [Dir.mirrorNS, Dir.rowUp, Dir.north] <;> ring,
      fun r c t => by cases d <;> simp only [Dir.mirrorNS, Dir.colUp, Dir.east]⟩
  obtain ⟨raw', raw, a1, b1, a2, a3, b2, b3, hv⟩ := topoRaw_carried h (by
      intro r c hin
      obtain ⟨p1, p2, p3, p4⟩ := hin
      simp only [Grid.mirrorNS] at p2 p4 ⊢
      congr 1; omega) hr hc hr hc cellsize root2 xLeft yUpper (by cases d <;> rfl)
  refine ⟨_, _, topoDir_of_raw b1, topoDir_of_raw a1, a2.trans b2.symm, a3.trans b3.symm, ?_⟩
  intro i hi j hj
  simp only [Grid.mirrorNS] at a2 a3 hi hj ⊢
  rw [a2] at hi
  rw [b2]
  have hs : smoothCell raw' i j = smoothCell raw (dem.rows - 1 - i) j := by
    simp only [smoothCell_eq, hv]
    rw [show ((dem.rows - 1 - i : ℕ) : ℤ) = (dem.rows : ℤ) - 1 - i by omega,
      show (dem.rows : ℤ) - 1 - (i - 1) = dem.rows - 1 - i + 1 by ring,
      show (dem.rows : ℤ) - 1 - (i + 1) = dem.rows - 1 - i - 1 by ring]
    ring
  rw [hs]

/-- **C125** (transposition) -/
theorem C125_transpose (dem : Grid (Option K)) (hr : 0 < dem.rows) (hc : 0 < dem.cols)
    (cellsize root2 xLeft yUpper : K) (d : Dir) :
    ∃ out out', topoDir dem cellsize root2 xLeft yUpper d = .ok out ∧
      topoDir dem.transpose cellsize root2 xLeft yUpper d.transpose = .ok out' ∧ out'.Same out.transpose := by
  have h : CarriesWind dem.transpose.rows dem.transpose.cols dem.rows dem.cols d.transpose d
      (fun _ c => c) (fun r _ => r) :=
    ⟨fun r c => by simp only [InRaster, Grid.transpose]; omega,
      fun r c t => by cases d <;> simp only [Dir.transpose, Dir.rowUp, Dir.colUp, Dir.north, Dir.east] <;> ring,
      fun r c t => by cases d <;> simp only [Dir.transpose, Dir.rowUp, Dir.colUp, Dir.north, Dir.east] <;> ring⟩
  obtain ⟨raw', raw, a1, b1, a2, a3, b2, b3, hv⟩ := topoRaw_carried h (fun r c _ => rfl) hc hr hr hc
    cellsize root2 xLeft yUpper (by cases d <;> rfl)
  refine ⟨_, _, topoDir_of_raw b1, topoDir_of_raw a1, a2.trans b3.symm, a3.trans b2.symm, ?_⟩
  intro i hi j hj
  simp only [Grid.transpose]
  have hs : smoothCell raw' i j = smoothCell raw j i := by
    simp only [smoothCell_eq, hv]
    ring
  rw [hs]

/-- A hill with a steep west and a gentle east side: the multiplier for a west wind differs from that for an east
wind, and is that of the mirrored hill for an east wind. -/
example :
    let hill : Grid (Option ℚ) := ⟨1, 5, fun _ j => some (if j = 1 then 40 else if j = 2 then 25 else 0)⟩
    (match topoDir hill 25 (7 / 5) 0 0 .w, topoDir hill 25 (7 / 5) 0 0 .e,
        topoDir hill.mirrorEW 25 (7 / 5) 0 0 .e with
      | .ok a, .ok b, .ok c => decide (a.val 0 2 ≠ b.val 0 2 ∧ c.val 0 2 = a.val 0 2)
      | _, _, _ => false) = true := by decide +kernel

end WindMult
