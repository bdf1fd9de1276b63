import Verif.Proofs.Convert
import Verif.Proofs.FileNames
import Mathlib.Data.Rat.Floor

/-!
# C13–C19: conversion to GeoTIFF
-/

set_option linter.unusedSectionVars false

set_option autoImplicit false

namespace WindMult
open Spec

/-! ### C13 -/

section
variable {α : Type}

/-- C13: the strided slices handed to the ranks contain every tile exactly once (as often as the
list does). -/
theorem C13_partition (tiles : List α) (size : ℕ) (hs : 0 < size) :
    (rankSlices tiles size).length = size ∧ (rankSlices tiles size).flatten.Perm tiles :=
  ⟨by simp [rankSlices], rankSlices_flatten_perm tiles size hs⟩

/-- C13: tile number `k` goes to rank `k % size`, at position `k / size` of its share. -/
theorem C13_place (tiles : List α) (size : ℕ) (hs : 0 < size) (k : ℕ) :
    ((rankSlices tiles size)[k % size]?.bind fun s => s[k / size]?) = tiles[k]? := by
  have hk : k % size < size := Nat.mod_lt _ hs
  have : (rankSlices tiles size)[k % size]? = some (strideSlice tiles (k % size) size) := by
    rw [rankSlices, List.getElem?_map, List.getElem?_range hk]; rfl
  rw [this]
  show (strideSlice tiles (k % size) size)[k / size]? = _
  rw [strideSlice_getElem? _ _ _ _ hs, Nat.mul_comm, Nat.mod_add_div]

/-- C13: the shares of two ranks differ by at most one tile. -/
theorem C13_balanced (tiles : List α) (size : ℕ) (hs : 0 < size) (a b : List α)
    (ha : a ∈ rankSlices tiles size) (hb : b ∈ rankSlices tiles size) :
    a.length ≤ b.length + 1 := by
  simp only [rankSlices, List.mem_map, List.mem_range] at ha hb
  obtain ⟨i, hi, rfl⟩ := ha
  obtain ⟨j, hj, rfl⟩ := hb
  rw [strideSlice_length _ _ _ hs, strideSlice_length _ _ _ hs]
  have : (tiles.length - i + (size - 1)) / size ≤ (tiles.length - j + (size - 1) + size) / size :=
    Nat.div_le_div_right (by omega)
  rwa [Nat.add_div_right _ hs] at this

example : rankSlices [10, 11, 12, 13, 14] 3 = [[10, 13], [11, 14], [12]] := by decide

end

/-! ### C14 -/

/-- C14: whatever is in the shielding directory, in whatever order Python lists the set of tile
names, and for any number of ranks, both lists handed to `BuildVRT` contain the GeoTIFF of every
tile of the directory once and nothing else. -/
theorem C14_vrt_lists (process processMax : List Char → Except PyErr Unit)
    (listing tiles : List (List Char)) (size : ℕ) (hs : 0 < size) (hnd : tiles.Nodup)
    (hset : ∀ t, t ∈ tiles ↔ ∃ f ∈ listing, tileOfFile f = t)
    (hp : ∀ t ∈ tiles, process t = .ok () ∧ processMax t = .ok ()) :
    ∃ all maxima, vrtLists process processMax tiles size = .ok (all, maxima) ∧
      (∀ f ∈ listing, all.count (m3File (tileOfFile f)) = 1 ∧
        maxima.count (m3MaxFile (tileOfFile f)) = 1) ∧
      (∀ p ∈ all, ∃ f ∈ listing, p = m3File (tileOfFile f)) ∧
      (∀ p ∈ maxima, ∃ f ∈ listing, p = m3MaxFile (tileOfFile f)) := by
  have hperm := rankSlices_flatten_perm tiles size hs
  have hg := gatherRuns_ok (process := process) (processMax := processMax)
    (ss := rankSlices tiles size) (by
      intro s hs' t ht
      exact hp t (hperm.mem_iff.mp (List.mem_flatten.mpr ⟨s, hs', ht⟩)))
  have h1 : ∀ f : List Char → List Char,
      ((rankSlices tiles size).flatMap fun s => s.map f).Perm (tiles.map f) := by
    intro f
    have : ((rankSlices tiles size).flatMap fun s => s.map f) = (rankSlices tiles size).flatten.map f := by
      rw [List.map_flatten, List.flatMap_def]
    rw [this]
    exact hperm.map f
  have i1 : Function.Injective m3File := by
    intro a b h; simpa [m3File] using h
  have i2 : Function.Injective m3MaxFile := by
    intro a b h; simpa [m3MaxFile] using h
  refine ⟨(rankSlices tiles size).flatMap fun s => s.map m3File,
    (rankSlices tiles size).flatMap fun s => s.map m3MaxFile, ?_, ?_, ?_, ?_⟩
  · simp only [vrtLists, hg]
    rw [foldl_append_map, foldl_append_map, List.flatMap_map, List.flatMap_map]
    simp
  · intro f hf
    have hm : tileOfFile f ∈ tiles := (hset _).mpr ⟨f, hf, rfl⟩
    rw [(h1 _).count_eq, (h1 _).count_eq]
    exact ⟨List.count_eq_one_of_mem (hnd.map i1) (List.mem_map_of_mem hm),
      List.count_eq_one_of_mem (hnd.map i2) (List.mem_map_of_mem hm)⟩
  · intro p hp'
    obtain ⟨t, ht, rfl⟩ := List.mem_map.mp ((h1 _).mem_iff.mp hp')
    obtain ⟨f, hf, rfl⟩ := (hset t).mp ht
    exact ⟨f, hf, rfl⟩
  · intro p hp'
    obtain ⟨t, ht, rfl⟩ := List.mem_map.mp ((h1 _).mem_iff.mp hp')
    obtain ⟨f, hf, rfl⟩ := (hset t).mp ht
    exact ⟨f, hf, rfl⟩

/-- Two tiles, one of them with two files, on three ranks. -/
example : ∃ all maxima, vrtLists (fun _ => .ok ()) (fun _ => .ok ()) [['a'], ['b']] 3 = .ok (all, maxima) ∧
    (∀ f ∈ [['b', '_', 'm', 's', '_', 'e', '.', 'n', 'c'], ['a', '_', 'm', 's', '_', 'n', '.', 'n', 'c'], ['a', '_', 'm', 's', '_', 'e', '.', 'n', 'c']], all.count (m3File (tileOfFile f)) = 1 ∧
        maxima.count (m3MaxFile (tileOfFile f)) = 1) ∧
      (∀ p ∈ all, ∃ f ∈ [['b', '_', 'm', 's', '_', 'e', '.', 'n', 'c'], ['a', '_', 'm', 's', '_', 'n', '.', 'n', 'c'], ['a', '_', 'm', 's', '_', 'e', '.', 'n', 'c']], p = m3File (tileOfFile f)) ∧
      (∀ p ∈ maxima, ∃ f ∈ [['b', '_', 'm', 's', '_', 'e', '.', 'n', 'c'], ['a', '_', 'm', 's', '_', 'n', '.', 'n', 'c'], ['a', '_', 'm', 's', '_', 'e', '.', 'n', 'c']],
        p = m3MaxFile (tileOfFile f)) := by
  refine C14_vrt_lists _ _ _ _ 3 (by decide) (by decide) ?_ (by simp)
  intro t
  have h1 : tileOfFile ['b', '_', 'm', 's', '_', 'e', '.', 'n', 'c'] = ['b'] := by decide
  have h2 : tileOfFile ['a', '_', 'm', 's', '_', 'n', '.', 'n', 'c'] = ['a'] := by decide
  have h3 : tileOfFile ['a', '_', 'm', 's', '_', 'e', '.', 'n', 'c'] = ['a'] := by decide
  simp only [List.mem_cons, List.not_mem_nil, or_false, exists_eq_or_imp, exists_eq_left, h1, h2, h3]
  constructor
  · rintro (rfl | rfl) <;> simp
  · rintro (rfl | rfl | rfl) <;> simp

/-! ### C15 -/

/-- C15: the file in which a step saves a multiplier is the file the converter opens. -/
theorem C15_same_file (out tile : List Char) (ho : ¬ ['/', '/'] <:+ out) (ht : TileName tile)
    (d : Dir) (m : Mult) : savedNc out tile d m = openedNc out tile d m :=
  savedNc_eq_openedNc ho ht d m

/-- C15: the tile name is recovered from the directory listing: the listing shows the base name of
the saved file, and its part before the first underscore is the tile. -/
theorem C15_tile_recovered (out tile : List Char) (ho : ¬ ['/', '/'] <:+ out) (ht : TileName tile)
    (d : Dir) (m : Mult) :
    tileOfFile (basename (savedNc out tile d m)) = tile := by
  have hu : '/' ∉ m.unit := by cases m <;> decide
  have hn : '/' ∉ openedName tile d m :=
    notMem_append (notMem_append (notMem_append (notMem_append (notMem_append ht.1 (by decide)) hu)
      (by decide)) (slash_notMem_letters d)) (by decide)
  rw [savedNc_eq_openedNc ho ht, openedNc, pjoin_eq hn, basename_withSlash hn]
  exact tileOfFile_opened ht.2.1 d m

/-- C15: the direction recorded in the file is the direction computed. -/
theorem C15_direction (out tile : List Char) (ho : ¬ ['/', '/'] <:+ out) (ht : TileName tile)
    (d : Dir) (m : Mult) : metaDirection (savedNc out tile d m) = d.letters := by
  rw [savedNc_eq_openedNc ho ht]
  exact metaDirection_opened ht d m

/-- C15: no two of the saved files have the same name. -/
theorem C15_distinct (out t t' : List Char) (ho : ¬ ['/', '/'] <:+ out) (ht : TileName t)
    (ht' : TileName t') (d d' : Dir) (m m' : Mult)
    (h : savedNc out t d m = savedNc out t' d' m') : t = t' ∧ d = d' ∧ m = m' := by
  have h1 := C15_tile_recovered out t ho ht d m
  have h2 := C15_direction out t ho ht d m
  rw [h, C15_tile_recovered out t' ho ht' d' m'] at h1
  rw [h, C15_direction out t' ho ht' d' m'] at h2
  subst h1
  have hd : d = d' := by
    revert h2; cases d <;> cases d' <;> decide
  subst hd
  refine ⟨rfl, rfl, ?_⟩
  rw [savedNc_eq_openedNc ho ht, savedNc_eq_openedNc ho ht] at h
  have hn : ∀ m : Mult, '/' ∉ openedName t' d m := fun m =>
    notMem_append (notMem_append (notMem_append (notMem_append (notMem_append ht.1 (by decide))
      (by cases m <;> decide)) (by decide)) (slash_notMem_letters d)) (by decide)
  have h3 := congrArg basename h
  rw [openedNc, openedNc, pjoin_eq (hn m), pjoin_eq (hn m'), basename_withSlash (hn m),
    basename_withSlash (hn m')] at h3
  simp only [openedName, List.append_assoc, List.append_cancel_left_eq] at h3
  cases m <;> cases m' <;> first | rfl | simp [Mult.unit] at h3

/-- A tile with dots in its name, in a directory given with a final slash. -/
example : TileName ['e', '1', '1', '4', '.', '5', 's', '2', '2', '.', '0'] ∧ ¬ ['/', '/'] <:+ ['/', 'o', 'u', 't', '/'] ∧
    savedNc ['/', 'o', 'u', 't', '/'] ['e', '1', '1', '4', '.', '5', 's', '2', '2', '.', '0'] .se .ms = ['/', 'o', 'u', 't', '/', 's', 'h', 'i', 'e', 'l', 'd', 'i', 'n', 'g', '/', 'e', '1', '1', '4', '.', '5', 's', '2', '2', '.', '0', '_', 'm', 's', '_', 's', 'e', '.', 'n', 'c'] ∧
    metaDirection (savedNc ['/', 'o', 'u', 't', '/'] ['e', '1', '1', '4', '.', '5', 's', '2', '2', '.', '0'] .s .mt) = ['s'] := by
  refine ⟨⟨by decide, by decide, 'e', by decide, by decide⟩, ?_, by decide, by decide⟩
  rw [← List.isSuffixOf_iff_suffix]
  decide

/-! ### C16–C19 -/

variable {K T : Type} [Zero K] [One K] [Mul K] [Max K]

/-- C16: if all existing files of the tile have its shape, the shielding files for east and north
exist, and either nothing else is missing or the tile is square, then the tile is converted; its
bands are described as the eight directions, each once, and the band described as `d` holds in
every cell the product of the three multipliers of `d`, a missing file counting as 1. -/
theorem C16_bands (files : Mult → Dir → Option (Raster K T)) (nx ny : ℕ)
    (hs : TileShape files nx ny) (hn : (files .ms .n).isSome) (he : (files .ms .e).isSome)
    (hsq : (∃ m d, files m d = none) → nx = ny) :
    ∃ tif, processTile files = .ok tif ∧
      (∀ d, (tif.bands.map Prod.fst).count d = 1) ∧
      ∀ d g, (d, g) ∈ tif.bands →
        g.rows = ny ∧ g.cols = nx ∧ ∀ i < ny, ∀ j < nx, g.val i j = productAt files d i j := by
  obtain ⟨rn, hn⟩ := Option.isSome_iff_exists.mp hn
  obtain ⟨re, he⟩ := Option.isSome_iff_exists.mp he
  obtain ⟨tif, h1, -, h3, h4⟩ := processTile_ok hs hn he hsq
  refine ⟨tif, h1, ?_, h4⟩
  intro d
  rw [h3]
  cases d <;> decide

/-- C16: the converted tile lies where its multiplier files lie. -/
theorem C16_georeferenced (files : Mult → Dir → Option (Raster K T)) (nx ny : ℕ) (t : T)
    (hs : TileShape files nx ny) (hn : (files .ms .n).isSome) (he : (files .ms .e).isSome)
    (hsq : (∃ m d, files m d = none) → nx = ny)
    (hgeo : ∀ m d r, files m d = some r → r.transform = t) (tif : TileTif K T)
    (h : processTile files = .ok tif) : tif.transform = t := by
  obtain ⟨rn, hn⟩ := Option.isSome_iff_exists.mp hn
  obtain ⟨re, he⟩ := Option.isSome_iff_exists.mp he
  obtain ⟨tif', h1, h2, -⟩ := processTile_ok hs hn he hsq
  rw [h1] at h
  rw [← Except.ok.inj h, h2]
  exact hgeo _ _ _ he

/-- A 2 × 2 tile with values 2, 3 and 5, all terrain files and one topographic file missing. -/
def exampleFiles : Mult → Dir → Option (Raster ℚ Unit)
  | .ms, _ => some ⟨⟨2, 2, fun i j => 2 + i + 10 * j⟩, ()⟩
  | .mz, _ => none
  | .mt, .s => none
  | .mt, _ => some ⟨⟨2, 2, fun i _ => 5 + i⟩, ()⟩

theorem exampleFiles_shape : TileShape exampleFiles 2 2 := by
  intro m d r h
  cases m <;> cases d <;> first | (cases h; done) | (cases h; exact ⟨rfl, rfl⟩)

example : ∃ tif, processTile exampleFiles = .ok tif ∧
      (∀ d, (tif.bands.map Prod.fst).count d = 1) ∧
      ∀ d g, (d, g) ∈ tif.bands → g.rows = 2 ∧ g.cols = 2 ∧
        ∀ i < 2, ∀ j < 2, g.val i j = productAt exampleFiles d i j :=
  C16_bands exampleFiles 2 2 exampleFiles_shape rfl rfl (fun _ => rfl)

example : productAt exampleFiles .n 1 1 = 13 * 6 ∧ productAt exampleFiles .s 1 1 = 13 := by
  constructor <;> norm_num [productAt, multiplierAt, exampleFiles]

/-- C17, the part that holds: a *square* tile with missing terrain or topographic files is
converted.  The full statement, without `nx = ny`, is false, see `C17_non_square`. -/
theorem C17_partial (files : Mult → Dir → Option (Raster K T)) (nx ny : ℕ)
    (hs : TileShape files nx ny) (hms : ∀ d, (files .ms d).isSome) (hsq : nx = ny) :
    ∃ tif, processTile files = .ok tif := by
  obtain ⟨tif, h, -⟩ := C16_bands files nx ny hs (hms _) (hms _) (fun _ => hsq)
  exact ⟨tif, h⟩

/-- C17 fails for every tile that is not square: as soon as one terrain or topographic file is
missing, the conversion ends in `ValueError`. -/
theorem C17_non_square (files : Mult → Dir → Option (Raster K T)) (nx ny : ℕ)
    (hs : TileShape files nx ny) (hms : ∀ d, (files .ms d).isSome) (h : nx ≠ ny)
    (hm : ∃ m d, files m d = none) : processTile files = .error .valueError := by
  obtain ⟨rn, hn⟩ := Option.isSome_iff_exists.mp (hms .n)
  have hall : ∀ d : Dir, d ∈ Dir.convertOrder := by intro d; cases d <;> decide
  have := directionLoop_error hs h Dir.convertOrder none (fun _ d _ => hms d) (by
    obtain ⟨m, d, hm⟩ := hm
    exact ⟨d, hall d, m, hm⟩)
  simp only [processTile, hn, (hs _ _ _ hn).1, (hs _ _ _ hn).2, this]

/-- The full statement of C17 is false: a 2 × 3 tile without topographic files. -/
theorem C17_false : ¬ ∀ (files : Mult → Dir → Option (Raster ℚ Unit)) (nx ny : ℕ),
    TileShape files nx ny → (∀ d, (files .ms d).isSome) → ∃ tif, processTile files = .ok tif := by
  intro h
  let files : Mult → Dir → Option (Raster ℚ Unit) := fun m _ => match m with
    | .mt => none
    | _ => some ⟨⟨2, 3, fun _ _ => 1⟩, ()⟩
  have hs : TileShape files 3 2 := by
    intro m d r h
    cases m <;> first | (cases h; done) | (cases h; exact ⟨rfl, rfl⟩)
  obtain ⟨tif, ht⟩ := h files 3 2 hs (fun _ => rfl)
  rw [C17_non_square files 3 2 hs (fun _ => rfl) (by decide) ⟨.mt, .n, rfl⟩] at ht
  cases ht

/-- C17: a tile whose first shielding file (east) is missing is not converted either, even if it is
square: the geotransform is used before it is bound. -/
theorem C17_first_missing (files : Mult → Dir → Option (Raster K T)) (hn : (files .ms .n).isSome)
    (he : files .ms .e = none) : processTile files = .error .nameError := by
  obtain ⟨rn, hn⟩ := Option.isSome_iff_exists.mp hn
  simp only [processTile, hn, Dir.convertOrder, directionLoop, Mult.order, readBands, he, openOrOnes]

example : ∃ tif, processTile exampleFiles = .ok tif :=
  C17_partial exampleFiles 2 2 exampleFiles_shape (by intro d; cases d <;> rfl) rfl

/-- C18: in the maximum raster of a converted tile each cell is at least the cell of every
direction band and equal to one of them. -/
theorem C18_maximum {K T : Type} [Field K] [LinearOrder K] (files : Mult → Dir → Option (Raster K T)) (nx ny : ℕ)
    (hs : TileShape files nx ny) (hn : (files .ms .n).isSome) (he : (files .ms .e).isSome)
    (hsq : (∃ m d, files m d = none) → nx = ny) :
    ∃ tif r, processTile files = .ok tif ∧ processMaxTile tif = .ok r ∧
      r.transform = tif.transform ∧ r.band.rows = ny ∧ r.band.cols = nx ∧
      ∀ i < ny, ∀ j < nx, (∀ d, productAt files d i j ≤ r.band.val i j) ∧
        ∃ d, r.band.val i j = productAt files d i j := by
  obtain ⟨rn, hn⟩ := Option.isSome_iff_exists.mp hn
  obtain ⟨re, he⟩ := Option.isSome_iff_exists.mp he
  obtain ⟨tif, h1, -, h3, h4⟩ := processTile_ok hs hn he hsq
  have hlen : tif.bands.length = 0 + Dir.convertOrder.length := by
    rw [← h3]; simp
  have hb := bandsByIndex_eq tif Dir.convertOrder 0 hlen
  rw [List.drop_zero] at hb
  have hmem : ∀ d, ∃ g, (d, g) ∈ tif.bands := by
    intro d
    have : d ∈ tif.bands.map Prod.fst := by rw [h3]; cases d <;> decide
    obtain ⟨⟨d', g⟩, hg, rfl⟩ := List.mem_map.mp this
    exact ⟨g, hg⟩
  match hbs : tif.bands with
  | [] => rw [hbs] at hlen; simp [Dir.convertOrder] at hlen
  | (d0, b) :: bs =>
    rw [hbs] at hb hmem h4
    have hb0 := h4 d0 b (by simp)
    refine ⟨tif, ⟨⟨b.rows, b.cols, fun i j =>
      (bs.map Prod.snd).foldl (fun m c => max m (c.val i j)) (b.val i j)⟩, tif.transform⟩, h1, ?_, rfl,
      hb0.1, hb0.2.1, ?_⟩
    · simp only [processMaxTile, hb, List.map_cons, maxBands]
    · intro i hi j hj
      have hfold := foldl_max_mem (fun c : Grid K => c.val i j) (bs.map Prod.snd) (b.val i j)
      have hge := foldl_max_ge (fun c : Grid K => c.val i j) (bs.map Prod.snd) (b.val i j)
      constructor
      · intro d
        obtain ⟨g, hg⟩ := hmem d
        rw [← (h4 d g hg).2.2 i hi j hj]
        rcases List.mem_cons.mp hg with h | h
        · rw [Prod.mk.injEq] at h
          rw [h.2]; exact hge
        · exact hfold.1 g (List.mem_map.mpr ⟨(d, g), h, rfl⟩)
      · rcases hfold.2 with h | ⟨c, hc, h⟩
        · exact ⟨d0, h.trans (hb0.2.2 i hi j hj)⟩
        · obtain ⟨⟨d, g⟩, hg, rfl⟩ := List.mem_map.mp hc
          exact ⟨d, h.trans ((h4 d g (by simp [hg])).2.2 i hi j hj)⟩

example : ∃ tif r, processTile exampleFiles = .ok tif ∧ processMaxTile tif = .ok r ∧
      r.transform = tif.transform ∧ r.band.rows = 2 ∧ r.band.cols = 2 ∧
      ∀ i < 2, ∀ j < 2, (∀ d, productAt exampleFiles d i j ≤ r.band.val i j) ∧
        ∃ d, r.band.val i j = productAt exampleFiles d i j :=
  C18_maximum exampleFiles 2 2 exampleFiles_shape rfl rfl (fun _ => rfl)

/-- C19, the part that holds, as an equivalence: in a cell where one multiplier is no-data, the
product band is no-data exactly when the other two multipliers have product 1.  The full statement
(no-data whatever the other two are) is false, see `C19_false`. -/
theorem C19_partial {K T : Type} [Field K] [LinearOrder K] [IsStrictOrderedRing K] (files : Mult → Dir → Option (Raster K T)) (nx ny : ℕ)
    (hs : TileShape files nx ny) (hn : (files .ms .n).isSome) (he : (files .ms .e).isSome)
    (hsq : (∃ m d, files m d = none) → nx = ny) (i j : ℕ) (hi : i < ny) (hj : j < nx) (d : Dir) :
    ∃ tif g, processTile files = .ok tif ∧ (d, g) ∈ tif.bands ∧
      (multiplierAt (files .ms d) i j = noData →
        (g.val i j = noData ↔ multiplierAt (files .mz d) i j * multiplierAt (files .mt d) i j = 1)) ∧
      (multiplierAt (files .mz d) i j = noData →
        (g.val i j = noData ↔ multiplierAt (files .ms d) i j * multiplierAt (files .mt d) i j = 1)) ∧
      (multiplierAt (files .mt d) i j = noData →
        (g.val i j = noData ↔
          multiplierAt (files .ms d) i j * multiplierAt (files .mz d) i j = 1)) := by
  obtain ⟨tif, h1, h2, h3⟩ := C16_bands files nx ny hs hn he hsq
  have hd : d ∈ tif.bands.map Prod.fst := by
    apply List.count_pos_iff.mp
    rw [h2 d]
    exact Nat.one_pos
  obtain ⟨⟨d', g⟩, hg, rfl⟩ := List.mem_map.mp hd
  refine ⟨tif, g, h1, hg, ?_, ?_, ?_⟩ <;> intro h <;>
    rw [(h3 _ g hg).2.2 i hi j hj, productAt, h] <;>
    simp only [noData] <;> constructor <;> intro h' <;> linarith

/-- C19 is false: a cell that is no-data in the shielding multiplier, with terrain multiplier 1 and
topographic multiplier 2, becomes −19998, which no reader takes for no-data. -/
theorem C19_false : ¬ ∀ (files : Mult → Dir → Option (Raster ℚ Unit)) (tif : TileTif ℚ Unit),
    TileShape files 1 1 → processTile files = .ok tif →
    ∀ d g, (d, g) ∈ tif.bands → (∃ m, multiplierAt (files m d) 0 0 = noData) →
      g.val 0 0 = noData := by
  intro h
  let files : Mult → Dir → Option (Raster ℚ Unit) := fun m _ => match m with
    | .ms => some ⟨⟨1, 1, fun _ _ => -9999⟩, ()⟩
    | .mz => some ⟨⟨1, 1, fun _ _ => 1⟩, ()⟩
    | .mt => some ⟨⟨1, 1, fun _ _ => 2⟩, ()⟩
  have hs : TileShape files 1 1 := by
    intro m d r h
    cases m <;> (cases h; exact ⟨rfl, rfl⟩)
  obtain ⟨tif, g, h1, h2, h3, -⟩ := C19_partial files 1 1 hs rfl rfl (fun _ => rfl) 0 0 (by decide)
    (by decide) .n
  have h4 := h files tif hs h1 .n g h2 ⟨.ms, rfl⟩
  have h5 := (h3 rfl).mp h4
  norm_num [multiplierAt, files] at h5

example : ∃ tif g, processTile exampleFiles = .ok tif ∧ (Dir.s, g) ∈ tif.bands := by
  obtain ⟨tif, g, h1, h2, -⟩ := C19_partial exampleFiles 2 2 exampleFiles_shape rfl rfl (fun _ => rfl)
    1 1 (by decide) (by decide) .s
  exact ⟨tif, g, h1, h2⟩

end WindMult
