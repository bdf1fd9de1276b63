import Verif.Spec.RasterizeTool
import Verif.Props.PreProcess
import Mathlib.Data.List.TakeWhile

/-!
# C144: the command-line tool for rasterising
-/

set_option autoImplicit false

namespace WindMult

theorem burned_spec (r : RasterInfo ℝ) (name : String) :
    ∀ (l : List ((String → ℕ) × Region)) (g0 : Grid ℕ),
    let g := (l.map fun f => (f.2, f.1 name)).foldl (burn r) g0
    g.rows = g0.rows ∧ g.cols = g0.cols ∧ ∀ px py : ℕ,
      ((∀ f ∈ l, (r.lonCentre px, r.latCentre py) ∉ f.2) → g.val py px = g0.val py px) ∧
      (∀ before f after, l = before ++ f :: after → (r.lonCentre px, r.latCentre py) ∈ f.2 →
        (∀ g ∈ after, (r.lonCentre px, r.latCentre py) ∉ g.2) → g.val py px = f.1 name) := by
  intro l
  induction l with
  | nil =>
    intro g0
    refine ⟨rfl, rfl, fun px py => ⟨fun _ => rfl, ?_⟩⟩
    intro before f after h
    simp at h
  | cons a l ih =>
    intro g0
    obtain ⟨h1, h2, h3⟩ := ih (burn r g0 (a.2, a.1 name))
    refine ⟨h1, h2, fun px py => ⟨?_, ?_⟩⟩
    · intro hn
      rw [List.map_cons, List.foldl_cons, (h3 px py).1 fun f hf => hn f (List.mem_cons_of_mem _ hf)]
      exact burn_out (f := (a.2, a.1 name)) (hn a List.mem_cons_self)
    · intro before f after he hin hafter
      cases before with
      | nil =>
        cases he
        rw [List.map_cons, List.foldl_cons, (h3 px py).1 hafter]
        exact burn_in (f := (a.2, a.1 name)) hin
      | cons x before =>
        rw [List.cons_append, List.cons.injEq] at he
        exact (h3 px py).2 before f after he.2 hin hafter

theorem catRaster_spec (r : RasterInfo ℝ) (fields : List String) (features : List ((String → ℕ) × Region))
    (h : "CAT" ∈ fields) : ∃ cells, catRaster r fields features = .raster r cells (some 0) ∧
      IsAttributeMap "CAT" features Set.univ r cells := by
  obtain ⟨h1, h2, h3⟩ := burned_spec r "CAT" features ⟨r.yDim, r.xDim, fun _ _ => 0⟩
  unfold catRaster
  rw [if_pos h]
  refine ⟨_, rfl, h1, h2, fun px py _ _ => ⟨fun h => absurd trivial h, fun hn => ?_, fun before f after he _ hin hz => ?_⟩⟩
  · exact (congrArg Nat.cast ((h3 px py).1 hn)).trans Nat.cast_zero
  · exact congrArg Nat.cast ((h3 px py).2 before f after he hin hz)

theorem write_same (disk : GeoDisk) (n : List Char) (f : GeoFile) : disk.write n f n = some f := if_pos rfl

theorem write_other (disk : GeoDisk) {n m : List Char} (f : GeoFile) (h : n ≠ m) : disk.write m f n = disk n :=
  if_neg h

theorem warpCrop_other (cut : RasterInfo ℝ → Region → RasterInfo ℝ) (disk : GeoDisk) (dst src mask : List Char)
    {n : List Char} (h : n ≠ dst) : warpCrop cut disk dst src mask n = disk n := by
  have h0 : ∃ d : GeoDisk, warpCrop cut disk dst src mask = d ∧ d n = disk n := by
    unfold warpCrop
    split
    · exact ⟨_, rfl, write_other _ _ h⟩
    · exact ⟨_, rfl, rfl⟩
  obtain ⟨d, e, hd⟩ := h0
  rw [e, hd]

open Classical in
/-- Cropping onto the grid of the raster itself only clears what lies outside. -/
theorem warpCrop_same (cut : RasterInfo ℝ → Region → RasterInfo ℝ) (disk : GeoDisk) (dst src mask : List Char)
    (r : RasterInfo ℝ) (cells : Grid ℝ) (m : Region) (hs : disk src = some (.raster r cells (some 0)))
    (hm : cutline (disk mask) = some m) (hc : cut r m = r) (h1 : r.gt1 ≠ 0) (h5 : r.gt5 ≠ 0) :
    ∃ cells', warpCrop cut disk dst src mask dst = some (.raster r cells' (some 0)) ∧ cells'.rows = r.yDim ∧
      cells'.cols = r.xDim ∧ ∀ px py : ℕ, px < r.xDim → py < r.yDim →
        ((r.lonCentre px, r.latCentre py) ∈ m → cells'.val py px = cells.val py px) ∧
        ((r.lonCentre px, r.latCentre py) ∉ m → cells'.val py px = 0) := by
  unfold warpCrop
  rw [hs, hm]
  show ∃ cells', (disk.write dst (.raster (cut r m) _ _)) dst = _ ∧ _
  rw [hc]
  refine ⟨_, write_same _ _ _, rfl, rfl, fun px py hx hy => ?_⟩
  have e : (r.lonCentre px, r.latCentre py) =
      (r.gt0 + ((px : ℝ) + 1 / 2) * r.gt1, r.gt3 + ((py : ℝ) + 1 / 2) * r.gt5) := by
    simp only [RasterInfo.lonCentre, RasterInfo.latCentre, Int.cast_natCast]
  rw [e]
  refine ⟨fun hin => ?_, fun hout => if_neg hout⟩
  have fl : ∀ n : ℕ, ⌊(n : ℝ) + 1 / 2⌋ = (n : ℤ) := fun n => by
    rw [Int.floor_eq_iff]; push_cast; constructor <;> linarith
  refine (if_pos hin).trans ?_
  unfold reprojectNearest
  simp only
  rw [add_sub_cancel_left, add_sub_cancel_left, mul_div_cancel_right₀ _ h1, mul_div_cancel_right₀ _ h5, fl, fl,
    if_pos ⟨by omega, by omega, by omega, by omega⟩, Int.toNat_natCast, Int.toNat_natCast]
  by_cases h0 : cells.val py px = 0
  · simp [h0]
  · rw [if_neg (by simpa using Ne.symm h0)]; rfl

/-- The dot that begins an extension is the last one. -/
theorem extension_unique {a b e e' : List Char} (h : a ++ '.' :: e = b ++ '.' :: e') (h1 : '.' ∉ e) (h2 : '.' ∉ e') :
    a = b ∧ e = e' := by
  rcases List.append_eq_append_iff.mp h with ⟨x, hx, hy⟩ | ⟨x, hx, hy⟩
  · cases x with
    | nil => simp at hx hy; exact ⟨hx.symm, hy⟩
    | cons c x =>
      rw [List.cons_append, List.cons.injEq] at hy
      exact absurd (hy.2 ▸ by simp) h1
  · cases x with
    | nil => simp at hx hy; exact ⟨hx, hy.symm⟩
    | cons c x =>
      rw [List.cons_append, List.cons.injEq] at hy
      exact absurd (hy.2 ▸ by simp) h2

theorem cropName_spec (p : List Char) : IsCropName p (cropName p) := by
  have hd := List.takeWhile_append_dropWhile (p := (· ≠ '.')) (l := p.reverse)
  have ht : '.' ∉ p.reverse.takeWhile (· ≠ '.') := fun h => by simpa using List.mem_takeWhile_imp h
  have whole : (∀ root ext, ¬ HasExtension root ext p) → splitextRoot p = p → IsCropName p (cropName p) := by
    intro h1 h2
    refine .inr ⟨h1, ?_⟩
    unfold cropName splitextExt
    rw [h2]
    simp
  set t := p.reverse.takeWhile (· ≠ '.') with htdef
  cases hw : p.reverse.dropWhile (· ≠ '.') with
  | nil =>
    rw [hw, List.append_nil] at hd
    refine whole ?_ (by unfold splitextRoot; rw [hw])
    rintro root ext ⟨h1, ⟨e, rfl, -, -⟩, -⟩
    refine ht ?_
    rw [hd, h1]
    simp
  | cons c rest =>
    have hc : c = '.' := by
      have h0 : ∀ (l : List Char) (c : Char) (rest : List Char), l.dropWhile (· ≠ '.') = c :: rest → c = '.' := by
        intro l
        induction l with
        | nil => intro c rest h; simp at h
        | cons a l ih =>
          intro c rest h
          rw [List.dropWhile_cons] at h
          split at h
          · exact ih c rest h
          · rename_i hn
            cases h
            simpa using hn
      exact h0 _ _ _ hw
    subst hc
    rw [hw] at hd
    have hp : p = rest.reverse ++ '.' :: t.reverse := by
      rw [← List.reverse_reverse p, ← hd]
      simp
    have ht' : '.' ∉ t.reverse := by simpa using ht
    have hroot : splitextRoot p = if '/' ∈ t then p
        else if (rest.takeWhile (· ≠ '/')).all (· = '.') then p else rest.reverse := by
      unfold splitextRoot
      rw [hw]
    by_cases hs : '/' ∈ t
    · refine whole ?_ (by rw [hroot, if_pos hs])
      rintro root ext ⟨h1, ⟨e, rfl, h2, h3⟩, -⟩
      obtain ⟨-, he⟩ := extension_unique (hp.symm.trans h1) ht' h2
      exact h3 (he ▸ by simpa using hs)
    by_cases hall : (rest.takeWhile (· ≠ '/')).all (· = '.')
    · refine whole ?_ (by rw [hroot, if_neg hs, if_pos hall])
      rintro root ext ⟨h1, ⟨e, rfl, h2, h3⟩, folder, stem, h4, h5, x, h6, h7⟩
      obtain ⟨hr, -⟩ := extension_unique (hp.symm.trans h1) ht' h2
      have hrest : rest = stem.reverse ++ folder.reverse := by
        rw [← List.reverse_reverse rest, hr, h4, List.reverse_append]
      have hm : x ∈ rest.takeWhile (· ≠ '/') := by
        rw [hrest, List.takeWhile_append_of_pos fun y hy => by
          simp only [ne_eq, decide_not, Bool.not_eq_eq_eq_not, Bool.not_true, decide_eq_false_iff_not]
          rintro rfl
          exact h5 (by simpa using hy)]
        exact List.mem_append_left _ (by simpa using h6)
      exact h7 (by simpa using List.all_eq_true.mp hall x hm)
    · refine .inl ⟨rest.reverse, '.' :: t.reverse, ⟨hp, ⟨t.reverse, rfl, ht', by simpa using hs⟩,
        (rest.dropWhile (· ≠ '/')).reverse, (rest.takeWhile (· ≠ '/')).reverse, ?_, ?_, ?_⟩, ?_⟩
      · rw [← List.reverse_append, List.takeWhile_append_dropWhile]
      · rw [List.mem_reverse]
        exact fun h => by simpa using List.mem_takeWhile_imp h
      · simp only [List.all_eq_true, decide_eq_true_eq, not_forall] at hall
        obtain ⟨x, hx, hne⟩ := hall
        exact ⟨x, by simpa using hx, hne⟩
      · unfold cropName splitextExt
        rw [hroot, if_neg hs, if_neg hall]
        congr 1
        conv_lhs => rw [hp]
        simp

theorem isCropName_unique {p n n' : List Char} (h : IsCropName p n) (h' : IsCropName p n') : n = n' := by
  rcases h with ⟨root, ext, h1, h2⟩ | ⟨h1, h2⟩ <;> rcases h' with ⟨root', ext', h1', h2'⟩ | ⟨h1', h2'⟩
  · obtain ⟨e1, ⟨e, rfl, e2, -⟩, -⟩ := h1
    obtain ⟨e1', ⟨e', rfl, e2', -⟩, -⟩ := h1'
    obtain ⟨rfl, rfl⟩ := extension_unique (e1.symm.trans e1') e2 e2'
    rw [h2, h2']
  · exact absurd h1 (h1' _ _)
  · exact absurd h1' (h1 _ _)
  · rw [h2, h2']

theorem isCropName_ne {p n : List Char} (h : IsCropName p n) : p ≠ n := by
  rintro rfl
  rcases h with ⟨root, ext, ⟨h1, -⟩, h2⟩ | ⟨-, h⟩
  · rw [h1] at h2
    have := congrArg List.length h2
    simp only [List.length_append, show "_crop".toList.length = 5 from rfl] at this
    omega
  · have := congrArg List.length h
    simp at this

/-- **C144** (no mask), partial: the tool keeps its promise for the attribute `CAT` (an empty name is no mask).
For other attributes the claim is false: `C144_attribute`.  The result is always in `test.tiff`, which is a pity if the elevations are there
(`C144_lost`). -/
theorem C144_map_partial (cut : RasterInfo ℝ → Region → RasterInfo ℝ) (a : RasterizeArgs) (disk : GeoDisk)
    (fields : List String) (features : List ((String → ℕ) × Region)) (r : RasterInfo ℝ) (heights : Grid ℝ)
    (nd : Option ℝ) (hin : disk a.input = some (.shapes fields features))
    (htopo : disk a.topography = some (.raster r heights nd)) (hcat : "CAT" ∈ fields) (ha : a.attr = "CAT")
    (hcrop : a.crop = none ∨ a.crop = some []) :
    ToolKeepsPromise cut a disk features r Set.univ "test.tiff".toList [] := by
  obtain ⟨cells, hc, hmap⟩ := catRaster_spec r fields features hcat
  refine ⟨disk.write "test.tiff".toList (catRaster r fields features), cells, ?_, ?_, ha ▸ hmap, fun n hn _ =>
    write_other _ _ hn⟩
  · unfold rasterizeTool
    have hf : a.crop.filter (fun x => decide (x ≠ [])) = none := by rcases hcrop with h | h <;> rw [h] <;> rfl
    simp only [hin, hf, Option.isSome_none, Bool.false_eq_true, if_false, htopo]
  · rw [write_same, hc]

/-- **C144** (with a mask), partial: the same for `test_crop.tiff`, if cropping what has been cropped changes nothing
(`cut` is what GDAL does to a grid) and the names are apart; besides, `test.tiff` and the cropped elevations are
written. -/
theorem C144_crop_partial (cut : RasterInfo ℝ → Region → RasterInfo ℝ) (a : RasterizeArgs) (disk : GeoDisk)
    (fields : List String) (features : List ((String → ℕ) × Region)) (r : RasterInfo ℝ) (heights : Grid ℝ)
    (nd : Option ℝ) (mask : List Char) (mf : List String) (areas : List ((String → ℕ) × Region))
    (hin : disk a.input = some (.shapes fields features))
    (htopo : disk a.topography = some (.raster r heights nd)) (hcat : "CAT" ∈ fields) (ha : a.attr = "CAT")
    (hcrop : a.crop = some mask) (hmask : disk mask = some (.shapes mf areas)) (hne : mask ≠ []) (har : areas ≠ [])
    (hic : ∀ n, IsCropName a.topography n → a.input ≠ n)
    (hmc : ∀ n, IsCropName a.topography n → mask ≠ n) (hmt : mask ≠ "test.tiff".toList)
    (hcut : ∀ m, cut (cut r m) m = cut r m) (h1 : ∀ m, (cut r m).gt1 ≠ 0) (h5 : ∀ m, (cut r m).gt5 ≠ 0) :
    ∃ cropped, IsCropName a.topography cropped ∧ cropped ≠ a.topography ∧
      ToolKeepsPromise cut a disk features (cut r {p | ∃ f ∈ areas, p ∈ f.2}) {p | ∃ f ∈ areas, p ∈ f.2}
        "test_crop.tiff".toList ["test.tiff".toList, cropped] := by
  refine ⟨cropName a.topography, cropName_spec _, (isCropName_ne (cropName_spec _)).symm, ?_⟩
  replace hic := hic _ (cropName_spec _)
  replace hmc := hmc _ (cropName_spec _)
  obtain ⟨b, bs, rfl⟩ := List.exists_cons_of_ne_nil har
  set m : Region := {p | ∃ f ∈ b :: bs, p ∈ f.2} with hm
  have hline : cutline (some (.shapes mf (b :: bs))) = some m := by
    unfold cutline Region.unionAll
    simp only [hm, Option.some.injEq]
    ext p
    constructor
    · rintro ⟨g, hg, hp⟩
      obtain ⟨f, hf, rfl⟩ := List.mem_map.mp hg
      exact ⟨f, hf, hp⟩
    · rintro ⟨f, hf, hp⟩
      exact ⟨f.2, List.mem_map_of_mem hf, hp⟩
  obtain ⟨cells, hc, hmap⟩ := catRaster_spec (cut r m) fields features hcat
  set disk1 := warpCrop cut disk (cropName a.topography) a.topography mask with hd1
  have k1 : disk1 a.input = some (.shapes fields features) := by rw [hd1, warpCrop_other _ _ _ _ _ hic, hin]
  have k2 : disk1 mask = some (.shapes mf (b :: bs)) := by rw [hd1, warpCrop_other _ _ _ _ _ hmc, hmask]
  have k3 : ∃ c, disk1 (cropName a.topography) = some (.raster (cut r m) c (some 0)) := by
    rw [hd1]
    unfold warpCrop
    rw [htopo, hmask, hline]
    exact ⟨_, write_same _ _ _⟩
  obtain ⟨c3, k3⟩ := k3
  set disk2 := disk1.write "test.tiff".toList (catRaster (cut r m) fields features) with hd2
  have k4 : disk2 mask = some (.shapes mf (b :: bs)) := by rw [hd2, write_other _ _ hmt, k2]
  obtain ⟨cells', e1, e2, e3, e4⟩ := warpCrop_same cut disk2 "test_crop.tiff".toList "test.tiff".toList mask (cut r m)
    cells m (by rw [hd2, write_same, hc]) (by rw [k4, hline]) (hcut m) (h1 m) (h5 m)
  refine ⟨warpCrop cut disk2 "test_crop.tiff".toList "test.tiff".toList mask, cells', ?_, e1, ⟨e2, e3, ?_⟩, ?_⟩
  · unfold rasterizeTool
    have hf : (some mask).filter (fun x => decide (x ≠ [])) = some mask := by simp [Option.filter, hne]
    simp only [hin, hcrop, hf, Option.isSome_some, if_true, ← hd1, k1, k3, ← hd2]
  · intro px py hx hy
    obtain ⟨q1, q2⟩ := e4 px py hx hy
    obtain ⟨-, p2, p3⟩ := hmap.2.2 px py hx hy
    refine ⟨q2, fun hn => ?_, fun before f after he hm' hin' hz => ?_⟩
    · by_cases hmem : ((cut r m).lonCentre px, (cut r m).latCentre py) ∈ m
      · rw [q1 hmem, p2 hn]
      · exact q2 hmem
    · rw [q1 hm', p3 before f after he trivial hin' hz, ha]
  · intro n hn hs
    simp only [List.mem_cons, List.not_mem_nil, or_false, not_or] at hs
    rw [warpCrop_other _ _ _ _ _ hn, hd2, write_other _ _ hs.1, hd1, warpCrop_other _ _ _ _ _ hs.2]

/-- **C144** The option `--attribute` has no effect at all. -/
theorem C144_attribute_ignored (cut : RasterInfo ℝ → Region → RasterInfo ℝ) (a a' : RasterizeArgs) (disk : GeoDisk)
    (h1 : a.input = a'.input) (h2 : a.topography = a'.topography) (h3 : a.crop = a'.crop) :
    rasterizeTool cut a disk = rasterizeTool cut a' disk := by
  unfold rasterizeTool
  rw [h1, h2, h3]

/-- **C144** A shape file without the field `CAT` gives a raster of 0, whatever attribute is asked for, and the tool
ends as if all were well. -/
theorem C144_no_cat (cut : RasterInfo ℝ → Region → RasterInfo ℝ) (a : RasterizeArgs) (disk : GeoDisk)
    (fields : List String) (features : List ((String → ℕ) × Region)) (r : RasterInfo ℝ) (heights : Grid ℝ)
    (nd : Option ℝ) (hin : disk a.input = some (.shapes fields features))
    (htopo : disk a.topography = some (.raster r heights nd)) (hcat : "CAT" ∉ fields)
    (hcrop : a.crop = none ∨ a.crop = some []) :
    ∃ after cells, rasterizeTool cut a disk = (.ok (), after) ∧
      after "test.tiff".toList = some (.raster r cells (some 0)) ∧ ∀ i j, cells.val i j = 0 := by
  refine ⟨disk.write "test.tiff".toList (catRaster r fields features), _, ?_, write_same _ _ _, ?_⟩
  · unfold rasterizeTool
    have hf : a.crop.filter (fun x => decide (x ≠ [])) = none := by rcases hcrop with h | h <;> rw [h] <;> rfl
    simp only [hin, hf, Option.isSome_none, Bool.false_eq_true, if_false, htopo]
  · intro i j
    simp [hcat, rasterize]

/-- **C144** A mask that does not exist is not noticed if the folder still has the cropped elevations of an earlier
call: the tool ends well, `test.tiff` is made on the old grid and `test_crop.tiff` is the old one. -/
theorem C144_stale (cut : RasterInfo ℝ → Region → RasterInfo ℝ) (a : RasterizeArgs) (disk : GeoDisk)
    (fields : List String) (features : List ((String → ℕ) × Region)) (old : RasterInfo ℝ) (heights : Grid ℝ)
    (nd : Option ℝ) (mask : List Char) (hin : disk a.input = some (.shapes fields features))
    (hcrop : a.crop = some mask) (hne : mask ≠ []) (hmask : disk mask = none) (hmt : mask ≠ "test.tiff".toList)
    (hold : ∀ n, IsCropName a.topography n → disk n = some (.raster old heights nd)) :
    ∃ after cells, rasterizeTool cut a disk = (.ok (), after) ∧
      after "test.tiff".toList = some (.raster old cells (some 0)) ∧
      after "test_crop.tiff".toList = disk "test_crop.tiff".toList := by
  replace hold := hold _ (cropName_spec _)
  have hw : ∀ (d : GeoDisk) dst src, d mask = none → warpCrop cut d dst src mask = d := by
    intro d dst src h
    unfold warpCrop cutline
    rw [h]
    split
    · rename_i h2; simp at h2
    · rfl
  refine ⟨disk.write "test.tiff".toList (catRaster old fields features), _, ?_, write_same _ _ _,
    write_other _ _ (by decide)⟩
  unfold rasterizeTool
  have hf : (some mask).filter (fun x => decide (x ≠ [])) = some mask := by simp [Option.filter, hne]
  simp only [hin, hcrop, hf, Option.isSome_some, if_true, hw disk _ _ hmask, hold]
  rw [hw _ _ _ (by rw [write_other _ _ hmt, hmask])]

/-- **C144** A tool that cannot go on ends with an error, and no map is written: without a shape file, or without
elevations (no mask given). -/
theorem C144_error (cut : RasterInfo ℝ → Region → RasterInfo ℝ) (a : RasterizeArgs) (disk : GeoDisk)
    (h : disk a.input = none ∨ (disk a.topography = none ∧ a.crop = none)) :
    ∃ e, rasterizeTool cut a disk = (.error e, disk) := by
  unfold rasterizeTool
  rcases h with h | ⟨h, hc⟩
  · rw [h]; exact ⟨_, rfl⟩
  · simp only [hc, Option.filter_none, Option.isSome_none, Bool.false_eq_true, if_false, h]
    split
    · split
      · rename_i h2; simp at h2
      · exact ⟨_, rfl⟩
    · exact ⟨_, rfl⟩

/-! ### A folder -/

/-- A town of three storeys (category 205) in the western half of a raster of two pixels, elevations `dem.tif`, and a
mask over the eastern half. -/
noncomputable def toolDisk : GeoDisk := fun n =>
  if n = "town.shp".toList then some (.shapes ["CAT", "STOREYS"]
    [(fun k => if k = "CAT" then 205 else 3, Set.Icc 0 1 ×ˢ Set.Icc 0 1)])
  else if n = "dem.tif".toList then some (.raster ⟨2, 1, 0, 1, 1, -1⟩ ⟨1, 2, fun _ _ => 7⟩ none)
  else if n = "east.shp".toList then some (.shapes [] [(fun _ => 0, Set.Icc 1 2 ×ˢ Set.Icc 0 1)])
  else if n = "dem_crop.tif".toList then some (.raster ⟨1, 1, 1, 1, 1, -1⟩ ⟨1, 1, fun _ _ => 7⟩ none)
  else none

/-- The hypotheses of `C144_map_partial` are met; the western pixel is the town. -/
example : ∃ cells, (rasterizeTool (fun r _ => r) ⟨"town.shp".toList, "CAT", "dem.tif".toList, none⟩ toolDisk).2
      "test.tiff".toList = some (.raster ⟨2, 1, 0, 1, 1, -1⟩ cells (some 0)) ∧
    cells.val 0 0 = 205 ∧ cells.val 0 1 = 0 := by
  obtain ⟨after, cells, h1, h2, h3, -⟩ := C144_map_partial (fun r _ => r)
    ⟨"town.shp".toList, "CAT", "dem.tif".toList, none⟩ toolDisk ["CAT", "STOREYS"] _ _ _ _ rfl rfl (by simp) rfl (.inl rfl)
  refine ⟨cells, by rw [h1]; exact h2, ?_, ?_⟩
  · have := (h3.2.2 0 0 (by norm_num) (by norm_num)).2.2 [] _ [] rfl trivial
      (by norm_num [RasterInfo.lonCentre, RasterInfo.latCentre]) (by simp)
    rw [this]; norm_num
  · exact (h3.2.2 1 0 (by norm_num) (by norm_num)).2.1
      (by norm_num [RasterInfo.lonCentre, RasterInfo.latCentre])

theorem toolCrop (n : List Char) (h : IsCropName "dem.tif".toList n) : n = "dem_crop.tif".toList :=
  (isCropName_unique h (cropName_spec _)).trans (by decide)

/-- The hypotheses of `C144_crop_partial` are met. -/
example : ToolKeepsPromise (fun r _ => r) ⟨"town.shp".toList, "CAT", "dem.tif".toList, some "east.shp".toList⟩ toolDisk
    [(fun k => if k = "CAT" then 205 else 3, Set.Icc 0 1 ×ˢ Set.Icc 0 1)] ⟨2, 1, 0, 1, 1, -1⟩
    {p | ∃ f ∈ [((fun _ => 0 : String → ℕ), (Set.Icc 1 2 ×ˢ Set.Icc 0 1 : Region))], p ∈ f.2}
    "test_crop.tiff".toList ["test.tiff".toList, "dem_crop.tif".toList] := by
  obtain ⟨cropped, h1, -, h2⟩ := C144_crop_partial (fun r _ => r)
    ⟨"town.shp".toList, "CAT", "dem.tif".toList, some "east.shp".toList⟩ toolDisk ["CAT", "STOREYS"] _ _ _ _
    "east.shp".toList _ _ rfl rfl (by simp) rfl rfl rfl
    (by decide) (by simp) (fun n h => by rw [toolCrop n h]; decide) (fun n h => by rw [toolCrop n h]; decide)
    (by decide) (fun _ => rfl) (fun _ => by norm_num) (fun _ => by norm_num)
  rw [toolCrop _ h1] at h2
  exact h2

/-- **C144** is false of the code for other attributes: asked for the storeys of the town the tool gives its
category. -/
theorem C144_attribute : ∃ (a : RasterizeArgs) (disk : GeoDisk) (fields : List String)
    (features : List ((String → ℕ) × Region)) (r : RasterInfo ℝ) (heights : Grid ℝ),
    disk a.input = some (.shapes fields features) ∧ disk a.topography = some (.raster r heights none) ∧
    "CAT" ∈ fields ∧ a.attr ∈ fields ∧ a.crop = none ∧ a.topography ≠ "test.tiff".toList ∧
    ∀ cut, ¬ ToolKeepsPromise cut a disk features r Set.univ "test.tiff".toList [] := by
  refine ⟨⟨"town.shp".toList, "STOREYS", "dem.tif".toList, none⟩, toolDisk, ["CAT", "STOREYS"], _, _, _, rfl, rfl,
    by simp, by simp, rfl, by decide, ?_⟩
  rintro cut ⟨after, cells, h1, h2, h3, -⟩
  obtain ⟨after', cells', h1', h2', h3', -⟩ := C144_map_partial cut
    ⟨"town.shp".toList, "CAT", "dem.tif".toList, none⟩ toolDisk ["CAT", "STOREYS"] _ _ _ _ rfl rfl (by simp) rfl (.inl rfl)
  rw [C144_attribute_ignored cut ⟨"town.shp".toList, "STOREYS", "dem.tif".toList, none⟩
    ⟨"town.shp".toList, "CAT", "dem.tif".toList, none⟩ toolDisk rfl rfl rfl, h1'] at h1
  obtain rfl := (Prod.mk.inj h1).2
  rw [h2] at h2'
  simp only [Option.some.injEq, GeoFile.raster.injEq, and_true, true_and] at h2'
  subst h2'
  have e1 := (h3.2.2 0 0 (by norm_num) (by norm_num)).2.2 [] _ [] rfl trivial
      (by norm_num [RasterInfo.lonCentre, RasterInfo.latCentre]) (by simp)
  have e2 := (h3'.2.2 0 0 (by norm_num) (by norm_num)).2.2 [] _ [] rfl trivial
      (by norm_num [RasterInfo.lonCentre, RasterInfo.latCentre]) (by simp)
  rw [e1] at e2
  norm_num at e2
  exact absurd e2 (by decide)

/-- **C144** Elevations in a file `test.tiff` are lost: the tool replaces them by the map. -/
theorem C144_lost (cut : RasterInfo ℝ → Region → RasterInfo ℝ) (a : RasterizeArgs) (disk : GeoDisk)
    (fields : List String) (features : List ((String → ℕ) × Region)) (r : RasterInfo ℝ) (heights : Grid ℝ)
    (nd : Option ℝ) (hin : disk a.input = some (.shapes fields features))
    (htopo : disk a.topography = some (.raster r heights nd)) (hcat : "CAT" ∈ fields) (ha : a.attr = "CAT")
    (hcrop : a.crop = none ∨ a.crop = some []) (ht : a.topography = "test.tiff".toList) : ∃ cells,
    (rasterizeTool cut a disk).2 a.topography = some (.raster r cells (some 0)) ∧
      IsAttributeMap "CAT" features Set.univ r cells := by
  obtain ⟨after, cells, h1, h2, h3, -⟩ := C144_map_partial cut a disk fields features r heights nd hin htopo hcat ha hcrop
  exact ⟨cells, by rw [h1, ht]; exact h2, ha ▸ h3⟩

/-- The hypotheses of `C144_no_cat` are met: the mask has no field `CAT`. -/
example : ∃ after cells, rasterizeTool (fun r _ => r) ⟨"east.shp".toList, "STOREYS", "dem.tif".toList, none⟩ toolDisk =
      (.ok (), after) ∧ after "test.tiff".toList = some (.raster ⟨2, 1, 0, 1, 1, -1⟩ cells (some 0)) ∧
      ∀ i j, cells.val i j = 0 :=
  C144_no_cat _ _ toolDisk [] _ _ _ _ rfl rfl (by simp) (.inl rfl)

/-- The hypotheses of `C144_stale` are met: the folder has `dem_crop.tif`, and `west.shp` does not exist. -/
example : ∃ after cells, rasterizeTool (fun r _ => r)
      ⟨"town.shp".toList, "CAT", "dem.tif".toList, some "west.shp".toList⟩ toolDisk = (.ok (), after) ∧
      after "test.tiff".toList = some (.raster ⟨1, 1, 1, 1, 1, -1⟩ cells (some 0)) ∧
      after "test_crop.tiff".toList = toolDisk "test_crop.tiff".toList :=
  C144_stale _ _ toolDisk ["CAT", "STOREYS"] _ ⟨1, 1, 1, 1, 1, -1⟩ ⟨1, 1, fun _ _ => 7⟩ none "west.shp".toList rfl rfl
    (by decide) rfl (by decide) (fun n h => by rw [toolCrop n h]; rfl)

/-- The hypotheses of `C144_error` are met. -/
example : ∃ e, rasterizeTool (fun r _ => r) ⟨"town.shp".toList, "CAT", "heights.tif".toList, none⟩ toolDisk =
    (.error e, toolDisk) := C144_error _ _ _ (.inr ⟨rfl, rfl⟩)

/-- The hypotheses of `C144_lost` are met by a folder in which the elevations are in `test.tiff`. -/
example : ∃ cells, (rasterizeTool (fun r _ => r) ⟨"town.shp".toList, "CAT", "test.tiff".toList, none⟩
      (toolDisk.write "test.tiff".toList (.raster ⟨2, 1, 0, 1, 1, -1⟩ ⟨1, 2, fun _ _ => 7⟩ none))).2 "test.tiff".toList =
        some (.raster ⟨2, 1, 0, 1, 1, -1⟩ cells (some 0)) ∧ IsAttributeMap "CAT"
      [(fun k => if k = "CAT" then 205 else 3, Set.Icc 0 1 ×ˢ Set.Icc 0 1)] Set.univ ⟨2, 1, 0, 1, 1, -1⟩ cells :=
  C144_lost _ _ _ ["CAT", "STOREYS"] _ _ _ _ rfl rfl (by simp) rfl (.inl rfl) rfl

end WindMult
