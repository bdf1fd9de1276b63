import Verif.Proofs.Csv
import Verif.Proofs.Numerals
import Mathlib.Tactic.NormNum

/-!
# C122: the table of terrain classes is read as written
-/

set_option autoImplicit false

namespace WindMult

theorem idxOf?_of_first {header : List (List Char)} {name : List Char} {k : ℕ} (h : FirstColumn header name k) :
    header.idxOf? name = some k := by
  obtain ⟨h1, h2⟩ := h
  obtain ⟨hk, h1⟩ := List.getElem?_eq_some_iff.1 h1
  rw [List.idxOf?, List.findIdx?_eq_some_iff_getElem]
  refine ⟨hk, by simp [h1], fun j hj => ?_⟩
  have := h2 j hj
  rw [List.getElem?_eq_getElem (by omega)] at this
  simpa using this

/-- A field of a record that has been filled up. -/
theorem getD_padded {r : List (List Char)} {n k : ℕ} {s : List Char} (hr : r.length ≤ n) (hs : r[k]? = some s) :
    ((r ++ List.replicate (n - r.length) []).take n).getD k [] = s := by
  obtain ⟨hk, rfl⟩ := List.getElem?_eq_some_iff.1 hs
  rw [List.getD_eq_getElem?_getD, List.getElem?_take, if_pos (by omega), List.getElem?_append_left hk,
    List.getElem?_eq_getElem hk]
  rfl

theorem typedColumn_numbers {α : Type} (recs : List α) (f : α → List Char) (g : α → ℚ)
    (h : ∀ r ∈ recs, IsNumber (f r) (g r)) : typedColumn (recs.map f) = recs.map fun r => .num (g r) := by
  rw [typedColumn, if_pos]
  · rw [List.map_map]
    refine List.map_congr_left fun r hr => ?_
    simp only [Function.comp, if_neg (number_not_na (h r hr)), readNumber_of (h r hr)]
  · rw [List.all_eq_true]
    intro s hs
    obtain ⟨r, hr, rfl⟩ := List.mem_map.1 hs
    rw [readNumber_of (h r hr)]
    simp

theorem mapM_rows : ∀ es : List (ℤ × ℚ),
    ((es.map fun x => CsvCell.num (x.1 : ℚ)).zip (es.map fun x => CsvCell.num x.2)).mapM
      (fun p => tableRow p.1 p.2) = Except.ok (es.map fun x => some (x.1, some x.2)) := by
  intro es
  induction es with
  | nil => rfl
  | cons x es ih =>
    rw [List.map_cons, List.map_cons, List.zip_cons_cons, List.mapM_cons, ih]
    simp [tableRow, bind, Except.bind, pure, Except.pure]

/-- What the loops over the rows find in a table that describes `entries`. -/
theorem tableRows_of_describes {f : FileText} {name : List Char} {entries : List (ℤ × ℚ)}
    (h : f.Describes name entries) :
    (do tableRows (← readCsv f.text) name) = .ok (entries.map fun x => (x.1, some x.2)) := by
  obtain ⟨hok, header, recs, kc, kv, hrec, hc, hv, hlen, hall⟩ := h
  have hread : readCsv f.text = .ok ⟨header, recs.map fun r =>
      (r ++ List.replicate (header.length - r.length) []).take header.length⟩ := by
    rw [readCsv, csvLines_text f hok, hrec]
    have hw : (recs.any fun r => decide (max header.length (recs.headD []).length < r.length)) = false := by
      rw [List.any_eq_false]
      intro r hr
      have := hlen r hr
      simp only [decide_eq_true_eq, not_lt]
      omega
    simp only [bind, Except.bind, hw, Bool.false_eq_true, if_false]
  rw [hread]
  show tableRows _ name = _
  -- the entries as functions of the records
  have hz : ∃ es : List (List (List Char) × (ℤ × ℚ)), es.map Prod.fst = recs ∧ es.map Prod.snd = entries ∧
      ∀ x ∈ es, x.1.length ≤ header.length ∧ (∃ s, x.1[kc]? = some s ∧ IsNumber s x.2.1) ∧
        ∃ s, x.1[kv]? = some s ∧ IsNumber s x.2.2 := by
    clear hrec hread
    induction hall with
    | nil => exact ⟨[], rfl, rfl, by simp⟩
    | cons hx _ ih =>
      rename_i r x _ _ _
      obtain ⟨es, h1, h2, h3⟩ := ih fun r hr => hlen r (by simp [hr])
      refine ⟨(r, x) :: es, by simp [h1], by simp [h2], ?_⟩
      intro y hy
      rcases List.mem_cons.1 hy with rfl | hy
      · exact ⟨hlen _ (by simp), hx⟩
      · exact h3 y hy
  obtain ⟨es, rfl, rfl, hes⟩ := hz
  rw [tableRows]
  by_cases hnil : es = []
  · subst hnil; rfl
  rw [if_neg (by simpa using hnil)]
  simp only [CsvTable.column, idxOf?_of_first hc, idxOf?_of_first hv, List.map_map]
  rw [typedColumn_numbers es _ (fun x => (x.2.1 : ℚ)) ?_, typedColumn_numbers es _ (fun x => x.2.2) ?_]
  · have := mapM_rows (es.map Prod.snd)
    simp only [List.map_map, Function.comp_def] at this ⊢
    rw [this]
    simp [bind, Except.bind, pure, Except.pure, List.filterMap_map]
  · intro x hx
    obtain ⟨h1, -, s, h2, h3⟩ := hes x hx
    simp only [Function.comp]
    rw [getD_padded h1 h2]
    exact h3
  · intro x hx
    obtain ⟨h1, ⟨s, h2, h3⟩, -⟩ := hes x hx
    simp only [Function.comp]
    rw [getD_padded h1 h2]
    exact h3

/-- **C122** (terrain) From a file that gives the roughness lengths of categories, in whatever layout, the
terrain step gets these categories and lengths in the order of the file. -/
theorem C122_terrain (f : FileText) (entries : List (ℤ × ℚ))
    (h : f.Describes "ROUGHNESS_LENGTH_m".toList entries) :
    terrainTableOf f.text = .ok (entries.map fun x => (x.1, some x.2)) := tableRows_of_describes h

/-- **C122** (shielding) From a file that gives the shielding percentages of categories, the shielding step
gets these. -/
theorem C122_shielding (f : FileText) (entries : List (ℤ × ℚ)) (h : f.Describes "SHIELDING".toList entries) :
    shieldTableOf f.text = .ok (entries.map fun x => (x.1, some x.2)) := tableRows_of_describes h

/-- The entries of `/repo/tests/test_data/terrain_classification.csv` 2-14: category, description, roughness
length and shielding. -/
def shippedRows : List (Numeral × String × Numeral × Numeral) := [
  (⟨false, [1], none, none⟩, "City buildings",
    ⟨false, [2], none, none⟩, ⟨false, [8, 5], none, none⟩),
  (⟨false, [2], none, none⟩, "Forest",
    ⟨false, [1], none, none⟩, ⟨false, [1, 0, 0], none, none⟩),
  (⟨false, [3], none, none⟩, "High density (industrial) buildings",
    ⟨false, [0], some [8], none⟩, ⟨false, [8, 8], none, none⟩),
  (⟨false, [4], none, none⟩, "Small town centres",
    ⟨false, [0], some [4], none⟩, ⟨false, [9, 0], none, none⟩),
  (⟨false, [5], none, none⟩, "Suburban/wooded country",
    ⟨false, [0], some [2], none⟩, ⟨false, [9, 0], none, none⟩),
  (⟨false, [6], none, none⟩, "Orchard, open forest",
    ⟨false, [0], some [0, 8], none⟩, ⟨false, [1, 0, 0], none, none⟩),
  (⟨false, [7], none, none⟩, "Long grass with few trees",
    ⟨false, [0], some [0, 6], none⟩, ⟨false, [1, 0, 0], none, none⟩),
  (⟨false, [8], none, none⟩, "Crops",
    ⟨false, [0], some [0, 4], none⟩, ⟨false, [1, 0, 0], none, none⟩),
  (⟨false, [9], none, none⟩, "Open rough water, airfields, uncut grass etc.",
    ⟨false, [0], some [0, 2], none⟩, ⟨false, [1, 0, 0], none, none⟩),
  (⟨false, [1, 0], none, none⟩, "Cut grass",
    ⟨false, [0], some [0, 0, 8], none⟩, ⟨false, [1, 0, 0], none, none⟩),
  (⟨false, [1, 1], none, none⟩, "Desert (stones),roads",
    ⟨false, [0], some [0, 0, 6], none⟩, ⟨false, [1, 0, 0], none, none⟩),
  (⟨false, [1, 2], none, none⟩, "Mudflats/salt evaporators/sandy beaches",
    ⟨false, [0], some [0, 0, 4], none⟩, ⟨false, [1, 0, 0], none, none⟩),
  (⟨false, [1, 3], none, none⟩, "Snow surface",
    ⟨false, [0], some [0, 0, 2], none⟩, ⟨false, [1, 0, 0], none, none⟩)]

/-- The file `/repo/tests/test_data/terrain_classification.csv` as it is written. -/
def shippedFile : FileText where
  lines :=
    (.record (["CATEGORY", "DESCRIPTION", "ROUGHNESS_LENGTH_m", "SHIELDING"].map fun s => .plain s.toList) none,
      false) ::
    shippedRows.map fun x =>
      (.record [.plain x.1.text, .quoted x.2.1.toList, .plain x.2.2.1.text, .plain x.2.2.2.text] none, false)
  last := none

/-- The characters of `/repo/tests/test_data/terrain_classification.csv`. -/
def shippedText : String :=
  "CATEGORY,DESCRIPTION,ROUGHNESS_LENGTH_m,SHIELDING\n" ++
  "1,\"City buildings\",2,85\n" ++
  "2,\"Forest\",1,100\n" ++
  "3,\"High density (industrial) buildings\",0.8,88\n" ++
  "4,\"Small town centres\",0.4,90\n" ++
  "5,\"Suburban/wooded country\",0.2,90\n" ++
  "6,\"Orchard, open forest\",0.08,100\n" ++
  "7,\"Long grass with few trees\",0.06,100\n" ++
  "8,\"Crops\",0.04,100\n" ++
  "9,\"Open rough water, airfields, uncut grass etc.\",0.02,100\n" ++
  "10,\"Cut grass\",0.008,100\n" ++
  "11,\"Desert (stones),roads\",0.006,100\n" ++
  "12,\"Mudflats/salt evaporators/sandy beaches\",0.004,100\n" ++
  "13,\"Snow surface\",0.002,100\n"

theorem shippedFile_text : shippedFile.text = shippedText.toList := by decide +kernel

instance (f : FieldText) : Decidable f.IsPlain := by
  cases f <;> unfold FieldText.IsPlain <;> infer_instance

instance (f : FieldText) : Decidable f.Ok := by
  cases f <;> unfold FieldText.Ok <;> infer_instance

instance (s : List Char) : Decidable (InLine s) := by unfold InLine; infer_instance

instance (l : LineText) : Decidable l.Ok := by
  cases l <;> unfold LineText.Ok <;> infer_instance

instance (n : Numeral) : Decidable n.Ok :=
  decidable_of_iff (n.whole ++ n.frac.getD [] ≠ [] ∧ ∀ x ∈ n.exp, x.2 ≠ []) (by simp [Numeral.Ok])

theorem shippedFile_ok : ∀ l ∈ shippedFile.allLines, l.Ok := by decide +kernel

/-- The roughness lengths of the file (columns `CATEGORY` and `ROUGHNESS_LENGTH_m`). -/
def shippedRoughness : List (ℤ × ℚ) :=
  [(1, 2), (2, 1), (3, 0.8), (4, 0.4), (5, 0.2), (6, 0.08), (7, 0.06), (8, 0.04), (9, 0.02), (10, 0.008), (11, 0.006),
    (12, 0.004), (13, 0.002)]

/-- The shielding percentages of the file (columns `CATEGORY` and `SHIELDING`). -/
def shippedPercent : List (ℤ × ℚ) :=
  [(1, 85), (2, 100), (3, 88), (4, 90), (5, 90), (6, 100), (7, 100), (8, 100), (9, 100), (10, 100), (11, 100),
    (12, 100), (13, 100)]

theorem isNumber_text (n : Numeral) (q : ℚ) (hn : n.Ok) (hq : n.value = q) : IsNumber n.text q :=
  ⟨n, .plain, 0, 0, hn, hq.symm, by simp [Numeral.text]⟩

theorem shippedFile_records : recordValues shippedFile.allLines
    = ["CATEGORY".toList, "DESCRIPTION".toList, "ROUGHNESS_LENGTH_m".toList, "SHIELDING".toList] ::
      shippedRows.map fun x => [x.1.text, x.2.1.toList, x.2.2.1.text, x.2.2.2.text] := by
  decide +kernel

theorem forall₂_and_mem {α β : Type} {R : α → β → Prop} {P : α → Prop} {l : List α} {m : List β}
    (h : List.Forall₂ R l m) (hP : ∀ x ∈ l, P x) : List.Forall₂ (fun x y => P x ∧ R x y) l m := by
  induction h with
  | nil => exact .nil
  | cons hx _ ih => exact .cons ⟨hP _ (by simp), hx⟩ (ih fun x hx => hP x (by simp [hx]))

/-- The table of the repository describes its roughness lengths and shielding percentages. -/
theorem shippedFile_describes : shippedFile.Describes "ROUGHNESS_LENGTH_m".toList shippedRoughness ∧
    shippedFile.Describes "SHIELDING".toList shippedPercent := by
  have h1 : ∀ x ∈ shippedRows, x.1.Ok ∧ x.2.2.1.Ok ∧ x.2.2.2.Ok := by decide +kernel
  refine ⟨⟨shippedFile_ok, _, _, 0, 2, shippedFile_records, ?_, ?_, ?_, ?_⟩,
    ⟨shippedFile_ok, _, _, 0, 3, shippedFile_records, ?_, ?_, ?_, ?_⟩⟩
  · exact ⟨rfl, by simp⟩
  · exact ⟨rfl, by decide +kernel⟩
  · intro r hr
    obtain ⟨x, -, rfl⟩ := List.mem_map.1 hr
    simp
  · rw [List.forall₂_map_left_iff]
    have key : List.Forall₂ (fun (x : Numeral × String × Numeral × Numeral) (e : ℤ × ℚ) =>
        x.1.value = e.1 ∧ x.2.2.1.value = e.2) shippedRows shippedRoughness := by
      simp only [shippedRows, shippedRoughness]
      repeat (first | exact .nil | refine .cons ?_ ?_)
      all_goals norm_num [Numeral.value, Digits.value, Nat.ofDigits]
    refine (forall₂_and_mem key h1).imp fun x y h => ?_
    exact ⟨⟨_, rfl, isNumber_text _ _ h.1.1 h.2.1⟩, ⟨_, rfl, isNumber_text _ _ h.1.2.1 h.2.2⟩⟩
  · exact ⟨rfl, by simp⟩
  · exact ⟨rfl, by decide +kernel⟩
  · intro r hr
    obtain ⟨x, -, rfl⟩ := List.mem_map.1 hr
    simp
  · rw [List.forall₂_map_left_iff]
    have key : List.Forall₂ (fun (x : Numeral × String × Numeral × Numeral) (e : ℤ × ℚ) =>
        x.1.value = e.1 ∧ x.2.2.2.value = e.2) shippedRows shippedPercent := by
      simp only [shippedRows, shippedPercent]
      repeat (first | exact .nil | refine .cons ?_ ?_)
      all_goals norm_num [Numeral.value, Digits.value, Nat.ofDigits]
    refine (forall₂_and_mem key h1).imp fun x y h => ?_
    exact ⟨⟨_, rfl, isNumber_text _ _ h.1.1 h.2.1⟩, ⟨_, rfl, isNumber_text _ _ h.1.2.2 h.2.2⟩⟩

/-- **C122** (the table of the repository) What the steps get from
`/repo/tests/test_data/terrain_classification.csv`. -/
theorem C122_shipped :
    terrainTableOf shippedText.toList = .ok (shippedRoughness.map fun x => (x.1, some x.2)) ∧
      shieldTableOf shippedText.toList = .ok (shippedPercent.map fun x => (x.1, some x.2)) := by
  rw [← shippedFile_text]
  exact ⟨C122_terrain _ _ shippedFile_describes.1, C122_shielding _ _ shippedFile_describes.2⟩

/-- Another layout: comments, an empty line, carriage returns, other columns in another order, a number sign and a
line end in quotes, blanks, an exponent, plus signs, a number that begins with its point, no line end at the end of the file. -/
def otherFile : FileText where
  lines := [(.comment " land cover of 2010".toList, true), (.blank "  ".toList, true),
    (.record [.plain "ROUGHNESS_LENGTH_m".toList, .plain "NAME".toList, .plain "CATEGORY".toList] none, true),
    (.record [.plain "+2.E-01".toList, .quoted "Suburb \"No. #2\",\nwooded".toList, .plain " 05 ".toList]
      (some " checked".toList), true),
    (.comment "water".toList, false)]
  last := some (.record [.plain ".020".toList, .plain "".toList, .plain "-3e+0".toList] none)

example : terrainTableOf otherFile.text = .ok [(5, some 0.2), (-3, some 0.02)] := by
  refine C122_terrain otherFile [(5, 0.2), (-3, 0.02)] ⟨by decide +kernel, _, _, 2, 0, rfl, ?_, ?_, ?_, ?_⟩
  · exact ⟨rfl, by decide +kernel⟩
  · exact ⟨rfl, by simp⟩
  · decide +kernel
  · refine .cons ⟨⟨_, rfl, ⟨false, [0, 5], none, none⟩, .plain, 1, 1, by decide, ?_, rfl⟩,
      ⟨_, rfl, ⟨false, [2], some [], some (true, [0, 1])⟩, ⟨true, false, true⟩, 0, 0, by decide, ?_, rfl⟩⟩ (.cons
      ⟨⟨_, rfl, ⟨true, [3], none, some (false, [0])⟩, ⟨false, true, false⟩, 0, 0, by decide, ?_, rfl⟩,
      ⟨_, rfl, ⟨false, [], some [0, 2, 0], none⟩, .plain, 0, 0, by decide, ?_, rfl⟩⟩ .nil) <;>
    norm_num [Numeral.value, Digits.value, Nat.ofDigits]

/-- **C122** (a number sign outside quotes) ends the record without a message: the category is there but has no
roughness length, and its cells are treated as unknown (open water). -/
theorem C122_number_sign : terrainTableOf
    "CATEGORY,DESCRIPTION,ROUGHNESS_LENGTH_m,SHIELDING\n4,Town,0.4,90\n5,Suburb #2,0.2,90\n".toList
      = .ok [(4, some 0.4), (5, none)] := by
  decide +kernel

/-- **C122** (one category that is not a number) makes the whole column text, and then no row has an effect,
without a message. -/
theorem C122_text_category : terrainTableOf
    "CATEGORY,DESCRIPTION,ROUGHNESS_LENGTH_m,SHIELDING\n4,Town,0.4,90\n5a,Suburb,0.2,90\n".toList = .ok [] := by
  decide +kernel

end WindMult
