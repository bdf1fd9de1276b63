import Verif.Spec.TextLayout
import Verif.Props.RunTexts
import Verif.Props.Recoding

/-!
# C141: the layout of the text files
-/

set_option autoImplicit false

namespace WindMult
open Spec

theorem setConfig_once {file : Option (List Char)} {st st' : CfgState} (h : setConfigText file st = .ok st')
    (hf : file ≠ none) : st'.readonce = true := by
  cases file with
  | none => exact absurd rfl hf
  | some t =>
    simp only [setConfigText, bind, Except.bind] at h
    cases hl : iniLines t with
    | error e => rw [hl] at h; cases h
    | ok ls =>
      rw [hl] at h
      simp only [cfgSetFile, cfgReadFile] at h
      revert h
      simp only [Bool.false_eq_true, if_false]
      intro h
      cases hc : cfgRead ls none [] [] st.values with
      | error e => rw [hc] at h; cases h
      | ok c => rw [hc] at h; cases h; rfl

/-- **C141** (configuration) Two configuration files that set the same options to the same values are read alike:
the order of sections and options, blanks, empty lines and comments do not matter. -/
theorem C141_config (f g : IniFile) (hf : f.Ok) (hg : g.Ok) (h : SameOptions f g) (st : CfgState) :
    setConfigText (some f.text) st = setConfigText (some g.text) st := by
  obtain ⟨a, a1, a2, a3⟩ := C123_read f hf st
  obtain ⟨b, b1, b2, b3⟩ := C123_read g hg st
  rw [a1, b1]
  have hv : a.values = b.values := by
    funext s k
    have es : s = String.ofList s.toList := String.ofList_toList.symm
    have ek : k = String.ofList k.toList := String.ofList_toList.symm
    rw [es, ek]
    by_cases hx : ∃ v, f.Sets s.toList k.toList v
    · obtain ⟨v, hv⟩ := hx
      rw [a2 _ _ _ hv, b2 _ _ _ ((h _ _ _).mp hv)]
    · push Not at hx
      rw [a3 _ _ hx, b3 _ _ fun v hv => hx v ((h _ _ _).mpr hv)]
  have ha := setConfig_once a1 (by simp)
  have hb := setConfig_once b1 (by simp)
  obtain ⟨a1, a2⟩ := a
  obtain ⟨b1, b2⟩ := b
  simp only at hv ha hb
  rw [hv, ha, hb]

/-- **C141** (run) A run started with text files that say the same has the same settings, or stops with the same error:
the name of the configuration file and the layout of configuration and table do not matter. -/
theorem C141_settings (files files' : String → Option (List Char)) (name name' : String) (hn : name ≠ "")
    (hn' : name' ≠ "") (f g : IniFile) (hf : f.Ok) (hg : g.Ok) (h : SameOptions f g) (hfile : files name = some f.text)
    (hfile' : files' name' = some g.text) (t : List Char) (ht : f.Sets "inputValues".toList "terrain_table".toList t)
    (htab : SameTable (files (String.ofList t)) (files' (String.ofList t))) (verbose : Bool) (st : CfgState) :
    startSettings files (some name) verbose st = startSettings files' (some name') verbose st := by
  obtain ⟨a, a1, a2⟩ := C123_get f hf st "inputValues" "terrain_table" t (by
    have : "terrain_table".toList.map Char.toLower = "terrain_table".toList := by decide
    rw [this]; exact ht)
  have b1 := a1
  rw [C141_config f g hf hg h st] at b1
  unfold startSettings
  simp only [hn, hn', if_false, hfile, hfile', a1, b1, bind, Except.bind, a2]
  rcases htab with e | ⟨x, y, r, p, e1, e2, d1, d2, d3, d4⟩
  · rw [e]
  · rw [e1, e2]
    simp only [C122_terrain x r d1, C122_terrain y r d2, C122_shielding x p d3, C122_shielding y p d4]

theorem withTables_rows (c : Inputs) (s : Settings) : roughnessRows (c.withTables s) =
    s.terrain.filterMap fun p => p.2.map fun q => (p.1, (q : ℝ)) := by
  simp only [roughnessRows, Inputs.withTables, List.map_filterMap]
  congr 1
  funext p
  cases p.2 <;> rfl

/-- **C141** (order of the table) If two tables give the same values in another order, and no category twice, every file
of every tile is the same. -/
theorem C141_order (f g : FileText) (rough rough' pct pct' : List (ℤ × ℚ))
    (hf : f.Describes "ROUGHNESS_LENGTH_m".toList rough) (hg : g.Describes "ROUGHNESS_LENGTH_m".toList rough')
    (hf' : f.Describes "SHIELDING".toList pct) (hg' : g.Describes "SHIELDING".toList pct')
    (hr : rough'.Perm rough) (hp : pct'.Perm pct) (hn : (rough.map Prod.fst).Nodup) (hn' : (pct.map Prod.fst).Nodup)
    (s s' : Settings) (hs : terrainTableOf f.text = .ok s.terrain ∧ shieldTableOf f.text = .ok s.shield)
    (hs' : terrainTableOf g.text = .ok s'.terrain ∧ shieldTableOf g.text = .ok s'.shield) (c : Inputs)
    (EB E : Extent ℝ) : tileFiles (c.withTables s') EB E = tileFiles (c.withTables s) EB E := by
  have key : ∀ l : List (ℤ × ℚ), (l.map fun x => (x.1, some x.2)).filterMap
      (fun p => p.2.map fun q => (p.1, (q : ℝ))) = l.map fun x => (x.1, (x.2 : ℝ)) := by
    intro l
    induction l with
    | nil => rfl
    | cons x l ih => exact congrArg (List.cons _) ih
  have e1 := Except.ok.inj (hs.1.symm.trans (C122_terrain f rough hf))
  have e2 := Except.ok.inj (hs.2.symm.trans (C122_shielding f pct hf'))
  have e3 := Except.ok.inj (hs'.1.symm.trans (C122_terrain g rough' hg))
  have e4 := Except.ok.inj (hs'.2.symm.trans (C122_shielding g pct' hg'))
  have h1 : roughnessRows (c.withTables s) = rough.map fun x => (x.1, (x.2 : ℝ)) := by
    rw [withTables_rows, e1, key]
  have h2 : (c.withTables s).shieldTable = pct.map fun x => (x.1, (x.2 : ℝ)) := by
    simp only [Inputs.withTables, e2, key]
  have h3 : roughnessRows (c.withTables s') = rough'.map fun x => (x.1, (x.2 : ℝ)) := by
    rw [withTables_rows, e3, key]
  have h4 : (c.withTables s').shieldTable = pct'.map fun x => (x.1, (x.2 : ℝ)) := by
    simp only [Inputs.withTables, e4, key]
  have h5 : c.withTables s' = withRows (c.withTables s) (rough'.map fun x => (x.1, (x.2 : ℝ)))
      (pct'.map fun x => (x.1, (x.2 : ℝ))) := by
    rw [← h3, ← h4]
    simp [withRows, roughnessRows, Inputs.withTables, List.map_filterMap]
  rw [h5]
  refine (C140_order (c.withTables s) _ _ ?_ ?_ ?_ ?_ EB E).2
  · rw [h1, List.map_map]; exact hn
  · rw [h2, List.map_map]; exact hn'
  · rw [h1]; exact hr.map _
  · rw [h2]; exact hp.map _

/-! ### The hypotheses can be met -/

/-- The configuration of the repository with its sections in the opposite order, a comment in front and tabs behind the
headers. -/
def turnedConf : IniFile where
  before := ["; my copy".toList]
  sections := (shippedConf.sections.map fun s => { s with trail := "\t".toList }).reverse

theorem turnedConf_same : turnedConf.Ok ∧ SameOptions shippedConf turnedConf := by
  obtain ⟨h1, h2, h3, h4⟩ := shippedConf_ok
  have hm : ∀ s, s ∈ turnedConf.sections ↔ ∃ t ∈ shippedConf.sections, { t with trail := "\t".toList } = s := by
    intro s
    simp only [turnedConf, List.mem_reverse, List.mem_map]
  refine ⟨⟨?_, ?_, ?_, ?_⟩, ?_⟩
  · intro s hs
    obtain rfl : s = "; my copy".toList := by simpa [turnedConf] using hs
    exact .inr ⟨[], ';', " my copy".toList, by simp [Blanks], .inr rfl, rfl, by decide⟩
  · intro s hs
    obtain ⟨t, ht, rfl⟩ := (hm s).mp hs
    obtain ⟨a, b, c, d, -, e⟩ := h2 t ht
    exact ⟨a, b, c, d, show Blanks "\t".toList by unfold Blanks; decide, e⟩
  · simp only [turnedConf, List.map_reverse, List.map_map, List.nodup_reverse]
    exact h3
  · intro s hs
    obtain ⟨t, ht, rfl⟩ := (hm s).mp hs
    exact h4 t ht
  · intro a b v
    constructor
    · rintro ⟨t, ht, e, hv⟩
      exact ⟨_, (hm _).mpr ⟨t, ht, rfl⟩, e, hv⟩
    · rintro ⟨s, hs, e, hv⟩
      obtain ⟨t, ht, rfl⟩ := (hm s).mp hs
      exact ⟨t, ht, e, hv⟩

/-- A table with two classes. -/
def plainTable : FileText where
  lines := [(.record (["CATEGORY", "ROUGHNESS_LENGTH_m", "SHIELDING"].map fun s => .plain s.toList) none, false),
    (.record (["5", "0.2", "90"].map fun s => .plain s.toList) none, false),
    (.record (["6", "0.02", "100"].map fun s => .plain s.toList) none, false)]
  last := none

/-- The same with a comment, other columns and carriage returns. -/
def tabledOtherwise : FileText where
  lines := [(.comment " two classes".toList, true),
    (.record (["SHIELDING", "ROUGHNESS_LENGTH_m", "CATEGORY"].map fun s => .plain s.toList) none, true),
    (.record (["90", "0.2", "5"].map fun s => .plain s.toList) none, true),
    (.record (["100", "0.02", "6"].map fun s => .plain s.toList) none, true)]
  last := none

/-- The same with the rows in the opposite order. -/
def rowsTurned : FileText where
  lines := [(.record (["CATEGORY", "ROUGHNESS_LENGTH_m", "SHIELDING"].map fun s => .plain s.toList) none, false),
    (.record (["6", "0.02", "100"].map fun s => .plain s.toList) none, false)]
  last := some (.record (["5", "0.2", "90"].map fun s => .plain s.toList) none)

theorem five_number : IsNumber "5".toList 5 := isNumber_text ⟨false, [5], none, none⟩ _ (by decide)
  (by norm_num [Numeral.value, Digits.value, Nat.ofDigits])
theorem six_number : IsNumber "6".toList 6 := isNumber_text ⟨false, [6], none, none⟩ _ (by decide)
  (by norm_num [Numeral.value, Digits.value, Nat.ofDigits])
theorem fifth_number : IsNumber "0.2".toList 0.2 := isNumber_text ⟨false, [0], some [2], none⟩ _ (by decide)
  (by norm_num [Numeral.value, Digits.value, Nat.ofDigits])
theorem fiftieth_number : IsNumber "0.02".toList 0.02 := isNumber_text ⟨false, [0], some [0, 2], none⟩ _ (by decide)
  (by norm_num [Numeral.value, Digits.value, Nat.ofDigits])
theorem ninety_number : IsNumber "90".toList 90 := isNumber_text ⟨false, [9, 0], none, none⟩ _ (by decide)
  (by norm_num [Numeral.value, Digits.value, Nat.ofDigits])
theorem hundred_number : IsNumber "100".toList 100 := isNumber_text ⟨false, [1, 0, 0], none, none⟩ _ (by decide)
  (by norm_num [Numeral.value, Digits.value, Nat.ofDigits])

theorem plainTable_describes : plainTable.Describes "ROUGHNESS_LENGTH_m".toList [(5, 0.2), (6, 0.02)] ∧
    plainTable.Describes "SHIELDING".toList [(5, 90), (6, 100)] :=
  ⟨⟨by decide +kernel, _, _, 0, 1, rfl, ⟨rfl, by simp⟩, ⟨rfl, by decide +kernel⟩, by decide +kernel,
      .cons ⟨⟨_, rfl, five_number⟩, ⟨_, rfl, fifth_number⟩⟩
        (.cons ⟨⟨_, rfl, six_number⟩, ⟨_, rfl, fiftieth_number⟩⟩ .nil)⟩,
    ⟨by decide +kernel, _, _, 0, 2, rfl, ⟨rfl, by simp⟩, ⟨rfl, by decide +kernel⟩, by decide +kernel,
      .cons ⟨⟨_, rfl, five_number⟩, ⟨_, rfl, ninety_number⟩⟩
        (.cons ⟨⟨_, rfl, six_number⟩, ⟨_, rfl, hundred_number⟩⟩ .nil)⟩⟩

theorem tabledOtherwise_describes : tabledOtherwise.Describes "ROUGHNESS_LENGTH_m".toList [(5, 0.2), (6, 0.02)] ∧
    tabledOtherwise.Describes "SHIELDING".toList [(5, 90), (6, 100)] :=
  ⟨⟨by decide +kernel, _, _, 2, 1, rfl, ⟨rfl, by decide +kernel⟩, ⟨rfl, by decide +kernel⟩, by decide +kernel,
      .cons ⟨⟨_, rfl, five_number⟩, ⟨_, rfl, fifth_number⟩⟩
        (.cons ⟨⟨_, rfl, six_number⟩, ⟨_, rfl, fiftieth_number⟩⟩ .nil)⟩,
    ⟨by decide +kernel, _, _, 2, 0, rfl, ⟨rfl, by decide +kernel⟩, ⟨rfl, by simp⟩, by decide +kernel,
      .cons ⟨⟨_, rfl, five_number⟩, ⟨_, rfl, ninety_number⟩⟩
        (.cons ⟨⟨_, rfl, six_number⟩, ⟨_, rfl, hundred_number⟩⟩ .nil)⟩⟩

theorem rowsTurned_describes : rowsTurned.Describes "ROUGHNESS_LENGTH_m".toList [(6, 0.02), (5, 0.2)] ∧
    rowsTurned.Describes "SHIELDING".toList [(6, 100), (5, 90)] :=
  ⟨⟨by decide +kernel, _, _, 0, 1, rfl, ⟨rfl, by simp⟩, ⟨rfl, by decide +kernel⟩, by decide +kernel,
      .cons ⟨⟨_, rfl, six_number⟩, ⟨_, rfl, fiftieth_number⟩⟩
        (.cons ⟨⟨_, rfl, five_number⟩, ⟨_, rfl, fifth_number⟩⟩ .nil)⟩,
    ⟨by decide +kernel, _, _, 0, 2, rfl, ⟨rfl, by simp⟩, ⟨rfl, by decide +kernel⟩, by decide +kernel,
      .cons ⟨⟨_, rfl, six_number⟩, ⟨_, rfl, hundred_number⟩⟩
        (.cons ⟨⟨_, rfl, five_number⟩, ⟨_, rfl, ninety_number⟩⟩ .nil)⟩⟩

/-- Two folders: in the second the configuration has another name and layout, and the table another layout. -/
example (st : CfgState) : startSettings
      (fun name => if name = "my.cfg" then some shippedConf.text else some plainTable.text) (some "my.cfg") false st =
    startSettings
      (fun name => if name = "copy.cfg" then some turnedConf.text else some tabledOtherwise.text) (some "copy.cfg")
      false st :=
  C141_settings _ _ _ _ (by decide) (by decide) shippedConf turnedConf shippedConf_ok turnedConf_same.1
    turnedConf_same.2 (if_pos rfl) (if_pos rfl)
    "/short/w85/nfm547/Wind_multipliers/input/Cairns/terrain_classification_cairns.csv".toList
    (by unfold IniFile.Sets; decide +kernel)
    (.inr ⟨plainTable, tabledOtherwise, _, _, if_neg (by decide +kernel), if_neg (by decide +kernel),
      plainTable_describes.1, tabledOtherwise_describes.1, plainTable_describes.2, tabledOtherwise_describes.2⟩)
    false st

/-- The rows of the table in the opposite order. -/
example (c : Inputs) (s s' : Settings)
    (hs : terrainTableOf plainTable.text = .ok s.terrain ∧ shieldTableOf plainTable.text = .ok s.shield)
    (hs' : terrainTableOf rowsTurned.text = .ok s'.terrain ∧ shieldTableOf rowsTurned.text = .ok s'.shield)
    (EB E : Extent ℝ) : tileFiles (c.withTables s') EB E = tileFiles (c.withTables s) EB E :=
  C141_order plainTable rowsTurned _ _ _ _ plainTable_describes.1 rowsTurned_describes.1 plainTable_describes.2
    rowsTurned_describes.2 (.swap _ _ _) (.swap _ _ _) (by decide) (by decide) s s' hs hs' c EB E

end WindMult
