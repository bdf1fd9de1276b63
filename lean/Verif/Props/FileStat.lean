import Verif.Proofs.FileStat
import Verif.Props.Utilities

/-!
# C153: what the program tells about a file

`fl_get_stat`, `fl_mod_date`, `fl_size` and `fl_log_fatal_error` (`/repo/utilities/files.py`).
-/

set_option autoImplicit false

namespace WindMult

section Files
variable {B H : Type}

/-- C153, in full: `fl_get_stat` gives the folder, the name, the checksum of the whole content and the time of
modification of a file that can be read, raises an `IOError` for a name without such a file, and a
`TypeError` for what is not a text (its documentation, 143-145).  The last part is false, see
`C153_not_a_text`; here is the rest, for every text and chunk size other than zero. -/
theorem C153_get_stat_partial (step : H → B → H) (init : H) (digest : H → String) (ctime : ℤ → List Char)
    (fs : FileView B) (p : List Char) (chunk : ℤ) (hchunk : chunk ≠ 0) :
    (∀ e, '\x00' ∉ p → fs.named p = some e → e.folder = false → e.readable = true → ∃ d n, FolderAndName p d n ∧
      flGetStat step init digest ctime fs (.text p) chunk =
        (.ok (d, n, digest (e.content.foldl step init), ctime e.mtime), fs)) ∧
    ((∀ e, '\x00' ∉ p → fs.named p = some e → e.folder = true ∨ e.readable = false) →
      flGetStat step init digest ctime fs (.text p) chunk = (.error .ioError, fs)) := by
  constructor
  · intro e h0 he hf hr
    refine ⟨_, _, folderAndName p, ?_⟩
    simp [flGetStat, openClose, osStat, h0, he, hf, hr, C61_whole step init chunk hchunk]
  · intro h
    by_cases h0 : '\x00' ∈ p
    · simp [flGetStat, openClose, h0]
    · cases he : fs.named p with
      | none => simp [flGetStat, openClose, h0, he]
      | some e =>
        have := h e h0 he
        rcases this with hf | hr
        · simp [flGetStat, openClose, h0, he, hf]
        · simp [flGetStat, openClose, h0, he, hr]

/-- C153, the documentation is wrong: something that is neither a text nor a number is an `IOError`, not a
`TypeError`; so is a number that is no open file; and for the number of an open file there is a
`TypeError`, but this file has been closed. -/
theorem C153_not_a_text (step : H → B → H) (init : H) (digest : H → String) (ctime : ℤ → List Char)
    (fs : FileView B) (chunk : ℤ) :
    flGetStat step init digest ctime fs .other chunk = (.error .ioError, fs) ∧
    (∀ n, fs.opened n = none → flGetStat step init digest ctime fs (.descriptor n) chunk = (.error .ioError, fs)) ∧
    ∀ n e, fs.opened n = some e → e.folder = false → ∃ fs',
      flGetStat step init digest ctime fs (.descriptor n) chunk = (.error .typeError, fs') ∧ fs'.opened n = none ∧
      (∀ k, k ≠ n → fs'.opened k = fs.opened k) ∧ fs'.named = fs.named := by
  refine ⟨rfl, fun n h => ?_, fun n e h hf => ?_⟩
  · simp [flGetStat, openClose, h]
  · refine ⟨{ fs with opened := Function.update fs.opened n none }, ?_, by simp, fun k hk => ?_, rfl⟩
    · simp [flGetStat, openClose, h, hf]
    · simp [Function.update_of_ne hk]

/-- C153: `fl_size` and `fl_mod_date` give the size and the time of modification of what is there under the
name, folders and files that cannot be read as well, or of an open file given by its descriptor; both
raise an `IOError` if there is nothing, and, unlike `fl_get_stat`, other errors for names with a null character and for what is not a name. -/
theorem C153_size_and_date (format : ℤ → List Char) (fs : FileView B) :
    (∀ p e, '\x00' ∉ p → fs.named p = some e →
      flSize fs (.text p) = .ok e.size ∧ flModDate format fs (.text p) = .ok (format e.mtime)) ∧
    (∀ p, '\x00' ∉ p → fs.named p = none →
      flSize fs (.text p) = .error .ioError ∧ flModDate format fs (.text p) = .error .ioError) ∧
    (∀ p, '\x00' ∈ p → flSize fs (.text p) = .error .valueError ∧
      flModDate format fs (.text p) = .error .valueError) ∧
    (∀ n e, fs.opened n = some e →
      flSize fs (.descriptor n) = .ok e.size ∧ flModDate format fs (.descriptor n) = .ok (format e.mtime)) ∧
    flSize fs .other = .error .typeError ∧ flModDate format fs .other = .error .typeError := by
  refine ⟨fun p e h he => ?_, fun p h he => ?_, fun p h => ?_, fun n e h => ?_, rfl, rfl⟩
  · simp [flSize, flModDate, osStat, h, he]
  · simp [flSize, flModDate, osStat, h, he]
  · simp [flSize, flModDate, osStat, h]
  · simp [flSize, flModDate, osStat, h]

/-- C153: `fl_get_stat` and `fl_mod_date` with its default format tell the same about the time: if both give a
date for each of two files, then two dates are equal if and only if the other two are, and if and only if the
local times of modification are equal to the second. -/
theorem C153_dates (step : H → B → H) (init : H) (digest : H → String) (wday : ℕ → ℕ → ℕ → Fin 7)
    (localtime : ℤ → LocalTime) (hv : ∀ t, (localtime t).Valid) (fs : FileView B) (chunk chunk' : ℤ)
    (p q : List Char) (a a' : List Char × List Char × String) (dp dq : List Char) (e f : FileEntry B)
    (he : fs.named p = some e) (hf : fs.named q = some f)
    (hp : (flGetStat step init digest (fun t => ctimeText wday (localtime t)) fs (.text p) chunk).1 =
      .ok (a.1, a.2.1, a.2.2, dp))
    (hq : (flGetStat step init digest (fun t => ctimeText wday (localtime t)) fs (.text q) chunk').1 =
      .ok (a'.1, a'.2.1, a'.2.2, dq)) :
    ∃ mp mq, flModDate (fun t => strftime defaultDateFormat (localtime t)) fs (.text p) = .ok mp ∧
      flModDate (fun t => strftime defaultDateFormat (localtime t)) fs (.text q) = .ok mq ∧
      (dp = dq ↔ mp = mq) ∧ (mp = mq ↔ localtime e.mtime = localtime f.mtime) := by
  have key : ∀ (p : List Char) (e : FileEntry B) (chunk : ℤ) (a : List Char × List Char × String) (dp : List Char),
      fs.named p = some e →
      (flGetStat step init digest (fun t => ctimeText wday (localtime t)) fs (.text p) chunk).1 =
        .ok (a.1, a.2.1, a.2.2, dp) → '\x00' ∉ p ∧ dp = ctimeText wday (localtime e.mtime) := by
    intro p e chunk a dp he hp
    unfold flGetStat openClose osStat at hp
    by_cases h0 : '\x00' ∈ p
    · simp [h0] at hp
    · refine ⟨h0, ?_⟩
      by_cases hc : e.folder = true ∨ e.readable = false
      · simp [h0, he, hc] at hp
      · simp [h0, he, hc] at hp
        exact hp.2.2.2.symm
  obtain ⟨h1, h2⟩ := key p e chunk a dp he hp
  obtain ⟨h3, h4⟩ := key q f chunk' a' dq hf hq
  refine ⟨_, _, ((C153_size_and_date _ fs).1 p e h1 he).2, ((C153_size_and_date _ fs).1 q f h3 hf).2, ?_, ?_⟩
  · rw [h2, h4, ctimeText_inj (hv _) (hv _), defaultDate_inj (hv _) (hv _)]
  · exact defaultDate_inj (hv _) (hv _)

/-- C153: for years of four digits, the dates of `fl_mod_date` in the order of texts are in the order of local
time. -/
theorem C153_order (localtime : ℤ → LocalTime) (hv : ∀ t, (localtime t).Valid) (fs : FileView B) (x y : FileArg)
    (e f : FileEntry B) (he : osStat fs x = .ok e) (hf : osStat fs y = .ok f)
    (hye : 1000 ≤ (localtime e.mtime).year ∧ (localtime e.mtime).year < 10000)
    (hyf : 1000 ≤ (localtime f.mtime).year ∧ (localtime f.mtime).year < 10000) :
    ∃ dx dy, flModDate (fun t => strftime defaultDateFormat (localtime t)) fs x = .ok dx ∧
      flModDate (fun t => strftime defaultDateFormat (localtime t)) fs y = .ok dy ∧
      (TextBefore dx dy ↔ EarlierFields (localtime e.mtime).fields (localtime f.mtime).fields) := by
  refine ⟨strftime defaultDateFormat (localtime e.mtime), strftime defaultDateFormat (localtime f.mtime), ?_, ?_,
    defaultDate_before (hv _) (hv _) hye.1 hye.2 hyf.1 hyf.2⟩
  · unfold flModDate
    rw [he]
  · unfold flModDate
    rw [hf]

end Files

/-- C153: after a fatal error one message is logged for each line, in this order: the line without the blanks it
begins with.  The program then ends with the exit status of success. -/
theorem C153_fatal (lines : List (List Char)) :
    (flLogFatalError lines).1.length = lines.length ∧
    (∀ (i : ℕ) (line : List Char), lines[i]? = some line → ∃ blanks text : List Char,
      (flLogFatalError lines).1[i]? = some text ∧ line = blanks ++ text ∧ (∀ c ∈ blanks, c.isWhitespace = true) ∧
      ∀ c, text.head? = some c → c.isWhitespace = false) ∧
    exitStatus (flLogFatalError lines).2 = 0 := by
  refine ⟨by simp [flLogFatalError], fun i line hl => ?_, rfl⟩
  refine ⟨line.takeWhile Char.isWhitespace, lstrip line, by simp [flLogFatalError, hl], ?_, ?_, ?_⟩
  · exact (List.takeWhile_append_dropWhile).symm
  · intro c hc
    exact List.mem_takeWhile_imp hc
  · intro c hc
    have := List.head?_dropWhile_not Char.isWhitespace line
    unfold lstrip at hc
    rw [hc] at this
    simpa using this

/-! ### The hypotheses can be met -/

/-- Two files in a folder, and an open file. -/
def sampleView : FileView ℕ where
  named p := if p = "/d//a.nc".toList then some ⟨false, true, [1, 2, 3], 3, 5⟩
    else if p = "b.nc".toList then some ⟨false, true, [7], 1, 70⟩
    else if p = "/d".toList then some ⟨true, true, [], 4096, 90⟩ else none
  opened n := if n = 3 then some ⟨false, true, [1], 1, 1⟩ else none

/-- A clock for the samples: the second and the minute are right. -/
def sampleClock (t : ℤ) : LocalTime := ⟨2026, 11, 17, 8, (t.toNat / 60) % 60, t.toNat % 60⟩

theorem sampleClock_valid (t : ℤ) : (sampleClock t).Valid := by
  have h1 : (t.toNat / 60) % 60 < 60 := Nat.mod_lt _ (by norm_num)
  have h2 : t.toNat % 60 < 60 := Nat.mod_lt _ (by norm_num)
  refine ⟨?_, ?_, ?_, ?_, ?_, ?_, ?_⟩ <;> simp only [sampleClock] <;> omega

/-- Folder, name, checksum (here the sum), date. -/
example : (flGetStat (· + ·) 0 (fun n => toString n) (fun t => ctimeText (fun _ _ _ => 1) (sampleClock t)) sampleView
    (.text "/d//a.nc".toList) 65536).1 =
      .ok ("/d".toList, "a.nc".toList, "6", "Tue Nov 17 08:00:05 2026".toList) := by
  have hd : (flGetStat (· + ·) 0 (fun n : ℕ => toString n) (fun t => ctimeText (fun _ _ _ => 1) (sampleClock t))
      sampleView (.text "/d//a.nc".toList) 65536).1 = .ok (dirname "/d//a.nc".toList, basename "/d//a.nc".toList,
        toString (chunkedHash (· + ·) 0 65536 [1, 2, 3]), ctimeText (fun _ _ _ => 1) (sampleClock 5)) := rfl
  rw [hd, C61_whole _ _ _ (by norm_num)]
  decide +kernel

/-- A folder is an `IOError`, and so is what is no text; file 3 is closed. -/
example : (flGetStat (· + ·) 0 (fun n => toString n) (fun _ => []) sampleView (.text "/d".toList) 1).1 =
      .error .ioError ∧
    (flGetStat (· + ·) 0 (fun n => toString n) (fun _ => []) sampleView .other 1).1 = .error .ioError ∧
    (flGetStat (· + ·) 0 (fun n => toString n) (fun _ => []) sampleView (.descriptor 3) 1).1 = .error .typeError ∧
    ((flGetStat (· + ·) 0 (fun n => toString n) (fun _ => []) sampleView (.descriptor 3) 1).2.opened 3).isNone :=
  ⟨rfl, rfl, rfl, rfl⟩

/-- Size and date of the folder and of the files; the older file's date comes first. -/
example : flSize sampleView (.text "/d".toList) = .ok 4096 ∧ flSize sampleView (.text "c".toList) = .error .ioError ∧
    flModDate (fun t => strftime defaultDateFormat (sampleClock t)) sampleView (.text "b.nc".toList) =
      .ok "2026-11-17 08:01:10".toList := by
  refine ⟨rfl, rfl, ?_⟩
  rw [((C153_size_and_date _ sampleView).1 "b.nc".toList ⟨false, true, [7], 1, 70⟩ (by decide) rfl).2]
  decide +kernel

example : ∃ dx dy,
    flModDate (fun t => strftime defaultDateFormat (sampleClock t)) sampleView (.text "/d//a.nc".toList) = .ok dx ∧
    flModDate (fun t => strftime defaultDateFormat (sampleClock t)) sampleView (.text "b.nc".toList) = .ok dy ∧
    TextBefore dx dy := by
  obtain ⟨dx, dy, h1, h2, h3⟩ := C153_order sampleClock sampleClock_valid sampleView (.text "/d//a.nc".toList)
    (.text "b.nc".toList) ⟨false, true, [1, 2, 3], 3, 5⟩ ⟨false, true, [7], 1, 70⟩ rfl rfl
    (by simp [sampleClock]) (by simp [sampleClock])
  exact ⟨dx, dy, h1, h2, h3.mpr (by simp [sampleClock, LocalTime.fields, EarlierFields])⟩

/-- The two files have different dates, whichever way they are told. -/
example : ∃ dp dq mp mq,
    flModDate (fun t => strftime defaultDateFormat (sampleClock t)) sampleView (.text "/d//a.nc".toList) = .ok mp ∧
    flModDate (fun t => strftime defaultDateFormat (sampleClock t)) sampleView (.text "b.nc".toList) = .ok mq ∧
    mp ≠ mq ∧ dp ≠ dq ∧
    (∃ x, (flGetStat (· + ·) 0 (fun n : ℕ => toString n) (fun t => ctimeText (fun _ _ _ => 1) (sampleClock t))
      sampleView (.text "/d//a.nc".toList) 2).1 = .ok (x, "a.nc".toList, "6", dp)) := by
  have h1 := (C153_get_stat_partial (· + ·) 0 (fun n : ℕ => toString n)
    (fun t => ctimeText (fun _ _ _ => 1) (sampleClock t)) sampleView "/d//a.nc".toList 2 (by norm_num)).1
    ⟨false, true, [1, 2, 3], 3, 5⟩ (by decide) rfl rfl rfl
  have h2 := (C153_get_stat_partial (· + ·) 0 (fun n : ℕ => toString n)
    (fun t => ctimeText (fun _ _ _ => 1) (sampleClock t)) sampleView "b.nc".toList 1 (by norm_num)).1
    ⟨false, true, [7], 1, 70⟩ (by decide) rfl rfl rfl
  obtain ⟨d, n, -, h1⟩ := h1
  obtain ⟨d', n', -, h2⟩ := h2
  obtain ⟨mp, mq, e1, e2, e3, e4⟩ := C153_dates (· + ·) 0 (fun n : ℕ => toString n) (fun _ _ _ => 1) sampleClock
    sampleClock_valid sampleView 2 1 "/d//a.nc".toList "b.nc".toList (d, n, _) (d', n', _) _ _ _ _ rfl rfl
    (congrArg Prod.fst h1) (congrArg Prod.fst h2)
  have hne : mp ≠ mq := fun h => absurd (e4.mp h) (by decide)
  have hd : (flGetStat (· + ·) 0 (fun n : ℕ => toString n) (fun t => ctimeText (fun _ _ _ => 1) (sampleClock t))
      sampleView (.text "/d//a.nc".toList) 2).1 = .ok (dirname "/d//a.nc".toList, basename "/d//a.nc".toList,
        toString (chunkedHash (· + ·) 0 2 [1, 2, 3]), ctimeText (fun _ _ _ => 1) (sampleClock 5)) := rfl
  refine ⟨_, _, mp, mq, e1, e2, hne, fun h => hne (e3.mp h), dirname "/d//a.nc".toList, ?_⟩
  rw [hd, C61_whole _ _ _ (by norm_num)]
  decide +kernel

/-- Years of four digits are needed: the year 999 comes after the year 1000. -/
example : TextBefore (strftime defaultDateFormat ⟨1000, 1, 1, 0, 0, 0⟩)
    (strftime defaultDateFormat ⟨999, 1, 1, 0, 0, 0⟩) := by
  refine ⟨[], "000-01-01 00:00:00".toList, '9', "99-01-01 00:00:00".toList, ?_, Or.inr ⟨'1', by decide, ?_⟩⟩ <;>
    decide +kernel

/-- The lines of a traceback. -/
example : flLogFatalError ["Traceback:".toList, "  File f.py".toList] =
    (["Traceback:".toList, "File f.py".toList], none) := by decide +kernel

end WindMult
