import Verif.Model.FileNames
import Mathlib.Data.List.Basic
import Mathlib.Tactic.Common

/-!
# Lemmas about path surgery
-/

set_option autoImplicit false

namespace WindMult

theorem takeWhile_append_stop {α : Type} {p : α → Bool} {a : List α} {x : α} {b : List α}
    (ha : ∀ y ∈ a, p y = true) (hx : p x = false) : (a ++ x :: b).takeWhile p = a := by
  induction a with
  | nil => simp [hx]
  | cons y a ih =>
    simp only [List.cons_append, List.takeWhile_cons, ha y (by simp), ↓reduceIte]
    rw [ih (fun z hz => ha z (by simp [hz]))]

theorem takeWhile_all {α : Type} {p : α → Bool} {a : List α} (ha : ∀ y ∈ a, p y = true) :
    a.takeWhile p = a ∧ a.dropWhile p = [] := by
  induction a with
  | nil => simp
  | cons y a ih =>
    obtain ⟨h1, h2⟩ := ih (fun z hz => ha z (by simp [hz]))
    simp [ha y (by simp), h1, h2]

theorem dropWhile_append_stop {α : Type} {p : α → Bool} {a : List α} {x : α} {b : List α}
    (ha : ∀ y ∈ a, p y = true) (hx : p x = false) : (a ++ x :: b).dropWhile p = x :: b := by
  induction a with
  | nil => simp [hx]
  | cons y a ih =>
    simp only [List.cons_append, List.dropWhile_cons, ha y (by simp), ↓reduceIte]
    rw [ih (fun z hz => ha z (by simp [hz]))]

/-- The directory part with a final slash, as `pjoin` completes it. -/
def withSlash (a : List Char) : List Char :=
  if a = [] ∨ a.getLast? = some '/' then a else a ++ ['/']

theorem pjoin_eq {a b : List Char} (hb : '/' ∉ b) : pjoin a b = withSlash a ++ b := by
  have h : b.head? ≠ some '/' := fun h => hb (List.mem_of_mem_head? h)
  unfold pjoin withSlash
  rw [if_neg h]
  split_ifs <;> simp

theorem withSlash_cases (a : List Char) : withSlash a = [] ∨ ∃ c, withSlash a = c ++ ['/'] := by
  unfold withSlash
  split_ifs with h
  · rcases h with rfl | h
    · exact .inl rfl
    · right
      obtain ⟨c, hc⟩ := List.getLast?_eq_some_iff.mp h
      exact ⟨c, hc⟩
  · exact .inr ⟨a, rfl⟩

theorem basename_withSlash {a b : List Char} (hb : '/' ∉ b) : basename (withSlash a ++ b) = b := by
  have hb' : ∀ y ∈ b.reverse, (decide (y ≠ '/')) = true := by
    intro y hy
    simp only [ne_eq, decide_eq_true_eq]
    rintro rfl
    exact hb (List.mem_reverse.mp hy)
  unfold basename
  rcases withSlash_cases a with h | ⟨c, h⟩
  · rw [h, List.nil_append, (takeWhile_all hb').1, List.reverse_reverse]
  · rw [h, List.reverse_append, List.reverse_append, List.reverse_singleton, List.singleton_append,
      takeWhile_append_stop hb' (by simp), List.reverse_reverse]

theorem dirHead_withSlash {a b : List Char} (hb : '/' ∉ b) :
    dirHead (withSlash a ++ b) = withSlash a := by
  have hb' : ∀ y ∈ b.reverse, (decide (y ≠ '/')) = true := by
    intro y hy
    simp only [ne_eq, decide_eq_true_eq]
    rintro rfl
    exact hb (List.mem_reverse.mp hy)
  unfold dirHead
  rcases withSlash_cases a with h | ⟨c, h⟩
  · rw [h, List.nil_append, (takeWhile_all hb').2, List.reverse_nil]
  · rw [h, List.reverse_append, List.reverse_append, List.reverse_singleton, List.singleton_append,
      dropWhile_append_stop hb' (by simp)]
    simp

/-- `os.path.dirname` of a directory with final slash, for a directory that does not end in two
slashes. -/
theorem dirname_withSlash {a b : List Char} (hb : '/' ∉ b) (ha : ¬ ['/', '/'] <:+ a) :
    withSlash (dirname (withSlash a ++ b)) = withSlash a := by
  unfold dirname
  rw [dirHead_withSlash hb]
  have key : ∀ c : List Char, c ≠ [] → c.getLast? ≠ some '/' →
      withSlash (if ((c ++ ['/']).all (· = '/')) = true then c ++ ['/']
        else ((c ++ ['/']).reverse.dropWhile (· = '/')).reverse) = c ++ ['/'] := by
    intro c h1 h2
    obtain ⟨c', x, rfl⟩ := List.eq_nil_or_concat c |>.resolve_left h1
    have hx : x ≠ '/' := by rintro rfl; simp at h2
    rw [if_neg (by simp [hx])]
    have e : ((c'.concat x ++ ['/']).reverse.dropWhile (· = '/')).reverse = c'.concat x := by
      simp [hx]
    rw [e]
    unfold withSlash
    rw [if_neg (by simp [hx])]
  by_cases h : a = []
  · subst h; simp [withSlash]
  · by_cases h2 : a.getLast? = some '/'
    · have e : withSlash a = a := by unfold withSlash; rw [if_pos (.inr h2)]
      obtain ⟨c, hc⟩ := List.getLast?_eq_some_iff.mp h2
      rw [e]
      by_cases h3 : c = []
      · subst h3; subst hc; simp [withSlash]
      · subst hc
        refine key c h3 ?_
        intro h4
        obtain ⟨c', hc'⟩ := List.getLast?_eq_some_iff.mp h4
        exact ha ⟨c', by simp [hc']⟩
    · have e : withSlash a = a ++ ['/'] := by
        unfold withSlash; rw [if_neg (by simp [h, h2])]
      rw [e]
      exact key a h h2

/-- `os.path.splitext`: an extension is cut off. -/
theorem splitextRoot_eq {root ext : List Char} (h1 : '.' ∉ ext) (h2 : '/' ∉ ext)
    (h3 : ∃ a b c, root = a ++ b :: c ∧ b ≠ '.' ∧ b ≠ '/' ∧ '/' ∉ c) :
    splitextRoot (root ++ '.' :: ext) = root := by
  have he : ∀ y ∈ ext.reverse, (decide (y ≠ '.')) = true := by
    intro y hy
    simp only [ne_eq, decide_eq_true_eq]
    rintro rfl
    exact h1 (List.mem_reverse.mp hy)
  have e : (root ++ '.' :: ext).reverse = ext.reverse ++ '.' :: root.reverse := by simp
  unfold splitextRoot
  rw [e, dropWhile_append_stop he (by simp), takeWhile_append_stop he (by simp)]
  simp only
  rw [if_neg (by simpa using h2), if_neg, List.reverse_reverse]
  obtain ⟨a, b, c, rfl, hb1, hb2, hc⟩ := h3
  intro hall
  rw [List.all_eq_true] at hall
  have : b ∈ (a ++ b :: c).reverse.takeWhile (fun x => decide (x ≠ '/')) := by
    have hx : (a ++ b :: c).reverse = (c.reverse ++ [b]) ++ a.reverse := by simp
    rw [hx, List.takeWhile_append_of_pos]
    · simp
    · intro y hy
      simp only [List.mem_append, List.mem_reverse, List.mem_singleton] at hy
      simp only [ne_eq, decide_eq_true_eq]
      rintro rfl
      rcases hy with hy | hy
      · exact hc hy
      · exact hb2 hy.symm
  have := hall b this
  simp [hb1] at this

/-- A tile name: no slash, no underscore, and not made of dots only. -/
def TileName (t : List Char) : Prop := '/' ∉ t ∧ '_' ∉ t ∧ ∃ c ∈ t, c ≠ '.'

theorem TileName.split {t : List Char} (h : TileName t) (s : List Char) (hs : '/' ∉ s) :
    ∃ a b c, t ++ s = a ++ b :: c ∧ b ≠ '.' ∧ b ≠ '/' ∧ '/' ∉ c := by
  obtain ⟨h1, -, b, hb, hne⟩ := h
  obtain ⟨a, c, rfl⟩ := List.append_of_mem hb
  simp only [List.mem_append, List.mem_cons, not_or] at h1
  refine ⟨a, b, c ++ s, by simp, hne, Ne.symm h1.2.1, ?_⟩
  simp [h1.2.2, hs]

theorem slash_notMem_letters (d : Dir) : '/' ∉ d.letters := by cases d <;> decide

theorem withSlash_folder (x f : List Char) (hf : f ≠ []) (hs : '/' ∉ f) :
    withSlash (pjoin x f) = pjoin x f ++ ['/'] := by
  rw [pjoin_eq hs]
  obtain ⟨f', c, rfl⟩ := List.eq_nil_or_concat f |>.resolve_left hf
  have hc : c ≠ '/' := by rintro rfl; simp at hs
  have h1 : withSlash x ++ f'.concat c ≠ [] := by simp
  have h2 : (withSlash x ++ f'.concat c).getLast? ≠ some '/' := by
    rw [List.concat_eq_append, ← List.append_assoc, List.getLast?_append]; simpa using hc
  conv_lhs => unfold withSlash
  rw [if_neg (by rintro (h | h); exacts [h1 h, h2 h])]
  rfl

theorem not_two_slashes_folder (x f : List Char) (hf : f ≠ []) (hs : '/' ∉ f) :
    ¬ ['/', '/'] <:+ pjoin x f := by
  rw [pjoin_eq hs]
  obtain ⟨f', c, rfl⟩ := List.eq_nil_or_concat f |>.resolve_left hf
  have hc : c ≠ '/' := by rintro rfl; simp at hs
  rintro ⟨y, hy⟩
  rw [List.concat_eq_append, ← List.append_assoc] at hy
  have := congrArg List.getLast? hy
  simp at this
  exact hc this.symm

theorem notMem_append {α : Type} {x : α} {a b : List α} (ha : x ∉ a) (hb : x ∉ b) : x ∉ a ++ b := by
  simp [ha, hb]

/-- The saved file is the one the converter opens. -/
theorem savedNc_eq_openedNc {out tile : List Char} (ho : ¬ ['/', '/'] <:+ out) (ht : TileName tile)
    (d : Dir) (m : Mult) : savedNc out tile d m = openedNc out tile d m := by
  have hl : '/' ∉ tile ++ ['.', 'i', 'm', 'g'] := notMem_append ht.1 (by decide)
  have hdm : '/' ∉ tile ++ ['_', 'd', 'e', 'm', '.', 'i', 'm', 'g'] := notMem_append ht.1 (by decide)
  have hroot : splitextRoot (tile ++ ['.', 'i', 'm', 'g']) = tile := by
    have h := ht.split [] (by simp)
    rw [List.append_nil] at h
    exact splitextRoot_eq (by decide) (by decide) h
  have hname : ∀ u : List Char, '/' ∉ u → '/' ∉ tile ++ u ++ d.letters ++ ['.', 'n', 'c'] := fun u hu =>
    notMem_append (notMem_append (notMem_append ht.1 hu) (slash_notMem_letters d)) (by decide)
  cases m with
  | mz =>
    show terrainNc (landTemp out tile) d = openedNc out tile d .mz
    unfold terrainNc landTemp openedNc openedName
    rw [pjoin_eq hl, basename_withSlash hl, hroot]
    have : pjoin (dirname (withSlash out ++ (tile ++ ['.', 'i', 'm', 'g']))) ['t', 'e', 'r', 'r', 'a', 'i', 'n'] = pjoin out ['t', 'e', 'r', 'r', 'a', 'i', 'n'] := by
      rw [pjoin_eq (by decide), pjoin_eq (by decide), dirname_withSlash hl ho]
    rw [this]
    simp [Mult.unit, Mult.folder]
  | ms =>
    show shieldNc (shieldTemp (landTemp out tile)) d = openedNc out tile d .ms
    unfold shieldNc shieldTemp landTemp openedNc openedName
    rw [pjoin_eq hl, basename_withSlash hl, hroot]
    have : pjoin (dirname (withSlash out ++ (tile ++ ['.', 'i', 'm', 'g']))) ['s', 'h', 'i', 'e', 'l', 'd', 'i', 'n', 'g'] =
        pjoin out ['s', 'h', 'i', 'e', 'l', 'd', 'i', 'n', 'g'] := by
      rw [pjoin_eq (by decide), pjoin_eq (by decide), dirname_withSlash hl ho]
    rw [this]
    have hm : '/' ∉ tile ++ ['_', 'm', 's', '.', 'i', 'm', 'g'] := notMem_append ht.1 (by decide)
    rw [pjoin_eq hm, basename_withSlash hm]
    have hr2 : splitextRoot (tile ++ ['_', 'm', 's', '.', 'i', 'm', 'g']) = tile ++ ['_', 'm', 's'] := by
      have h := splitextRoot_eq (root := tile ++ ['_', 'm', 's']) (ext := ['i', 'm', 'g']) (by decide) (by decide)
        (ht.split _ (by decide))
      simpa using h
    rw [hr2]
    have hn := hname ['_', 'm', 's', '_'] (by decide)
    have e1 : tile ++ ['_', 'm', 's'] ++ ['_'] ++ d.letters ++ ['.', 'n', 'c'] = tile ++ ['_', 'm', 's', '_'] ++ d.letters ++ ['.', 'n', 'c'] := by
      simp
    have e2 : tile ++ ['_'] ++ Mult.ms.unit ++ ['_'] ++ d.letters ++ ['.', 'n', 'c'] =
        tile ++ ['_', 'm', 's', '_'] ++ d.letters ++ ['.', 'n', 'c'] := by
      simp [Mult.unit]
    rw [e1, e2, pjoin_eq hn, pjoin_eq hn, dirname_withSlash hm]
    · rfl
    · exact not_two_slashes_folder _ _ (by simp) (by decide)
  | mt =>
    show topoNc (demTemp out tile) d = openedNc out tile d .mt
    unfold topoNc demTemp openedNc openedName
    rw [pjoin_eq hdm, basename_withSlash hdm]
    have hr2 : splitextRoot (tile ++ ['_', 'd', 'e', 'm', '.', 'i', 'm', 'g']) = tile ++ ['_', 'd', 'e', 'm'] := by
      have h := splitextRoot_eq (root := tile ++ ['_', 'd', 'e', 'm']) (ext := ['i', 'm', 'g']) (by decide) (by decide)
        (ht.split _ (by decide))
      simpa using h
    have hd : dropLast 4 (tile ++ ['_', 'd', 'e', 'm']) = tile := by
      unfold dropLast
      rw [List.take_left']; simp
    have : pjoin (dirname (withSlash out ++ (tile ++ ['_', 'd', 'e', 'm', '.', 'i', 'm', 'g']))) ['t', 'o', 'p', 'o', 'g', 'r', 'a', 'p', 'h', 'i', 'c'] =
        pjoin out ['t', 'o', 'p', 'o', 'g', 'r', 'a', 'p', 'h', 'i', 'c'] := by
      rw [pjoin_eq (by decide), pjoin_eq (by decide), dirname_withSlash hdm ho]
    rw [hr2, hd, this]
    simp [Mult.unit, Mult.folder]

theorem tileOfFile_opened {tile : List Char} (ht : '_' ∉ tile) (d : Dir) (m : Mult) :
    tileOfFile (openedName tile d m) = tile := by
  unfold tileOfFile openedName
  have : tile ++ ['_'] ++ m.unit ++ ['_'] ++ d.letters ++ ['.', 'n', 'c'] =
      tile ++ '_' :: (m.unit ++ ['_'] ++ d.letters ++ ['.', 'n', 'c']) := by simp
  rw [this]
  apply takeWhile_append_stop
  · intro y hy
    simp only [ne_eq, decide_eq_true_eq]
    rintro rfl
    exact ht hy
  · simp

theorem takeLast_append (n : ℕ) (a b : List Char) (h : b.length = n) : takeLast n (a ++ b) = b := by
  unfold takeLast
  have e : (a ++ b).length - n = a.length := by simp [h]
  rw [e]
  simp

theorem metaDirection_opened {path tile : List Char} (ht : TileName tile) (d : Dir) (m : Mult) :
    metaDirection (openedNc path tile d m) = d.letters := by
  have hu : '/' ∉ m.unit := by cases m <;> decide
  have hn : '/' ∉ openedName tile d m :=
    notMem_append (notMem_append (notMem_append (notMem_append (notMem_append ht.1 (by decide)) hu)
      (by decide)) (slash_notMem_letters d)) (by decide)
  have hroot : splitextRoot (openedNc path tile d m) =
      withSlash (pjoin path m.folder) ++ tile ++ ['_'] ++ m.unit ++ ['_'] ++ d.letters := by
    unfold openedNc
    rw [pjoin_eq hn]
    have e : withSlash (pjoin path m.folder) ++ openedName tile d m =
        (withSlash (pjoin path m.folder) ++ tile ++ ['_'] ++ m.unit ++ ['_'] ++ d.letters) ++
          '.' :: ['n', 'c'] := by simp [openedName]
    rw [e]
    refine splitextRoot_eq (by decide) (by decide) ?_
    obtain ⟨a, b, c, h1, h2, h3, h4⟩ := ht.split (['_'] ++ m.unit ++ ['_'] ++ d.letters)
      (notMem_append (notMem_append (notMem_append (by decide) hu) (by decide))
        (slash_notMem_letters d))
    refine ⟨withSlash (pjoin path m.folder) ++ a, b, c, ?_, h2, h3, h4⟩
    rw [List.append_assoc (withSlash _) a, ← h1]
    simp
  unfold metaDirection
  rw [hroot]
  generalize withSlash (pjoin path m.folder) ++ tile ++ ['_'] ++ m.unit = pre
  have two : ∀ x y : Char, d.letters = [x, y] → takeLast 2 (pre ++ ['_'] ++ d.letters) = d.letters := by
    intro x y h
    rw [h]; exact takeLast_append 2 _ _ rfl
  have one : ∀ x : Char, d.letters = [x] → takeLast 2 (pre ++ ['_'] ++ d.letters) = ['_'] ++ d.letters := by
    intro x h
    rw [h, List.append_assoc]; exact takeLast_append 2 _ _ rfl
  cases d
  case n => rw [one 'n' rfl]; decide
  case s => rw [one 's' rfl]; decide
  case e => rw [one 'e' rfl]; decide
  case w => rw [one 'w' rfl]; decide
  case ne => rw [two 'n' 'e' rfl]; decide
  case nw => rw [two 'n' 'w' rfl]; decide
  case se => rw [two 's' 'e' rfl]; decide
  case sw => rw [two 's' 'w' rfl]; decide

end WindMult
