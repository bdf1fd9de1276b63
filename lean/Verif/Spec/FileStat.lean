import Verif.Model.FileStat

/-!
# Specification: names, times and messages
-/

set_option autoImplicit false

namespace WindMult

/-- `d` and `n` are the folder and the name of the path `p`: `n` is what follows the last slash, `d` what
comes before, without the slashes at its end unless there is nothing else. -/
def FolderAndName (p d n : List Char) : Prop :=
  '/' ∉ n ∧ ∃ k, p = d ++ List.replicate k '/' ++ n ∧
    ((d ≠ [] ∧ d.getLast? ≠ some '/' ∧ 0 < k) ∨ (k = 0 ∧ ∀ c ∈ d, c = '/'))

/-- A local time is earlier than another: the first of year, month, day, hour, minute and second that
differs is smaller. -/
def EarlierFields : List ℕ → List ℕ → Prop
  | a :: as, b :: bs => a < b ∨ a = b ∧ EarlierFields as bs
  | _, _ => False

/-- The fields of a local time, from the year down. -/
def LocalTime.fields (t : LocalTime) : List ℕ := [t.year, t.month, t.day, t.hour, t.minute, t.second]

/-- The fields of a local time are in their ranges (with leap seconds). -/
def LocalTime.Valid (t : LocalTime) : Prop :=
  1 ≤ t.month ∧ t.month ≤ 12 ∧ 1 ≤ t.day ∧ t.day ≤ 31 ∧ t.hour ≤ 23 ∧ t.minute ≤ 59 ∧ t.second ≤ 61

/-- A text comes before another in the order of the characters, as Python compares them. -/
def TextBefore (s t : List Char) : Prop :=
  ∃ (pre r : List Char) (c : Char) (r' : List Char),
    t = pre ++ c :: r' ∧ (s = pre ∨ ∃ b, b.toNat < c.toNat ∧ s = pre ++ b :: r)

end WindMult
