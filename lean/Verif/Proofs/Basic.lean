import Verif.Model.Basic
import Mathlib.Tactic.Linarith
import Mathlib.Tactic.Ring
import Mathlib.Tactic.Positivity
import Mathlib.Tactic.FieldSimp
import Mathlib.Tactic.Push

set_option linter.unusedSectionVars false

set_option autoImplicit false

namespace WindMult
variable {K : Type} [Field K] [LinearOrder K] [IsStrictOrderedRing K] [FloorRing K]

theorem around_eq_of_abs_lt {x : K} {n : ℤ} (h : |x - n| < 1 / 2) : around x = n := by
  rw [abs_lt] at h
  unfold around
  rcases le_or_gt (n : K) x with hx | hx
  · have hf : ⌊x⌋ = n := by
      rw [Int.floor_eq_iff]; exact ⟨hx, by linarith [h.2]⟩
    rw [hf, if_pos h.2]
  · have hf : ⌊x⌋ = n - 1 := by
      rw [Int.floor_eq_iff]; push_cast; exact ⟨by linarith [h.1], by linarith⟩
    rw [hf]
    push_cast
    rw [if_neg (by linarith [h.1]), if_pos (by linarith [h.1])]
    ring

theorem around_intCast (n : ℤ) : around (n : K) = n :=
  around_eq_of_abs_lt (by simp)

/-- `around` is within half a unit of its argument. -/
theorem abs_sub_around_le (x : K) : |x - around x| ≤ 1 / 2 := by
  have h1 := Int.floor_le x
  have h2 := Int.lt_floor_add_one x
  unfold around
  split_ifs <;> push_cast <;> rw [abs_le] <;> constructor <;> linarith

theorem around_nonneg {x : K} (hx : 0 ≤ x) : 0 ≤ around x := by
  have : (0 : ℤ) ≤ ⌊x⌋ := Int.floor_nonneg.mpr hx
  unfold around
  split_ifs <;> omega

namespace Grid

theorem sliceBound_of_mem {n : ℕ} {i : ℤ} (h0 : 0 ≤ i) (h : i ≤ n) :
    sliceBound n i = i.toNat := by
  unfold sliceBound; rw [if_pos h0]; omega

theorem pyIndex_of_mem {n : ℕ} {i : ℤ} (h0 : 0 ≤ i) (h : i < n) :
    pyIndex n i = some i.toNat := by
  unfold pyIndex; rw [if_pos h0, if_pos h]

theorem pyGet_of_mem {α : Type} (g : Grid α) {r c : ℤ} (hr0 : 0 ≤ r) (hr : r < g.rows)
    (hc0 : 0 ≤ c) (hc : c < g.cols) : g.pyGet r c = .ok (g.val r.toNat c.toNat) := by
  unfold pyGet; rw [pyIndex_of_mem hr0 hr, pyIndex_of_mem hc0 hc]

end Grid
end WindMult
