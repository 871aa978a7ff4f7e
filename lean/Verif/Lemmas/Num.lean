import Verif.Model.Num
import Verif.Spec.Num
import Mathlib.Tactic.Linarith
import Mathlib.Tactic.Ring
import Mathlib.Tactic.FieldSimp
import Mathlib.Tactic.Positivity
import Mathlib.Tactic.NormNum
namespace Verif
open Spec

theorem cround_bounds (x : ℚ) : x - 1 / 2 ≤ cround x ∧ (cround x : ℚ) ≤ x + 1 / 2 := by
  unfold cround
  split
  · have h1 := Int.floor_le (x + 1 / 2)
    have h2 := Int.lt_floor_add_one (x + 1 / 2)
    constructor <;> linarith
  · have h1 := Int.floor_le (-x + 1 / 2)
    have h2 := Int.lt_floor_add_one (-x + 1 / 2)
    push_cast
    constructor <;> linarith

theorem cround_abs (x : ℚ) : |(cround x : ℚ) - x| ≤ 1 / 2 := by
  have := cround_bounds x
  rw [abs_le]; constructor <;> linarith

theorem le_cround {x : ℚ} {k : ℤ} (h : (k : ℚ) ≤ x) : k ≤ cround x := by
  have := (cround_bounds x).1
  have h2 : (k : ℚ) < cround x + 1 := by linarith
  exact_mod_cast Int.lt_add_one_iff.mp (by exact_mod_cast h2)

theorem cround_le {x : ℚ} {k : ℤ} (h : x ≤ (k : ℚ)) : cround x ≤ k := by
  have := (cround_bounds x).2
  have h2 : (cround x : ℚ) < k + 1 := by linarith
  exact_mod_cast Int.lt_add_one_iff.mp (by exact_mod_cast h2)

theorem cround_int (k : ℤ) : cround k = k := le_antisymm (cround_le le_rfl) (le_cround le_rfl)
theorem cround_nonneg {x : ℚ} (h : 0 ≤ x) : 0 ≤ cround x := le_cround (by simpa using h)

theorem cround_near {x : ℚ} {k : ℤ} (h : |x - k| < 1 / 2) : cround x = k := by
  have h1 := cround_abs x
  rw [abs_lt] at h
  rw [abs_le] at h1
  have a1 : (cround x : ℚ) < k + 1 := by linarith [h.2, h1.2]
  have a2 : (k : ℚ) < cround x + 1 := by linarith [h.1, h1.1]
  have b1 : cround x < k + 1 := by exact_mod_cast a1
  have b2 : k < cround x + 1 := by exact_mod_cast a2
  omega

theorem ctrunc_of_nonneg {x : ℚ} (h : 0 ≤ x) : ctrunc x = ⌊x⌋ := by simp [ctrunc, h]
end Verif
