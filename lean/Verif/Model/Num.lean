import Mathlib.Data.Rat.Floor
/-
Idealised floating point: a C `double` is an exact rational (see DESIGN.md, trusted base).
-/
namespace Verif

/-- C `round()`: nearest integer, halfway cases away from zero. -/
def cround (x : ℚ) : ℤ := if 0 ≤ x then ⌊x + 1 / 2⌋ else -⌊-x + 1 / 2⌋

/-- C conversion of a floating value to an integer type: truncation toward zero. -/
def ctrunc (x : ℚ) : ℤ := if 0 ≤ x then ⌊x⌋ else -⌊-x⌋

end Verif
