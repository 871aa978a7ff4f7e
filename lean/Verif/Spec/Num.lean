import Mathlib.Data.Rat.Defs
import Mathlib.Algebra.Order.Ring.Rat
import Mathlib.Algebra.Order.Group.Unbundled.Abs
namespace Verif.Spec

/-- `y` is `x` up to the rounding errors of a few operations on `double`: less than one part in 10^15, and nothing where the result can be exact -/
def Rounded (y x : ℚ) : Prop := |y - x| ≤ |x| / 2 ^ 50 + 1 / 2 ^ 150

/-- `y` is `x` rounded to the resolution `q`: up to the rounding of `double` operations, a multiple of `q` at distance at most half a step from `x`. -/
def Quant (q x y : ℚ) : Prop := ∃ k : ℤ, Rounded y (k * q) ∧ |k * q - x| ≤ q / 2 + |x| / 2 ^ 50 + 1 / 2 ^ 150

end Verif.Spec
