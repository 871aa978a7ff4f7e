import Mathlib.Data.Int.Log
import Mathlib.Data.Rat.Floor
/-
IEEE-754 binary floating point as used by C `float` and `double`: finite values are rationals, every operation is the
exact operation followed by rounding to nearest, halfway cases to even.  Overflow to infinity, infinities, NaN and signed
zero are not modelled (no value computed here comes near 2^127).
-/
namespace Verif.Fp

/-- nearest integer, halfway cases to even -/
def rne (x : ℚ) : Int :=
  if x - ⌊x⌋ < 1 / 2 then ⌊x⌋ else if x - ⌊x⌋ > 1 / 2 then ⌊x⌋ + 1 else if ⌊x⌋ % 2 = 0 then ⌊x⌋ else ⌊x⌋ + 1

/-- exponent of the unit in the last place of the value nearest to `x` with a `p`-bit significand -/
def ulpExp (p : Nat) (emin : Int) (x : ℚ) : Int := max (Int.log 2 |x|) emin - (p - 1)

/-- round to a `p`-bit significand with minimal exponent `emin` -/
def fl (p : Nat) (emin : Int) (x : ℚ) : ℚ :=
  if x = 0 then 0 else (rne (x / 2 ^ ulpExp p emin x) : ℚ) * 2 ^ ulpExp p emin x

/-- rounding to C `float` -/
def f32 (x : ℚ) : ℚ := fl 24 (-126) x
/-- rounding to C `double` -/
def f64 (x : ℚ) : ℚ := fl 53 (-1022) x

end Verif.Fp
