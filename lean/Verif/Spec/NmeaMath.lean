import Verif.Model.NmeaMath
import Verif.Spec.NmeaNum
import Mathlib.Analysis.SpecialFunctions.Complex.Arg
import Mathlib.Analysis.SpecialFunctions.Trigonometric.Arctan
/-
What speed, course and error ellipse are, in real numbers.
-/
namespace Verif.Nmea.Spec

/-- the functions of libm are accurate (IEEE-754 square roots are correctly rounded, so they preserve the order and the square of a `float` has
the root it should have; glibc's arc tangents are good to better than 1 ulp) -/
structure Accurate (m : Libm) : Prop where
  sqrt : ∀ x : ℚ, 0 ≤ x → |(m.sqrt x : ℝ) - √x| ≤ √x / 2 ^ 52
  sqrtMono : ∀ x y : ℚ, 0 ≤ x → x ≤ y → m.sqrt x ≤ m.sqrt y
  sqrtSquare : ∀ x : ℚ, 0 ≤ x → Verif.Fp.f32 x = x → m.sqrt (x / 2 * (x / 2)) ≤ x / 2
  sqrtf : ∀ x : ℚ, 0 ≤ x → |(m.sqrtf x : ℝ) - √x| ≤ √x / 2 ^ 23
  atan : ∀ x : ℚ, |(m.atan x : ℝ) - Real.arctan x| ≤ 1 / 2 ^ 50
  atan2 : ∀ y x : ℚ, |(m.atan2 y x : ℝ) - Complex.arg ⟨x, y⟩| ≤ 1 / 2 ^ 50
  r2d : |(m.r2d : ℝ) - 180 / Real.pi| ≤ 1 / 2 ^ 46

/-- speed over ground in m/s, velocities in mm/s -/
noncomputable def groundSpeed (n e : Int) : ℝ := √((n / 1000 : ℝ) ^ 2 + (e / 1000 : ℝ) ^ 2)

/-- the course in degrees: the direction of the vector (north, east), from north to the east -/
noncomputable def trueCourse (n e : Int) : ℝ := Complex.arg ⟨n, e⟩ * (180 / Real.pi)

/-- variance of the position in the direction `φ` (radians from north to the east) -/
noncomputable def variance (nn ne ee : ℝ) (φ : ℝ) : ℝ := nn * Real.cos φ ^ 2 + 2 * ne * (Real.cos φ * Real.sin φ) + ee * Real.sin φ ^ 2

/-- a covariance matrix, positive semidefinite and of moderate size: the horizontal variance is between 1 mm² and 10^12 m² -/
structure CovOk (nn ne ee : ℚ) : Prop where
  north : 0 ≤ nn
  east : 0 ≤ ee
  det : ne * ne ≤ nn * ee
  low : 1 / 10 ^ 6 ≤ nn + ee
  high : nn + ee ≤ 10 ^ 12

/-- the major axis is not close to east-west: either north and east are correlated or the north variance is the greater one -/
def Tilted (nn ne ee : ℚ) : Prop := (nn + ee) / 100 ≤ |ne| ∨ (nn + ee) / 100 ≤ nn - ee

/-- `s` is a decimal number with `p` decimals, perhaps with a minus sign, and value `z` -/
def SDecField (p : Nat) (s : List Char) (z : ℚ) : Prop :=
  ∃ k : Nat, DecField p s k ∧ z = k / 10 ^ p ∨ ∃ r, s = '-' :: r ∧ DecField p r k ∧ z = -(k / 10 ^ p)

end Verif.Nmea.Spec
