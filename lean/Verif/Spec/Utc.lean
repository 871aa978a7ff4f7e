import Verif.Model.Nmea
/-
The Gregorian calendar and UTC times of day, independently of nmea.c.
-/
namespace Verif.Nmea.Spec

def leapYear (y : Nat) : Bool := y % 4 = 0 && (y % 100 ≠ 0 || y % 400 = 0)

/-- length of month `m` (1 January … 12 December) of year `y` -/
def monthDays (y m : Nat) : Nat :=
  match m with
  | 1 => 31 | 2 => if leapYear y then 29 else 28 | 3 => 31 | 4 => 30 | 5 => 31 | 6 => 30
  | 7 => 31 | 8 => 31 | 9 => 30 | 10 => 31 | 11 => 30 | 12 => 31 | _ => 0

/-- days in the years before year `y` -/
def daysBeforeYear : Nat → Nat
  | 0 => 0
  | y + 1 => daysBeforeYear y + (if leapYear y then 366 else 365)

/-- days of year `y` before month `m` -/
def daysBeforeMonth (y : Nat) : Nat → Nat
  | 0 => 0
  | 1 => 0
  | m + 2 => daysBeforeMonth y (m + 1) + monthDays y (m + 1)

/-- day number -/
def dayNumber (y m d : Nat) : Nat := daysBeforeYear y + daysBeforeMonth y m + (d - 1)

/-- seconds elapsed at a calendar time, leap seconds not counted -/
def secondNumber (t : Utc) : Nat := ((dayNumber t.year t.month t.day * 24 + t.hours) * 60 + t.minutes) * 60 + t.seconds

/-- a legal calendar date -/
def LegalDate (t : Utc) : Prop := 1 ≤ t.month ∧ t.month ≤ 12 ∧ 1 ≤ t.day ∧ t.day ≤ monthDays t.year t.month

/-- a legal time of day; second 60 is a leap second -/
def LegalTime (t : Utc) : Prop := t.hours < 24 ∧ t.minutes < 60 ∧ t.seconds ≤ 60

instance (t : Utc) : Decidable (LegalDate t) := by unfold LegalDate; infer_instance
instance (t : Utc) : Decidable (LegalTime t) := by unfold LegalTime; infer_instance

/-- two decimal digits -/
def two (n : Nat) : List Char := [Nat.digitChar (n / 10), Nat.digitChar (n % 10)]

end Verif.Nmea.Spec
