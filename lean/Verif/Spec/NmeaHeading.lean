import Verif.Spec.NmeaNum
/-
Headings, courses and fix indicators of NMEA sentences.
-/
namespace Verif.Nmea.Spec

/-- `s` is a heading field with two decimals, in [0, 360), within half a printed unit (0.005 degrees) of the angle `y`
(microdegrees) modulo whole turns -/
def HeadingField (s : List Char) (y : Int) : Prop :=
  ∃ n2 : Nat, DecField 2 s n2 ∧ n2 < 36000 ∧ ∃ turns : Int, |(n2 : Int) * 10000 - (y + turns * 360000000)| ≤ 5000

/-- `s` is a course field with one decimal, in [0, 360) -/
def CourseField (s : List Char) (n1 : Nat) : Prop := DecField 1 s n1 ∧ n1 < 3600

/-- the comma separated fields of a sentence text; field 0 is the address (`$GPGGA`) -/
def fields : List Char → List (List Char)
  | [] => [[]]
  | c :: s =>
    if c = ',' then [] :: fields s
    else match fields s with
      | [] => [[c]]
      | f :: fs => (c :: f) :: fs

/-- the solution modes of the SBP position flags -/
inductive Fix where
  | none | spp | dgnss | float | fixed | deadReckoning | sbas
deriving DecidableEq

/-- the mode in the low three bits of the flags; 7 is not defined -/
def fixOf (flags : Nat) : Option Fix :=
  match flags % 8 with
  | 0 => some .none | 1 => some .spp | 2 => some .dgnss | 3 => some .float | 4 => some .fixed | 5 => some .deadReckoning
  | 6 => some .sbas | _ => Option.none

/-- status A (valid) or V -/
def statusOf : Fix → Char
  | .none => 'V'
  | _ => 'A'

/-- positioning mode: N none, A autonomous, D differential (also float and fixed RTK and SBAS), E estimated -/
def modeOf : Fix → Char
  | .none => 'N' | .spp => 'A' | .deadReckoning => 'E' | _ => 'D'

/-- GGA quality: 0 none, 1 autonomous, 2 differential, 4 RTK fixed, 5 RTK float, 6 dead reckoning -/
def qualityOf : Fix → Nat
  | .none => 0 | .spp => 1 | .dgnss => 2 | .sbas => 2 | .float => 5 | .fixed => 4 | .deadReckoning => 6

/-- whether a solution uses corrections from a base station -/
def usesBase : Fix → Bool
  | .dgnss | .float | .fixed => true
  | _ => false

/-- PUBX navigation status -/
def navStatOf : Fix → List Char
  | .none => ['N', 'F'] | .deadReckoning => ['D', 'R'] | .dgnss | .float | .fixed => ['D', '3'] | .spp | .sbas => ['G', '3']

end Verif.Nmea.Spec
