import Verif.Spec.NmeaMath
/-
The numbers of a GGA and of a PUBX sentence.
-/
namespace Verif.Nmea.Spec

/-- `s` consists of decimal digits, at least `w` of them, and its value is `n` -/
def NatField (w : Nat) (s : List Char) (n : Nat) : Prop :=
  w ≤ s.length ∧ (∀ c ∈ s, '0' ≤ c ∧ c ≤ '9') ∧ s.foldl (fun v c => 10 * v + (c.toNat - '0'.toNat)) 0 = n

/-- a dilution of precision received in hundredths, printed in tenths: within half a tenth -/
def DopField (s : List Char) (hundredths : Nat) : Prop := ∃ k : Nat, DecField 1 s k ∧ |10 * (k : Int) - hundredths| ≤ 5

end Verif.Nmea.Spec
