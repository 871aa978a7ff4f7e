import Verif.Model.NmeaFmt
/-
What a well-formed NMEA sentence is, independently of how it is produced.
-/
namespace Verif.Nmea.Spec

/-- XOR of the character codes -/
def xorAll (s : List Char) : Nat := s.foldl (fun a c => a ^^^ c.toNat) 0

/-- value of an upper-case hexadecimal digit -/
def hexVal (c : Char) : Option Nat :=
  if '0' ≤ c ∧ c ≤ '9' then some (c.toNat - 48) else if 'A' ≤ c ∧ c ≤ 'F' then some (c.toNat - 55) else none

/-- NMEA 0183: `$` body `*` two upper-case hexadecimal digits CR LF; the digits are the XOR of the body. -/
def WellFormed (s body : List Char) : Prop :=
  ∃ h l : Char, ∃ hv lv : Nat, s = '$' :: body ++ ['*', h, l, '\x0d', '\x0a'] ∧ hexVal h = some hv ∧ hexVal l = some lv ∧
    16 * hv + lv = xorAll body ∧ '*' ∉ body ∧ '\x00' ∉ body

/-- number of comma separated data fields after the address field -/
def commas (s : List Char) : Nat := s.count ','

end Verif.Nmea.Spec
