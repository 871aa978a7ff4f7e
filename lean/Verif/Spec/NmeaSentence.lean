import Verif.Spec.NmeaFmt
import Verif.Model.Nmea
/-
Layout of the NMEA sentences, from NMEA 0183 (and the u-blox interface description for PUBX,00).
-/
namespace Verif.Nmea.Spec

/-- number of data fields of each sentence (GSV has 3 and 4 per satellite) -/
def fieldCount : NmeaId → Nat
  | .gga => 14 | .rmc => 12 | .vtg => 9 | .hdt => 2 | .gll => 7 | .zda => 6 | .gsa => 17 | .gst => 8 | .pubx => 20
  | .ths => 2 | .gsv => 3

/-- components of a time that fit their two-digit fields (or no time) -/
def TwoDigit (t : Utc) : Prop :=
  t.flags = 0 ∨ (t.hours < 24 ∧ t.minutes < 60 ∧ t.seconds ≤ 60 ∧ t.day ≤ 31 ∧ t.month ≤ 12 ∧ t.ns < 1000000000 ∧ t.year < 65536)

instance (t : Utc) : Decidable (TwoDigit t) := by unfold TwoDigit; infer_instance

/-- a finite value below 10^d - 1 in magnitude -/
def Below (d : Nat) : Dbl → Prop
  | .fin q => |q| ≤ 10 ^ d - 1
  | _ => False

/-- address field of a sentence: `$`, talker and type -/
def address (s : List Char) : List Char := s.takeWhile (· ≠ ',')

/-- the legal address fields of each sentence type -/
def addresses : NmeaId → List (List Char)
  | .gga => ["$GPGGA".toList] | .rmc => ["$GPRMC".toList] | .vtg => ["$GPVTG".toList] | .hdt => ["$GPHDT".toList]
  | .gll => ["$GPGLL".toList] | .zda => ["$GPZDA".toList]
  | .gsa => ["$GPGSA".toList, "$GLGSA".toList, "$GAGSA".toList, "$GBGSA".toList, "$GNGSA".toList]
  | .gst => ["$GPGST".toList, "$GLGST".toList, "$GAGST".toList, "$GBGST".toList, "$GNGST".toList]
  | .gsv => ["$GPGSV".toList, "$GLGSV".toList, "$GAGSV".toList, "$GBGSV".toList]
  | .pubx => ["$PUBX".toList] | .ths => ["$GPTHS".toList]

end Verif.Nmea.Spec
