import Verif.Model.Nmea
/-
Reading of the decimal fields of a sentence.
-/
namespace Verif.Nmea.Spec

/-- exactly `w` decimal digits, most significant first -/
def digitsN : Nat → Nat → List Char
  | 0, _ => []
  | w + 1, n => digitsN w (n / 10) ++ [Nat.digitChar (n % 10)]

/-- `s` is a coordinate in the NMEA form: `w` digits of whole degrees `deg`, then minutes mm.mmmmmmm below 60, `m7` being
the minutes in units of 10^-7; the angle it denotes differs from `x` by less than 6·10^-9 degrees (about 0.7 mm). -/
def AngleField (w : Nat) (s : List Char) (x : ℚ) : Prop :=
  ∃ deg m7 : Nat, s = digitsN w deg ++ digitsN 2 (m7 / 10 ^ 7) ++ ['.'] ++ digitsN 7 (m7 % 10 ^ 7) ∧
    deg < 10 ^ w ∧ m7 < 60 * 10 ^ 7 ∧ |((deg : ℚ) + m7 / (60 * 10 ^ 7)) - x| ≤ 6 / 10 ^ 9

/-- the four position fields: latitude, N/S, longitude, E/W, each followed by a comma -/
def PositionFields (s : List Char) (lat lon : ℚ) : Prop :=
  ∃ a b : List Char, AngleField 2 a |lat| ∧ AngleField 3 b |lon| ∧
    s = a ++ [',', if lat < 0 then 'S' else 'N', ','] ++ b ++ [',', if lon < 0 then 'W' else 'E', ',']

/-- text `part` stands in `s` after exactly `k` commas -/
def AfterCommas (k : Nat) (part s : List Char) : Prop := ∃ pre post, s = pre ++ part ++ post ∧ pre.count ',' = k

/-- `s` is a non-negative decimal number with `p` decimals and value `k / 10^p` -/
def DecField (p : Nat) (s : List Char) (k : Nat) : Prop :=
  s = Nat.toDigits 10 (k / 10 ^ p) ++ ['.'] ++ digitsN p (k % 10 ^ p)

end Verif.Nmea.Spec
