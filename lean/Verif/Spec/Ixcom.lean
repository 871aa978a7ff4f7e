import Verif.Spec.Crc
import Verif.Spec.UbxImu
import Verif.Model.Ixcom
/-! What the iXCOM converter must do (iXCOM protocol description, SBP specification). -/
namespace Verif.Ixcom.Spec
open Verif Verif.Crc
open Verif.Ubx (Fl flt ImuRaw)

/-- bytes of the stream that a source delivers -/
def dataOf (src : List Rd) : List (BitVec 8) := src.flatMap fun r => match r with | .data b => b | .err _ => []

/-- the length field of a frame: bytes 4 and 5, least significant first -/
def lenField (f : List (BitVec 8)) : Nat := (f.getD 4 0).toNat + 256 * (f.getD 5 0).toNat

/-- a frame: sync byte, and as long as its length field says; longer than its header, shorter than the reader's buffer -/
structure IsFrame (f : List (BitVec 8)) : Prop where
  sync : f.head? = some 0x7E#8
  len : f.length = lenField f
  lo : 16 < f.length
  hi : f.length < 4096

/-- the beginning of a frame, not complete -/
structure Begins (s : List (BitVec 8)) : Prop where
  sync : s.head? = some 0x7E#8
  rest : 16 ≤ s.length → 16 < lenField s ∧ lenField s < 4096 ∧ s.length < lenField s

/-- A stream, cut into frames, bytes between frames and the beginning of a last frame.  Outside frames, a sync byte begins a frame. -/
inductive Cut : List (BitVec 8) → List (List (BitVec 8)) → List (BitVec 8) → Prop
  | nil : Cut [] [] []
  | rest (s) : Begins s → Cut s [] s
  | noise (b s fs r) : b ≠ 0x7E#8 → Cut s fs r → Cut (b :: s) fs r
  | frame (f s fs r) : IsFrame f → Cut s fs r → Cut (f ++ s) (f :: fs) r

/-- The check bytes, the last two, are the CRC (CCITT polynomial, zero initial value) of the bytes before them, least significant byte first. -/
def CrcOk (f : List (BitVec 8)) : Prop :=
  IsCrc gen16 (byteBits (f.take (f.length - 2))) (byteBits [f.getD (f.length - 1) 0, f.getD (f.length - 2) 0])

/-- message type: byte 1; IMURAW is 0x00 and WHEELDATA 0x16 -/
def typ (f : List (BitVec 8)) : Nat := (f.getD 1 0).toNat

/-- a frame of one of the two types that are converted has the length of its type: header 16, data 24 or 8, status 2, CRC 2 -/
def Proper (f : List (BitVec 8)) : Prop := (typ f = 0x00 → f.length = 44) ∧ (typ f = 0x16 → f.length = 28)

/-- 32-bit number at offset `i`, least significant byte first -/
def num (f : List (BitVec 8)) (i : Nat) : Nat := ((f.drop i).take 4).foldr (fun b v => b.toNat + 256 * v) 0

/-- time stamp: seconds of the week and microseconds -/
def sec (f : List (BitVec 8)) : Nat := num f 8
def usec (f : List (BitVec 8)) : Nat := num f 12

/-- IEEE-754 single at offset `i` -/
def single (f : List (BitVec 8)) (i : Nat) : Fl := flt (BitVec.ofNat 32 (num f i))

/-- IMU_RAW field for the value `x` times `k`: nearest integer, saturating -/
def SaysFl (r : Int) (k : ℚ) : Fl → Prop
  | .fin x => Ubx.Spec.Says16 r (x * k)
  | .inf true => r = -32768
  | .inf false => r = 32767
  | .nan => False

/-- accelerations in m/s² at 16, 20, 24, angular rates in rad/s at 28, 32, 36; the message has units of 4 g / 2^15 and 125 deg/s / 2^15.
Time of week in ms and 1/256 ms. -/
structure SaysImu (f : List (BitVec 8)) (m : ImuRaw) : Prop where
  tow : m.tow = (1000 * sec f + usec f / 1000) % 2 ^ 32
  towF : m.towF = usec f % 1000 * 256 / 1000
  accX : SaysFl m.accX (32768 / (4 * 9.80665)) (single f 16)
  accY : SaysFl m.accY (32768 / (4 * 9.80665)) (single f 20)
  accZ : SaysFl m.accZ (32768 / (4 * 9.80665)) (single f 24)
  gyrX : SaysFl m.gyrX (180 / EphSbp.mPi * (32768 / 125)) (single f 28)
  gyrY : SaysFl m.gyrY (180 / EphSbp.mPi * (32768 / 125)) (single f 32)
  gyrZ : SaysFl m.gyrZ (180 / EphSbp.mPi * (32768 / 125)) (single f 36)

/-- mm/s for a speed in m/s: the fraction is dropped, after the rounding of a float product -/
def SaysSpeed (v : Int) : Fl → Prop
  | .fin x => |(v : ℚ) - 1000 * x| ≤ 1001 / 1000 + |x| / 16000 ∧ (0 ≤ x → 0 ≤ v) ∧ (x ≤ 0 → v ≤ 0)
  | _ => False

/-- The SBP messages for a list of frames, `n` IMU messages having been sent before.  A frame of one of the two types and with a correct CRC
is converted; others give nothing.  An IMU_AUX message (unknown type, no temperature, ranges 125 deg/s and 4 g) follows every hundredth
IMU_RAW message, beginning with the first.  Odometry and wheel ticks: time source GPS, source 0. -/
inductive Messages : Nat → List (List (BitVec 8)) → List Out → Prop
  | nil (n) : Messages n [] []
  | imu (n f fs m os) : typ f = 0x00 → CrcOk f → SaysImu f m → Messages (n + 1) fs os →
      Messages n (f :: fs) ((if n % 100 = 0 then [.imuRaw m, .imuAux 255 0 0x41] else [.imuRaw m]) ++ os)
  | wheel (n f fs v os) : typ f = 0x16 → CrcOk f → SaysSpeed v (single f 16) → Messages n fs os →
      Messages n (f :: fs) (.odometry ((1000 * sec f + usec f / 1000) % 2 ^ 32) v 1 ::
        .wheeltick (1000000 * sec f + usec f) 1 0 (BitVec.ofNat 32 (num f 20)).toInt :: os)
  | other (n f fs os) : (typ f = 0x00 ∨ typ f = 0x16 → ¬ CrcOk f) → Messages n fs os → Messages n (f :: fs) os

/-- the numbers can be converted: no NaN, no speed beyond the range of the message -/
def Sane (f : List (BitVec 8)) : Prop :=
  CrcOk f → (typ f = 0x00 → ∀ i ∈ [16, 20, 24, 28, 32, 36], single f i ≠ .nan) ∧
    (typ f = 0x16 → ∃ x, single f 16 = .fin x ∧ |x| ≤ 2147483)

def isImuMsg : Out → Bool
  | .imuRaw _ => true
  | .imuAux .. => true
  | _ => false

end Verif.Ixcom.Spec
