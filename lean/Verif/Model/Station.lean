import Verif.Model.Codec
import Verif.Model.Num
import Verif.Model.Float
/-
Station, descriptor, text, bias and Swift-proprietary RTCM messages:
librtcm/src/encode.c:543-643,735-852,1201-1224 and librtcm/src/decode.c:554-693,841-977,1447-1475.
Struct members narrower than their C type are `Nat`s; physical values are the (finite) values of C `double`s, and every inexact operation rounds
(`Fp.f64`).
-/
namespace Verif
open Dec

/-- `rtcm_msg_1005`   librtcm/include/rtcm3/messages.h:139-152.  The member `reserved` is written by neither side
(the encoder always writes 0, the decoder skips it) and is not modelled. -/
structure Msg1005 where
  stnId : Nat
  itrf : Nat
  gpsInd : Nat
  gloInd : Nat
  galInd : Nat
  refStnInd : Nat
  arpX : ℚ
  oscInd : Nat
  arpY : ℚ
  quartCycleInd : Nat
  arpZ : ℚ
deriving DecidableEq

/-- `(int64_t)round(x * 10000.0)`   librtcm/src/encode.c:556,563,568,595 -/
def toTenthMm (x : ℚ) : Int := cround (Fp.f64 (x * 10000))
/-- `(double)(n) / 10000.0`   librtcm/src/decode.c:564,568,571,617 -/
def ofTenthMm (n : Int) : ℚ := Fp.f64 ((n : ℚ) / 10000)

/-- `rtcm3_encode_1005_base`   librtcm/src/encode.c:543-573 -/
def wr1005Base (m : Msg1005) : List Wr :=
  [.u 12 m.stnId, .u 6 m.itrf, .u 1 m.gpsInd, .u 1 m.gloInd, .u 1 m.galInd, .u 1 m.refStnInd,
   .sl 38 (toTenthMm m.arpX), .u 1 m.oscInd, .u 1 0, .sl 38 (toTenthMm m.arpY),
   .u 2 m.quartCycleInd, .sl 38 (toTenthMm m.arpZ)]
/-- `rtcm3_encode_1005`   librtcm/src/encode.c:575-581 -/
def encode1005 (m : Msg1005) (buf : Buf) : Buf × Nat := encodeWr (.u 12 1005 :: wr1005Base m) buf

/-- `rtcm3_decode_1005_base`   librtcm/src/decode.c:554-574 -/
def decode1005Base : Dec Msg1005 := do
  let stnId ← getU 12
  let itrf ← getU 6
  let gpsInd ← getU 1
  let gloInd ← getU 1
  let galInd ← getU 1
  let refStnInd ← getU 1
  let x ← getS 38
  let oscInd ← getU 1
  skip 1
  let y ← getS 38
  let quartCycleInd ← getU 2
  let z ← getS 38
  pure { stnId, itrf, gpsInd, gloInd, galInd, refStnInd, arpX := ofTenthMm x, oscInd, arpY := ofTenthMm y,
         quartCycleInd, arpZ := ofTenthMm z }
/-- `rtcm3_decode_1005_bitstream`   librtcm/src/decode.c:583-594 -/
def decode1005 : Dec Msg1005 := do
  let n ← getU 12
  guard (n = 1005) .typeMismatch
  decode1005Base

/-- `rtcm_msg_1006`   librtcm/include/rtcm3/messages.h:154-157 -/
structure Msg1006 where
  base : Msg1005
  antHeight : ℚ
deriving DecidableEq

/-- `RTCM_1006_MAX_ANTENNA_HEIGHT_M`: the `double` 6.5535   librtcm/include/rtcm3/constants.h:48 -/
def maxHeight : ℚ := Fp.f64 (65535 / 10000)
/-- the clamp of the antenna height   librtcm/src/encode.c:589-594 -/
def clampHeight (h : ℚ) : ℚ := if h < 0 then 0 else if h > maxHeight then maxHeight else h
/-- `rtcm3_encode_1006`   librtcm/src/encode.c:583-600 -/
def encode1006 (m : Msg1006) (buf : Buf) : Buf × Nat :=
  encodeWr (.u 12 1006 :: (wr1005Base m.base ++ [.u 16 (toTenthMm (clampHeight m.antHeight)).toNat])) buf
/-- `rtcm3_decode_1006_bitstream`   librtcm/src/decode.c:604-619.  The return code of the 1005 part is ignored
(decode.c:614): `base = none` means the 1005 part of the output struct was not completely written. -/
def decode1006 : Dec (Option Msg1005 × ℚ) := do
  let n ← getU 12
  guard (n = 1006) .typeMismatch
  let base ← attempt decode1005Base
  let h ← getU 16
  pure (base, ofTenthMm h)

/-- a `*_counter` member followed by that many characters, written in a loop (e.g. librtcm/src/encode.c:607-612).
The pair counter/char array is modelled by the list of the first `counter` characters. -/
def wrString (s : List Byte) : List Wr := .u 8 s.length :: s.map (fun c => .u 8 c.toNat)
/-- `RTCM_MAX_STRING_LEN`   librtcm/include/rtcm3/constants.h -/
abbrev maxStringLen : Nat := 32
/-- `decode_string`   librtcm/src/decode.c:621-630 -/
def decodeString : Dec (List Byte) := do
  let n ← getU 8
  guard (¬ n > maxStringLen) .invalid
  many getByte n

/-- `rtcm_msg_1007`   librtcm/include/rtcm3/messages.h:159-165 -/
structure Msg1007 where
  stnId : Nat
  antDescriptor : List Byte
  antSetupId : Nat
deriving DecidableEq
/-- `rtcm3_encode_1007_base`   librtcm/src/encode.c:602-618 -/
def wr1007Base (m : Msg1007) : List Wr := .u 12 m.stnId :: (wrString m.antDescriptor ++ [.u 8 m.antSetupId])
/-- `rtcm3_encode_1007`   librtcm/src/encode.c:620-626 -/
def encode1007 (m : Msg1007) (buf : Buf) : Buf × Nat := encodeWr (.u 12 1007 :: wr1007Base m) buf
/-- `rtcm3_decode_1007_base`   librtcm/src/decode.c:632-643 -/
def decode1007Base : Dec Msg1007 := do
  let stnId ← getU 12
  let antDescriptor ← decodeString
  let antSetupId ← getU 8
  pure { stnId, antDescriptor, antSetupId }
/-- `rtcm3_decode_1007_bitstream`   librtcm/src/decode.c:654-665 -/
def decode1007 : Dec Msg1007 := do
  let n ← getU 12
  guard (n = 1007) .typeMismatch
  decode1007Base

/-- `rtcm_msg_1008`   librtcm/include/rtcm3/messages.h:167-172 -/
structure Msg1008 where
  base : Msg1007
  antSerialNum : List Byte
deriving DecidableEq
/-- `rtcm3_encode_1008`   librtcm/src/encode.c:628-643 -/
def encode1008 (m : Msg1008) (buf : Buf) : Buf × Nat :=
  encodeWr (.u 12 1008 :: (wr1007Base m.base ++ wrString m.antSerialNum)) buf
/-- `rtcm3_decode_1008_bitstream`   librtcm/src/decode.c:675-693 -/
def decode1008 : Dec Msg1008 := do
  let n ← getU 12
  guard (n = 1008) .typeMismatch
  let base ← decode1007Base
  let antSerialNum ← decodeString
  pure { base, antSerialNum }

/-- `rtcm_msg_1029`   librtcm/include/rtcm3/messages.h:174-182.  `utf8_code_units_n` is the length of the list. -/
structure Msg1029 where
  stnId : Nat
  mjdNum : Nat
  utcSecOfDay : Nat
  unicodeChars : Nat
  utf8 : List Byte
deriving DecidableEq
/-- `rtcm3_encode_1029`   librtcm/src/encode.c:735-763 -/
def encode1029 (m : Msg1029) (buf : Buf) : Buf × Nat :=
  encodeWr ([.u 12 1029, .u 12 m.stnId, .u 16 m.mjdNum, .u 17 m.utcSecOfDay, .u 7 m.unicodeChars]
    ++ wrString m.utf8) buf
/-- `rtcm3_decode_1029_bitstream`   librtcm/src/decode.c:841-865 -/
def decode1029 : Dec Msg1029 := do
  let n ← getU 12
  guard (n = 1029) .typeMismatch
  let stnId ← getU 12
  let mjdNum ← getU 16
  let utcSecOfDay ← getU 17
  let unicodeChars ← getU 7
  let k ← getU 8
  let utf8 ← many getByte k
  pure { stnId, mjdNum, utcSecOfDay, unicodeChars, utf8 }

/-- `rtcm_msg_1033`   librtcm/include/rtcm3/messages.h:184-201 -/
structure Msg1033 where
  stnId : Nat
  antDescriptor : List Byte
  antSetupId : Nat
  antSerialNum : List Byte
  rcvDescriptor : List Byte
  rcvFwVersion : List Byte
  rcvSerialNum : List Byte
deriving DecidableEq
/-- the writes of `rtcm3_encode_1033`   librtcm/src/encode.c:765-813 -/
def wr1033 (m : Msg1033) : List Wr :=
  [.u 12 1033, .u 12 m.stnId] ++ wrString m.antDescriptor ++ [.s 8 m.antSetupId] ++ wrString m.antSerialNum
    ++ wrString m.rcvDescriptor ++ wrString m.rcvFwVersion ++ wrString m.rcvSerialNum
/-- `rtcm3_encode_1033` -/
def encode1033 (m : Msg1033) (buf : Buf) : Buf × Nat := encodeWr (wr1033 m) buf
/-- `rtcm3_decode_1033_bitstream`   librtcm/src/decode.c:875-923 -/
def decode1033 : Dec Msg1033 := do
  let n ← getU 12
  guard (n = 1033) .typeMismatch
  let stnId ← getU 12
  let antDescriptor ← decodeString
  let antSetupId ← getU 8
  let antSerialNum ← decodeString
  let rcvDescriptor ← decodeString
  let rcvFwVersion ← decodeString
  let rcvSerialNum ← decodeString
  pure { stnId, antDescriptor, antSetupId, antSerialNum, rcvDescriptor, rcvFwVersion, rcvSerialNum }

/-- `rtcm_msg_1230`   librtcm/include/rtcm3/messages.h:203-211 -/
structure Msg1230 where
  stnId : Nat
  biasIndicator : Nat
  mask : Nat
  l1ca : ℚ
  l1p : ℚ
  l2ca : ℚ
  l2p : ℚ
deriving DecidableEq
/-- `if (mask & flag) { int16_t bias = (int16_t)round(x * 50); rtcm_setbits(buff, bit, 16, bias); bit += 16; }`
librtcm/src/encode.c:829-848  (`flag = 1 << i`) -/
def wrBias (mask i : Nat) (x : ℚ) : List Wr := if mask.testBit i then [.s 16 (cround (Fp.f64 (x * 50)))] else []
/-- `rtcm3_encode_1230`   librtcm/src/encode.c:815-852.  The indicator is written with width 8 at bit 24 while the
position advances by 1 (encode.c:822-823), so the following writes overlap it. -/
def encode1230 (m : Msg1230) (buf : Buf) : Buf × Nat :=
  let r := exec [.u 12 1230, .u 12 m.stnId] buf 0
  let b := setbitu r.1 r.2 8 m.biasIndicator
  let e := exec ([.u 3 0, .u 4 m.mask] ++ wrBias m.mask 3 m.l1ca ++ wrBias m.mask 2 m.l1p
    ++ wrBias m.mask 1 m.l2ca ++ wrBias m.mask 0 m.l2p) b (r.2 + 1)
  (e.1, (e.2 + 7) / 8)
/-- `tmp * 0.02` (0.02 is itself a rounded constant)   librtcm/src/decode.c:950,957,964,971 -/
def ofTwoCm (t : Int) : ℚ := Fp.f64 ((t : ℚ) * Fp.f64 (2 / 100))
/-- one optional bias   librtcm/src/decode.c:947-974 -/
def decodeBias (mask i : Nat) : Dec ℚ :=
  if mask.testBit i then do
    let t ← getS 16
    pure (ofTwoCm t)
  else pure 0
/-- `rtcm3_decode_1230_bitstream`   librtcm/src/decode.c:932-977 -/
def decode1230 : Dec Msg1230 := do
  let n ← getU 12
  guard (n = 1230) .typeMismatch
  let stnId ← getU 12
  let biasIndicator ← getU 1
  skip 3
  let mask ← getU 4
  let l1ca ← decodeBias mask 3
  let l1p ← decodeBias mask 2
  let l2ca ← decodeBias mask 1
  let l2p ← decodeBias mask 0
  pure { stnId, biasIndicator, mask, l1ca, l1p, l2ca, l2p }

/-- `rtcm_msg_swift_proprietary`   librtcm/include/rtcm3/messages.h:377-383 -/
structure Msg4062 where
  msgType : Nat
  senderId : Nat
  data : List Byte
deriving DecidableEq
/-- `rtcm3_encode_4062`   librtcm/src/encode.c:1201-1224 -/
def encode4062 (m : Msg4062) (buf : Buf) : Buf × Nat :=
  encodeWr ([.u 12 4062, .u 4 0, .u 16 m.msgType, .u 16 m.senderId] ++ wrString m.data) buf
/-- `rtcm3_decode_4062_bitstream`   librtcm/src/decode.c:1447-1475 -/
def decode4062 : Dec Msg4062 := do
  let n ← getU 12
  guard (n = 4062) .typeMismatch
  let r ← getU 4
  guard (¬ r ≠ 0) .invalid
  let msgType ← getU 16
  let senderId ← getU 16
  let k ← getU 8
  let data ← many getByte k
  pure { msgType, senderId, data }

end Verif
