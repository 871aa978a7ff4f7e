import Verif.Model.Codec
import Verif.Model.MsmUtils
/-
State-space-representation messages: orbit, clock, combined orbit/clock, code bias, phase bias.
librtcm/src/ssr_decode.c:20-416.  There are no SSR encoders in the repository.
-/
namespace Verif.Ssr
open Verif.Dec Verif.Msm

/-- `get_number_of_bits_for_epoch_time`   librtcm/src/ssr_decode.c:26-46 -/
def epochBits : Cons → Nat
  | .glo => 17
  | _ => 20
/-- `get_number_of_bits_for_sat_id`   librtcm/src/ssr_decode.c:52-75 -/
def satIdBits : Cons → Nat
  | .glo => 5
  | .qzs => 4
  | _ => 6
/-- `get_number_of_bits_for_iode`   librtcm/src/ssr_decode.c:81-104 -/
def iodeBits : Cons → Nat
  | .gps | .glo | .qzs => 8
  | .gal | .bds => 10
  | .sbas => 9

/-- `is_ssr_orbit_clock_message`   librtcm/src/ssr_decode.c:120-125 -/
def isOrbitClock (n : Nat) : Bool := n ∈ [1057, 1060, 1063, 1066, 1240, 1243, 1246, 1249, 1258, 1261]
/-- `is_ssr_orbit_message`   librtcm/src/ssr_decode.c:127-130 -/
def isOrbit (n : Nat) : Bool := n ∈ [1057, 1063, 1240, 1246, 1258]
/-- `is_ssr_clock_message`   librtcm/src/ssr_decode.c:132-135 -/
def isClock (n : Nat) : Bool := n ∈ [1058, 1064, 1241, 1247, 1259]
/-- `is_ssr_code_biases_message`   librtcm/src/ssr_decode.c:137-140 -/
def isCodeBias (n : Nat) : Bool := n ∈ [1059, 1065, 1242, 1248, 1260]
/-- `is_ssr_phase_biases_message`   librtcm/src/ssr_decode.c:142-144 -/
def isPhaseBias (n : Nat) : Bool := 1265 ≤ n && n ≤ 1270

/-- `rtcm_msg_ssr_header`   librtcm/include/rtcm3/messages.h:290-303.  Members that the message type does not carry
are not written by the C code; they are 0 here. -/
structure Header where
  msgNum : Nat
  cons : Cons
  epoch : Nat
  updateInterval : Nat
  multi : Nat
  satRefDatum : Nat
  iodSsr : Nat
  provider : Nat
  solution : Nat
  dispersive : Nat
  melbourne : Nat
  numSats : Nat
deriving DecidableEq

/-- `decode_ssr_header`   librtcm/src/ssr_decode.c:146-174 -/
def readHeader : Dec Header := do
  let msgNum ← getU 12
  match toConstellation msgNum with
  | none => fail .invalid
  | some cons => do
    let epoch ← getU (epochBits cons)
    let updateInterval ← getU 4
    let multi ← getU 1
    let satRefDatum ← if isOrbitClock msgNum then getU 1 else pure 0
    let iodSsr ← getU 4
    let provider ← getU 16
    let solution ← getU 4
    let dispersive ← if isPhaseBias msgNum then getU 1 else pure 0
    let melbourne ← if isPhaseBias msgNum then getU 1 else pure 0
    let numSats ← getU 6
    pure { msgNum, cons, epoch, updateInterval, multi, satRefDatum, iodSsr, provider, solution, dispersive, melbourne, numSats }

/-- `rtcm_msg_ssr_orbit_corr`   librtcm/include/rtcm3/messages.h:312-322 -/
structure Orbit where
  satId : Nat
  iode : Nat
  iodcrc : Nat
  radial : Int
  along : Int
  cross : Int
  dotRadial : Int
  dotAlong : Int
  dotCross : Int
deriving DecidableEq

/-- `rtcm_msg_ssr_clock_corr`   librtcm/include/rtcm3/messages.h:305-310 -/
structure Clock where
  satId : Nat
  c0 : Int
  c1 : Int
  c2 : Int
deriving DecidableEq

/-- `decode_ssr_orbit`   librtcm/src/ssr_decode.c:176-209 -/
def decodeOrbitCorr (cons : Cons) (satId : Nat) : Dec Orbit := do
  let iode0 ← getU (iodeBits cons)
  let iode1 ← if cons = .bds then getU 8 else pure 0
  let iodcrc ← if cons = .sbas then getU 24 else pure 0
  let radial ← getS 22
  let along ← getS 20
  let cross ← getS 20
  let dotRadial ← getS 21
  let dotAlong ← getS 19
  let dotCross ← getS 19
  pure { satId, iode := if cons = .bds then iode1 else iode0, iodcrc, radial, along, cross, dotRadial, dotAlong, dotCross }

/-- `decode_ssr_clock`   librtcm/src/ssr_decode.c:211-217 -/
def decodeClockCorr (satId : Nat) : Dec Clock := do
  let c0 ← getS 22
  let c1 ← getS 21
  let c2 ← getS 27
  pure { satId, c0, c1, c2 }

/-- `rtcm3_decode_orbit_bitstream`   librtcm/src/ssr_decode.c:233-261 -/
def decodeOrbit : Dec (Header × List Orbit) := do
  let h ← readHeader
  guard (isOrbit h.msgNum = true) .typeMismatch
  let l ← many (do
    let id ← getU (satIdBits h.cons)
    decodeOrbitCorr h.cons id) h.numSats
  pure (h, l)

/-- `rtcm3_decode_clock_bitstream`   librtcm/src/ssr_decode.c:263-287.  The return code of `decode_ssr_clock` is ignored
(line 284): the satellite id is written, `none` stands for a clock correction that was not (completely) written. -/
def decodeClock : Dec (Header × List (Nat × Option Clock)) := do
  let h ← readHeader
  guard (isClock h.msgNum = true) .typeMismatch
  let l ← many (do
    let id ← getU (satIdBits h.cons)
    let c ← attempt (decodeClockCorr id)
    pure (id, c)) h.numSats
  pure (h, l)

/-- `rtcm3_decode_orbit_clock_bitstream`   librtcm/src/ssr_decode.c:297-329.  As above, line 326. -/
def decodeOrbitClock : Dec (Header × List (Orbit × Option Clock)) := do
  let h ← readHeader
  guard (isOrbitClock h.msgNum = true) .typeMismatch
  let l ← many (do
    let id ← getU (satIdBits h.cons)
    let o ← decodeOrbitCorr h.cons id
    let c ← attempt (decodeClockCorr id)
    pure (o, c)) h.numSats
  pure (h, l)

/-- `rtcm_msg_ssr_code_bias_sat` -/
structure CodeBias where
  satId : Nat
  /-- signal id, bias -/
  signals : List (Nat × Int)
deriving DecidableEq

/-- `rtcm3_decode_code_bias_bitstream`   librtcm/src/ssr_decode.c:339-370 -/
def decodeCodeBias : Dec (Header × List CodeBias) := do
  let h ← readHeader
  guard (isCodeBias h.msgNum = true) .typeMismatch
  let l ← many (do
    let satId ← getU (satIdBits h.cons)
    let n ← getU 5
    let signals ← many (do
      let id ← getU 5
      let bias ← getS 14
      pure (id, bias)) n
    pure { satId, signals : CodeBias }) h.numSats
  pure (h, l)

/-- `rtcm_msg_ssr_phase_bias_sig`   librtcm/include/rtcm3/messages.h:335-341 -/
structure PhaseSig where
  id : Nat
  integer : Nat
  widelane : Nat
  discontinuity : Nat
  bias : Int
deriving DecidableEq
/-- `rtcm_msg_ssr_phase_bias_sat` -/
structure PhaseBias where
  satId : Nat
  yaw : Nat
  yawRate : Int
  signals : List PhaseSig
deriving DecidableEq

/-- `rtcm3_decode_phase_bias_bitstream`   librtcm/src/ssr_decode.c:380-416 -/
def decodePhaseBias : Dec (Header × List PhaseBias) := do
  let h ← readHeader
  guard (isPhaseBias h.msgNum = true) .typeMismatch
  let l ← many (do
    let satId ← getU (satIdBits h.cons)
    let n ← getU 5
    let yaw ← getU 9
    let yawRate ← getS 8
    let signals ← many (do
      let id ← getU 5
      let integer ← getU 1
      let widelane ← getU 2
      let discontinuity ← getU 4
      let bias ← getS 20
      pure { id, integer, widelane, discontinuity, bias : PhaseSig }) n
    pure { satId, yaw, yawRate, signals : PhaseBias }) h.numSats
  pure (h, l)

end Verif.Ssr
