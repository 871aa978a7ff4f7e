import Verif.Model.EphSbp
import Verif.Model.RtcmMisc
/-
Ephemerides over the RTCM byte stream: the callbacks of gnss_converters_extra/src/sbp_rtcm3.c:1024-1097 and the cases 1019, 1020, 1042,
1044, 1045, 1046 of rtcm2sbp_decode_payload, gnss_converters/src/rtcm3_sbp.c:276-364.  The fields of an SBP ephemeris are read from a
packed structure of libsbp (not in the repository); the model starts from their values.
-/
namespace Verif.EphStream
open Verif.EphSbp
open Verif.RtcmSbp (State Env Input messageType whitelist stnToSender)
open Verif.Misc (blank)

/-- constants and functions of libswiftnav and libm: comparison tolerance and log2f, GPS_WEEK_REFERENCE, QZS_FIRST_PRN,
EPH_SOURCE_GAL_INAV, EPH_SOURCE_GAL_FNAV -/
structure Lib where
  acc : Acc.Env
  weekRef : Nat
  firstPrn : Nat
  inav : Nat
  fnav : Nat

/-- an SBP ephemeris message -/
inductive SbpEph
  | gps (e : SbpKep)
  | qzss (e : SbpKep)
  | gal (e : SbpKep)
  | bds (e : SbpKep)
  | glo (e : SbpGlo)

/-! ### SBP to RTCM -/

/-- the message handed to encode_rtcm3_frame; `none`: a failed assertion (Galileo source, sbp_rtcm3.c:1092-1093), or a message without
callback (QZSS).  `leap`: the leap second when known; `junk`: the uninitialised t_b   sbp_rtcm3.c:1024-1097, 176-180 -/
def payload (K : Lib) (leap : Option Int) (junk : Nat) : SbpEph → Option Buf
  | .gps e => some (payloadOf (encode1019 (sbpToGps K.acc e) blank))
  | .glo e => some (payloadOf (encode1020 (sbpToGlo K.acc junk leap e) blank))
  | .bds e => some (payloadOf (encode1042 (sbpToBds K.acc e) blank))
  | .gal e =>
    if e.source = K.inav then some (payloadOf (encode1046 (sbpToGal e) blank))
    else if e.source = K.fnav then some (payloadOf (encode1045 (sbpToGal e) blank))
    else none
  | .qzss _ => none

/-! ### RTCM to SBP -/

/-- the ephemeris cases of the second switch   rtcm3_sbp.c:276-364 -/
def content (K : Lib) (n : Nat) (p : Buf) (time : Time.GpsTime) (leap : Option Int) : Option SbpEph :=
  if n = 1019 then
    match decode1019.run p with
    | .ok m => (gpsToSbp m time).map .gps
    | .error _ => none
  else if n = 1020 then
    match decode1020.run p with
    | .ok m => (gloToSbp m time leap).map .glo
    | .error _ => none
  else if n = 1042 then
    match decode1042.run p with
    | .ok m => some (.bds (bdsToSbp K.weekRef m))
    | .error _ => none
  else if n = 1044 then
    match decode1044.run p with
    | .ok m => some (.qzss (qzssToSbp K.weekRef K.firstPrn m))
    | .error _ => none
  else if n = 1045 then
    match decode1045.run p with
    | .ok m => (galToSbp m K.fnav time).map .gal
    | .error _ => none
  else if n = 1046 then
    match decode1046.run p with
    | .ok m => (galToSbp m K.inav time).map .gal
    | .error _ => none
  else none

/-- the ephemeris sent by rtcm2sbp_decode_payload with its sender   rtcm3_sbp.c:133-364 -/
def out (env : Env) (K : Lib) (s : State) (x : Input) : List (Nat × SbpEph) :=
  if x.payload.length < 2 then []
  else
    let n := messageType x.payload
    if n ∉ whitelist ∧ x.solved = false then []
    else
      let leap := if x.solved then some (env.utcOffset x.time) else s.leap
      (content K n x.payload x.time leap).toList.map fun e => (stnToSender 0, e)

/-- a history; the state is that of Model/RtcmSbp -/
def run (env : Env) (K : Lib) : State → List Input → List (Nat × SbpEph)
  | _, [] => []
  | s, x :: xs => out env K s x ++ run env K (RtcmSbp.step env s x).1 xs

end Verif.EphStream
