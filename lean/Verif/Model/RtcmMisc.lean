import Verif.Model.RtcmSbp
import Verif.Model.Station
import Verif.Model.RtcmFraming
import Verif.Model.UbxEph
/-
The conversions that carry no observations: station position, GLONASS biases, text, Swift-proprietary messages, navigation data frames.
RTCM to SBP: gnss_converters/src/rtcm3_sbp.c:236-257,366-404,580-632,959-1157,1286-1366, rtcm3_sbp_internal.h:20-110,205-210,
rtcm3_sbp_ephemeris.c:397-435, librtcm/src/decode.c:1485-1551.
SBP to RTCM: gnss_converters_extra/src/sbp_rtcm3.c:81-86,206-327,379-448,919-1022,1099-1127.
`double` values are rationals with rounded operations, as in Model/Station.
-/
namespace Verif.Misc
open Verif.Time Verif.RtcmSbp Dec
open Verif.RtcmFraming (encodeFrame)

/-- the bytes of an ASCII string -/
def asc (s : String) : Buf := s.toList.map fun c => BitVec.ofNat 8 c.toNat

/-- sbp_msg_base_pos_ecef_t -/
structure BasePos where
  x : ℚ
  y : ℚ
  z : ℚ
deriving DecidableEq

/-- sbp_msg_glo_biases_t: a signal mask and four 16-bit biases in units of 2 cm -/
structure GloBias where
  mask : Nat
  l1ca : Int
  l1p : Int
  l2ca : Int
  l2p : Int
deriving DecidableEq

/-- sbp_msg_log_t -/
structure LogText where
  level : Nat
  text : Buf
deriving DecidableEq

/-- an SBP message handed to the callback; `W` are the messages decoded by libsbp, `E` those packed by sbas.c -/
inductive Msg (W E : Type)
  | basePos (p : BasePos)
  | gloBias (b : GloBias)
  | log (t : LogText)
  | wrapped (type : Nat) (m : W)
  | sbas (e : E)
deriving DecidableEq

/-- `sbp_message_decode` of libsbp (type, payload) and what sbas.c needs -/
structure Lib (W E : Type) where
  sbpDecode : Nat → Buf → Option W
  eph : Ubx.EphLib E

variable {W E : Type}

/-- rtcm_stn_to_sbp_sender_id   rtcm3_sbp_internal.h:205-210 -/
def stnToSender (id : Nat) : Nat := id ||| 0xF080

/-- rtcm3_1005_to_sbp, and rtcm3_1006_to_sbp on the 1005 part   rtcm3_sbp.c:959-971 -/
def posOf (m : Msg1005) : BasePos := ⟨m.arpX, m.arpY, m.arpZ⟩

/-- `(s16)rint(m * GLO_BIAS_RESOLUTION)`   rtcm3_sbp_internal.h:45; out of the 16-bit range the conversion is undefined, which the
values that reach it (a 16-bit field times 0.02, constants) exclude -/
def biasUnits (m : ℚ) : Int := crint (Fp.f64 (m * 50))

/-- rtcm3_1230_to_sbp   rtcm3_sbp.c:1132-1157 -/
def biasOf1230 (m : Msg1230) : GloBias :=
  if m.biasIndicator = 0 then ⟨m.mask, biasUnits m.l1ca, biasUnits m.l1p, biasUnits m.l2ca, biasUnits m.l2p⟩
  else ⟨m.mask, 0, 0, 0, 0⟩

/-- one branch of rtcm3_1033_to_sbp with different biases for L1 C/A and L2 P -/
def bias2 (a b : ℚ) : GloBias := ⟨9, biasUnits (Fp.f64 a), 0, 0, biasUnits (Fp.f64 b)⟩
/-- one branch with one bias for all signals -/
def bias4 (mask : Nat) (a : ℚ) : GloBias := ⟨mask, biasUnits (Fp.f64 a), biasUnits (Fp.f64 a), biasUnits (Fp.f64 a), biasUnits (Fp.f64 a)⟩

/-- the chain of `else if` of rtcm3_1033_to_sbp, in order: strings looked for and values assigned
rtcm3_sbp.c:973-1130, constants rtcm3_sbp_internal.h:55-100 -/
def receivers : List (List Buf × GloBias) :=
  [([asc "Geo++ GNSMART (GLO=ASH)"], bias2 (-147 / 10) (-162 / 10)),
   ([asc "Geo++ GNSMART (GLO=HEM)"], bias2 (-3 / 10) (35 / 10)),
   ([asc "Geo++ GNSMART (GLO=JAV)"], bias2 (-15 / 10) (-81 / 10)),
   ([asc "Geo++ GNSMART (GLO=JPS)"], bias2 (-37 / 10) (7 / 10)),
   ([asc "Geo++ GNSMART (GLO=LEI)", asc "Geo++ GNSMART (GLO=NOV)"], bias2 (-707 / 10) (-663 / 10)),
   ([asc "Geo++ GNSMART (GLO=NAV)"], bias2 (4 / 10) (21 / 10)),
   ([asc "Geo++ GNSMART (GLO=NVR)"], bias2 (1167 / 10) 187),
   ([asc "Geo++ GNSMART (GLO=SEP)"], bias2 0 0),
   ([asc "Geo++ GNSMART (GLO=SOK)"], bias2 (-707 / 10) (-663 / 10)),
   ([asc "Geo++ GNSMART (GLO=TPS)"], bias2 (-256 / 100) (374 / 100)),
   ([asc "Geo++ GNSMART (GLO=TRM)"], bias2 (188 / 10) (232 / 10)),
   ([asc "TRIMBLE", asc "ASHTECH"], bias4 15 (1906 / 100)),
   ([asc "LEICA", asc "NOV", asc "GEOMAX"], bias4 15 (-7194 / 100)),
   ([asc "SEPT"], bias4 15 0),
   ([asc "TPS"], bias4 9 0),
   ([asc "JAVAD"], bias2 (-15 / 10) (-81 / 10)),
   ([asc "NAVCOM"], bias2 (4 / 10) (21 / 10)),
   ([asc "HEMI"], bias2 (-2 / 10) (34 / 10))]

/-- the C string that starts with these bytes -/
def cstr (s : Buf) : Buf := s.takeWhile (· ≠ 0#8)
/-- `strstr(s, pat) != NULL` -/
def contains (s pat : Buf) : Bool := decide (pat <:+: cstr s)

/-- rtcm3_1033_to_sbp.  The decoder does not terminate the descriptor (decode.c:621-630) and the message struct is not initialised
(rtcm3_sbp.c:374): `strstr` goes on into the `junk` that follows in memory.  The SBP message is zeroed before (rtcm3_sbp.c:379). -/
def biasOf1033 (m : Msg1033) (junk : Buf) : GloBias :=
  match receivers.find? fun r => r.1.any (contains (m.rcvDescriptor ++ junk)) with
  | some r => r.2
  | none => ⟨0, 0, 0, 0, 0⟩

/-- RTCM_LOG_PREAMBLE   rtcm3_sbp_internal.h:42 -/
def preamble : Buf := asc "RTCM: "
/-- SBP_MSG_LOG_TEXT_MAX of libsbp: a payload of 255 bytes without the level -/
abbrev textMax : Nat := 254

/-- the first of the tests for a truncated character; the two others test the same bits again and are never reached
rtcm3_sbp.c:1310-1321 -/
def isLead (b : BitVec 8) : Bool := b &&& 0xF8 = 0xF0 || b &&& 0xE0 = 0xE0 || b &&& 0xE0 = 0xC0

/-- send_1029   rtcm3_sbp.c:1295-1327: the text of the log message -/
def text1029 (utf8 : Buf) : Buf :=
  let message := (preamble ++ utf8).take (min textMax (preamble.length + utf8.length))
  if message.length = textMax then
    if isLead (message.getD (textMax - 1) 0) then message.take (textMax - 1)
    else if message.getD (textMax - 1) 0 &&& 0xF8 = 0xF0 ∨ message.getD (textMax - 1) 0 &&& 0xE0 = 0xE0 then message.take (textMax - 2)
    else if message.getD (textMax - 1) 0 &&& 0xF8 = 0xF0 then message.take (textMax - 3)
    else message
  else message

/-- send_sbp_log_message   rtcm3_sbp.c:1329-1350; sbp_msg_log_text_set_raw of libsbp accepts up to textMax bytes -/
def sendLog (level : Nat) (text : Buf) (stn : Nat) : List (Nat × Msg W E) :=
  if 255 ≤ text.length ∨ textMax < text.length then [] else [(stnToSender (stn % 65536), .log ⟨level, text⟩)]

/-- the text of the MSM1-3 warning (39 characters, without the terminator)   rtcm3_sbp.c:1361 -/
def msmText : Buf := asc "MSM1-3 Messages currently not supported"

/-! ### navigation data frames -/

/-- rtcm_ndf_frame   librtcm/include/rtcm3/messages.h:392-405 -/
structure NdfFrame where
  sys : Nat
  sat : Nat
  ext : Nat
  sig : Nat
  epoch : Nat
  cont : Bool
  size : Nat
  data : List (BitVec 32)
deriving DecidableEq

/-- rtcm_getbitu on a bare pointer to `mem`: `none` when it reads outside -/
def rawGet (mem : Buf) (bit n : Nat) : Option Nat := if bit + n ≤ 8 * mem.length then some (getbitu mem bit n) else none

/-- the loop over the words of a frame   decode.c:1539-1546; `bit` is a uint16_t -/
def ndfWords (mem : Buf) (bit rem : Nat) : Option (Nat × List (BitVec 32)) :=
  if rem = 0 then some (bit, [])
  else
    match rawGet mem bit (min rem 32) with
    | none => none
    | some v =>
      match ndfWords mem ((bit + min rem 32) % 65536) (rem - min rem 32) with
      | none => none
      | some (b, ws) => some (b, BitVec.ofNat 32 v :: ws)
termination_by rem
decreasing_by omega

/-- one turn of the loop over the frames   decode.c:1512-1547 -/
def ndfFrame (mem : Buf) (bit : Nat) : Option (Except RC (Nat × NdfFrame)) := do
  let sys ← rawGet mem bit 4
  let sat ← rawGet mem ((bit + 4) % 65536) 6
  let ext ← rawGet mem ((bit + 10) % 65536) 4
  let sig ← rawGet mem ((bit + 14) % 65536) 5
  let epoch ← rawGet mem ((bit + 19) % 65536) 30
  let cont ← rawGet mem ((bit + 49) % 65536) 1
  let size ← rawGet mem ((bit + 50) % 65536) 12
  if 4096 < size then some (.error .invalid)
  else
    let (b, data) ← ndfWords mem ((bit + 62) % 65536) size
    some (.ok (b, ⟨sys, sat, ext, sig, epoch, cont ≠ 0, size, data⟩))

def ndfFrames (mem : Buf) : Nat → Nat → Option (Except RC (List NdfFrame))
  | _, 0 => some (.ok [])
  | bit, k + 1 =>
    match ndfFrame mem bit with
    | none => none
    | some (.error e) => some (.error e)
    | some (.ok (b, f)) =>
      match ndfFrames mem b k with
      | none => none
      | some (.error e) => some (.error e)
      | some (.ok fs) => some (.ok (f :: fs))

/-- rtcm3_decode_4075   decode.c:1485-1551: station id and frames; the decoder gets no length -/
def decode4075 (mem : Buf) : Option (Except RC (Nat × List NdfFrame)) := do
  let n ← rawGet mem 0 12
  if n ≠ 4075 then some (.error .typeMismatch)
  else
    let stn ← rawGet mem 12 12
    let res ← rawGet mem 24 2
    if res ≠ 0 then some (.error .invalid)
    else
      let count ← rawGet mem 26 6
      if 63 < count then some (.error .invalid)
      else
        match ← ndfFrames mem 32 count with
        | .error e => some (.error e)
        | .ok fs => some (.ok (stn, fs))

/-- handle_ndf_frame   rtcm3_sbp_ephemeris.c:397-435: SBAS (system 3) only -/
def handleNdf (L : Lib W E) (stn : Nat) (fs : List NdfFrame) : List (Nat × Msg W E) :=
  fs.filterMap fun f =>
    if f.sys = 3 then
      (Ubx.sbasMsg L.eph f.epoch (f.sat + 120) (f.data.take (f.size / 32 + if f.size % 32 > 0 then 1 else 0))).map
        fun e => (stnToSender stn, .sbas e)
    else none

/-! ### dispatch -/

/-- one call of rtcm2sbp_decode_payload: as in Model/RtcmSbp, with the bytes that follow the payload in memory and the uninitialised
bytes that follow a decoded descriptor -/
structure MInput where
  inp : Input
  after : Buf
  junk : Buf

/-- the cases 1005, 1006, 1029, 1033, 1230, MSM1-3, 4062, 4075 of the second switch   rtcm3_sbp.c:236-257,366-404,580-620.  `none`:
undefined behaviour (1006: use of an incompletely decoded message; 4075: read outside memory). -/
def content (L : Lib W E) (x : MInput) (n : Nat) (s : State) : Option (List (Nat × Msg W E)) :=
  let p := x.inp.payload
  if n = 1005 then
    match decode1005.run p with
    | .ok m => some [(stnToSender m.stnId, .basePos (posOf m))]
    | .error _ => some []
  else if n = 1006 then
    match decode1006.run p with
    | .ok (some m, _) => some [(stnToSender m.stnId, .basePos (posOf m))]
    | .ok (none, _) => none
    | .error _ => some []
  else if n = 1029 then
    match decode1029.run p with
    | .ok m => some (sendLog 6 (text1029 m.utf8) m.stnId)
    | .error _ => some []
  else if n = 1033 then
    match decode1033.run p with
    | .ok m => if no1230 s then some [(stnToSender m.stnId, .gloBias (biasOf1033 m x.junk))] else some []
    | .error _ => some []
  else if n = 1230 then
    match decode1230.run p with
    | .ok m => some [(stnToSender m.stnId, .gloBias (biasOf1230 m))]
    | .error _ => some []
  else if n = 4062 then
    match decode4062.run p with
    | .ok m => some ((L.sbpDecode m.msgType m.data).toList.map fun w => (m.senderId, .wrapped m.msgType w))
    | .error _ => some []
  else if n = 4075 then
    match decode4075 (p ++ x.after) with
    | none => none
    | some (.ok (stn, fs)) => some (handleNdf L stn fs)
    | some (.error _) => some []
  else if n ∈ msm13 then
    -- send_MSM_warning: 24 bits are read at the place of the 12-bit station id
    if s.sentMsmWarning ∨ ¬ 36 ≤ 8 * p.length then some []
    else some (sendLog 4 msmText (getbitu p 12 24))
  else some []

/-- rtcm2sbp_decode_payload, the non-observation outputs   rtcm3_sbp.c:133-647 -/
def miscOut (env : Env) (L : Lib W E) (s : State) (x : MInput) : Option (List (Nat × Msg W E)) :=
  if x.inp.payload.length < 2 then some []
  else
    let n := messageType x.inp.payload
    let s0 := { s with timeInput := x.inp.time }
    if n ∉ whitelist ∧ x.inp.solved = false then some []
    else content L x n (if x.inp.solved then { s0 with leap := some (env.utcOffset x.inp.time) } else s0)

/-- a history; the state is that of Model/RtcmSbp -/
def miscRun (env : Env) (L : Lib W E) : State → List MInput → Option (List (Nat × Msg W E))
  | _, [] => some []
  | s, x :: xs =>
    match miscOut env L s x, miscRun env L (RtcmSbp.step env s x.inp).1 xs with
    | some a, some b => some (a ++ b)
    | _, _ => none

/-! ### SBP to RTCM -/

/-- the members of rtcm3_out_state used here   sbp_rtcm3.h:29-60 -/
structure OutSt where
  sender : Nat
  antKnown : Bool
  antHeight : ℚ
  antDesc : Buf
  rcvDesc : Buf
deriving DecidableEq

/-- sbp2rtcm_init   sbp_rtcm3.c:62-70 (sender_id is left uninitialised: arbitrary) -/
def OutSt.init (sender : Nat) : OutSt := ⟨sender, false, 0, [], []⟩

/-- the STRNCPY macro into a char[32]   gnss_converters/include/gnss-converters/utils.h:22-29 -/
def strncpy32 (s : Buf) : Buf := (cstr s).take 31

/-- sbp_sender_to_rtcm_stn_id   sbp_rtcm3.c:81-86 -/
def senderToStn (id : Nat) : Nat := id &&& 0xFFF

/-- sbp_to_rtcm3_1005, constants sbp_rtcm3_internal.h:30-68   sbp_rtcm3.c:206-232 -/
def msg1005 (st : OutSt) (p : BasePos) : Msg1005 where
  stnId := senderToStn st.sender
  itrf := 0
  gpsInd := 1
  gloInd := 1
  galInd := 1
  refStnInd := 0
  arpX := p.x
  oscInd := 1
  arpY := p.y
  quartCycleInd := 0
  arpZ := p.z

/-- sbp_to_rtcm3_1006   sbp_rtcm3.c:234-239 -/
def msg1006 (st : OutSt) (p : BasePos) : Msg1006 := ⟨msg1005 st p, st.antHeight⟩

/-- generate_rtcm3_1033   sbp_rtcm3.c:241-275 -/
def msg1033 (st : OutSt) : Msg1033 where
  stnId := senderToStn st.sender
  antDescriptor := st.antDesc
  antSetupId := 0
  antSerialNum := []
  rcvDescriptor := st.rcvDesc
  rcvFwVersion := []
  rcvSerialNum := []

/-- rtcm3_1033_to_1008   sbp_rtcm3.c:277-307.  The serial number would never be copied (the test is on the counter just cleared). -/
def msg1008 (m : Msg1033) : Msg1008 := ⟨⟨m.stnId, m.antDescriptor, m.antSetupId⟩, []⟩

/-- sbp_to_rtcm3_1230, indicator sbp_rtcm3_internal.h:76   sbp_rtcm3.c:309-327 -/
def msg1230 (st : OutSt) (b : GloBias) : Msg1230 where
  stnId := senderToStn st.sender
  biasIndicator := 0
  mask := b.mask
  l1ca := Fp.f64 ((b.l1ca : ℚ) / 50)
  l1p := Fp.f64 ((b.l1p : ℚ) / 50)
  l2ca := Fp.f64 ((b.l2ca : ℚ) / 50)
  l2p := Fp.f64 ((b.l2p : ℚ) / 50)

/-- what the converter is called with -/
inductive SbpIn
  /-- sbp2rtcm_base_pos_ecef_cb -/
  | basePos (sender : Nat) (p : BasePos)
  /-- sbp2rtcm_glo_biases_cb -/
  | gloBias (sender : Nat) (b : GloBias)
  /-- the seven OSR and SSR callbacks, with their message type -/
  | wrapped (type sender : Nat) (data : Buf)
  /-- sbp2rtcm_sbp_log_cb with the payload: level and text -/
  | log (sender : Nat) (payload : Buf)
  /-- sbp2rtcm_set_ant_height -/
  | antHeight (h : ℚ)
  /-- sbp2rtcm_set_rcv_ant_descriptors -/
  | descriptors (ant rcv : Buf)

/-- the zeroed part of the frame buffer behind the header   sbp_rtcm3.c:176-179 -/
def blank : Buf := List.replicate 1020 0

/-- the payloads of the RTCM messages sent by a call, in order
sbp_rtcm3.c:379-395 (settings), 405-433 (position), 435-448 (biases), 919-1022 (4062), 1099-1127 (text) -/
def outStep (st : OutSt) : SbpIn → OutSt × List Buf
  | .basePos sender p =>
    let st := { st with sender := sender }
    (st, payloadOf (encode1006 (msg1006 st p) blank) ::
      if st.antKnown then
        [payloadOf (encode1008 (msg1008 (msg1033 st)) blank), payloadOf (encode1033 (msg1033 st) blank)]
      else [])
  | .gloBias sender b =>
    let st := { st with sender := sender }
    (st, [payloadOf (encode1230 (msg1230 st b) blank)])
  | .wrapped type sender data => (st, [payloadOf (encode4062 ⟨type, sender, data⟩ blank)])
  | .log sender payload =>
    if payload.length < 2 then (st, [])
    else ({ st with sender := sender }, [payloadOf (encode1029 ⟨sender, 0, 0, 0, payload.drop 1⟩ blank)])
  | .antHeight h =>
    (if h < 0 ∨ h > maxHeight then st else { st with antHeight := h, antKnown := true }, [])
  | .descriptors ant rcv => ({ st with antDesc := strncpy32 ant, rcvDesc := strncpy32 rcv, antKnown := true }, [])

/-- the payloads sent in a history of calls -/
def outRun : OutSt → List SbpIn → List Buf
  | _, [] => []
  | st, e :: es => (outStep st e).2 ++ outRun (outStep st e).1 es

/-- the bytes given to the output callback; `none`: a frame overruns its buffer   sbp_rtcm3.c:174-204 -/
def outBytes (crc : Buf → BitVec 24) (st : OutSt) (es : List SbpIn) : Option Buf :=
  ((outRun st es).mapM (encodeFrame crc 1023)).map List.flatten

end Verif.Misc
