import Verif.Model.Rtcm3ToSbp
/-
The observation path of rtcm3tosbp once more, with its assertions and array bounds checked: `none` is a failed assertion or an access outside
an array.  gnss_converters/src/rtcm3_sbp.c:133-957,1161-1660, rtcm3_utils.c:250-276,367-378,548-567, librtcm/src/decode.c:180-202,213-256,1178-1384.
The unchecked functions are those of Model/RtcmSbp and Model/Rtcm3ToSbp; the types, constants and loops are theirs.
Not modelled: conversions of a `double` to an integer type that cannot hold it (see C51: `Carries.fits`, `InRange`), arrays of size 0 (decode.c:1220-1246 declares
arrays with as many elements as there are satellites or cells).
-/
namespace Verif.Guard
open Verif.Time Verif.Msm Verif.Lock
open Verif.RtcmSbp hiding step run dispatch addMsm msmLoop msmTime addGps addGlo addObsToBuffer legacyLoop flushIfOther warnCode legacyWarn
  sidFromMsm gloFcn computeGpsTime endsEpoch

/-- RTCM_MAX_SATS   librtcm/include/rtcm3/constants.h:18 -/
abbrev maxSats : Nat := 32

/-- `assert(c)`, or an access within bounds -/
def must (c : Prop) [Decidable c] : Option Unit := if c then some () else none

/-- `send_observations`, assertions rtcm3_sbp.c:924-925 (MAX_OBS_PER_EPOCH, SBP_MAX_OBS_SEQ = 15) -/
def send (s : State) : Option (State × List Out) := do
  must (s.buf.length ≤ maxObs)
  must (1 + (if s.buf.length > 0 then (s.buf.length - 1) / obsPerMsg else 0) ≤ 15)
  some (sendObservations s)

/-- `send_unsupported_code_warning`, assertion rtcm3_sbp.c:1390 (UNSUPPORTED_CODE_MAX = 3), index into `sent_code_warning` -/
def warnCode (i : Nat) (s : State) : Option (State × List Out) := do
  must (i < 3 ∧ i < s.sentCode.length)
  some (RtcmSbp.warnCode i s)

/-- the store into `obs_buffer[obs_to_send]`   rtcm3_sbp.c:832,1577 -/
def put (o : SbpObs) (s : State) : Option State := do
  must (s.buf.length < maxObs)
  some { s with buf := s.buf ++ [o] }

/-- `get_glo_sbp_code` warns about P codes   rtcm3_sbp.c:761-784 -/
def legacyWarn (glo : Bool) (svId f code : Nat) (s : State) : Option (State × List Out) :=
  if glo ∧ 1 ≤ svId ∧ svId ≤ 24 ∧ code ≠ 0 then warnCode (f + 1) s else some (s, [])

/-- the conversion loop of `add_obs_to_buffer`   rtcm3_sbp.c:809-904 -/
def legacyLoop (env : Env) (glo : Bool) : List (Obs.Sat × Nat) → State → Option (State × List Out × Bool)
  | [], s => some (s, [], true)
  | (sat, f) :: r, s =>
    let d := freqOf sat f
    if d.vPr = true ∧ d.vCp = true then
      if s.buf.length ≥ maxObs then some (s, [.log .bufferFull], false)
      else do
        let w ← legacyWarn glo sat.svId f d.code s
        match legacySid glo sat.svId f d.code with
        | none =>
          let x ← legacyLoop env glo r w.1
          some (x.1, w.2 ++ x.2.1, x.2.2)
        | some (prn, code) =>
          let s' ← put (packLegacy env prn code d) w.1
          let x ← legacyLoop env glo r s'
          some (x.1, w.2 ++ x.2.1, x.2.2)
    else legacyLoop env glo r s

/-- flush the buffer if it belongs to another time of week or station   rtcm3_sbp.c:796-804,1525-1534 -/
def flushIfOther (t : SbpTime) (sender : Nat) (warn : List Out) (s : State) : Option (State × List Out) :=
  if s.buf.length ≠ 0 ∧ (s.obsTime.tow ≠ t.tow ∨ s.sender ≠ sender) then do
    let x ← send s
    some (x.1, warn ++ x.2)
  else some (s, [])

/-- `add_obs_to_buffer`; `sats[]` has RTCM_MAX_SATS elements   rtcm3_sbp.c:787-911 -/
def addObsToBuffer (env : Env) (glo : Bool) (m : Obs.Msg) (t : GpsTime) (s : State) : Option (State × List Out) := do
  must (m.sats.length ≤ maxSats)
  let a ← flushIfOther (sbpTime t) (stnToSender m.header.stnId) [] s
  let b ← legacyLoop env glo (cells m) { a.1 with obsTime := sbpTime t, sender := stnToSender m.header.stnId }
  if b.2.2 = false then some (b.1, a.2 ++ b.2.1)
  else if m.header.sync = 0 then do
    let c ← send b.1
    some (c.1, a.2 ++ b.2.1 ++ c.2)
  else some (b.1, a.2 ++ b.2.1)

/-- `compute_gps_time`, assertions rtcm3_sbp.c:1193,1203; the inner `none` is WN_UNKNOWN   rtcm3_sbp.c:1185-1220 -/
def computeGpsTime (towMs : Nat) (rover : GpsTime) : Option (Option GpsTime) :=
  if towMs ≥ weekMs then some none
  else do
    must rover.valid
    match computeGpsMessageTime towMs rover with
    | none => some none
    | some t => do
      must t.valid
      some (some t)

/-- `add_glo_obs_to_buffer`   rtcm3_sbp.c:663-701 -/
def addGlo (env : Env) (m : Obs.Msg) (s : State) : Option (State × List Out) :=
  match s.leap with
  | none => some (s, [])
  | some leap =>
    match computeGloTime m.header.towMs s.timeInput (some leap) with
    | none => some (s, [])
    | some t =>
      if ¬ t.valid then some (s, [])
      else if ¬ gloPlausible t leap s then some (s, [])
      else if msmActive t s then some (s, [])
      else if ¬ s.lastGlo.valid ∨ diff t s.lastGlo > 1 / 2000 then addObsToBuffer env true m t { s with lastGlo := t }
      else some (s, [])

/-- `add_gps_obs_to_buffer`   rtcm3_sbp.c:703-725 -/
def addGps (env : Env) (m : Obs.Msg) (s : State) : Option (State × List Out) := do
  match ← computeGpsTime m.header.towMs s.timeInput with
  | none => some (s, [])
  | some t =>
    let v := validateBaseObs t s.timeInput
    if ¬ t.valid then some (s, v)
    else if msmActive t s then some (s, v)
    else if ¬ s.lastGps.valid ∨ diff t s.lastGps > 1 / 2000 then do
      let x ← addObsToBuffer env false m t { s with lastGps := t }
      some (x.1, v ++ x.2)
    else some (s, v)

/-! ### MSM -/

/-- `get_sid_from_msm`, assertions rtcm3_sbp.c:1420, rtcm3_utils.c:252,372, msm_utils.c:105,119 -/
def sidFromMsm (env : Env) (h : Hdr) (sat sig : Nat) (s : State) : Option (Option (Nat × Code) × State × List Out) := do
  must (sig ≤ sigMaskSize ∧ sat ≤ satMaskSize)
  let code ← signalToCode h sig
  let prn ← satToPrn env.prn h sat
  if code ≠ .invalid ∧ prn ≠ 0 then some (some (prn, code), s, [])
  else if code = .invalid then do
    let w ← warnCode 0 s
    some (none, w.1, w.2)
  else some (none, s, [])

/-- `msm_get_glo_fcn`: index into `glo_sv_id_fcn_map`   rtcm3_utils.c:548-567 -/
def gloFcn (cons : Cons) (prn : Nat) (satInfo : Nat) (s : State) : Option Nat :=
  if cons ≠ .glo then some fcnUnknown else if satInfo = fcnUnknown then s.fcn[prn]? else some satInfo

/-- the conversion loop of `add_msm_obs_to_buffer`: `sats[sat]` has RTCM_MAX_SATS elements, `signals[i]` MSM_MAX_CELLS   rtcm3_sbp.c:1546-1660 -/
def msmLoop (env : Env) (cons : Cons) (m : Msm.Msg) : List (Nat × Nat × Nat) → State → Option (State × List Out)
  | [], s => some (s, [])
  | (sat, sig, i) :: r, s => do
    must (i < maxCells)
    let x ← sidFromMsm env (hdrOf cons m.header) sat sig s
    match x.1 with
    | none => do
      let y ← msmLoop env cons m r x.2.1
      some (y.1, x.2.2 ++ y.2)
    | some (prn, code) =>
      if env.masked cons = false ∧ unsupported code = false ∧ (m.sig i).vPr = true then
        if x.2.1.buf.length ≥ maxObs then some (x.2.1, x.2.2 ++ [.log .bufferFull])
        else do
          must (sat < maxSats)
          let fcn ← gloFcn cons prn (m.sat sat).gloFcn x.2.1
          let s' ← put (packMsm env prn code fcn (m.sig i)) x.2.1
          let y ← msmLoop env cons m r s'
          some (y.1, x.2.2 ++ y.2)
      else do
        let y ← msmLoop env cons m r x.2.1
        some (y.1, x.2.2 ++ y.2)

/-- the observation time of an MSM message   rtcm3_sbp.c:1461-1502 -/
def msmTime (cons : Cons) (towMs : Nat) (s : State) : Option (Option GpsTime × List Out) :=
  if cons = .glo then
    match s.leap with
    | none => some (none, [])
    | some leap =>
      match computeGloTime towMs s.timeInput (some leap) with
      | none => some (none, [])
      | some t => if t.valid ∧ gloPlausible t leap s then some (some t, []) else some (none, [])
  else do
    match ← computeGpsTime (if cons = .bds then beidouTowToGpsTow towMs else towMs) s.timeInput with
    | none => some (none, [])
    | some t => some (if t.valid then some t else none, validateBaseObs t s.timeInput)

/-- `add_msm_obs_to_buffer`; `cell_mask[]` has MSM_MAX_CELLS elements   rtcm3_sbp.c:1459-1660 -/
def addMsm (env : Env) (cons : Cons) (m : Msm.Msg) (s : State) : Option (State × List Out) := do
  let tt ← msmTime cons m.header.towMs s
  match tt.1 with
  | none => some (s, tt.2)
  | some t =>
    if ¬ s.lastGps.valid ∧ |t.tow| ≤ 1 / 10 ^ 12 then some (s, tt.2)
    else do
      let s0 := if ¬ msmActive t s ∧ s.buf.length > 0 then { s with buf := [], obsTime := ⟨0, 0⟩ } else s
      let a ← flushIfOther (sbpTime t) (stnToSender m.header.stnId) [.log .notEmpty] { s0 with lastGps := t, lastGlo := t, lastMsm := t }
      must (m.header.satMask.count true * m.header.sigMask.count true ≤ maxCells)
      let b ← msmLoop env cons m (msmCells m.header) { a.1 with obsTime := sbpTime t, sender := stnToSender m.header.stnId }
      some (b.1, tt.2 ++ a.2 ++ b.2)

/-! ### decoders -/

/-- `rtcm3_decode_1002` ...: the number of satellites is a field of the header, `sats[]` has RTCM_MAX_SATS elements
librtcm/src/decode.c:180-202,337-340,386-389,504-507,717-720,777-780 -/
def obsHeaderOk : Except RC Obs.Header → Option Unit
  | .ok h => must (h.nSat ≤ maxSats)
  | .error _ => some ()
def decodeObs (k : Obs.Kind) (p : Buf) : Option (Except RC Obs.Msg) := do
  obsHeaderOk ((Obs.readHeader k).run p)
  some ((Obs.decode k).run p)

/-- the header of an MSM message as `rtcm3_decode_msm_internal` reads it   librtcm/src/decode.c:1188-1205 -/
def msmHeader : Dec Msm.Header := do
  let n ← Dec.getU 12
  match toConstellation n with
  | none => Dec.fail .typeMismatch
  | some cons => readMsmHeader n cons

/-- `rtcm3_decode_msm4` ... `msm7`: the loop at decode.c:252-254 stores `(uint8_t)(num_sats * num_sigs)` elements of `cell_mask[MSM_MAX_CELLS]`,
the loop at decode.c:1335-1381 `num_sats` elements of `sats[RTCM_MAX_SATS]` and as many of `signals[MSM_MAX_CELLS]` as there are cells
librtcm/src/decode.c:213-256,1178-1384.  The check of the first loop does not wait for the store of element 64. -/
def msmHeaderOk : Except RC Msm.Header → Option Unit
  | .ok h => must ((h.satMask.count true * h.sigMask.count true) % 256 ≤ maxCells)
  | .error _ => some ()
def decodeMsm (ty : MsmType) (p : Buf) : Option (Except RC Msm.Msg) := do
  msmHeaderOk (msmHeader.run p)
  match (Msm.decodeMsm ty).run p with
  | .ok m => do
    must (m.sats.length ≤ maxSats ∧ m.sigs.length ≤ maxCells)
    some (.ok m)
  | .error e => some (.error e)

/-! ### dispatch -/

/-- the second `switch (message_type)` of `rtcm2sbp_decode_payload`   rtcm3_sbp.c:213-632 -/
def dispatch (env : Env) (inp : Input) (n : Nat) (s : State) : Option (State × List Out) :=
  if n = 1002 ∨ n = 1004 then do
    match ← decodeObs (if n = 1002 then .m1002 else .m1004) inp.payload with
    | .ok m => addGps env m s
    | .error _ => some (s, [])
  else if n = 1010 ∨ n = 1012 then do
    match ← decodeObs (if n = 1010 then .m1010 else .m1012) inp.payload with
    | .ok m => addGlo env m s
    | .error _ => some (s, [])
  else if n = 1020 then
    match inp.gloEph with
    | some (sat, fcn) => do
      let s' ← setGloFcn sat fcn s
      some (s', [.converted 1020])
    | none => some (s, [])
  else if n = 1033 then
    match decode1033.run inp.payload with
    | .ok _ => some (if no1230 s then (s, [.converted 1033]) else (s, []))
    | .error _ => some (s, [])
  else if n = 1230 then
    match decode1230.run inp.payload with
    | .ok _ => some ({ s with last1230 := s.timeInput }, [.converted 1230])
    | .error _ => some (s, [])
  else if n ∈ otherTypes then some (s, List.replicate inp.extra (.converted n))
  else if n ∈ msm13 then some (msmWarning inp.payload s)
  else match msmSupported n with
    | some (ty, cons) => do
      match ← decodeMsm ty inp.payload with
      | .ok m => addMsm env cons m s
      | .error _ => some (s, [])
    | none => some (s, [])

/-- the end-of-epoch test: `rtcm_getbitu(payload, 54, 1)` reads the payload   rtcm3_sbp.c:634-646 -/
def endsEpoch (n : Nat) (p : Buf) : Option Bool :=
  if 1070 ≤ n ∧ n ≤ 1229 then
    if 8 * p.length < 54 then some false
    else do
      must (54 + 1 ≤ 8 * p.length)
      some (decide (getbitu p 54 1 = 0))
  else some false

/-- `rtcm2sbp_decode_payload`: bytes 0 and 1 of the payload are read   rtcm3_sbp.c:133-647 -/
def step (env : Env) (s : State) (inp : Input) : Option (State × List Out) :=
  if inp.payload.length < 2 then some (s, [])
  else do
    must (1 < inp.payload.length)
    let n := messageType inp.payload
    let s0 := { s with timeInput := inp.time }
    if n ∉ whitelist ∧ inp.solved = false then some (s0, [])
    else do
      let a ← dispatch env inp n (if inp.solved then { s0 with leap := some (env.utcOffset inp.time) } else s0)
      if ← endsEpoch n inp.payload then do
        let b ← send a.1
        some (b.1, a.2 ++ b.2)
      else some a

/-! ### the program -/

/-- `rtcm2sbp_decode_payload` with the callback of rtcm3tosbp   rtcm3_sbp.c:133-647, rtcm3tosbp.c:62-73 -/
def progStep (su : Prog.Setup) (st : Prog.State) (p : Buf) : Option (Prog.State × List Prog.Msg) := do
  let r ← step su.env st.conv (Prog.input su st p)
  let out := (RtcmSbp.Spec.obsOut r.2).map .obs ++ (Prog.ephs su st p).map fun e => .eph e.1 e.2
  some ((out ++ Prog.unwrapped su p).foldl (Prog.callback su.lib.weekRef) { st with conv := r.1 }, out)

def progRun (su : Prog.Setup) (st : Prog.State) : List Buf → Option (Prog.State × List Prog.Msg)
  | [] => some (st, [])
  | p :: ps => do
    let a ← progStep su st p
    let b ← progRun su a.1 ps
    some (b.1, a.2 ++ b.2)

/-- the program: the outer `none` is a failed assertion or an access outside an array, the inner one the error of a missing start time
rtcm3tosbp.c:140-273 -/
def main (crc : Buf → BitVec 24) (su : Prog.Setup) (unix : Int) (obs : Bool) (reads : List Buf) : Option (Option (List Prog.Msg)) :=
  match Prog.start su unix obs with
  | none => some none
  | some st => (progRun su st (Prog.payloads crc (reads.takeWhile fun r => !r.isEmpty))).map fun r => some r.2

end Verif.Guard
