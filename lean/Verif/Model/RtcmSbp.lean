import Verif.Model.GpsTime
import Verif.Model.LegacyObs
import Verif.Model.Msm
import Verif.Model.Station
/-
The RTCM-to-SBP converter: message dispatch, observation buffer, GLONASS channel table.
gnss_converters/src/rtcm3_sbp.c:78-957,1161-1292,1352-1660.
The conversion of the observations rounds every `double` operation that can be inexact (`Fp.f64`); times (multiples of a millisecond) are exact
rationals.  Conversions of doubles to integer types are modelled where C defines them (value
in range).  Conversions of messages other than observations (positions, ephemerides, SSR, text, ...) are not part of
this model: the number of SBP messages they produce is an input (`Input.extra`).
-/
namespace Verif.RtcmSbp
open Verif.Time Verif.Msm Verif.Lock

/-- C `rint()`: nearest integer, halfway cases to even -/
def crint (x : ℚ) : Int :=
  if x - ⌊x⌋ < 1 / 2 then ⌊x⌋ else if x - ⌊x⌋ > 1 / 2 then ⌊x⌋ + 1 else if ⌊x⌋ % 2 = 0 then ⌊x⌋ else ⌊x⌋ + 1

/-- `sbp_v4_gps_time_t` (`ns_residual` is always 0 here) -/
structure SbpTime where
  wn : Int
  tow : Nat
deriving DecidableEq

/-- `sbp_packed_obs_content_t` -/
structure SbpObs where
  sat : Nat
  code : Code
  P : Nat
  Li : Int
  Lf : Nat
  Di : Int
  Df : Nat
  cn0 : Nat
  lock : Nat
  flags : Nat
deriving DecidableEq

/-- an emitted SbpMsgObs with its sender -/
structure ObsMsg where
  sender : Nat
  t : SbpTime
  /-- `header.n_obs`: total in the high nibble, index in the low nibble -/
  seq : Nat
  obs : List SbpObs
deriving DecidableEq

/-- log messages sent by the observation code   rtcm3_sbp.c:1352-1405 -/
inductive LogKind | msm13 | bufferFull | notEmpty | unsupportedCode (i : Nat)
deriving DecidableEq

/-- everything the callbacks receive -/
inductive Out
  | obs (m : ObsMsg)
  | log (k : LogKind)
  /-- `cb_base_obs_invalid(timediff)` -/
  | baseObsInvalid (timediff : ℚ)
  /-- an SBP message converted from a non-observation RTCM message of this type -/
  | converted (msgNum : Nat)
deriving DecidableEq

/-- libswiftnav tables and command-line options used by the observation code -/
structure Env where
  prn : PrnTable
  /-- `sbp_signal_biases` (options.c:22) -/
  sigBias : Code → ℚ
  /-- `constellation_mask` (options.c:25) -/
  masked : Cons → Bool
  /-- `msm_signal_frequency` for a code and GLONASS channel (rtcm3_utils.c:412-535, carrier frequencies of libswiftnav) -/
  freq : Code → Nat → Option ℚ
  /-- `msm_glo_fcn_bias`: code bias (m) and phase bias (cycles) -/
  gloBias : Code → Nat → ℚ × ℚ
  /-- `get_gps_utc_offset` of libswiftnav -/
  utcOffset : GpsTime → Int

/-- the members of `rtcm3_sbp_state` used here   gnss_converters/include/gnss-converters/rtcm3_sbp.h:66-110 -/
structure State where
  timeInput : GpsTime
  leap : Option Int
  lastGps : GpsTime
  lastGlo : GpsTime
  lastMsm : GpsTime
  last1230 : GpsTime
  sender : Nat
  obsTime : SbpTime
  buf : List SbpObs
  sentMsmWarning : Bool
  sentCode : List Bool
  /-- `glo_sv_id_fcn_map`, NUM_SATS_GLO + 1 entries -/
  fcn : List Nat

/-- NUM_SATS_GLO, GLO_FIRST_PRN, MSM_GLO_FCN_UNKNOWN, MSM_GLO_MAX_FCN -/
abbrev numSatsGlo : Nat := 28
abbrev fcnUnknown : Nat := 255
abbrev maxFcn : Nat := 13
/-- SBP_MSG_OBS_OBS_MAX, MAX_OBS_PER_EPOCH   rtcm3_sbp.h:36-37 -/
abbrev obsPerMsg : Nat := 14
abbrev maxObs : Nat := 210

/-- `rtcm2sbp_init`   rtcm3_sbp.c:78-131 -/
def State.init : State where
  timeInput := .unknown
  leap := none
  lastGps := .unknown
  lastGlo := .unknown
  lastMsm := .unknown
  last1230 := .unknown
  sender := 0
  obsTime := ⟨0, 0⟩
  buf := []
  sentMsmWarning := false
  sentCode := [false, false, false]
  fcn := List.replicate (numSatsGlo + 1) fcnUnknown

/-- `rtcm_stn_to_sbp_sender_id`   rtcm3_sbp_internal.h:206-210 -/
def stnToSender (stn : Nat) : Nat := stn ||| 0xF080

/-! ### sending -/

/-- the loop of `send_observations`: `k` messages left, message number, index into the buffer   rtcm3_sbp.c:930-951 -/
def sendLoop (s : State) (total : Nat) : (k msgNum idx : Nat) → List ObsMsg
  | 0, _, _ => []
  | k + 1, msgNum, idx =>
    let c := min obsPerMsg (s.buf.length - idx)
    { sender := s.sender, t := s.obsTime, seq := ((total <<< 4) + msgNum) % 256, obs := (s.buf.drop idx).take c }
      :: sendLoop s total k (msgNum + 1) (idx + c)
/-- `send_observations`   rtcm3_sbp.c:916-957 (`total_messages` is a `u8`) -/
def sendObservations (s : State) : State × List Out :=
  let total := (1 + (if s.buf.length > 0 then (s.buf.length - 1) / obsPerMsg else 0)) % 256
  ({ s with buf := [], obsTime := ⟨0, 0⟩ }, (sendLoop s total total 0 0).map .obs)

/-- `send_unsupported_code_warning`   rtcm3_sbp.c:1389-1405 -/
def warnCode (i : Nat) (s : State) : State × List Out :=
  if s.sentCode.getD i false then (s, []) else ({ s with sentCode := s.sentCode.set i true }, [.log (.unsupportedCode i)])

/-! ### packing -/

/-- integer and fraction of a value in units of 1/256   rtcm3_sbp.c:868-877,1604-1612,1632-1639 -/
def packFrac (x : ℚ) : Int × Nat :=
  let f := crint (Fp.f64 (x - ⌊x⌋) * 256)
  if f = 256 then (⌊x⌋ + 1, 0) else (⌊x⌋, f.toNat)

/-- `(u32)rint(pseudorange * 50)` -/
def packP (p : ℚ) : Nat := (crint (Fp.f64 (p * 50))).toNat
/-- `(u8)rint(cnr * 4)` or 0 -/
def packCn0 (valid : Bool) (c : ℚ) : Nat := if valid then (crint (c * 4)).toNat else 0

/-- one legacy observation   rtcm3_sbp.c:861-886 (only reached with valid pseudorange and phase) -/
def packLegacy (env : Env) (sat : Nat) (code : Code) (d : Obs.Freq) : SbpObs :=
  let l := packFrac d.cp
  { sat, code, P := packP (Fp.f64 (d.pr + env.sigBias code)), Li := l.1, Lf := l.2, Di := 0, Df := 0
    cn0 := packCn0 d.vCnr d.cnr, lock := if d.vLock then encodeLockTime d.lock else 0, flags := 7 }

/-- PRN and code of a legacy observation on frequency `f` (0 = L1, 1 = L2); `none` = skipped   rtcm3_sbp.c:743-784,831-858 -/
def legacySid (glo : Bool) (svId : Nat) (f : Nat) (code : Nat) : Option (Nat × Code) :=
  if glo then
    if 1 ≤ svId ∧ svId ≤ 24 then some (svId, if f = 0 then .glo_l1of else .glo_l2of) else none
  else
    if 1 ≤ svId ∧ svId ≤ 32 then
      some (svId, if f = 0 then (if code = 0 then .gps_l1ca else .gps_l1p) else (if code = 0 then .gps_l2cm else .gps_l2p))
    else if 40 ≤ svId ∧ svId ≤ 58 ∧ f = 0 then some (svId + 80, .sbas_l1ca)
    else none

/-- `get_glo_sbp_code` warns about P codes (index 1 for L1, 2 for L2)   rtcm3_sbp.c:761-784 -/
def legacyWarn (glo : Bool) (svId f code : Nat) (s : State) : State × List Out :=
  if glo ∧ 1 ≤ svId ∧ svId ≤ 24 ∧ code ≠ 0 then warnCode (f + 1) s else (s, [])

/-- observation of a satellite on a frequency -/
def freqOf (sat : Obs.Sat) (f : Nat) : Obs.Freq := if f = 0 then sat.l1 else sat.l2

/-- the conversion loop of `add_obs_to_buffer`; the flag is false when it returned early   rtcm3_sbp.c:809-904 -/
def legacyLoop (env : Env) (glo : Bool) : List (Obs.Sat × Nat) → State → State × List Out × Bool
  | [], s => (s, [], true)
  | (sat, f) :: r, s =>
    let d := freqOf sat f
    if d.vPr = true ∧ d.vCp = true then
      if s.buf.length ≥ maxObs then (s, [.log .bufferFull], false)
      else
        let w := legacyWarn glo sat.svId f d.code s
        match legacySid glo sat.svId f d.code with
        | none => let x := legacyLoop env glo r w.1; (x.1, w.2 ++ x.2.1, x.2.2)
        | some (prn, code) =>
          let x := legacyLoop env glo r { w.1 with buf := w.1.buf ++ [packLegacy env prn code d] }
          (x.1, w.2 ++ x.2.1, x.2.2)
    else legacyLoop env glo r s

/-- satellites × frequencies in loop order (NUM_FREQS = 2) -/
def cells (m : Obs.Msg) : List (Obs.Sat × Nat) := m.sats.flatMap fun s => [(s, 0), (s, 1)]

/-- flush the buffer if it belongs to another time of week or station   rtcm3_sbp.c:796-804 -/
def flushIfOther (t : SbpTime) (sender : Nat) (warn : List Out) (s : State) : State × List Out :=
  if s.buf.length ≠ 0 ∧ (s.obsTime.tow ≠ t.tow ∨ s.sender ≠ sender) then
    let x := sendObservations s
    (x.1, warn ++ x.2)
  else (s, [])

/-- `new_obs_time`: `tow = (u32)rint(tow * 1000)`   rtcm3_sbp.c:791-793,1521-1523 -/
def sbpTime (t : GpsTime) : SbpTime := ⟨t.wn, (crint (t.tow * 1000)).toNat⟩

/-- `add_obs_to_buffer`   rtcm3_sbp.c:787-911 -/
def addObsToBuffer (env : Env) (glo : Bool) (m : Obs.Msg) (t : GpsTime) (s : State) : State × List Out :=
  let a := flushIfOther (sbpTime t) (stnToSender m.header.stnId) [] s
  let s1 := { a.1 with obsTime := sbpTime t, sender := stnToSender m.header.stnId }
  let b := legacyLoop env glo (cells m) s1
  if b.2.2 = false then (b.1, a.2 ++ b.2.1)
  else if m.header.sync = 0 then
    let c := sendObservations b.1
    (c.1, a.2 ++ b.2.1 ++ c.2)
  else (b.1, a.2 ++ b.2.1)

/-! ### gates -/

/-- `is_msm_active`   rtcm3_sbp.c:657-661 -/
def msmActive (t : GpsTime) (s : State) : Prop := s.lastMsm.valid ∧ diff t s.lastMsm < 5
instance (t s) : Decidable (msmActive t s) := inferInstanceAs (Decidable (_ ∧ _))

/-- the GLONASS plausibility check   rtcm3_sbp.c:678-690,1473-1485 -/
def gloPlausible (t : GpsTime) (leap : Int) (s : State) : Prop :=
  |diff t s.timeInput - leap| ≤ 30 ∨ (s.lastGps.valid ∧ |diff t s.lastGps - leap| ≤ 30)
instance (t l s) : Decidable (gloPlausible t l s) := inferInstanceAs (Decidable (_ ∨ _))

/-- `add_glo_obs_to_buffer`   rtcm3_sbp.c:663-701 -/
def addGlo (env : Env) (m : Obs.Msg) (s : State) : State × List Out :=
  match s.leap with
  | none => (s, [])
  | some leap =>
    match computeGloTime m.header.towMs s.timeInput (some leap) with
    | none => (s, [])
    | some t =>
      if ¬ t.valid then (s, [])
      else if ¬ gloPlausible t leap s then (s, [])
      else if msmActive t s then (s, [])
      else if ¬ s.lastGlo.valid ∨ diff t s.lastGlo > 1 / 2000 then
        addObsToBuffer env true m t { s with lastGlo := t }
      else (s, [])

/-- `validate_base_obs_sanity` (callback set)   rtcm3_sbp.c:1270-1284 -/
def validateBaseObs (t rover : GpsTime) : List Out :=
  if t.valid ∧ rover.valid ∧ diff rover t ≥ 10 then [.baseObsInvalid (diff rover t)] else []

/-- `compute_gps_time`   rtcm3_sbp.c:1214-1220.  (An invalid rover time fails an assertion; not reachable when time is
solved, modelled as no time.) -/
def computeGpsTime (towMs : Nat) (rover : GpsTime) : Option GpsTime :=
  if rover.valid then computeGpsMessageTime towMs rover else none

/-- `add_gps_obs_to_buffer`   rtcm3_sbp.c:703-725 -/
def addGps (env : Env) (m : Obs.Msg) (s : State) : State × List Out :=
  match computeGpsTime m.header.towMs s.timeInput with
  | none => (s, [])
  | some t =>
    let v := validateBaseObs t s.timeInput
    if ¬ t.valid then (s, v)
    else if msmActive t s then (s, v)
    else if ¬ s.lastGps.valid ∨ diff t s.lastGps > 1 / 2000 then
      let x := addObsToBuffer env false m t { s with lastGps := t }
      (x.1, v ++ x.2)
    else (s, v)

/-! ### MSM -/

/-- masks of a decoded MSM header for `msm_signal_to_code` / `msm_sat_to_prn` -/
def hdrOf (cons : Cons) (h : Msm.Header) : Hdr := ⟨cons, h.satMask, h.sigMask, h.cellMask⟩

/-- `unsupported_signal`   rtcm3_sbp.c:1435-1457 -/
def unsupported : Code → Bool
  | .glo_l1p | .glo_l2p | .bds3_b1ci | .bds3_b1cq | .bds3_b1cx | .bds3_b7i | .bds3_b7q | .bds3_b7x
  | .bds3_b3i | .bds3_b3q | .bds3_b3x => true
  | _ => false

/-- `get_sid_from_msm`, with its warning   rtcm3_sbp.c:1415-1433 (`none` of the mask functions is a failing assertion,
excluded by the mask sizes; PRN 0 is PRN_INVALID) -/
def sidFromMsm (env : Env) (h : Hdr) (sat sig : Nat) (s : State) : Option (Nat × Code) × State × List Out :=
  let code := (signalToCode h sig).getD .invalid
  let prn := (satToPrn env.prn h sat).getD 0
  if code ≠ .invalid ∧ prn ≠ 0 then (some (prn, code), s, [])
  else if code = .invalid then let w := warnCode 0 s; (none, w.1, w.2)
  else (none, s, [])

/-- `msm_get_glo_fcn` (the result value is ignored by the caller)   rtcm3_utils.c:548-567, rtcm3_sbp.c:1567-1572 -/
def gloFcn (cons : Cons) (prn : Nat) (satInfo : Nat) (s : State) : Nat :=
  if cons ≠ .glo then fcnUnknown else if satInfo = fcnUnknown then s.fcn.getD prn 0 else satInfo

/-- pseudorange in metres with the biases   rtcm3_sbp.c:1595-1597 -/
def prM (d bias gloBias : ℚ) : ℚ := Fp.f64 (Fp.f64 (Fp.f64 (Fp.f64 (d * 299792458) / 1000) + bias) + gloBias)
/-- carrier phase in cycles with the bias   rtcm3_sbp.c:1602-1603 -/
def cpCyc (d f bias : ℚ) : ℚ := Fp.f64 (Fp.f64 (Fp.f64 (d * f) / 1000) + bias)
/-- Doppler in Hz   rtcm3_sbp.c:1631 -/
def dopHz (d f : ℚ) : ℚ := Fp.f64 (Fp.f64 (-d * f) / 299792458)

/-- one MSM observation   rtcm3_sbp.c:1583-1643 -/
def packMsm (env : Env) (prn : Nat) (code : Code) (fcn : Nat) (d : Msm.Sig) : SbpObs :=
  let fr := env.freq code fcn
  let b := env.gloBias code fcn
  let cpOk := d.vCp && fr.isSome
  let dopOk := d.vDop && fr.isSome
  let l := if cpOk then packFrac (cpCyc d.cp (fr.getD 0) b.2) else (0, 0)
  let dp := if dopOk then packFrac (dopHz d.rate (fr.getD 0)) else (0, 0)
  { sat := prn, code
    P := packP (prM d.pr (env.sigBias code) b.1)
    Li := l.1, Lf := l.2, Di := dp.1, Df := dp.2
    cn0 := packCn0 d.vCnr d.cnr, lock := if d.vLock then encodeLockTime d.lock else 0
    flags := 1 + (if cpOk then 2 + (if d.hca then 0 else 4) else 0) + (if dopOk then 8 else 0) }

/-- the set cells: satellite row, signal column, index of the cell among the set cells   rtcm3_sbp.c:1546-1549,1657 -/
def msmCells (h : Msm.Header) : List (Nat × Nat × Nat) :=
  let ns := h.satMask.count true
  let ng := h.sigMask.count true
  let set := (List.range ns).flatMap fun sat => (List.range ng).flatMap fun sig =>
    if h.cellMask.getD (sat * ng + sig) false then [(sat, sig)] else []
  set.zipIdx.map fun p => (p.1.1, p.1.2, p.2)

/-- the conversion loop of `add_msm_obs_to_buffer`   rtcm3_sbp.c:1546-1660 -/
def msmLoop (env : Env) (cons : Cons) (m : Msm.Msg) : List (Nat × Nat × Nat) → State → State × List Out
  | [], s => (s, [])
  | (sat, sig, i) :: r, s =>
    let x := sidFromMsm env (hdrOf cons m.header) sat sig s
    match x.1 with
    | none => let y := msmLoop env cons m r x.2.1; (y.1, x.2.2 ++ y.2)
    | some (prn, code) =>
      if env.masked cons = false ∧ unsupported code = false ∧ (m.sig i).vPr = true then
        if x.2.1.buf.length ≥ maxObs then (x.2.1, x.2.2 ++ [.log .bufferFull])
        else
          let o := packMsm env prn code (gloFcn cons prn (m.sat sat).gloFcn x.2.1) (m.sig i)
          let y := msmLoop env cons m r { x.2.1 with buf := x.2.1.buf ++ [o] }
          (y.1, x.2.2 ++ y.2)
      else let y := msmLoop env cons m r x.2.1; (y.1, x.2.2 ++ y.2)

/-- the observation time of an MSM message and the callbacks made while computing it   rtcm3_sbp.c:1461-1502 -/
def msmTime (cons : Cons) (towMs : Nat) (s : State) : Option GpsTime × List Out :=
  if cons = .glo then
    match s.leap with
    | none => (none, [])
    | some leap =>
      match computeGloTime towMs s.timeInput (some leap) with
      | none => (none, [])
      | some t => if t.valid ∧ gloPlausible t leap s then (some t, []) else (none, [])
  else
    match computeGpsTime (if cons = .bds then beidouTowToGpsTow towMs else towMs) s.timeInput with
    | none => (none, [])
    | some t => (if t.valid then some t else none, validateBaseObs t s.timeInput)

/-- `add_msm_obs_to_buffer`   rtcm3_sbp.c:1459-1660 -/
def addMsm (env : Env) (cons : Cons) (m : Msm.Msg) (s : State) : State × List Out :=
  let tt := msmTime cons m.header.towMs s
  match tt.1 with
  | none => (s, tt.2)
  | some t =>
    if ¬ s.lastGps.valid ∧ |t.tow| ≤ 1 / 10 ^ 12 then (s, tt.2)
    else
      let s0 := if ¬ msmActive t s ∧ s.buf.length > 0 then { s with buf := [], obsTime := ⟨0, 0⟩ } else s
      let s1 := { s0 with lastGps := t, lastGlo := t, lastMsm := t }
      let a := flushIfOther (sbpTime t) (stnToSender m.header.stnId) [.log .notEmpty] s1
      let s2 := { a.1 with obsTime := sbpTime t, sender := stnToSender m.header.stnId }
      let b := msmLoop env cons m (msmCells m.header) s2
      (b.1, tt.2 ++ a.2 ++ b.2)

/-! ### GLONASS channel table -/

/-- `sbp_fcn_to_rtcm`: `s8 rtcm_fcn = sbp_fcn + 7 - 8`   rtcm3_sbp.c:1161-1171 -/
def sbpFcnToRtcm (sbpFcn : Nat) : Nat :=
  if sbpFcn = 0 then fcnUnknown
  else
    let v : Int := (BitVec.ofInt 8 ((sbpFcn : Int) + 7 - 8)).toInt
    if v < 0 ∨ v > maxFcn then fcnUnknown else v.toNat
/-- `rtcm2sbp_set_glo_fcn`; `none` would be a write outside the table   rtcm3_sbp.c:1173-1183 -/
def setGloFcn (sat sbpFcn : Nat) (s : State) : Option State :=
  if sat < 1 ∨ sat ≥ 1 + numSatsGlo then some s
  else if sat < s.fcn.length then some { s with fcn := s.fcn.set sat (sbpFcnToRtcm sbpFcn) } else none

/-! ### dispatch -/

/-- One call of `rtcm2sbp_decode_payload` with what it gets from outside this model: the time-truth state and time, the
number of SBP messages produced by the conversion of a non-observation message, and the satellite and SBP channel
number of a successfully converted GLONASS ephemeris. -/
structure Input where
  solved : Bool
  time : GpsTime
  payload : Buf
  extra : Nat := 0
  gloEph : Option (Nat × Nat) := none

/-- `message_type`   rtcm3_sbp.c:144-146 -/
def messageType (p : Buf) : Nat := ((p.getD 0 0).toNat <<< 4) ||| (((p.getD 1 0).toNat >>> 4) &&& 0xf)

/-- MSM1-3 message types   rtcm3_sbp.c:163-181,580-605 -/
def msm13 : List Nat :=
  [1071, 1072, 1073, 1081, 1082, 1083, 1091, 1092, 1093, 1101, 1102, 1103, 1111, 1112, 1113, 1121, 1122, 1123]
/-- message types processed without a time solution   rtcm3_sbp.c:155-199 -/
def whitelist : List Nat := [1005, 1006, 1029] ++ msm13 ++ [4062, 4075, 1019, 1042, 1045, 1046]
/-- non-observation types with a conversion outside this model   rtcm3_sbp.c:236-566,606-632 -/
def otherTypes : List Nat :=
  [1005, 1006, 1019, 1042, 1044, 1045, 1046, 1029, 4062, 4075,
   1057, 1063, 1240, 1246, 1258, 1058, 1064, 1241, 1247, 1259, 1059, 1065, 1242, 1248, 1260,
   1060, 1066, 1243, 1249, 1261, 1265, 1266, 1267, 1268, 1269, 1270]

/-- `no_1230_received`   rtcm3_sbp.c:1286-1293 -/
def no1230 (s : State) : Prop := ¬ s.last1230.valid ∨ diff s.timeInput s.last1230 > 120
instance (s) : Decidable (no1230 s) := inferInstanceAs (Decidable (_ ∨ _))

/-- supported MSM4..MSM7 types: 1074-1077, 1084-1087, 1094-1097, 1124-1127   rtcm3_sbp.c:535-573 -/
def msmSupported (n : Nat) : Option (MsmType × Cons) :=
  match toMsmType n, toConstellation n with
  | .msm4, some c => if c = .sbas ∨ c = .qzs then none else some (.msm4, c)
  | .msm5, some c => if c = .sbas ∨ c = .qzs then none else some (.msm5, c)
  | .msm6, some c => if c = .sbas ∨ c = .qzs then none else some (.msm6, c)
  | .msm7, some c => if c = .sbas ∨ c = .qzs then none else some (.msm7, c)
  | _, _ => none

/-- `send_MSM_warning`; the station id it reads needs 36 bits (`swiftnav_bitstream_getbitu(.., 12, 24)`)
rtcm3_sbp.c:1352-1366 -/
def msmWarning (payload : Buf) (s : State) : State × List Out :=
  if s.sentMsmWarning then (s, [])
  else ({ s with sentMsmWarning := true }, if 36 ≤ 8 * payload.length then [.log .msm13] else [])

/-- the second `switch (message_type)` of `rtcm2sbp_decode_payload`   rtcm3_sbp.c:213-632 -/
def dispatch (env : Env) (inp : Input) (n : Nat) (s : State) : State × List Out :=
  if n = 1002 ∨ n = 1004 then
    match (Obs.decode (if n = 1002 then .m1002 else .m1004)).run inp.payload with
    | .ok m => addGps env m s
    | .error _ => (s, [])
  else if n = 1010 ∨ n = 1012 then
    match (Obs.decode (if n = 1010 then .m1010 else .m1012)).run inp.payload with
    | .ok m => addGlo env m s
    | .error _ => (s, [])
  else if n = 1020 then
    match inp.gloEph with
    | some (sat, fcn) => ((setGloFcn sat fcn s).getD s, [.converted 1020])
    | none => (s, [])
  else if n = 1033 then
    match decode1033.run inp.payload with
    | .ok _ => if no1230 s then (s, [.converted 1033]) else (s, [])
    | .error _ => (s, [])
  else if n = 1230 then
    match decode1230.run inp.payload with
    | .ok _ => ({ s with last1230 := s.timeInput }, [.converted 1230])
    | .error _ => (s, [])
  else if n ∈ otherTypes then (s, List.replicate inp.extra (.converted n))
  else if n ∈ msm13 then msmWarning inp.payload s
  else match msmSupported n with
    | some (ty, cons) =>
      match (decodeMsm ty).run inp.payload with
      | .ok m => addMsm env cons m s
      | .error _ => (s, [])
    | none => (s, [])

/-- the end-of-epoch test: MSM_MSG_TYPE_MIN..MAX and the multiple-message bit   rtcm3_sbp.c:634-646 -/
def endsEpoch (n : Nat) (p : Buf) : Prop := 1070 ≤ n ∧ n ≤ 1229 ∧ ¬ 8 * p.length < 54 ∧ getbitu p 54 1 = 0
instance (n p) : Decidable (endsEpoch n p) := inferInstanceAs (Decidable (_ ∧ _ ∧ _ ∧ _))

/-- `rtcm2sbp_decode_payload`   rtcm3_sbp.c:133-647 -/
def step (env : Env) (s : State) (inp : Input) : State × List Out :=
  if inp.payload.length < 2 then (s, [])
  else
    let n := messageType inp.payload
    let s0 := { s with timeInput := inp.time }
    if n ∉ whitelist ∧ inp.solved = false then (s0, [])
    else
      let s1 := if inp.solved then { s0 with leap := some (env.utcOffset inp.time) } else s0
      let a := dispatch env inp n s1
      if endsEpoch n inp.payload then
        let b := sendObservations a.1
        (b.1, a.2 ++ b.2)
      else a

/-- a history of payloads -/
def run (env : Env) (s : State) : List Input → State × List Out
  | [] => (s, [])
  | i :: is =>
    let a := step env s i
    let b := run env a.1 is
    (b.1, a.2 ++ b.2)

end Verif.RtcmSbp
