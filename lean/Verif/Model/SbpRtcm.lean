import Verif.Model.RtcmSbp
import Verif.Model.Float
/-
The SBP-to-RTCM observation path: assembly of SBP observation messages into epochs and their conversion to MSM and legacy
messages.   gnss_converters_extra/src/sbp_rtcm3.c:60-80,449-477,503-917
In the MSM path every `double` operation that can round does (`Fp.f64`); the integers, the fractions with denominators 4, 256 and 1024 and the
results of `rint` are exact.  In the legacy path the lock times (`float`) are exact rationals.  Undefined behaviour and failing assertions are explicit: the flag `bad`
for accesses outside the observation buffer or the message, `none` for the conversion.
-/
namespace Verif.SbpRtcm
open Verif.Time Verif.Msm Verif.Lock
open Verif.RtcmSbp (SbpTime SbpObs crint)

/-- MAX_OBS_PER_EPOCH   gnss_converters/include/gnss-converters/rtcm3_sbp.h:37 -/
abbrev maxObs : Nat := 210

/-- output options and tables of `rtcm3_out_state`   sbp_rtcm3.h:29-60 -/
structure Config where
  leap : Option Int
  fcn : List Nat
  legacy : Bool
  msm : Bool
  msmType : MsmType
deriving DecidableEq

/-- one observation message as passed to the callback: sender, header time, the byte `n_obs`, payload length, and the
observations present in the payload -/
structure ObsIn where
  sender : Nat
  t : SbpTime
  nObs : Nat
  len : Nat
  obs : List SbpObs

/-- the content of the buffer handed to the conversion functions by `sbp_buffer_to_rtcm3` -/
structure Epoch where
  cfg : Config
  sender : Nat
  t : SbpTime
  obs : List SbpObs
deriving DecidableEq

/-- the members of `rtcm3_out_state` used for observations -/
structure State where
  cfg : Config
  sender : Nat
  t : SbpTime
  nObs : Nat
  buf : List SbpObs
  /-- a read or write outside the arrays has happened -/
  bad : Bool

/-- `sbp_diff_time` in milliseconds (the sign is what matters)   sbp_rtcm3.c:72-80.  Exact; C computes `week_diff *
WEEK_SECS` in `int`, which overflows when the weeks differ by more than 3550. -/
def diffMs (a b : SbpTime) : Int := (a.tow : Int) - b.tow + (a.wn - b.wn) * 604800000

/-- `seq_counter` and `seq_size`   sbp_rtcm3.c:840-841 -/
def seqCounter (n : Nat) : Nat := n % 16 + 1
def seqSize (n : Nat) : Nat := n / 16

/-- `n_meas`: the subtraction is in `size_t`, the result a `u8`   sbp_rtcm3.c:886-887 -/
def nMeas (len : Nat) : Nat := (len + 2 ^ 64 - 11) % 2 ^ 64 / 17 % 256

/-- the test for skipping an observation: no CODE_VALID, or RAIM_EXCLUSION   sbp_rtcm3.c:890-891 -/
def skipObs (o : SbpObs) : Bool := !o.flags.testBit 0 || o.flags.testBit 7

/-- the loop filling the buffer   sbp_rtcm3.c:889-907; the second component: a write past the end -/
def push : List SbpObs → List SbpObs → List SbpObs × Bool
  | buf, [] => (buf, false)
  | buf, o :: r =>
    if skipObs o then push buf r
    else
      let bad := decide (buf.length ≥ maxObs)
      if (buf ++ [o]).length = maxObs then (buf ++ [o], bad)
      else ((push (buf ++ [o]) r).1, bad || (push (buf ++ [o]) r).2)

/-- `sbp_buffer_to_rtcm3`   sbp_rtcm3.c:817-826 -/
def flush (s : State) : State × List Epoch := ({ s with buf := [] }, [⟨s.cfg, s.sender, s.t, s.buf⟩])

/-- lines 885-917 of the callback: store the observations and the header, send if the sequence is complete -/
def accept (s : State) (m : ObsIn) : State × List Epoch :=
  let r := push s.buf (m.obs.take (nMeas m.len))
  let s := { s with buf := r.1, t := m.t, nObs := m.nObs, bad := s.bad || r.2 || decide (m.obs.length < nMeas m.len) }
  if seqCounter m.nObs = seqSize m.nObs then flush s else (s, [])

/-- lines 840-883: check that the message continues the sequence; sender already handled -/
def obsSeq (s : State) (m : ObsIn) : State × List Epoch :=
  if s.buf.length > 0 then
    let dt := diffMs m.t s.t
    if dt < 0 then (s, [])
    else if dt > 0 then
      let f := flush s
      let a := accept f.1 m
      (a.1, f.2 ++ a.2)
    else if seqSize m.nObs ≠ seqSize s.nObs ∨ seqCounter m.nObs ≤ seqCounter s.nObs then flush s
    else accept s m
  else accept s m

/-- `sbp2rtcm_sbp_obs_cb`   sbp_rtcm3.c:828-917 -/
def obsCb (s : State) (m : ObsIn) : State × List Epoch :=
  if s.sender ≠ m.sender then
    let f := flush s
    let a := obsSeq { f.1 with sender := m.sender } m
    (a.1, f.2 ++ a.2)
  else obsSeq s m

/-- what can happen to the converter -/
inductive Event
  /-- an SBP observation message -/
  | obs (m : ObsIn)
  /-- a base position, GLONASS bias or log message: `state->sender_id = sender_id`   sbp_rtcm3.c:415,440,1109 -/
  | other (sender : Nat)
  /-- options, leap second or channel table changed   sbp_rtcm3.c:331-378 -/
  | config (c : Config)

def step (s : State) : Event → State × List Epoch
  | .obs m => obsCb s m
  | .other i => ({ s with sender := i }, [])
  | .config c => ({ s with cfg := c }, [])

def run : State → List Event → State × List Epoch
  | s, [] => (s, [])
  | s, e :: r =>
    let a := step s e
    let b := run a.1 r
    (b.1, a.2 ++ b.2)

/-- `sbp2rtcm_init`   sbp_rtcm3.c:48-70 (sender and header are left uninitialised: arbitrary) -/
def State.init (sender : Nat) (t : SbpTime) (nObs : Nat) : State where
  cfg := { leap := none, fcn := List.replicate 29 255, legacy := false, msm := true, msmType := .msm5 }
  sender := sender
  t := t
  nObs := nObs
  buf := []
  bad := false

/-! ### MSM messages -/

/-- `code_to_constellation` of libswiftnav (`none`: CONSTELLATION_INVALID), the PRN table and the carrier frequencies -/
structure Env where
  prn : PrnTable
  consOf : Code → Option Cons
  freq : Code → Nat → Option ℚ

/-- `rtcm_constellation_t` in the order of its values   librtcm/include/rtcm3/msm_utils.h -/
def allCons : List Cons := [.gps, .sbas, .glo, .bds, .qzs, .gal]

/-- one `rtcm_msm_message` under construction: masks, `sats[32]`, `signals[64]` -/
structure Build where
  hdr : Hdr
  sats : List Sat
  sigs : List Sig

def Sat.zero : Sat := ⟨0, 0, 0⟩
def Sig.zero : Sig := ⟨0, 0, 0, false, 0, 0, false, false, false, false, false⟩
def Build.empty (c : Cons) : Build := ⟨.empty c, List.replicate 32 Sat.zero, List.replicate 64 Sig.zero⟩

/-- the array `obs[RTCM_CONSTELLATION_COUNT]` -/
abbrev Builds := Cons → Build
def Builds.set (b : Builds) (c : Cons) (v : Build) : Builds := fun d => if d = c then v else b d

/-- first pass   sbp_rtcm3.c:672-679.  An observation without constellation indexes the array with -1: `none`. -/
def pass1 (env : Env) : Builds → List SbpObs → Option Builds
  | b, [] => some b
  | b, o :: r => do
    let c ← env.consOf o.code
    let (h, _) ← addToHeader env.prn (b c).hdr o.code o.sat
    pass1 env (b.set c { b c with hdr := h }) r

/-- second pass   sbp_rtcm3.c:681-690 -/
def pass2 (env : Env) : Builds → List SbpObs → Option Builds
  | b, [] => some b
  | b, o :: r => do
    let c ← env.consOf o.code
    let (h, _) ← addToCellMask env.prn (b c).hdr o.code o.sat
    pass2 env (b.set c { b c with hdr := h }) r

/-- GPS_C of libswiftnav -/
abbrev gpsC : ℚ := 299792458

/-- `pseudorange_ms`   sbp_rtcm3.c:575-576 -/
def prMs (o : SbpObs) : ℚ := Fp.f64 (Fp.f64 (Fp.f64 ((o.P : ℚ) / 50) * 1000) / gpsC)
/-- `carrier_phase_ms`   sbp_rtcm3.c:595-596 -/
def cpMs (f : ℚ) (o : SbpObs) : ℚ := Fp.f64 (Fp.f64 (((o.Li : ℚ) + o.Lf / 256) * 1000) / f)
/-- `range_rate_m_s`   sbp_rtcm3.c:608-609 -/
def rateMs (f : ℚ) (o : SbpObs) : ℚ := Fp.f64 (Fp.f64 (-((o.Di : ℚ) + o.Df / 256) * gpsC) / f)

/-- the satellite data after an observation   sbp_rtcm3.c:574-618 -/
def satData (cons : Cons) (cfg : Config) (freq : Option ℚ) (o : SbpObs) (s : Sat) : Sat where
  gloFcn := if cons = .glo then cfg.fcn.getD o.sat 255 else 255
  roughRangeMs := if o.flags.testBit 0 then crint (prMs o * 1024) / 1024 else s.roughRangeMs
  roughRate := match freq with
    | some f => if o.flags.testBit 3 then crint (rateMs f o) else s.roughRate
    | none => s.roughRate

/-- the signal data of an observation; members not assigned keep their value   sbp_rtcm3.c:574-625 -/
def sigData (freq : Option ℚ) (o : SbpObs) (s : Sig) : Sig where
  pr := if o.flags.testBit 0 then prMs o else s.pr
  vPr := o.flags.testBit 0
  cp := match freq with
    | some f => if o.flags.testBit 1 then cpMs f o else s.cp
    | none => s.cp
  hca := if freq.isSome && o.flags.testBit 1 then !o.flags.testBit 2 else s.hca
  vCp := freq.isSome && o.flags.testBit 1
  rate := match freq with
    | some f => if o.flags.testBit 3 then rateMs f o else s.rate
    | none => s.rate
  vDop := freq.isSome && o.flags.testBit 3
  lock := decodeLockTime o.lock
  vLock := true
  cnr := (o.cn0 : ℚ) / 4
  vCnr := true

/-- `sbp_obs_to_msm_signal_data`   sbp_rtcm3.c:546-626; `none`: failing assertion (invalid PRN,
`msm_signal_to_code` beyond the mask) or access outside the arrays -/
def fillSignal (env : Env) (cfg : Config) (cons : Cons) (b : Build) (o : SbpObs) : Option Build :=
  if ¬ prnValid env.prn cons o.sat then none
  else
    let satIdx := prnToSatIndex env.prn b.hdr o.sat
    let sigIdx := codeToSignalIndex b.hdr o.code
    let id := (satIdx * numSigs b.hdr + sigIdx) % 256
    match b.hdr.cell[id]? with
    | none => none
    | some false => some b
    | some true =>
      let k := countMask id b.hdr.cell
      match b.sats[satIdx]?, b.sigs[k]?, signalToCode b.hdr sigIdx with
      | some sat, some sig, some code =>
        let fcn := if cons = .glo then cfg.fcn.getD o.sat 255 else 255
        let f := env.freq code fcn
        some { b with sats := b.sats.set satIdx (satData cons cfg f o sat), sigs := b.sigs.set k (sigData f o sig) }
      | _, _, _ => none

/-- third pass   sbp_rtcm3.c:692-698 -/
def pass3 (env : Env) (cfg : Config) : Builds → List SbpObs → Option Builds
  | b, [] => some b
  | b, o :: r => do
    let c ← env.consOf o.code
    let v ← fillSignal env cfg c (b c) o
    pass3 env cfg (b.set c v) r

/-- the time of an MSM message   sbp_rtcm3.c:512-519 -/
def msmTow (cfg : Config) (cons : Cons) (tow : Nat) : Nat :=
  if cons = .glo then computeGloTowMs tow cfg.leap else if cons = .bds then gpsTowToBeidouTow tow else tow

/-- `msm_init_obs_message` and the filled-in masks   sbp_rtcm3.c:503-544; only the used part of the cell mask and of the
arrays is kept (the encoder reads nothing else) -/
def finish (e : Epoch) (cons : Cons) (multiple : Nat) (b : Build) : Msg where
  header :=
    { msgNum := toMsmMsgNum (some cons) e.cfg.msmType, stnId := e.sender % 4096, towMs := msmTow e.cfg cons e.t.tow
      multiple, iods := 0, reserved := 0, steering := 1, extClock := 0, divFree := 0, smooth := 0
      satMask := b.hdr.sat, sigMask := b.hdr.sig, cellMask := b.hdr.cell.take (numSats b.hdr * numSigs b.hdr) }
  sats := b.sats.take (numSats b.hdr)
  sigs := b.sigs.take ((b.hdr.cell.take (numSats b.hdr * numSigs b.hdr)).count true)

/-- the last constellation with satellites   sbp_rtcm3.c:700-710 -/
def lastCons (b : Builds) : Option Cons := allCons.reverse.find? fun c => decide (numSats (b c).hdr > 0)

/-- the message numbers `encode_rtcm3_payload` accepts for MSM; any other one is `assert(0)`   sbp_rtcm3.c:151-170 -/
def msmEncodable (n : Nat) : Bool :=
  n ∈ [1074, 1084, 1094, 1114, 1124, 1075, 1085, 1095, 1115, 1125]

/-- `sbp_buffer_to_msm`: the messages handed to `encode_rtcm3_frame`, in order   sbp_rtcm3.c:665-719 -/
def bufferToMsm (env : Env) (e : Epoch) : Option (List Msg) := do
  let b1 ← pass1 env Build.empty e.obs
  let b2 ← pass2 env b1 e.obs
  let b3 ← pass3 env e.cfg b2 e.obs
  let msgs := (allCons.filter fun c => decide (numSats (b3 c).hdr > 0)).map fun c =>
    finish e c (if lastCons b3 = some c then 0 else 1) (b3 c)
  if msgs.all fun m => msmEncodable m.header.msgNum then some msgs else none

/-! ### legacy messages -/

/-- `sbp_obs_to_freq_data`   sbp_rtcm3.c:449-477 -/
def freqData (o : SbpObs) (code : Nat) : Obs.Freq where
  code := code
  pr := Fp.f64 ((o.P : ℚ) / 50)
  cp := (o.Li : ℚ) + o.Lf / 256
  lock := decodeLockTime o.lock
  cnr := (o.cn0 : ℚ) / 4
  vPr := o.flags.testBit 0
  vCp := o.flags.testBit 1 && o.flags.testBit 2
  vCnr := decide (o.cn0 > 0)
  vLock := true

/-- `sat_index_from_obs` and the assignment of the second frequency: the first satellite with this number
sbp_rtcm3.c:655-663,757-767 -/
def setL2 (sv : Nat) (f : Obs.Freq) : List Obs.Sat → List Obs.Sat
  | [] => []
  | s :: r => if s.svId = sv then { s with l2 := f } :: r else s :: setL2 sv f r

/-- adding a satellite; `sats` has RTCM_MAX_SATS elements and the index is not checked: `none`   sbp_rtcm3.c:748-754 -/
def addSat (l : List Obs.Sat) (s : Obs.Sat) : Option (List Obs.Sat) := if l.length < 32 then some (l ++ [s]) else none

/-- one iteration of the loop; state: GPS and GLONASS satellites; `none`: access outside an array (32 satellites, 29
entries of the channel table)   sbp_rtcm3.c:743-799 -/
def legacyStep (cfg : Config) (st : List Obs.Sat × List Obs.Sat) (o : SbpObs) : Option (List Obs.Sat × List Obs.Sat) :=
  match o.code with
  | .gps_l1ca => (addSat st.1 { svId := o.sat, fcn := 0, l1 := freqData o 0 }).map (·, st.2)
  | .gps_l1p => (addSat st.1 { svId := o.sat, fcn := 0, l1 := freqData o 1 }).map (·, st.2)
  | .gps_l2cm => some (setL2 o.sat (freqData o 0) st.1, st.2)
  | .gps_l2p => some (setL2 o.sat (freqData o 1) st.1, st.2)
  | .glo_l1of => match cfg.fcn[o.sat]? with
    | none => none
    | some f => if f ≠ 255 then (addSat st.2 { svId := o.sat, fcn := f, l1 := freqData o 0 }).map (st.1, ·) else some st
  | .glo_l1p => match cfg.fcn[o.sat]? with
    | none => none
    | some f => if f ≠ 255 then (addSat st.2 { svId := o.sat, fcn := f, l1 := freqData o 1 }).map (st.1, ·) else some st
  | .glo_l2of => some (st.1, setL2 o.sat (freqData o 0) st.2)
  | .glo_l2p => some (st.1, setL2 o.sat (freqData o 1) st.2)
  | _ => some st

def legacyLoop (cfg : Config) : List Obs.Sat × List Obs.Sat → List SbpObs → Option (List Obs.Sat × List Obs.Sat)
  | st, [] => some st
  | st, o :: r => do
    let st1 ← legacyStep cfg st o
    legacyLoop cfg st1 r

/-- `compute_glo_tod_ms`   sbp_rtcm3.c:628-634 -/
def gloTodMs (tow : Nat) (leap : Option Int) : Nat :=
  match leap with
  | none => 4294967295
  | some l => computeGloTowMs tow (some l) % 86400000

/-- `sbp_buffer_to_legacy_rtcm3` with `rtcm_init_obs_message`: the messages handed to `encode_rtcm3_frame`
sbp_rtcm3.c:636-653,721-815 -/
def bufferToLegacy (e : Epoch) : Option (List Obs.Msg) := do
  let st ← legacyLoop e.cfg ([], []) e.obs
  let gps : Obs.Msg := ⟨⟨1004, e.sender % 4096, e.t.tow, if st.2.length > 0 then 1 else 0, st.1.length, 0, 0⟩, st.1⟩
  let glo : Obs.Msg := ⟨⟨1012, e.sender % 4096, gloTodMs e.t.tow e.cfg.leap, 0, st.2.length, 0, 0⟩, st.2⟩
  some ((if st.1.length > 0 then [gps] else []) ++ (if st.2.length > 0 then [glo] else []))

end Verif.SbpRtcm
