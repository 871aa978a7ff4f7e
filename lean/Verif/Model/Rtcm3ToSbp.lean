import Verif.Model.EphStream
import Verif.Model.TimeTruth
import Verif.Model.RtcmMisc
import Verif.Model.RtcmFraming
import Verif.Spec.RtcmSbp
/-
The program rtcm3tosbp: rtcm3tosbp/src/rtcm3tosbp.c, on top of the converter (Model/RtcmSbp, Model/EphStream), its time source
(Model/TimeTruth) and the framing layer (Model/RtcmFraming).
Not modelled: writing the SBP frames (sbp_message_send of libsbp; a failed write ends the program); the command line is in Options.lean.  `main` gives the
observation and ephemeris messages only, `fullMain` all messages.
-/
namespace Verif.Prog
open Verif.Time
open Verif.RtcmSbp (ObsMsg Input)
open Verif.EphStream (SbpEph Lib)
open Verif.TimeTruth (TT Source)

/-- tables and options; `extra`: number of messages the conversion of another message gives -/
structure Setup where
  env : RtcmSbp.Env
  lib : Lib
  extra : Buf → Nat
  /-- `sbp_message_decode` of libsbp for SBP_MSG_OBS and SBP_MSG_EPHEMERIS_GPS -/
  obsOf : Buf → Option ObsMsg
  gpsOf : Buf → Option EphSbp.SbpKep

/-- the messages given to the callback: observations, and ephemerides with their sender -/
inductive Msg
  | obs (m : ObsMsg)
  | eph (sender : Nat) (e : SbpEph)

/-- The static variables.  `obsMode`: use_time_from_input_obs; `clock`: the member time_from_input_data of the converter, which in this mode
only the callback writes; `truth`: time_truth   rtcm3tosbp.c:38-44 -/
structure State where
  conv : RtcmSbp.State
  obsMode : Bool
  clock : GpsTime
  truth : TT

/-- `update_obs_time`: `(s16)msg->header.t.wn`, FLOAT_EQUALITY_EPS = 1e-12   rtcm3tosbp.c:49-59 -/
def updateObsTime (m : ObsMsg) (clock : GpsTime) : GpsTime :=
  let tow : ℚ := m.t.tow / 1000
  if |tow| > 1 / 10 ^ 12 then ⟨(BitVec.ofInt 16 m.t.wn).toInt, tow⟩ else clock

/-- `time_truth_update` by the only thread   time_truth.c:53-135 -/
def updateTruth (ref : Nat) (src : Source) (t : GpsTime) (truth : TT) : TT :=
  if TimeTruth.accepts ref t then (TimeTruth.decide' truth src t).getD truth else truth

/-- what `time_truth_update_from_sbp` sees of a message   time_truth.c:152-165 -/
def sbpIn : Msg → TimeTruth.SbpIn
  | .eph _ (.gps e) => .ephGps e.health e.toe.wn e.toe.tow
  | _ => .other

/-- `cb_rtcm_to_sbp`: the time source learns from the message   rtcm3tosbp.c:62-73 -/
def callback (ref : Nat) (st : State) (m : Msg) : State :=
  if st.obsMode then
    match m with
    | .obs m => { st with clock := updateObsTime m st.clock }
    | _ => st
  else
    match TimeTruth.fromSbp (sbpIn m) with
    | some (src, t) => { st with truth := updateTruth ref src t st.truth }
    | none => st

/-- the time state and time the converter works with   rtcm3_sbp.c:148-154 -/
def solved (st : State) : Bool := st.obsMode || st.truth.solved
def time (st : State) : GpsTime := if st.obsMode then st.clock else ⟨st.truth.wn, st.truth.tow⟩

/-- satellite and channel of a converted GLONASS ephemeris   rtcm3_sbp.c:297-300 -/
def gloOf : List (Nat × SbpEph) → Option (Nat × Nat)
  | [(_, .glo e)] => some (e.sat, e.fcn)
  | _ => none

/-- what the converter gets: a payload, the time, and what it converts the payload to -/
def ephs (su : Setup) (st : State) (p : Buf) : List (Nat × SbpEph) :=
  EphStream.out su.env su.lib st.conv ⟨solved st, time st, p, su.extra p, none⟩
def input (su : Setup) (st : State) (p : Buf) : Input := ⟨solved st, time st, p, su.extra p, gloOf (ephs su st p)⟩

/-- the message unwrapped from a 4062 message, if the callback learns the time from its type (SBP_MSG_OBS = 0x4A, SBP_MSG_EPHEMERIS_GPS = 0x8A)
rtcm3_sbp.c:606-620, rtcm3tosbp.c:62-73 -/
def unwrapped (su : Setup) (p : Buf) : List Msg :=
  if RtcmSbp.messageType p = 4062 then
    match decode4062.run p with
    | .ok m =>
      if m.msgType = 0x4A then (su.obsOf m.data).toList.map .obs
      else if m.msgType = 0x8A then (su.gpsOf m.data).toList.map fun e => .eph m.senderId (.gps e)
      else []
    | .error _ => []
  else []

/-- `rtcm2sbp_decode_payload` with the callback of the program: new state and messages   rtcm3_sbp.c:133-647.
The messages are given to the callback after the step: a callback during the step changes the time only after its last use in the step
(rtcm3_sbp.c:667-676, 707-713, 1464-1495 come before the sending of observations).  Unwrapped messages are not in the list of messages, see `outStep`. -/
def step (su : Setup) (st : State) (p : Buf) : State × List Msg :=
  let r := RtcmSbp.step su.env st.conv (input su st p)
  let out := (RtcmSbp.Spec.obsOut r.2).map .obs ++ (ephs su st p).map fun e => .eph e.1 e.2
  ((out ++ unwrapped su p).foldl (callback su.lib.weekRef) { st with conv := r.1 }, out)

def run (su : Setup) (st : State) : List Buf → State × List Msg
  | [] => (st, [])
  | p :: ps =>
    let a := step su st p
    let b := run su a.1 ps
    (b.1, a.2 ++ b.2)

/-! ### start -/

/-- `time2gps_t` of libswiftnav; GPS_EPOCH = 315964800, C division -/
def time2gps (t : Int) : GpsTime := ⟨(t - 315964800).tdiv 604800, ((t - 315964800).tmod 604800 : Int)⟩
/-- `time2gps_apply_offset`; `(u8)rint(leap)`   rtcm3tosbp.c:124-131 -/
def time2gpsOffset (utcOffset : GpsTime → Int) (t : Int) : GpsTime := time2gps (t + utcOffset (time2gps t) % 256)

/-- The state before the first read; `unix`: `ct_utc_unix` from the options -w, -d or -s, 0 without any; `obs`: option -o.  `none`: the program
ends with an error   rtcm3tosbp.c:240-263.  (`time_from_input_data` of an unused mode is irrelevant.) -/
def start (su : Setup) (unix : Int) (obs : Bool) : Option State :=
  let truth := if unix > 0 then updateTruth su.lib.weekRef .ephGal (time2gpsOffset su.env.utcOffset unix) .init else .init
  if obs ∧ unix = 0 then none
  else some ⟨RtcmSbp.State.init, obs, ⟨truth.wn, truth.tow⟩, truth⟩

/-- the payloads decoded from a sequence of reads   rtcm3_sbp.c:638-655, rtcm3tosbp.c:266-270.  Frames that are rejected are skipped; the framing
layer never gives one that is read out of bounds (C03). -/
def payloads (crc : Buf → BitVec 24) (reads : List Buf) : List Buf :=
  ((RtcmFraming.run crc .init reads).2.map RtcmFraming.framePayload).filterMap fun c => match c with
    | .payload p => some p
    | _ => none

/-- the program: the observation and ephemeris messages written; `reads`: the data of the successive reads, the program ends at an empty one
rtcm3tosbp.c:140-273 -/
def main (crc : Buf → BitVec 24) (su : Setup) (unix : Int) (obs : Bool) (reads : List Buf) : Option (List Msg) :=
  (start su unix obs).map fun st => (run su st (payloads crc (reads.takeWhile fun r => !r.isEmpty))).2

/-! ### all messages -/

/-- a message written: as above, or another one (Model/RtcmMisc) with its sender -/
inductive Out (W E : Type)
  | core (m : Msg)
  | misc (sender : Nat) (m : Misc.Msg W E)

variable {W E : Type}

/-- As `step`, with the other messages; `mem`: the memory behind the payload and behind a decoded descriptor.  `none`: undefined behaviour.
No payload gives messages of both kinds.  The state is that of `step`, which gives the callback the messages it takes
the time from (observations and GPS ephemerides, also those inside a 4062 message).   rtcm3_sbp.c:133-647, rtcm3tosbp.c:62-73 -/
def outStep (su : Setup) (L : Misc.Lib W E) (mem : Buf × Buf) (st : State) (p : Buf) : Option (State × List (Out W E)) :=
  (Misc.miscOut su.env L st.conv ⟨input su st p, mem.1, mem.2⟩).map fun ms =>
    ((step su st p).1, ms.map (fun m => .misc m.1 m.2) ++ (step su st p).2.map .core)

/-- a sequence of payloads; `mem n`: the memory at call `n` -/
def outRun (su : Setup) (L : Misc.Lib W E) (mem : Nat → Buf × Buf) : Nat → State → List Buf → Option (State × List (Out W E))
  | _, st, [] => some (st, [])
  | n, st, p :: ps => do
    let a ← outStep su L (mem n) st p
    let b ← outRun su L mem (n + 1) a.1 ps
    some (b.1, a.2 ++ b.2)

/-- the program with all messages it writes   rtcm3tosbp.c:140-273 -/
def fullMain (crc : Buf → BitVec 24) (su : Setup) (L : Misc.Lib W E) (mem : Nat → Buf × Buf) (unix : Int) (obs : Bool) (reads : List Buf) :
    Option (List (Out W E)) := do
  let st ← start su unix obs
  let r ← outRun su L mem 0 st (payloads crc (reads.takeWhile fun r => !r.isEmpty))
  some r.2

end Verif.Prog
