import Verif.Model.ObsStream
import Verif.Model.EphStream
import Verif.Model.Rtcm3ToSbp
/-
The program sbp2rtcm: sbp2rtcm/src/sbp2rtcm.c, on top of the converter (Model/SbpRtcm, Model/ObsStream, Model/EphStream, Model/RtcmMisc) and the
frame encoder (Model/RtcmFraming).
Not modelled: reading the SBP frames (libsbp: the model starts from the messages), a failed write (its result is ignored), the option -h.
-/
namespace Verif.Pipe
open Verif.Time
open Verif.RtcmSbp (SbpTime)
open Verif.SbpRtcm (Env ObsIn Config)
open Verif.EphStream (SbpEph Lib)
open Verif.Misc (BasePos GloBias)

/-- The SBP messages, by callback   sbp2rtcm.c:90-166; `junk`: the uninitialised t_b of a GLONASS ephemeris; `wrapped`: the OSR and SSR messages;
`other`: a message without callback.  (For QZSS ephemerides there is a node, but no callback.) -/
inductive SbpMsg
  | obs (m : ObsIn)
  | eph (junk : Nat) (e : SbpEph)
  | basePos (sender : Nat) (p : BasePos)
  | gloBias (sender : Nat) (b : GloBias)
  | wrapped (type sender : Nat) (data : Buf)
  | log (sender : Nat) (payload : Buf)
  | other

/-- the converter state: its members used for observations and those used for the other messages; the two share the sender   sbp_rtcm3.h:29-60 -/
structure St where
  obs : SbpRtcm.State
  misc : Misc.OutSt

/-- the options the program leaves the converter with: those of `sbp2rtcm_init` and the leap second; the GLONASS channels are never set
sbp_rtcm3.c:43-70, sbp2rtcm.c:75-82 -/
def config (leap : Int) : Config := { leap := some leap, fcn := List.replicate 29 255, legacy := false, msm := true, msmType := .msm5 }

/-- `(s8)lrint(gps_utc_offset)` of the system time `now`   sbp2rtcm.c:75-82 -/
def leapOf (utcOffset : GpsTime → Int) (now : Int) : Int := (BitVec.ofInt 8 (utcOffset (Prog.time2gps now))).toInt

/-- the state before the first message; sender, time and counter of the observation buffer are uninitialised   sbp2rtcm.c:80-82 -/
def start (leap : Int) (sender : Nat) (t : SbpTime) (nObs : Nat) : St :=
  ⟨{ SbpRtcm.State.init sender t nObs with cfg := config leap }, .init sender⟩

/-- a callback of Model/RtcmMisc -/
def miscStep (s : St) (x : Misc.SbpIn) : St × List Buf :=
  let r := Misc.outStep s.misc x
  (⟨{ s.obs with sender := r.1.sender }, r.1⟩, r.2)

/-- one message: new state and payloads of the RTCM frames written; `none`: a failed assertion   sbp2rtcm.c:90-170 -/
def step (env : Env) (K : Lib) (s : St) : SbpMsg → Option (St × List Buf)
  | .obs m => do
    let r := SbpRtcm.obsCb s.obs m
    let ps ← r.2.mapM (ObsStream.epochPayloads env)
    some (⟨r.1, { s.misc with sender := r.1.sender }⟩, ps.flatten)
  | .eph _ (.qzss _) => some (s, [])
  | .eph junk e => (EphStream.payload K s.obs.cfg.leap junk e).map fun p => (s, [p])
  | .basePos sender p => some (miscStep s (.basePos sender p))
  | .gloBias sender b => some (miscStep s (.gloBias sender b))
  | .wrapped type sender data => some (miscStep s (.wrapped type sender data))
  | .log sender payload => some (miscStep s (.log sender payload))
  | .other => some (s, [])

def run (env : Env) (K : Lib) : St → List SbpMsg → Option (St × List Buf)
  | s, [] => some (s, [])
  | s, m :: ms => do
    let a ← step env K s m
    let b ← run env K a.1 ms
    some (b.1, a.2 ++ b.2)

/-- the program: the bytes written for the SBP messages `msgs`; `now`: system time, `uninit`: the uninitialised members; `none`: a failed
assertion or a frame that overruns its buffer   sbp2rtcm.c:58-172, sbp_rtcm3.c:174-204 -/
def main (crc : Buf → BitVec 24) (env : Env) (K : Lib) (utcOffset : GpsTime → Int) (now : Int) (uninit : Nat × SbpTime × Nat) (msgs : List SbpMsg) :
    Option Buf := do
  let r ← run env K (start (leapOf utcOffset now) uninit.1 uninit.2.1 uninit.2.2) msgs
  let fs ← r.2.mapM (RtcmFraming.encodeFrame crc 1023)
  some fs.flatten

end Verif.Pipe
