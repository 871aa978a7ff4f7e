import Verif.Model.Rtcm3ToSbp
import Verif.Spec.ObsStream
import Verif.Spec.EphStream
/-
What it means that rtcm3tosbp converts a stream of observations and ephemerides.
-/
namespace Verif.Prog.Spec
open Verif.Time
open Verif.RtcmSbp (Input)
open Verif.EphStream (SbpEph Lib)
open Verif.SbpRtcm (Env Epoch)
open Verif.ObsStream.Spec (EpochOk TimeOk EpochBack epochTime secs)

/-- what the sender puts on the stream: the messages of an epoch; an ephemeris (with the leap second it knows and arbitrary uninitialised
memory); or the payload of another message -/
inductive Ev
  | epoch (e : Epoch)
  | eph (leap : Option Int) (junk : Nat) (e : SbpEph)
  | other (p : Buf)

def evPayloads (env : Env) (K : Lib) : Ev → Option (List Buf)
  | .epoch e => ObsStream.epochPayloads env e
  | .eph leap junk e => (EphStream.payload K leap junk e).map fun p => [p]
  | .other p => some [p]

/-- a receiver that knows the time `t` -/
def knows (t : GpsTime) : Input := ⟨true, t, [], 0, none⟩

/-- the program's clock after the event: with -o the time of the last epoch, else the latest time of a healthy GPS ephemeris (not before the
reference week) -/
def clockAfter (ref : Nat) (obs : Bool) (clock : GpsTime) : Ev → GpsTime
  | .epoch e => if obs ∧ e.obs ≠ [] then epochTime e.t else clock
  | .eph _ _ (.gps e) =>
    if ¬ obs ∧ e.health = 0 ∧ ref ≤ e.toe.wn ∧ secs clock < secs ⟨e.toe.wn, e.toe.tow⟩ then ⟨e.toe.wn, e.toe.tow⟩ else clock
  | _ => clock

/-- the GLONASS channels (0-13, 255: unknown) after the event: those of the ephemerides received, whose `fcn` is the channel plus 1 -/
def channelsAfter (table : List Nat) : Ev → List Nat
  | .eph _ _ (.glo e) => if 1 ≤ e.sat ∧ e.sat ≤ 28 then table.set e.sat (if 1 ≤ e.fcn ∧ e.fcn ≤ 14 then e.fcn - 1 else 255) else table
  | _ => table

/-- a 4062 message with an SBP observation message (0x4A) or GPS ephemeris (0x8A) inside -/
def WrapsTime (p : Buf) : Prop := RtcmSbp.messageType p = 4062 ∧ ∃ m, decode4062.run p = .ok m ∧ (m.msgType = 0x4A ∨ m.msgType = 0x8A)

/-- the event is fit for a receiver with this time and these GLONASS channels -/
def EvFit (env : Env) (su : Setup) (clock : GpsTime) (table : List Nat) : Ev → Prop
  | .epoch e => EpochOk env table e ∧ (e.obs ≠ [] → TimeOk env su.env e (knows clock))
  | .eph leap junk e => EphStream.Spec.EvOk su.env su.lib (.eph leap junk e) (knows clock)
  | .other p => 1 ≤ p.length ∧ p.length ≤ 1017 ∧ RtcmSbp.messageType p ∉ [1002, 1004, 1010, 1012] ∧
      ¬ (1070 ≤ RtcmSbp.messageType p ∧ RtcmSbp.messageType p ≤ 1229) ∧ RtcmSbp.messageType p ∉ EphStream.Spec.ephTypes ∧ ¬ WrapsTime p

/-- every event is fit for the receiver as it is when the event comes -/
def Fits (env : Env) (su : Setup) (obs : Bool) : GpsTime → List Nat → List Ev → Prop
  | _, _, [] => True
  | clock, table, v :: vs =>
    EvFit env su clock table v ∧ Fits env su obs (clockAfter su.lib.weekRef obs clock v) (channelsAfter table v) vs

/-- what the program writes for an event -/
def EvBack (env : Env) : Ev → List Msg → Prop
  | .epoch e, out => if e.obs = [] then out = [] else ∃ g, out = g.map .obs ∧ EpochBack env e g
  | .eph leap _ e, out => ∃ e', out = [.eph 0xF080 e'] ∧ EphStream.Spec.Same leap e e'
  | .other _, out => out = []

/-- the bytes written by the sender: one RTCM frame for each payload -/
def SentAs (crc : Buf → BitVec 24) (env : Env) (K : Lib) (evs : List Ev) (bytes : Buf) : Prop :=
  ∃ (pss : List (List Buf)) (fs : List Buf), evs.map (evPayloads env K) = pss.map some ∧
    pss.flatten.mapM (RtcmFraming.encodeFrame crc 1023) = some fs ∧ bytes = fs.flatten

/-- GPS time of a Unix time with leap second `leap` -/
def gpsTime (leap unix : Int) : GpsTime := ⟨(unix + leap - 315964800) / 604800, ((unix + leap - 315964800) % 604800 : Int)⟩

end Verif.Prog.Spec
