import Verif.Model.Sbp2Rtcm
import Verif.Spec.Rtcm3ToSbp
import Verif.Spec.RtcmMisc
import Verif.Spec.SbpRtcm
/-
What it means that `sbp2rtcm | rtcm3tosbp` gives back what it was given.
-/
namespace Verif.Pipe.Spec
open Verif.Time
open Verif.RtcmSbp (SbpTime)
open Verif.SbpRtcm (Env ObsIn Epoch)
open Verif.SbpRtcm.Spec (Sequence usable)
open Verif.Prog (Setup Out)
open Verif.Prog.Spec (EvFit EvBack clockAfter channelsAfter)
open Verif.Misc.Spec (PosBack maskedBias)

variable {W E : Type}

/-- what is given to sbp2rtcm: the messages of an epoch of observations, one after the other; or another message -/
inductive Item
  | epoch (sender : Nat) (t : SbpTime) (ms : List ObsIn)
  | msg (m : SbpMsg)

def messages : Item → List SbpMsg
  | .epoch _ _ ms => ms.map .obs
  | .msg m => [m]

/-- the epoch that MSM messages are made of: the usable observations; MSM5, leap second known, GLONASS channels unknown -/
def epochOf (leap : Int) (sender : Nat) (t : SbpTime) (ms : List ObsIn) : Epoch :=
  ⟨{ leap := some leap, fcn := List.replicate 29 255, legacy := false, msm := true, msmType := .msm5 }, sender, t, ms.flatMap usable⟩

/-- an item rtcm3tosbp takes the time or GLONASS channels from -/
def event (leap : Int) : Item → Option Prog.Spec.Ev
  | .epoch sender t ms => some (.epoch (epochOf leap sender t ms))
  | .msg (.eph junk e) => some (.eph (some leap) junk e)
  | .msg _ => none

/-- the item is fit for a receiving program with this clock and these GLONASS channels: observation messages in a complete sequence, epoch and
ephemerides as for rtcm3tosbp; other messages with values that fit their fields -/
def ItemFit (env : Env) (su : Setup) (leap : Int) (clock : GpsTime) (table : List Nat) : Item → Prop
  | .epoch sender t ms => ms ≠ [] ∧ Sequence sender t ms ∧ EvFit env su clock table (.epoch (epochOf leap sender t ms))
  | .msg (.obs _) => False
  | .msg (.eph _ (.qzss _)) => True
  | .msg (.eph junk e) => EvFit env su clock table (.eph (some leap) junk e)
  | .msg (.basePos sender p) => Misc.Spec.Fits (.basePos sender p)
  | .msg (.gloBias sender b) => Misc.Spec.Fits (.gloBias sender b)
  | .msg (.wrapped type sender data) => Misc.Spec.Fits (.wrapped type sender data) ∧ type ≠ 0x4A ∧ type ≠ 0x8A
  | .msg (.log sender payload) => Misc.Spec.Fits (.log sender payload)
  | .msg .other => True

/-- every item is fit for the receiving program as it is when the item comes -/
def Fits (env : Env) (su : Setup) (leap : Int) (obs : Bool) : GpsTime → List Nat → List Item → Prop
  | _, _, [] => True
  | clock, table, it :: its =>
    ItemFit env su leap clock table it ∧ Fits env su leap obs ((event leap it).elim clock (clockAfter su.lib.weekRef obs clock))
      ((event leap it).elim table (channelsAfter table)) its

/-- What rtcm3tosbp writes for an item: an epoch, an ephemeris, a position to 0.1 mm; the biases exactly; wrapped messages as they were; texts
with their prefix.  QZSS ephemerides and messages without callback are lost. -/
def ItemBack (env : Env) (L : Misc.Lib W E) (leap : Int) : Item → List (Out W E) → Prop
  | .epoch sender t ms, out => ∃ o, out = o.map .core ∧ EvBack env (.epoch (epochOf leap sender t ms)) o
  | .msg (.obs _), _ => False
  | .msg (.eph _ (.qzss _)), out => out = []
  | .msg (.eph junk e), out => ∃ o, out = o.map .core ∧ EvBack env (.eph (some leap) junk e) o
  | .msg (.basePos sender p), out => ∃ s q, out = [.misc s (.basePos q)] ∧ PosBack (sender, p) (s, q)
  | .msg (.gloBias sender b), out => out = [.misc (sender % 4096 ||| 0xF080) (.gloBias (maskedBias b))]
  | .msg (.wrapped type sender data), out =>
    out = match L.sbpDecode type data with
      | some w => [.misc sender (.wrapped type w)]
      | none => []
  | .msg (.log sender payload), out =>
    if payload.length < 2 then out = [] else ∃ s t, out = [.misc s (.log t)] ∧ Misc.Spec.TextBack (sender, payload.drop 1) (s, t)
  | .msg .other, out => out = []

end Verif.Pipe.Spec
