import Verif.Model.SbpRtcm
/-
What a user expects of the SBP-to-RTCM observation path.
-/
namespace Verif.SbpRtcm.Spec
open Verif.Time Verif.Msm Verif.SbpRtcm
open Verif.RtcmSbp (SbpTime SbpObs)

/-- an SBP observation message as the SBP framing delivers it: the payload holds the 11-byte header and whole 17-byte
observations, the header byte is a byte and announces at least one message -/
structure WF (m : ObsIn) : Prop where
  len : m.len = 11 + 17 * m.obs.length
  small : m.len ≤ 255
  byte : m.nObs < 256
  announced : 16 ≤ m.nObs

/-- the observations of a message that may be used: code measurement valid, not excluded by RAIM -/
def usable (m : ObsIn) : List SbpObs := m.obs.filter fun o => o.flags.testBit 0 && !o.flags.testBit 7

/-- an observation with the time and the sender it is attributed to -/
structure Tagged where
  t : SbpTime
  sender : Nat
  obs : SbpObs
deriving DecidableEq

def tag (t : SbpTime) (sender : Nat) (l : List SbpObs) : List Tagged := l.map fun o => ⟨t, sender, o⟩
/-- what was received, in order -/
def received (l : List Event) : List Tagged := l.flatMap fun
  | .obs m => tag m.t m.sender (usable m)
  | _ => []
/-- what was handed on for encoding, in order -/
def emitted (l : List Epoch) : List Tagged := l.flatMap fun e => tag e.t e.sender e.obs

/-- a message other than observations never comes from a station other than the one whose observations came last;
`last`: sender of the last observation message so far -/
def SameStation : Option Nat → List Event → Prop
  | _, [] => True
  | _, .obs m :: r => SameStation (some m.sender) r
  | last, .other i :: r => (∀ j, last = some j → i = j) ∧ SameStation last r
  | last, .config _ :: r => SameStation last r

/-- the messages of a complete sequence, in order: same sender and time, numbered 0,1,.. with the total announced -/
structure Sequence (sender : Nat) (t : SbpTime) (ms : List ObsIn) : Prop where
  wf : ∀ m ∈ ms, WF m
  same : ∀ m ∈ ms, m.sender = sender ∧ m.t = t
  numbered : ∀ (i : Nat) m, ms[i]? = some m → m.nObs % 16 = i ∧ m.nObs / 16 = ms.length

/-- the observation messages among the events -/
def obsOf (l : List Event) : List ObsIn := l.filterMap fun | .obs m => some m | _ => none

/-- the pending observations -/
def pending (s : State) : List Tagged := tag s.t s.sender s.buf

/-- the message is not used: older than the pending epoch, or breaking its sequence -/
def Rejected (s : State) (m : ObsIn) : Prop :=
  s.sender = m.sender ∧ s.buf ≠ [] ∧
    (diffMs m.t s.t < 0 ∨ diffMs m.t s.t = 0 ∧ ¬ (seqSize m.nObs = seqSize s.nObs ∧ seqCounter s.nObs < seqCounter m.nObs))
instance (s m) : Decidable (Rejected s m) := inferInstanceAs (Decidable (_ ∧ _))

/-- The observations pending or emitted are those of the messages not rejected, nothing else, in order. -/
def accepted : State → List Event → List Tagged
  | _, [] => []
  | s, .obs m :: r => (if Rejected s m then [] else tag m.t m.sender (usable m)) ++ accepted (obsCb s m).1 r
  | s, e :: r => accepted (step s e).1 r

end Verif.SbpRtcm.Spec
