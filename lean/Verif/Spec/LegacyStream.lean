import Verif.Spec.SbpLegacy
import Verif.Spec.ObsStream
/-
What it means that the observations of an epoch survive the trip over the legacy RTCM messages 1004 and 1012.
-/
namespace Verif.LegacyStream.Spec
open Verif.SbpRtcm Verif.SbpRtcm.Spec Verif.Msm Verif.Time Verif.ObsStream
open Verif.ObsStream.Spec (range cycles epochTime secs)
open Verif.RtcmSbp (SbpTime SbpObs ObsMsg Input)
open Verif.RtcmSbp.Spec (WellSplit)

/-- the signals that are carried and come back as they were: C/A code and L2C.  (The P codes are `signal`s too but come back as C/A.) -/
def band : Code → Option Band
  | .gps_l1ca => some .gps1 | .gps_l2cm => some .gps2 | .glo_l1of => some .glo1 | .glo_l2of => some .glo2
  | _ => none

/-- carrier frequency (Hz); `ch`: the GLONASS channel number plus 7 -/
def hz : Band → Nat → ℚ
  | .gps1, _ => 1575420000
  | .gps2, _ => 1227600000
  | .glo1, ch => 1602000000 + ((ch : ℚ) - 7) * 562500
  | .glo2, ch => 1246000000 + ((ch : ℚ) - 7) * 437500

/-- carrier phase (m) -/
def phase (b : Band) (ch : Nat) (o : SbpObs) : ℚ := cycles o * 299792458 / hz b ch

/-- the first frequency of GPS or GLONASS, the second, the greatest satellite number the messages know, light-milliseconds (m) that are
counted separately (two for GLONASS) -/
def firstOf (glo : Bool) : Band := if glo then .glo1 else .gps1
def secondOf (glo : Bool) : Band := if glo then .glo2 else .gps2
def maxSat (glo : Bool) : Nat := if glo then 24 else 32
def unit (glo : Bool) : ℚ := if glo then 599584.916 else 299792.458

/-- the channel the sender has for a satellite (0 for GPS) -/
def chan (cfg : Config) (glo : Bool) (sat : Nat) : Nat := if glo then cfg.fcn.getD sat 255 else 0

/-- Observation `o` of band `b` is complete and fits: code and phase are valid and the half-cycle ambiguity is resolved; the phase agrees with the
first pseudorange `first` to 261 m. -/
structure ObsOk (b : Band) (ch : Nat) (first : ℚ) (o : SbpObs) : Prop where
  valid : o.flags.testBit 0 = true ∧ o.flags.testBit 1 = true ∧ o.flags.testBit 2 = true
  range : range o ≤ 76000000
  Lf : o.Lf ≤ 255
  phase : |phase b ch o - first| ≤ 261
  cn0 : o.cn0 ≤ 255
  lock : o.lock < 16

/-- The observations of GPS (`glo = false`) or GLONASS in the list are complete and fit: at most 31 satellites with at most one observation per frequency;
each second frequency comes after the first of its satellite, its pseudorange is within 163 m of it, and no multiple of a light-millisecond
lies between them. -/
structure ConsOk (cfg : Config) (glo : Bool) (l : List SbpObs) : Prop where
  sats : ∀ o ∈ l, band o.code = some (firstOf glo) ∨ band o.code = some (secondOf glo) → 1 ≤ o.sat ∧ o.sat ≤ maxSat glo ∧
    chan cfg glo o.sat ≤ 13
  count : (l.filter fun o => band o.code = some (firstOf glo)).length ≤ 31
  once1 : ((l.filter fun o => band o.code = some (firstOf glo)).map (·.sat)).Nodup
  once2 : ((l.filter fun o => band o.code = some (secondOf glo)).map (·.sat)).Nodup
  ok1 : ∀ o ∈ l, band o.code = some (firstOf glo) → ObsOk (firstOf glo) (chan cfg glo o.sat) (range o) o
  after : ∀ a o r, l = a ++ o :: r → band o.code = some (secondOf glo) → ∃ o1 ∈ a, band o1.code = some (firstOf glo) ∧ o1.sat = o.sat
  ok2 : ∀ o1 ∈ l, ∀ o ∈ l, band o1.code = some (firstOf glo) → band o.code = some (secondOf glo) → o1.sat = o.sat →
    ObsOk (secondOf glo) (chan cfg glo o.sat) (range o1) o ∧ |range o - range o1| ≤ 163 ∧
    ∀ n : ℕ, n * unit glo ≤ range o1 + 1 / 2 ^ 19 → n * unit glo ≤ range o

/-- An epoch the legacy messages can carry without loss.  Observations of other signals may be present; they are not sent.  P codes must not
be present. -/
structure EpochOk (e : Epoch) : Prop where
  mode : e.cfg.legacy = true ∧ e.cfg.msm = false
  noP : ∀ o ∈ e.obs, o.code ∉ [Code.gps_l1p, .gps_l2p, .glo_l1p, .glo_l2p]
  gps : ConsOk e.cfg false e.obs
  glo : ConsOk e.cfg true e.obs
  tow : e.t.tow < 604800000
  week : 0 ≤ e.t.wn ∧ e.t.wn ≤ 32767
  leap : (∃ o ∈ e.obs, band o.code = some .glo1) → ∃ l, e.cfg.leap = some l ∧ -128 ≤ l ∧ l ≤ 127

/-- Observation `o'` is `o` as it comes back: carrier phase and signal to noise exactly, pseudorange to 2 cm, the lock time not overstated; the Doppler
is lost. -/
structure Back (o o' : SbpObs) : Prop where
  sat : o'.sat = o.sat
  code : o'.code = o.code
  P : |(o'.P : ℤ) - o.P| ≤ 1
  L : (o'.Li, o'.Lf) = (o.Li, o.Lf)
  D : (o'.Di, o'.Df) = (0, 0)
  cn0 : o'.cn0 = o.cn0
  lock : o'.lock ≤ o.lock ∧ (6 ≤ o.lock → o.lock ≤ o'.lock + 1)
  flags : o'.flags = 7

/-- SBP observation messages `g` are the epoch `e` as it comes back: a well-formed group with the time of the epoch and its station,
whose observations are the carried ones of the epoch, each once -/
def EpochBack (e : Epoch) (g : List ObsMsg) : Prop :=
  ∃ L R, L.Perm (e.obs.filter fun o => (band o.code).isSome) ∧ List.Forall₂ Back L R ∧
    WellSplit e.t ((e.sender % 4096) ||| 0xF080) R g

/-- the receiver is in a position to tell the time of the epoch, as in `ObsStream.Spec.TimeOk` -/
structure TimeOk (env' : RtcmSbp.Env) (e : Epoch) (x : Input) : Prop where
  solved : x.solved = true
  valid : x.time.valid
  middle : 259200 ≤ secs x.time ∧ secs x.time < 32767 * 604800 - 259200
  near : |secs (epochTime e.t) - secs x.time| < 302400
  week : 0 < x.time.wn
  glo : (∃ o ∈ e.obs, band o.code = some .glo1) → e.cfg.leap = some (env'.utcOffset x.time) ∧
    |secs (epochTime e.t) - secs x.time| < 43200 ∧
    (|secs (epochTime e.t) - secs x.time - env'.utcOffset x.time| ≤ 30 ∨
      |env'.utcOffset x.time| ≤ 30 ∧ ∃ o ∈ e.obs, band o.code = some .gps1)

/-! ### the stream -/

/-- what the sender puts on the stream: the messages of an epoch, or the payload of another message -/
inductive Ev
  | epoch (e : Epoch)
  | other (p : Buf)

def evPayloads (env : Env) : Ev → Option (List Buf)
  | .epoch e => epochPayloads env e
  | .other p => some [p]

/-- the event is fit for the receiver; `xs`: the receiver's inputs while it receives the messages of the event.  Other messages are any but
observation messages. -/
def EvOk (env : Env) (env' : RtcmSbp.Env) : Ev → List Input → Prop
  | .epoch e, xs => EpochOk e ∧ (∀ x ∈ xs, TimeOk env' e x) ∧ ∀ ps, epochPayloads env e = some ps → xs.length = ps.length
  | .other p, xs => 1 ≤ p.length ∧ p.length ≤ 1017 ∧ RtcmSbp.messageType p ∉ [1002, 1004, 1010, 1012] ∧
      ¬ (1070 ≤ RtcmSbp.messageType p ∧ RtcmSbp.messageType p ≤ 1229) ∧ ∃ x, xs = [x]

/-- the epochs sent, without those that have nothing to send -/
def evEpoch : Ev → Option Epoch
  | .epoch e => if (e.obs.filter fun o => (band o.code).isSome) = [] then none else some e
  | .other _ => none

/-- the bytes written by the sender: one RTCM frame for each payload -/
def SentAs (crc : Buf → BitVec 24) (env : Env) (evs : List Ev) (bytes : Buf) : Prop :=
  ∃ (pss : List (List Buf)) (fs : List Buf), evs.map (evPayloads env) = pss.map some ∧
    pss.flatten.mapM (RtcmFraming.encodeFrame crc 1023) = some fs ∧ bytes = fs.flatten

/-- the receiver has not seen MSM messages, its buffer is empty, and the observations it has seen are older than time `t` (seconds) by a millisecond -/
structure Ready (t : ℚ) (s : RtcmSbp.State) : Prop where
  buf : s.buf = []
  msm : ¬ s.lastMsm.valid
  gps : s.lastGps.valid → secs s.lastGps + 1 / 1000 ≤ t
  glo : s.lastGlo.valid → secs s.lastGlo + 1 / 1000 ≤ t

end Verif.LegacyStream.Spec
