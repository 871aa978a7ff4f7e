import Verif.Model.ObsStream
import Verif.Spec.SbpMsm
import Verif.Spec.RtcmSbp
import Verif.Spec.ObsValues
import Verif.Model.RtcmFraming
/-
What it means that the observations of an epoch survive the trip over RTCM MSM messages.
-/
namespace Verif.ObsStream.Spec
open Verif.SbpRtcm Verif.SbpRtcm.Spec Verif.Msm Verif.Msm.Spec Verif.Time
open Verif.RtcmSbp (SbpTime SbpObs ObsMsg Input)
open Verif.RtcmSbp.Spec (WellSplit notDelivered)

/-! ### one observation -/

/-- pseudorange, m -/
def range (o : SbpObs) : ℚ := o.P / 50
/-- carrier phase, cycles -/
def cycles (o : SbpObs) : ℚ := o.Li + o.Lf / 256
/-- range rate in m/s that the Doppler says for carrier frequency `hz` -/
def rate (hz : ℚ) (o : SbpObs) : ℚ := -((o.Di : ℚ) + o.Df / 256) * 299792458 / hz

/-- An observation that fits MSM; `f`: the carrier frequency, if known.  The phase must agree with the pseudorange to 800 m. -/
structure ObsOk (f : Option ℚ) (o : SbpObs) : Prop where
  codeValid : o.flags.testBit 0 = true
  range : range o < 76000000
  hz : ∀ hz, f = some hz → 1 ≤ hz ∧ hz ≤ 2000000000
  Lf : o.Lf ≤ 255
  phase : ∀ hz, f = some hz → o.flags.testBit 1 = true → |cycles o * 299792458 / hz - Spec.range o| ≤ 800
  Df : o.Df ≤ 255
  rate : ∀ hz, f = some hz → o.flags.testBit 3 = true → |rate hz o| ≤ 8191
  cn0 : o.cn0 < 254
  lock : o.lock < 16

/-- Observation `o'` is `o` as it comes back: pseudorange, phase, Doppler and lock time exactly; signal to noise to half a dB-Hz.  Phase and
Doppler are sent if they are valid and the carrier frequency is known, Doppler only in MSM5. -/
structure Back (ty : MsmType) (known : Bool) (o o' : SbpObs) : Prop where
  sat : o'.sat = o.sat
  code : o'.code = o.code
  P : o'.P = o.P
  L : (o'.Li, o'.Lf) = if known && o.flags.testBit 1 then (o.Li, o.Lf) else (0, 0)
  D : (o'.Di, o'.Df) = if known && decide (ty = .msm5) && o.flags.testBit 3 then (o.Di, o.Df) else (0, 0)
  cn0 : |(o'.cn0 : ℤ) - o.cn0| ≤ 2
  lock : o'.lock = o.lock
  flags : ∀ b, o'.flags.testBit b = match b with
    | 0 => true
    | 1 => known && o.flags.testBit 1
    | 2 => known && o.flags.testBit 1 && o.flags.testBit 2
    | 3 => known && decide (ty = .msm5) && o.flags.testBit 3
    | _ => false

/-! ### one epoch -/

/-- sender and receiver have the same tables and the receiver applies no biases and no mask -/
structure Match (env : Env) (env' : RtcmSbp.Env) : Prop where
  prn : env'.prn = env.prn
  freq : env'.freq = env.freq
  sigBias : ∀ c, env'.sigBias c = 0
  gloBias : ∀ c f, env'.gloBias c f = (0, 0)
  masked : ∀ c, env'.masked c = false

/-- the carrier frequency the sender uses for an observation of constellation `c` -/
def freqFor (env : Env) (cfg : Config) (c : Cons) (o : SbpObs) : Option ℚ := env.freq o.code (channel cfg c o.sat)

/-- the GLONASS channel the receiver uses: MSM5 carries four bits of it, MSM4 none, then it is the one in the receiver's table -/
def chanBack (ty : MsmType) (table : List Nat) (ch sat : Nat) : Nat := if ty = .msm5 then ch % 16 else table.getD sat 0

/-- An epoch MSM can carry without loss: observations of one satellite agree to 140 m in range and 1.1 m/s in range rate; for GLONASS the
receiver arrives at the same carrier frequency as the sender; and not only QZSS, which the receiver does not know. -/
structure EpochOk (env : Env) (table : List Nat) (e : Epoch) : Prop where
  msm : e.cfg.msm = true ∧ e.cfg.legacy = false
  type : e.cfg.msmType = .msm4 ∨ e.cfg.msmType = .msm5
  clean : Clean env e.obs
  size : e.obs.length ≤ 210
  obs : ∀ o ∈ e.obs, ∀ c, env.consOf o.code = some c → ObsOk (freqFor env e.cfg c o) o
  ranges : ∀ o ∈ e.obs, ∀ o' ∈ e.obs, o.sat = o'.sat → env.consOf o.code = env.consOf o'.code → |range o - range o'| ≤ 140
  rates : ∀ o ∈ e.obs, ∀ o' ∈ e.obs, o.sat = o'.sat → ∀ c, env.consOf o.code = some c → env.consOf o'.code = some c →
    ∀ hz, freqFor env e.cfg c o = some hz → ∀ hz', freqFor env e.cfg c o' = some hz' →
    o.flags.testBit 3 = true → o'.flags.testBit 3 = true → |rate hz o - rate hz' o'| ≤ 11 / 10
  channels : ∀ o ∈ e.obs, env.consOf o.code = some .glo →
    env.freq o.code (chanBack e.cfg.msmType table (channel e.cfg .glo o.sat) o.sat) = freqFor env e.cfg .glo o
  notOnlyQzss : e.obs ≠ [] → ∃ o ∈ e.obs, env.consOf o.code ≠ some .qzs
  tow : 0 < e.t.tow ∧ e.t.tow < 604800000
  week : 0 ≤ e.t.wn ∧ e.t.wn ≤ 32767
  leap : (∃ o ∈ e.obs, env.consOf o.code = some .glo) → ∃ l, e.cfg.leap = some l ∧ -128 ≤ l ∧ l ≤ 127

/-- the time of the epoch as GPS time -/
def epochTime (t : SbpTime) : GpsTime := ⟨t.wn, (t.tow : ℚ) / 1000⟩

/-- seconds of GPS time -/
def secs (t : GpsTime) : ℚ := t.wn * 604800 + t.tow

/-- The receiver is in a position to tell the time of the epoch: its time `x.time` is known and within half a week.  For GLONASS the leap second
must be the one of the sender, and the receiver's time within half a day; moreover either the receiver's time plus the leap second is within 30 s
of the epoch, or there are GPS observations in the epoch. -/
structure TimeOk (env : Env) (env' : RtcmSbp.Env) (e : Epoch) (x : Input) : Prop where
  solved : x.solved = true
  valid : x.time.valid
  middle : 259200 ≤ secs x.time ∧ secs x.time < 32767 * 604800 - 259200
  near : |secs (epochTime e.t) - secs x.time| < 302400
  week : 0 < x.time.wn
  glo : (∃ o ∈ e.obs, env.consOf o.code = some .glo) → e.cfg.leap = some (env'.utcOffset x.time) ∧
    |secs (epochTime e.t) - secs x.time| < 43200 ∧
    (|secs (epochTime e.t) - secs x.time - env'.utcOffset x.time| ≤ 30 ∨
      |env'.utcOffset x.time| ≤ 30 ∧ ∃ o ∈ e.obs, env.consOf o.code = some .gps)

/-- the observations the receiver delivers: not QZSS and not one of the signals it does not support -/
def delivered (env : Env) (o : SbpObs) : Bool := decide (env.consOf o.code ≠ some .qzs) && decide (o.code ∉ notDelivered)

/-- whether the carrier frequency of an observation is known -/
def known (env : Env) (e : Epoch) (o : SbpObs) : Bool :=
  match env.consOf o.code with
  | some c => (freqFor env e.cfg c o).isSome
  | none => false

/-- SBP observation messages `g` are the epoch `e` as it comes back: a well-formed group of messages with the time of the epoch and its station,
whose observations are the delivered ones of the epoch, each once -/
def EpochBack (env : Env) (e : Epoch) (g : List ObsMsg) : Prop :=
  ∃ L R, L.Perm (e.obs.filter (delivered env)) ∧ List.Forall₂ (fun o o' => Back e.cfg.msmType (known env e o) o o') L R ∧
    WellSplit e.t ((e.sender % 4096) ||| 0xF080) R g

/-! ### the stream -/

/-- what the sender puts on the stream: the messages of an epoch, or the payload of another message -/
inductive Ev
  | epoch (e : Epoch)
  | other (p : Buf)

def evPayloads (env : Env) : Ev → Option (List Buf)
  | .epoch e => epochPayloads env e
  | .other p => some [p]

/-- the event is fit for a receiver with the GLONASS channel table `table`; `xs`: the receiver's inputs while it receives the messages of the
event.  Other messages are any but observation messages; GLONASS ephemerides say what is in the table. -/
def EvOk (env : Env) (env' : RtcmSbp.Env) (table : List Nat) : Ev → List Input → Prop
  | .epoch e, xs => EpochOk env table e ∧ (∀ x ∈ xs, TimeOk env env' e x) ∧ ∀ ps, epochPayloads env e = some ps → xs.length = ps.length
  | .other p, xs => 1 ≤ p.length ∧ p.length ≤ 1017 ∧ RtcmSbp.messageType p ∉ [1002, 1004, 1010, 1012] ∧
      ¬ (1070 ≤ RtcmSbp.messageType p ∧ RtcmSbp.messageType p ≤ 1229) ∧
      ∃ x, xs = [x] ∧ ∀ sat fcn, x.gloEph = some (sat, fcn) → 1 ≤ sat → sat < table.length →
        table[sat]? = some (RtcmSbp.sbpFcnToRtcm fcn)

/-- the epochs sent, without empty ones -/
def evEpoch : Ev → Option Epoch
  | .epoch e => if e.obs = [] then none else some e
  | .other _ => none

/-- the bytes written by the sender: one RTCM frame for each payload -/
def SentAs (crc : Buf → BitVec 24) (env : Env) (evs : List Ev) (bytes : Buf) : Prop :=
  ∃ (pss : List (List Buf)) (fs : List Buf), evs.map (evPayloads env) = pss.map some ∧
    pss.flatten.mapM (RtcmFraming.encodeFrame crc 1023) = some fs ∧ bytes = fs.flatten

/-- the bytes arrive in chunks; `xs` is what the framing layer hands to the converter (with the receiver's time at each message) -/
def Received (crc : Buf → BitVec 24) (bytes : Buf) (chunks : List Buf) (xs : List Input) : Prop :=
  chunks.flatten = bytes ∧ (∀ c ∈ chunks, c.length ≤ RtcmFraming.bufferSize) ∧
  (RtcmFraming.run crc .init chunks).2.map RtcmFraming.framePayload = xs.map (fun x => .payload x.payload)

end Verif.ObsStream.Spec
