import Verif.Model.SsrSbp
import Verif.Spec.Decoders
/-
What the SSR conversion should produce, stated on the received messages.  Shared with the model: the message types, the
decoders (C14) and the per-message functions being specified.
-/
namespace Verif.SsrSbp.Spec
open Verif.Ssr Verif.SsrSbp Verif.Spec
open Verif.Msm (Cons)
open Verif.RtcmSbp (SbpTime)

/-- the separate orbit and clock message numbers of a constellation -/
def orbitNumber : Cons → Option Nat
  | .gps => some 1057 | .glo => some 1063 | .gal => some 1240 | .qzs => some 1246 | .bds => some 1258 | .sbas => none
def clockNumber : Cons → Option Nat
  | .gps => some 1058 | .glo => some 1064 | .gal => some 1241 | .qzs => some 1247 | .bds => some 1259 | .sbas => none

/-- a received separate orbit or clock message, with the time context it was received in -/
inductive Rx
  | orbit (x : Ctx) (m : OrbitMsg)
  | clock (x : Ctx) (m : ClockMsg)

/-- the separate orbit or clock message of constellation `c` in a payload -/
def rx (c : Cons) (i : Ctx × Buf) : Option Rx :=
  if some (msgNum i.2) = orbitNumber c then (decodeOrbit.run i.2).toOption.map (.orbit i.1)
  else if some (msgNum i.2) = clockNumber c then (decodeClock.run i.2).toOption.map (.clock i.1)
  else none

/-- two successive messages that belong together: one orbit, one clock message, same epoch, same IOD SSR -/
def fit : Rx → Rx → Option (Ctx × ClockMsg × OrbitMsg)
  | .orbit _ o, .clock x c => if c.1.epoch = o.1.epoch ∧ c.1.iodSsr = o.1.iodSsr then some (x, c, o) else none
  | .clock _ c, .orbit x o => if c.1.epoch = o.1.epoch ∧ c.1.iodSsr = o.1.iodSsr then some (x, c, o) else none
  | _, _ => none

/-- the pairs formed by successive messages of one constellation; a message is used at most once -/
def pairs : List Rx → List (Ctx × ClockMsg × OrbitMsg)
  | a :: b :: r =>
    match fit a b with
    | some p => p :: pairs r
    | none => pairs (b :: r)
  | _ => []
termination_by l => l.length

/-- does this payload carry a separate orbit or clock message of constellation `c`? -/
def isSeparate (c : Cons) (p : Buf) : Bool := some (msgNum p) = orbitNumber c || some (msgNum p) = clockNumber c

/-- the outputs caused by each payload of a history -/
def trace (env : Env) : State → List (Ctx × Buf) → List ((Ctx × Buf) × List Out)
  | _, [] => []
  | s, i :: r => (i, (step env s i.1 i.2).2) :: trace env (step env s i.1 i.2).1 r

/-- an SBP orbit/clock message faithfully combines orbit correction `o` and clock correction `c` of the message with
header `h` -/
def Combines (env : Env) (h : Header) (o : Orbit) (c : Option Clock) (m : OrbitClock) : Prop :=
  m.common.code = env.l1Code h.cons ∧ m.common.sat = o.satId ∧ m.common.updateInterval = h.updateInterval ∧
  m.common.iodSsr = h.iodSsr ∧ m.iod = o.iode % 256 ∧
  m.radial = o.radial ∧ m.along = o.along ∧ m.cross = o.cross ∧
  m.dotRadial = o.dotRadial ∧ m.dotAlong = o.dotAlong ∧ m.dotCross = o.dotCross ∧
  m.clock = c.map fun c => (c.c0, c.c1, c.c2)

/-- the orbit/clock messages among the outputs -/
def orbitClocks (l : List Out) : List OrbitClock := l.filterMap fun | .orbitClock m => some m | _ => none
def codeBiases (l : List Out) : List CodeBiasMsg := l.filterMap fun | .codeBias m => some m | _ => none
def phaseBiases (l : List Out) : List PhaseBiasMsg := l.filterMap fun | .phaseBias m => some m | _ => none

/-- `gs` splits a list into consecutive parts of at most `n` elements: all parts but the last are full, no part is empty,
except that the empty list has one (empty) part -/
structure SplitOf {α} (n : Nat) (l : List α) (gs : List (List α)) : Prop where
  all : gs.flatten = l
  bounded : ∀ g ∈ gs, g.length ≤ n
  full : ∀ g ∈ gs.dropLast, g.length = n
  nonempty : ∀ g ∈ gs, g = [] → l = [] ∧ gs = [[]]
  some : gs ≠ []

/-- the SBP phase-bias message for satellite `b` of a message with header `h`, carrying the signals `sigs` -/
def phaseMsg (env : Env) (h : Header) (t : SbpTime) (b : PhaseBias) (sigs : List PhaseSig) : PhaseBiasMsg where
  common := { time := t, code := env.l1Code h.cons, sat := b.satId, updateInterval := h.updateInterval, iodSsr := h.iodSsr }
  dispersive := h.dispersive
  mw := h.melbourne
  yaw := b.yaw
  yawRate := b.yawRate
  biases := sigs

/-- the SBP code-bias message for satellite `b` -/
def codeMsg (env : Env) (h : Header) (t : SbpTime) (b : CodeBias) : CodeBiasMsg where
  common := { time := t, code := env.l1Code h.cons, sat := b.satId, updateInterval := h.updateInterval, iodSsr := h.iodSsr }
  biases := b.signals

end Verif.SsrSbp.Spec
