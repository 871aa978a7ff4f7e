import Verif.Model.RtcmSbp
import Verif.Model.Ssr
/-
Conversion of the SSR messages (orbit, clock, combined, code bias, phase bias) into SBP messages.
gnss_converters/src/rtcm3_sbp_ssr.c and the SSR cases of gnss_converters/src/rtcm3_sbp.c:395-530.
Assumption on libsbp (not in the tree): `sbp_msg_ssr_orbit_clock_t.iod` is a `u8`.
-/
namespace Verif.SsrSbp
open Verif.Time Verif.Ssr
open Verif.Msm (Cons Code)
open Verif.RtcmSbp (SbpTime crint messageType)

/-- libswiftnav/libsbp parameters: `constellation_to_l1_code`, SBP_MSG_SSR_PHASE_BIASES_BIASES_MAX -/
structure Env where
  l1Code : Cons → Code
  maxPhase : Nat

/-- `sbp_gps_time_sec_t`; `none` is an invalid time (week WN_UNKNOWN, converted to 0xFFFF) -/
abbrev Time := Option SbpTime

/-- the time context of a message: `state->time_from_input_data` and the leap seconds, if known -/
structure Ctx where
  rover : GpsTime
  leap : Option Int

/-- `compute_ssr_message_time`   rtcm3_sbp_ssr.c:22-41.  The result of `compute_glo_time` is not checked by the code; a
failure with a valid rover time leaves an unknown week number. -/
def messageTime (cons : Cons) (epochMs : Nat) (x : Ctx) : Time :=
  (if cons = .glo then computeGloTime epochMs x.rover x.leap
   else if cons = .bds then computeGpsMessageTime (beidouTowToGpsTow epochMs) x.rover
   else computeGpsMessageTime epochMs x.rover).map fun t => ⟨t.wn, (crint t.tow).toNat⟩

/-- `gps_time_sec_valid`   rtcm3_sbp_internal.h:175-177 (INVALID_TIME 0xFFFF, MAX_WN 32767) -/
def timeOk (t : SbpTime) : Prop := t.wn < 32767 ∧ t.tow < 604800
instance (t) : Decidable (timeOk t) := inferInstanceAs (Decidable (_ ∧ _))

/-- `messageTime` followed by the validity check of every caller   rtcm3_sbp_ssr.c:48-56,168-177,209-218 -/
def validTime (h : Header) (x : Ctx) : Time :=
  (messageTime h.cons (h.epoch * 1000) x).filter fun t => decide (timeOk t)

/-- the members common to the three SBP messages: time, sid, update interval, IOD SSR -/
structure Common where
  time : SbpTime
  code : Code
  sat : Nat
  updateInterval : Nat
  iodSsr : Nat
deriving DecidableEq

/-- `sbp_msg_ssr_orbit_clock_t` -/
structure OrbitClock where
  common : Common
  iod : Nat
  radial : Int
  along : Int
  cross : Int
  dotRadial : Int
  dotAlong : Int
  dotCross : Int
  /-- c0, c1, c2; `none`: the decoder did not write them -/
  clock : Option (Int × Int × Int)
deriving DecidableEq

/-- `sbp_msg_ssr_code_biases_t` -/
structure CodeBiasMsg where
  common : Common
  biases : List (Nat × Int)
deriving DecidableEq

/-- `sbp_msg_ssr_phase_biases_t` -/
structure PhaseBiasMsg where
  common : Common
  dispersive : Nat
  mw : Nat
  yaw : Nat
  yawRate : Int
  biases : List PhaseSig
deriving DecidableEq

inductive Out
  | orbitClock (m : OrbitClock)
  | codeBias (m : CodeBiasMsg)
  | phaseBias (m : PhaseBiasMsg)
deriving DecidableEq

/-- the assignments of time, sid, update interval and IOD SSR   rtcm3_sbp_ssr.c:58-62,179-186,220-224 -/
def common (env : Env) (h : Header) (sat : Nat) (t : SbpTime) : Common :=
  { time := t, code := env.l1Code h.cons, sat, updateInterval := h.updateInterval, iodSsr := h.iodSsr }

/-- `rtcm_ssr_header_to_sbp_orbit_clock`, `rtcm_ssr_orbit_to_sbp` and `rtcm_ssr_clock_to_sbp`; `none`: invalid time
rtcm3_sbp_ssr.c:43-83 -/
def mkOrbitClock (env : Env) (x : Ctx) (h : Header) (o : Orbit) (c : Option Clock) : Option OrbitClock :=
  (validTime h x).map fun t =>
    { common := common env h o.satId t, iod := o.iode % 256
      radial := o.radial, along := o.along, cross := o.cross
      dotRadial := o.dotRadial, dotAlong := o.dotAlong, dotCross := o.dotCross
      clock := c.map fun c => (c.c0, c.c1, c.c2) }

abbrev OrbitMsg := Header × List Orbit
abbrev ClockMsg := Header × List (Nat × Option Clock)

/-- the loop of `rtcm3_ssr_separate_orbit_clock_to_sbp`, over the remaining clock corrections; `k`: how many orbit
corrections are left to bound `sat_count`   rtcm3_sbp_ssr.c:98-125.  The search for the orbit (lines 106-112) is `find?`. -/
def separateLoop (env : Env) (x : Ctx) (om : OrbitMsg) : List (Nat × Option Clock) → Nat → List Out
  | [], _ => []
  | _ :: _, 0 => []
  | c :: cs, k + 1 =>
    match om.2.find? (fun o => o.satId = c.1) with
    | none => separateLoop env x om cs k
    | some o =>
      match mkOrbitClock env x om.1 o c.2 with
      | none => []
      | some m => .orbitClock m :: separateLoop env x om cs k

/-- `rtcm3_ssr_separate_orbit_clock_to_sbp`   rtcm3_sbp_ssr.c:85-127 -/
def separate (env : Env) (x : Ctx) (cm : ClockMsg) (om : OrbitMsg) : List Out := separateLoop env x om cm.2 om.2.length

/-- `rtcm3_ssr_orbit_clock_to_sbp`   rtcm3_sbp_ssr.c:129-148 -/
def combined (env : Env) (x : Ctx) (h : Header) : List (Orbit × Option Clock) → List Out
  | [] => []
  | (o, c) :: r =>
    match mkOrbitClock env x h o c with
    | none => []
    | some m => .orbitClock m :: combined env x h r

/-- `rtcm3_ssr_code_bias_to_sbp`   rtcm3_sbp_ssr.c:150-199 -/
def codeBias (env : Env) (x : Ctx) (h : Header) : List CodeBias → List Out
  | [] => []
  | b :: r =>
    match validTime h x with
    | none => []
    | some t => .codeBias { common := common env h b.satId t, biases := b.signals } :: codeBias env x h r

/-- the signal loop of `rtcm3_ssr_phase_bias_to_sbp`: message under construction (`acc`), remaining signals; `mk` sends
rtcm3_sbp_ssr.c:230-264 -/
def phaseLoop (maxPhase : Nat) (mk : List PhaseSig → Out) (none : Bool) : List PhaseSig → List PhaseSig → List Out
  | [], acc => if none ∨ acc.length > 0 then [mk acc] else []
  | s :: r, acc =>
    if (acc ++ [s]).length ≥ maxPhase then mk (acc ++ [s]) :: phaseLoop maxPhase mk none r []
    else phaseLoop maxPhase mk none r (acc ++ [s])

/-- `rtcm3_ssr_phase_bias_to_sbp`   rtcm3_sbp_ssr.c:201-266 -/
def phaseBias (env : Env) (x : Ctx) (h : Header) : List PhaseBias → List Out
  | [] => []
  | b :: r =>
    match validTime h x with
    | none => []
    | some t =>
      phaseLoop env.maxPhase (fun sigs => .phaseBias
        { common := common env h b.satId t, dispersive := h.dispersive, mw := h.melbourne, yaw := b.yaw, yawRate := b.yawRate,
          biases := sigs }) b.signals.isEmpty b.signals [] ++ phaseBias env x h r

/-! ### pairing separate orbit and clock messages -/

/-- `ssr_orbit_clock_cache`: the union and the two flags   gnss_converters/include/gnss-converters/rtcm3_sbp.h:61-69 -/
structure Cache where
  data : Sum ClockMsg OrbitMsg
  containsClock : Bool
  containsOrbit : Bool

/-- the cache for each constellation -/
abbrev State := Cons → Cache
def upd (s : State) (c : Cons) (v : Cache) : State := fun d => if d = c then v else s d

/-- the header seen when the union is read as a clock or as an orbit message (same layout) -/
def Cache.header (k : Cache) : Header := match k.data with | .inl m => m.1 | .inr m => m.1

/-- 1057, 1063, 1240, 1246, 1258   rtcm3_sbp.c:420-451.  Reading the union as the member that was not stored does not
happen in C (the flags say which one it is); the model outputs nothing then. -/
def onOrbit (env : Env) (x : Ctx) (m : OrbitMsg) (s : State) : State × List Out :=
  let k := s m.1.cons
  if k.containsClock = true ∧ k.containsOrbit = false ∧ k.header.epoch = m.1.epoch ∧ k.header.iodSsr = m.1.iodSsr ∧
      k.header.cons = m.1.cons then
    (upd s m.1.cons { k with containsClock := false },
      match k.data with | .inl c => separate env x c m | .inr _ => [])
  else (upd s m.1.cons { data := .inr m, containsClock := false, containsOrbit := true }, [])

/-- 1058, 1064, 1241, 1247, 1259   rtcm3_sbp.c:452-483 -/
def onClock (env : Env) (x : Ctx) (m : ClockMsg) (s : State) : State × List Out :=
  let k := s m.1.cons
  if k.containsClock = false ∧ k.containsOrbit = true ∧ k.header.epoch = m.1.epoch ∧ k.header.iodSsr = m.1.iodSsr ∧
      k.header.cons = m.1.cons then
    (upd s m.1.cons { k with containsOrbit := false },
      match k.data with | .inr o => separate env x m o | .inl _ => [])
  else (upd s m.1.cons { data := .inl m, containsClock := true, containsOrbit := false }, [])

/-- the SSR cases of `rtcm2sbp_decode_payload`   rtcm3_sbp.c:420-530 -/
def step (env : Env) (s : State) (x : Ctx) (p : Buf) : State × List Out :=
  let n := messageType p
  if n ∈ [1057, 1063, 1240, 1246, 1258] then
    match decodeOrbit.run p with | .ok m => onOrbit env x m s | .error _ => (s, [])
  else if n ∈ [1058, 1064, 1241, 1247, 1259] then
    match decodeClock.run p with | .ok m => onClock env x m s | .error _ => (s, [])
  else if n ∈ [1059, 1065, 1242, 1248, 1260] then
    match decodeCodeBias.run p with | .ok (h, l) => (s, codeBias env x h l) | .error _ => (s, [])
  else if n ∈ [1060, 1066, 1243, 1249, 1261] then
    match decodeOrbitClock.run p with | .ok (h, l) => (s, combined env x h l) | .error _ => (s, [])
  else if n ∈ [1265, 1266, 1267, 1268, 1269, 1270] then
    match decodePhaseBias.run p with | .ok (h, l) => (s, phaseBias env x h l) | .error _ => (s, [])
  else (s, [])

/-- a history of payloads with their time contexts -/
def run (env : Env) : State → List (Ctx × Buf) → State × List Out
  | s, [] => (s, [])
  | s, (x, p) :: r =>
    let a := step env s x p
    let b := run env a.1 r
    (b.1, a.2 ++ b.2)

/-- a zeroed `rtcm3_sbp_state` (static storage; `rtcm2sbp_init` does not touch the cache) -/
def State.zero : State := fun _ => ⟨.inl (⟨0, .gps, 0, 0, 0, 0, 0, 0, 0, 0, 0, 0⟩, []), false, false⟩

end Verif.SsrSbp
