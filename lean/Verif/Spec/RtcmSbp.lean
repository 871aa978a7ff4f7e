import Verif.Model.RtcmSbp
/-
What a user expects of the observation output of the RTCM-to-SBP converter.
-/
namespace Verif.RtcmSbp.Spec
open Verif.Time Verif.Msm

/-- `msgs` is a correct split of the epoch `obs` (time `t`, station `sender`) into SBP observation messages: nothing lost,
duplicated or reordered; at most 14 observations each; all full except the last; numbered 0,1,.. with the total in the
high nibble; the same time and sender in all; one (empty) message if there is no observation. -/
structure WellSplit (t : SbpTime) (sender : Nat) (obs : List SbpObs) (msgs : List ObsMsg) : Prop where
  complete : msgs.flatMap (·.obs) = obs
  nonempty : msgs ≠ []
  bounded : ∀ m ∈ msgs, m.obs.length ≤ 14
  full : ∀ i m, msgs[i]? = some m → i + 1 < msgs.length → m.obs.length = 14
  lastNonempty : ∀ m, msgs[msgs.length - 1]? = some m → obs ≠ [] → m.obs ≠ []
  numbered : ∀ i m, msgs[i]? = some m → m.seq / 16 = msgs.length ∧ m.seq % 16 = i
  tagged : ∀ m ∈ msgs, m.t = t ∧ m.sender = sender

/-- the observation messages among the outputs, in order -/
def obsOut (outs : List Out) : List ObsMsg := outs.filterMap fun o => match o with
  | .obs m => some m
  | _ => none

/-- an observation together with the time of week and station it is attributed to -/
structure Tagged where
  tow : Nat
  sender : Nat
  obs : SbpObs
deriving DecidableEq

/-- the observations in a list of SBP messages with the time and sender in the headers -/
def tagsOf (msgs : List ObsMsg) : List Tagged := msgs.flatMap fun m => m.obs.map fun o => ⟨m.t.tow, m.sender, o⟩

/-- the convertible observations of a legacy message: pseudorange and phase valid, satellite number known -/
def legacyObs (env : Env) (glo : Bool) (m : Obs.Msg) : List SbpObs :=
  m.sats.flatMap fun s => [0, 1].filterMap fun f =>
    if (freqOf s f).vPr && (freqOf s f).vCp then
      (legacySid glo s.svId f (freqOf s f).code).map fun x => packLegacy env x.1 x.2 (freqOf s f)
    else none

/-- the convertible observations of an MSM message: known code and satellite, constellation enabled, signal supported,
pseudorange valid; `fcn` is the channel table -/
def msmObs (env : Env) (cons : Cons) (m : Msm.Msg) (s : State) : List SbpObs :=
  (msmCells m.header).filterMap fun c =>
    let code := (signalToCode (hdrOf cons m.header) c.2.1).getD .invalid
    let prn := (satToPrn env.prn (hdrOf cons m.header) c.1).getD 0
    if code ≠ .invalid ∧ prn ≠ 0 ∧ env.masked cons = false ∧ unsupported code = false ∧ (m.sig c.2.2).vPr = true then
      some (packMsm env prn code (gloFcn cons prn (m.sat c.1).gloFcn s) (m.sig c.2.2))
    else none

/-- the GPS time of week, in milliseconds, of an observation message with time field `tow` received at `inp.time` -/
def towOf (env : Env) (cons : Cons) (tow : Nat) (time : GpsTime) : Nat :=
  match cons with
  | .glo => match computeGloTime tow time (some (env.utcOffset time)) with
    | some t => (crint (t.tow * 1000)).toNat
    | none => 0
  | .bds => if tow + 14000 < 604800000 then tow + 14000 else tow + 14000 - 604800000
  | _ => tow

/-- What a payload offers for conversion: its convertible observations, with the time and the station of the payload. -/
def offered (env : Env) (s : State) (inp : Input) : List Tagged :=
  let tag (cons : Cons) (tow stn : Nat) (l : List SbpObs) : List Tagged :=
    l.map fun o => ⟨towOf env cons tow inp.time, stn ||| 0xF080, o⟩
  let n := messageType inp.payload
  let leg (glo : Bool) (k : Obs.Kind) : List Tagged :=
    match (Obs.decode k).run inp.payload with
    | .ok m => tag (if glo then .glo else .gps) m.header.towMs m.header.stnId (legacyObs env glo m)
    | .error _ => []
  if n = 1002 then leg false .m1002
  else if n = 1004 then leg false .m1004
  else if n = 1010 then leg true .m1010
  else if n = 1012 then leg true .m1012
  else match msmSupported n with
    | some (ty, cons) => match (decodeMsm ty).run inp.payload with
      | .ok m => tag cons m.header.towMs m.header.stnId (msmObs env cons m s)
      | .error _ => []
    | none => []

/-- what a history offers, in order -/
def offeredRun (env : Env) (s : State) : List Input → List Tagged
  | [] => []
  | i :: is => offered env s i ++ offeredRun env (step env s i).1 is

/-- the observations still waiting, with the time and station they will be sent with -/
def waiting (s : State) : List Tagged := s.buf.map fun o => ⟨s.obsTime.tow, s.sender, o⟩

end Verif.RtcmSbp.Spec
