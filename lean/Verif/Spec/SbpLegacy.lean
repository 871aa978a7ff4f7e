import Verif.Spec.SbpRtcm
/-
What the legacy observation messages 1004 and 1012 of an epoch should contain.
-/
namespace Verif.SbpRtcm.Spec
open Verif.Msm Verif.SbpRtcm
open Verif.RtcmSbp (SbpObs)

/-- the signals of the legacy messages: band and code indicator (0: C/A or civil, 1: P) -/
inductive Band | gps1 | gps2 | glo1 | glo2
deriving DecidableEq
def signal : Code → Option (Band × Nat)
  | .gps_l1ca => some (.gps1, 0) | .gps_l1p => some (.gps1, 1) | .gps_l2cm => some (.gps2, 0) | .gps_l2p => some (.gps2, 1)
  | .glo_l1of => some (.glo1, 0) | .glo_l1p => some (.glo1, 1) | .glo_l2of => some (.glo2, 0) | .glo_l2p => some (.glo2, 1)
  | _ => none

/-- the observations in a band with the code indicator -/
def inBand (b : Band) (l : List SbpObs) : List (SbpObs × Nat) := l.filterMap fun o => match signal o.code with
  | some (b', i) => if b' = b then some (o, i) else none
  | none => none

/-- RTCM frequency data saying what an SBP observation with code indicator `i` says (the pseudorange, in 1/50 m, as the nearest `double`) -/
def freqOfObs (o : SbpObs) (i : Nat) : Obs.Freq :=
  { code := i, pr := Fp.f64 ((o.P : ℚ) / 50), cp := (o.Li : ℚ) + o.Lf / 256, lock := Lock.decodeLockTime o.lock, cnr := (o.cn0 : ℚ) / 4
    vPr := o.flags.testBit 0, vCp := o.flags.testBit 1 && o.flags.testBit 2, vCnr := decide (o.cn0 ≠ 0), vLock := true }

/-- the second frequency of a satellite: its last second-frequency observation in the list, if any -/
def second (b : Band) (sat : Nat) (l : List SbpObs) (d : Obs.Freq) : Obs.Freq :=
  match ((inBand b l).filter fun p => p.1.sat = sat).getLast? with
  | some p => freqOfObs p.1 p.2
  | none => d

/-- the satellites of the GPS message: one per first-frequency observation, with the second frequency that follows it -/
def gpsSats : List SbpObs → List Obs.Sat
  | [] => []
  | o :: r => match signal o.code with
    | some (.gps1, i) => { svId := o.sat, fcn := 0, l1 := freqOfObs o i, l2 := second .gps2 o.sat r {} } :: gpsSats r
    | _ => gpsSats r

/-- the same for GLONASS, for satellites with a known channel (255: unknown) -/
def gloSats (fcn : List Nat) : List SbpObs → List Obs.Sat
  | [] => []
  | o :: r => match signal o.code with
    | some (.glo1, i) =>
      if fcn.getD o.sat 255 ≠ 255 then
        { svId := o.sat, fcn := fcn.getD o.sat 255, l1 := freqOfObs o i, l2 := second .glo2 o.sat r {} } :: gloSats fcn r
      else gloSats fcn r
    | _ => gloSats fcn r

/-- An epoch the legacy messages can carry: at most one first-frequency observation per satellite, at most 32 satellites
per constellation, GLONASS satellite numbers within the channel table. -/
structure LegacyOk (fcn : List Nat) (l : List SbpObs) : Prop where
  gps : ((inBand .gps1 l).map (·.1.sat)).Nodup
  glo : ((inBand .glo1 l).map (·.1.sat)).Nodup
  gpsN : (inBand .gps1 l).length ≤ 32
  gloN : (inBand .glo1 l).length ≤ 32
  table : ∀ p ∈ inBand .glo1 l, p.1.sat < fcn.length

end Verif.SbpRtcm.Spec
