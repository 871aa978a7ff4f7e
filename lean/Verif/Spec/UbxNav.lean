import Verif.Spec.UbxSbp
/-
What the SBP messages made from the navigation messages of a u-blox receiver must say: position, attitude and velocity (C52), satellites in
view (C53), forwarded messages (C53).
-/
namespace Verif.Ubx.Spec
open Verif.Ubx
open Verif.Msm (Code Cons)

/-! ### navigation solution -/

/-- a POS_LLH, ORIENT_EULER or VEL_ECEF message -/
def isNav {E : Type} : Out E → Bool
  | .posLlh _ => true
  | .orient _ => true
  | .velEcef _ => true
  | _ => false

/-- what the converter has to remember: the last NAV-PVT message, and the last NAV-ATT message with the last NAV-PVT message before it -/
structure NavHist where
  pvt : Option NavPvt := none
  att : Option (NavAtt × Option NavPvt) := none

def navFrame (h : NavHist) (f : List (BitVec 8)) : NavHist :=
  match decNavPvt f with
  | .ok (m, _) => { h with pvt := some m }
  | .error _ =>
    match decNavAtt f with
    | .ok (m, _) => { h with att := some (m, h.pvt) }
    | .error _ => h

def navHist (frames : List (List (BitVec 8))) : NavHist := frames.foldl navFrame {}

/-- fix modes of SBP: invalid 0, single point 1, differential 2, float RTK 3, fixed RTK 4, dead reckoning 5; from the fix type of u-blox (1
dead reckoning only, 2 two- and 3 three-dimensional, 4 combined with dead reckoning), the flag for differential corrections and the carrier
phase status -/
def fixMode (fixType : Nat) (dgnss : Bool) (carrier : Nat) : Nat :=
  match fixType, dgnss, carrier with
  | 1, _, _ => 5
  | 2, false, _ | 3, false, _ | 4, false, _ => 1
  | 2, true, 0 | 3, true, 0 | 4, true, 0 => 2
  | 2, true, 1 | 3, true, 1 | 4, true, 1 => 3
  | 2, true, 2 | 3, true, 2 | 4, true, 2 => 4
  | _, _, _ => 0

/-- dead reckoning contributes -/
def inertial (fixType : Nat) : Bool := fixType = 1 || fixType = 4

/-- the flags: fix mode in bits 0 to 2, inertial solution in bit 3, nothing else -/
def posFlags (m : NavPvt) : Nat :=
  fixMode m.fix_type.toNat (m.flags.getLsbD 1) (m.flags.extractLsb' 6 2).toNat + if inertial m.fix_type.toNat then 8 else 0

/-- degrees from 1e-7 degrees, metres from millimetres, and millimetres of accuracy, saturating -/
def SaysDeg (d : ℚ) (x : BitVec 32) : Prop := |d - (x.toInt : ℚ) / 10000000| ≤ 1 / 10000000000000
def SaysMetre (d : ℚ) (x : BitVec 32) : Prop := |d - (x.toInt : ℚ) / 1000| ≤ 1 / 1000000000
def saturate (x : BitVec 32) : Nat := if x.toNat ≤ 65535 then x.toNat else 65535

structure SaysPos (tow lat lon height hAcc vAcc : BitVec 32) (nSats flags : Nat) (p : PosLlh) : Prop where
  tow : p.tow = tow.toNat
  lat : SaysDeg p.lat lat
  lon : SaysDeg p.lon lon
  height : SaysMetre p.height height
  hAcc : p.hAcc = saturate hAcc
  vAcc : p.vAcc = saturate vAcc
  nSats : p.nSats = nSats
  flags : p.flags = flags

/-- an angle in 1e-6 degrees from 1e-5 degrees; its accuracy in degrees as a float -/
def SaysAngle (v : Int) (acc : ℚ) (x accx : BitVec 32) : Prop :=
  v = 10 * x.toInt ∧ |acc - (accx.toNat : ℚ) / 100000| ≤ (accx.toNat : ℚ) / 100000 / 8000000 + 1 / 2 ^ 100

/-- the angles of the SBP message fit in 32 bits -/
def fits10 (x : BitVec 32) : Prop := -214748364 ≤ x.toInt ∧ x.toInt ≤ 214748364

def attFlags (pvt : Option NavPvt) : Nat := if (pvt.map fun m => inertial m.fix_type.toNat) = some true then 1 else 0

structure SaysAtt (m : NavAtt) (pvt : Option NavPvt) (o : Orient) : Prop where
  tow : o.tow = m.i_tow.toNat
  roll : SaysAngle o.roll o.rollAcc m.roll m.acc_roll
  pitch : SaysAngle o.pitch o.pitchAcc m.pitch m.acc_pitch
  yaw : SaysAngle o.yaw o.yawAcc m.heading m.acc_heading
  flags : o.flags = attFlags pvt

/-- an angle that may be missing: zero then -/
def SaysAngle? (v : Int) (acc : ℚ) : Option (BitVec 32 × BitVec 32) → Prop
  | some (x, accx) => SaysAngle v acc x accx
  | none => v = 0 ∧ acc = 0

/-- roll, pitch and flags of the last attitude, yaw from the high rate solution -/
structure SaysHnrAtt (m : HnrPvt) (att : Option (NavAtt × Option NavPvt)) (o : Orient) : Prop where
  tow : o.tow = m.i_tow.toNat
  yaw : SaysAngle o.yaw o.yawAcc m.heading_vehicle m.heading_acc
  roll : SaysAngle? o.roll o.rollAcc (att.map fun a => (a.1.roll, a.1.acc_roll))
  pitch : SaysAngle? o.pitch o.pitchAcc (att.map fun a => (a.1.pitch, a.1.acc_pitch))
  flags : o.flags = (att.map fun a => attFlags a.2).getD 0

/-- velocity in mm/s from cm/s; number of satellites of the last solution; dead reckoning unless there is no fix, inertial always -/
structure SaysVel (m : NavVelecef) (pvt : Option NavPvt) (v : VelEcef) : Prop where
  tow : v.tow = m.i_tow.toNat
  x : v.x = 10 * m.ecefVX.toInt
  y : v.y = 10 * m.ecefVY.toInt
  z : v.z = 10 * m.ecefVZ.toInt
  nSats : v.nSats = (pvt.map fun p => p.num_sats.toNat).getD 0
  flags : v.flags = if pvt.isSome ∧ pvt.map (·.fix_type) ≠ some 0 then 13 else 8

/-! ### satellites in view -/

/-- the lists of the SV_AZ_EL and of the MEASUREMENT_STATE messages -/
def azels {E : Type} (l : List (Out E)) : List (List (Nat × Code × Nat × Int)) :=
  l.filterMap fun o => match o with | .svAzEl a => some a | _ => none
def states {E : Type} (l : List (Out E)) : List (List (Nat × Code × Nat)) :=
  l.filterMap fun o => match o with | .measState a => some a | _ => none

/-- satellite, signal, azimuth in 2 degrees to the nearest, elevation in degrees -/
def SaysAzEl (d : NavSatData) (a : Nat × Code × Nat × Int) : Prop :=
  a.1 = d.sv_id.toNat ∧ SignalCode d.gnss_id.toNat 0 a.2.1 ∧
  (0 ≤ d.azim.toInt → d.azim.toInt ≤ 360 → |2 * (a.2.2.1 : Int) - d.azim.toInt| ≤ 1) ∧ a.2.2.2 = d.elev.toInt

/-- satellite, signal, signal strength in 0.25 dB-Hz -/
def SaysState (d : NavSatData) (a : Nat × Code × Nat) : Prop :=
  a.1 = d.sv_id.toNat ∧ SignalCode d.gnss_id.toNat 0 a.2.1 ∧ (d.cno.toNat ≤ 63 → a.2.2 = 4 * d.cno.toNat)

/-- cut into messages: none empty, none too long, all full but the last -/
def Chunked {α : Type} (max : Nat) (ms : List (List α)) : Prop :=
  ∀ (k : Nat) (m : List α), ms[k]? = some m → m ≠ [] ∧ m.length ≤ max ∧ (k + 1 < ms.length → m.length = max)

/-! ### sources -/

/-- class and number of the UBX messages that an SBP message can come from -/
def sources {E : Type} : Out E → List (BitVec 8 × BitVec 8)
  | .obs _ => [(0x02, 0x15)]
  | .posLlh _ => [(0x01, 0x07), (0x28, 0x00)]
  | .orient _ => [(0x01, 0x05), (0x28, 0x00)]
  | .velEcef _ => [(0x01, 0x11)]
  | .odometry .. => [(0x10, 0x02)]
  | .wheeltick .. => [(0x10, 0x02)]
  | .imuRaw _ => [(0x10, 0x03)]
  | .imuAux .. => [(0x10, 0x03)]
  | .svAzEl _ => [(0x01, 0x35)]
  | .measState _ => [(0x01, 0x35)]
  | .timeOffset .. => [(0x01, 0x03)]
  | .fwd .. => [(0x0A, 0x09)]
  | .eph _ => [(0x02, 0x13)]

/-- class and number of a frame -/
def frameId (frame : List (BitVec 8)) : Option (BitVec 8 × BitVec 8) :=
  match frame with
  | c :: i :: _ => some (c, i)
  | _ => none

end Verif.Ubx.Spec
