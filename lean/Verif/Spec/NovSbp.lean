import Verif.Model.NovSbp
import Verif.Spec.Nov
import Mathlib.Analysis.Real.Pi.Bounds
/-
What the SBP messages made from NovAtel logs must say.
-/
namespace Verif.Nov.Spec
open Verif.Nov
open Verif.Ubx (Fl dbl flt)
open Verif.Msm (Code)

/-! ### histories -/

/-- the state of the program after these logs, if it is still alive -/
def stateAfter (L : Lib) (before : List Msg) : Option St := before.foldlM (fun st m => (convert L st m).map (·.1)) {}

/-- The SBP messages sent while the log `m` is handled, after the logs `before`.  `none`: the program aborts before or there. -/
def sentFor (L : Lib) (before : List Msg) (m : Msg) : Option (List Out) :=
  (stateAfter L before).bind fun st => (convert L st m).map (·.2)

def isPos (m : Msg) : Bool := match m.body with | .bestpos _ => true | _ => false
def isVel (m : Msg) : Bool := match m.body with | .bestvel _ => true | _ => false
def isImu (m : Msg) : Bool := match m.body with | .rawimusx _ => true | _ => false

/-- the last position or velocity log, the last position log, the last IMU log -/
def lastNav (before : List Msg) : Option Msg := (before.filter fun m => isPos m || isVel m).getLast?
def lastPos (before : List Msg) : Option Msg := (before.filter isPos).getLast?
def lastImu (before : List Msg) : Option Msg := (before.filter isImu).getLast?

/-! ### position, velocity, attitude -/

/-- the GPS_TIME message that goes with a log -/
def timeMsg (m : Msg) : Out := .gpsTime { wn := m.header.week, tow := m.header.ms, ns := 0, flags := 1 }

def sameTime (a b : Msg) : Prop := a.header.week = b.header.week ∧ a.header.ms = b.header.ms
instance (a b : Msg) : Decidable (sameTime a b) := by unfold sameTime; infer_instance

/-- the time is sent when it is not that of the position or velocity log before -/
def timeDue (before : List Msg) (m : Msg) : List Out :=
  match lastNav before with
  | none => [timeMsg m]
  | some m' => if sameTime m' m then [] else [timeMsg m]

/-- SBP fix modes: 0 none, 1 single point, 2 differential, 3 float, 4 fixed, 6 SBAS; bit 3: inertial.  NovAtel position types: 0 none, 16
single, 17 pseudorange differential, 18 SBAS, 34 narrow-lane float, 48 to 50 integer ambiguities, 52 to 56 inertial with SBAS, single,
differential, float, fixed. -/
def posFlags : Nat → Nat
  | 0 => 0
  | 17 => 2
  | 18 => 6
  | 34 => 3
  | 48 | 49 | 50 => 4
  | 52 => 6 + 8
  | 53 => 1 + 8
  | 54 => 2 + 8
  | 55 => 3 + 8
  | 56 => 4 + 8
  | _ => 1

/-- millimetres of a standard deviation -/
def SaysMm (v : Nat) (sd : ℚ) : Prop := |(v : ℚ) - 1000 * sd| ≤ 1 / 2 + 1 / 100

/-- the height above the ellipsoid: that above mean sea level plus the separation at the position (to 1e-13 radian) -/
def SaysHeight (L : Lib) (lat lon hgt : ℚ) (height : Fl) : Prop :=
  ∃ a b : ℚ, |(a : ℝ) - lat * Real.pi / 180| ≤ 1 / 10 ^ 13 ∧ |(b : ℝ) - lon * Real.pi / 180| ≤ 1 / 10 ^ 13 ∧
    ∀ g, L.geoid (.fin a) (.fin b) = .fin g → |g| ≤ 1000 → ∃ z, height = .fin z ∧ |z - (hgt + g)| ≤ 1 / 10 ^ 6

structure SaysPos (L : Lib) (m : Msg) (b : BestPos) (p : PosLlh) : Prop where
  tow : p.tow = m.header.ms
  lat : p.lat = b.lat
  lon : p.lon = b.lon
  height : ∀ lat lon hgt, dbl b.lat = .fin lat → dbl b.lon = .fin lon → dbl b.hgt = .fin hgt → |lat| ≤ 90 → |lon| ≤ 360 → |hgt| ≤ 1000000 →
    SaysHeight L lat lon hgt p.height
  hAcc : ∀ x y, flt b.lat_stddev = .fin x → flt b.lon_stddev = .fin y → 0 ≤ x → 0 ≤ y → SaysMm p.hAcc (max x y)
  vAcc : ∀ x, flt b.hgt_stddev = .fin x → SaysMm p.vAcc x
  nSats : p.nSats = b.num_sv_in_soln
  flags : p.flags = posFlags b.pos_type.toNat

/-- `v` is `y` rounded, saturating in 32 bits; but for the rounding of the computation -/
def Says32 (v : Int) (y : ℝ) : Prop := |(v : ℝ) - max (-2147483648) (min 2147483647 y)| ≤ 1 / 2 + 1 / 100
/-- the same in 16 bits -/
def Says16 (v : Int) (y : ℝ) : Prop := |(v : ℝ) - max (-32768) (min 32767 y)| ≤ 1 / 2 + 1 / 100

/-- the libm functions are accurate to 1e-14, and yield numbers -/
def SaneTrig (L : Lib) : Prop :=
  ∀ x : ℚ, (∃ c : ℚ, L.cos (.fin x) = .fin c ∧ |(c : ℝ) - Real.cos x| ≤ 1 / 10 ^ 14) ∧
    ∃ s : ℚ, L.sin (.fin x) = .fin s ∧ |(s : ℝ) - Real.sin x| ≤ 1 / 10 ^ 14

/-- the flags of the last position, if that has the same time -/
def velFlags (before : List Msg) (m : Msg) : Nat :=
  match lastPos before with
  | some ⟨h, .bestpos b⟩ => if h.week = m.header.week ∧ h.ms = m.header.ms then posFlags b.pos_type.toNat else 0
  | _ => 0

/-- velocities in mm/s, north, east and down, of a speed over ground, a track and a speed upward -/
structure SaysVel (m : Msg) (b : BestVel) (v : VelNed) : Prop where
  tow : v.tow = m.header.ms
  n : ∀ s t, dbl b.hor_speed = .fin s → dbl b.trk_gnd = .fin t → |s| ≤ 1000000 → |t| ≤ 720 →
    Says32 v.n (1000 * s * Real.cos (t * Real.pi / 180))
  e : ∀ s t, dbl b.hor_speed = .fin s → dbl b.trk_gnd = .fin t → |s| ≤ 1000000 → |t| ≤ 720 →
    Says32 v.e (1000 * s * Real.sin (t * Real.pi / 180))
  d : ∀ u, dbl b.vert_speed = .fin u → |u| ≤ 1000000 → Says32 v.d (-(1000 * u))
  hAcc : v.hAcc = 0
  vAcc : v.vAcc = 0
  nSats : v.nSats = 0

/-- microdegrees -/
structure SaysAtt (m : Msg) (b : InsAtt) (o : Orient) : Prop where
  tow : o.tow = m.header.ms
  roll : ∀ x, dbl b.roll = .fin x → |x| ≤ 10000 → Says32 o.roll (1000000 * x)
  pitch : ∀ x, dbl b.pitch = .fin x → |x| ≤ 10000 → Says32 o.pitch (1000000 * x)
  yaw : ∀ x, dbl b.azimuth = .fin x → |x| ≤ 10000 → Says32 o.yaw (1000000 * x)
  acc : o.rollAcc = 0 ∧ o.pitchAcc = 0 ∧ o.yawAcc = 0
  flags : o.flags = if b.status = 3#32 then 1 else 0

/-! ### IMU -/

/-- rate of an IMU in Hz -/
def typeRate : Nat → Option ℝ
  | 1 | 4 | 5 | 11 | 12 | 20 | 27 | 28 | 58 => some 100
  | 32 | 41 | 56 => some 125
  | 8 | 13 | 26 | 31 | 33 | 61 | 62 => some 200
  | _ => none

/-- The rate: from the time since the IMU log before when there is one, with a nonzero week, and the times of week are not zero and increase;
otherwise that of the type. -/
noncomputable def rateOf (before : List Msg) (m : Msg) (b : RawImuSx) : Option ℝ :=
  match lastImu before with
  | some m' => if m'.header.week ≠ 0 ∧ m'.header.ms ≠ 0 ∧ m'.header.ms.toNat < m.header.ms.toNat then
      some (1000 / ((m.header.ms.toNat : ℝ) - m'.header.ms.toNat)) else typeRate b.imu_type.toNat
  | none => typeRate b.imu_type.toNat

/-- radians in a gyroscope count, at a rate (NovAtel, table of raw IMU scale factors) -/
noncomputable def gyroUnit (rate : ℝ) : Nat → Option ℝ
  | 5 | 11 | 12 | 20 | 27 | 28 | 58 => some (1 / 2 ^ 33)
  | 33 => some (0.1 / (3600 * 256))
  | 13 => some (0.1 / 2 ^ 8 / 3600 * (Real.pi / 180))
  | 8 => some (1 / 2 ^ 19)
  | 26 => some (1 / 10 ^ 9)
  | 31 => some (720 / 2 ^ 31 * (Real.pi / 180))
  | 32 | 56 => some (1 / 2 ^ 21 * (Real.pi / 180))
  | 41 | 62 => some (0.008 / 65536 / rate * (Real.pi / 180))
  | 61 => some (0.0151515 / 65536 / 200 * (Real.pi / 180))
  | _ => none

/-- metres per second in an accelerometer count; a foot is 0.3048 m, a milligee 0.009806 m/s² (the converter takes g to be 9.806 m/s²) -/
noncomputable def accelUnit (rate : ℝ) : Nat → Option ℝ
  | 5 | 11 | 20 | 27 | 28 => some (1 / 2 ^ 27 * 0.3048)
  | 12 => some (1 / 2 ^ 26 * 0.3048)
  | 58 => some (1 / 2 ^ 29)
  | 13 | 33 => some (0.05 / 2 ^ 15)
  | 8 => some (1 / 2 ^ 14)
  | 26 => some (2 / 10 ^ 8)
  | 31 => some (200 / 2 ^ 31)
  | 32 | 56 => some (1 / 2 ^ 22)
  | 41 | 62 => some (0.2 / 65536 / rate * (9.806 / 1000))
  | 61 => some (0.4 / 65536 / 200 * (9.806 / 1000))
  | _ => none

/-- the types whose acceleration unit is given in milligee -/
def inMilligee (t : Nat) : Prop := t = 41 ∨ t = 61 ∨ t = 62

/-- angular rates in microdegrees per second.  The y axis of the SBP messages is the value in the log, which is that of the axis of the IMU
negated: the parser negates it (`b.y_gyro`), the converter does so again. -/
structure SaysRate (m : Msg) (b : RawImuSx) (gyro rate : ℝ) (a : AngularRate) : Prop where
  tow : a.tow = m.header.ms
  x : Says32 a.x (b.x_gyro * gyro * rate * (180 / Real.pi) * 1000000)
  y : Says32 a.y (-b.y_gyro * gyro * rate * (180 / Real.pi) * 1000000)
  z : Says32 a.z (b.z_gyro * gyro * rate * (180 / Real.pi) * 1000000)
  flags : a.flags = 1

/-- 8 g and 125 deg/s for 2^15 -/
structure SaysImu (m : Msg) (b : RawImuSx) (gyro accel rate : ℝ) (r : ImuRaw) : Prop where
  tow : r.tow = m.header.ms
  towF : r.towF = 0
  accX : Says16 r.accX (b.x_accel * accel * rate / (8 * 9.806 / 32768))
  accY : Says16 r.accY (-b.y_accel * accel * rate / (8 * 9.806 / 32768))
  accZ : Says16 r.accZ (b.z_accel * accel * rate / (8 * 9.806 / 32768))
  gyrX : Says16 r.gyrX (b.x_gyro * gyro * rate * (180 / Real.pi) / (125 / 32768))
  gyrY : Says16 r.gyrY (-b.y_gyro * gyro * rate * (180 / Real.pi) / (125 / 32768))
  gyrZ : Says16 r.gyrZ (b.z_gyro * gyro * rate * (180 / Real.pi) / (125 / 32768))

def isAux : Out → Bool
  | .imuAux .. => true
  | _ => false

/-- whether an IMU_AUX message is sent for `m` after `before` -/
def AuxFor (L : Lib) (before : List Msg) (m : Msg) : Prop := ∃ os, sentFor L before m = some os ∧ ∃ o ∈ os, isAux o

/-- the last log for which an IMU_AUX message was sent -/
def LastAux (L : Lib) (before : List Msg) : Option Msg → Prop
  | none => ∀ a x b, before = a ++ x :: b → ¬ AuxFor L a x
  | some y => ∃ a b, before = a ++ y :: b ∧ AuxFor L a y ∧ ∀ b1 x b2, b = b1 ++ x :: b2 → ¬ AuxFor L (a ++ y :: b1) x

/-! ### observations -/

/-- system (bits 16 to 18) and signal (bits 21 to 25) of the tracking status: GPS L1 C/A, GPS L2 P, GLONASS L1 C/A, GLONASS L2 C/A -/
def codeOf (status : Nat) : Code :=
  match status / 2 ^ 16 % 8, status / 2 ^ 21 % 32 with
  | 0, 0 => .gps_l1ca
  | 0, 5 => .gps_l2p
  | 1, 0 => .glo_l1of
  | 1, 1 => .glo_l2of
  | _, _ => .invalid

/-- bit `i` of the tracking status -/
def bit (r : RangeRec) (i : Nat) : Bool := r.tracking_status.getLsbD i

/-- the fields are in their ranges: those of every record in a log -/
structure InRange (r : RangeRec) : Prop where
  doppler : -2 ^ 27 ≤ r.doppler ∧ r.doppler < 2 ^ 27
  pseudorange : r.pseudorange.toNat < 2 ^ 36
  ADR : -2 ^ 31 ≤ r.ADR ∧ r.ADR < 2 ^ 31
  CN0 : r.CN0.toNat < 2 ^ 5
  lock : r.lock_time.toNat < 2 ^ 21

/-- libswiftnav accepts the satellite and signal, the pseudorange in 2 cm fits in 32 bits and the Doppler frequency in Hz in 16 bits -/
def Usable (L : Lib) (r : RangeRec) : Prop :=
  L.sidValid (codeOf r.tracking_status.toNat) r.prn_slot.toNat ∧ (r.pseudorange.toNat : ℚ) / 128 * 50 < 2 ^ 32 - 1 / 2 ∧
  -32768 * 256 ≤ r.doppler ∧ r.doppler < 32768 * 256

/-- pseudorange in 2 cm, from 1/128 m; carrier phase in 1/256 cycles, of the opposite sign; Doppler in 1/256 Hz; signal strength in 0.25 dB-Hz
from dB-Hz above 20, zero without code lock (bit 12); lock time in 1/32 s; flags: code and Doppler valid with code lock, phase valid with
phase lock or known parity (bits 10, 11), half cycle from bit 28 -/
structure SaysObs (L : Lib) (r : RangeRec) (o : PackedObs) : Prop where
  P : |(o.P : ℚ) / 50 - (r.pseudorange.toNat : ℚ) / 128| ≤ 1 / 100
  phase : o.Li * 256 + o.Lf = -r.ADR ∧ o.Lf < 256
  doppler : o.Di * 256 + o.Df = r.doppler ∧ o.Df < 256
  cn0 : o.cn0 = if bit r 12 then 4 * (r.CN0.toNat + 20) else 0
  lock : o.lock = L.encodeLock ((r.lock_time.toNat : ℚ) / 32)
  flags : ∀ i < 8, o.flags.getLsbD i = match i with
    | 0 => bit r 12 | 1 => bit r 10 || bit r 11 | 2 => bit r 28 | 3 => bit r 12 | _ => false
  sat : o.sat = r.prn_slot.toNat
  code : o.code = codeOf r.tracking_status.toNat

/-- from the first list those with `p`, each turned into something that `r` allows -/
inductive Kept {α β : Type} (p : α → Prop) (r : α → β → Prop) : List α → List β → Prop
  | nil : Kept p r [] []
  | keep (a b l m) : p a → r a b → Kept p r l m → Kept p r (a :: l) (b :: m)
  | skip (a l m) : ¬ p a → Kept p r l m → Kept p r (a :: l) m

/-- The message number `k` of `total` with the observations of the records number 14 k to 14 k + 13, those that are usable. -/
structure SaysObsMsg (L : Lib) (m : Msg) (rs : List RangeRec) (total k : Nat) (o : ObsMsg) : Prop where
  seq : o.seq = total * 16 + k
  tow : m.header.ms.toNat < 604800000 → o.tow = m.header.ms.toNat ∧ o.wn = m.header.week
  ns : o.ns = 0
  obs : Kept (Usable L) (SaysObs L) ((rs.drop (14 * k)).take 14) o.obs

/-! ### ephemerides -/

/-- a double, as a float: within half a unit in the last place, at most 2^-24 of the value (2^-150 near zero) -/
def SaysFloat (f : Fl) (d : BitVec 64) : Prop :=
  ∀ x, dbl d = .fin x → |x| < 2 ^ 127 → ∃ y, f = .fin y ∧ |y - x| ≤ |x| / 2 ^ 24 + 1 / 2 ^ 150

/-- square roots of numbers are correct to 2^-52 of the value -/
def SaneSqrt (L : Lib) : Prop := ∀ x : ℚ, 0 ≤ x → ∃ y : ℚ, L.sqrt (.fin x) = .fin y ∧ |(y : ℝ) - Real.sqrt x| ≤ Real.sqrt x / 2 ^ 52

structure SaysEph (L : Lib) (b : GpsEphem) (e : EphGps) : Prop where
  sid : e.sat = b.prn.toNat ∧ e.code = .gps_l1ca
  toe : ∀ x, dbl b.toe = .fin x → 0 ≤ x → (e.toeTow : ℚ) ≤ x ∧ x < e.toeTow + 1
  toc : ∀ x, dbl b.toc = .fin x → 0 ≤ x → (e.tocTow : ℚ) ≤ x ∧ x < e.tocTow + 1
  week : e.toeWn = b.week.toNat ∧ e.tocWn = b.week.toNat
  ura : SaneSqrt L → ∀ x, dbl b.URA = .fin x → 0 ≤ x → x < 2 ^ 200 → ∃ y : ℚ, e.ura = .fin y ∧ |(y : ℝ) - Real.sqrt x| ≤ Real.sqrt x / 2 ^ 23 + 1 / 2 ^ 150
  const : e.fitInterval = 14400 ∧ e.valid = 1
  health : e.healthBits.toNat = b.health.toNat % 256
  floats : ∀ p ∈ [(e.tgd, b.tgd), (e.c_rc, b.crc), (e.c_rs, b.crs), (e.c_uc, b.cuc), (e.c_us, b.cus), (e.c_ic, b.cic), (e.c_is, b.cis),
    (e.af0, b.af0), (e.af1, b.af1), (e.af2, b.af2)], SaysFloat p.1 p.2
  doubles : ∀ p ∈ [(e.dn, b.delta_N), (e.m0, b.M0), (e.ecc, b.ecc), (e.omega0, b.omega0), (e.omegadot, b.omega_dot), (e.w, b.omega),
    (e.inc, b.I0), (e.inc_dot, b.I_dot)], p.1 = p.2
  sqrta : SaneSqrt L → ∀ x, dbl b.A = .fin x → 0 ≤ x → ∃ y : ℚ, e.sqrta = .fin y ∧ |(y : ℝ) - Real.sqrt x| ≤ Real.sqrt x / 2 ^ 52
  iode : e.iode.toNat = b.iode1.toNat % 256
  iodc : e.iodc.toNat = b.iodc.toNat % 65536

/-! ### the program -/

/-- The values of a log are such that the program survives it: standard deviations from 0 to 65 m; speeds and angles that are numbers, within
1e6 m/s, 720 degrees and 1e4 degrees; at least one observation; no IMU error, data not encrypted; a satellite number, week and times of week
that fit in 8, 16 and 32 bits. -/
def Convertible (m : Msg) : Prop :=
  match m.body with
  | .gpsephem b => b.prn.toNat ≤ 255 ∧ b.week.toNat ≤ 65535 ∧ (∃ x, dbl b.toe = .fin x ∧ 0 ≤ x ∧ x ≤ 4294967295) ∧
      ∃ x, dbl b.toc = .fin x ∧ 0 ≤ x ∧ x ≤ 4294967295
  | .bestpos b => ∀ s ∈ [b.lat_stddev, b.lon_stddev, b.hgt_stddev], ∃ x, flt s = .fin x ∧ 0 ≤ x ∧ x ≤ 65
  | .bestvel b => (∃ x, dbl b.hor_speed = .fin x ∧ |x| ≤ 1000000) ∧ (∃ x, dbl b.trk_gnd = .fin x ∧ |x| ≤ 720) ∧
      ∃ x, dbl b.vert_speed = .fin x ∧ |x| ≤ 1000000
  | .rangecmp rs => rs ≠ [] ∧ m.header.ms.toNat < 2 ^ 31
  | .insatt b => ∀ a ∈ [b.roll, b.pitch, b.azimuth], ∃ x, dbl a = .fin x ∧ |x| ≤ 10000
  | .rawimusx b => b.imu_info.getLsbD 0 = false ∧ b.imu_info.getLsbD 1 = false
  | .gloephemeris _ => True
  | .other => True

/-- the answers to the logs `ms`, one after another, from the first on; possibly not to all of them -/
def Answers (L : Lib) (ms : List Msg) (replies : List (List Out)) : Prop :=
  replies.length ≤ ms.length ∧ ∀ (k : Nat) (os : List Out), replies[k]? = some os → ∃ m, ms[k]? = some m ∧ sentFor L (ms.take k) m = some os

end Verif.Nov.Spec
