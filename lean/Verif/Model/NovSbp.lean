import Verif.Model.Nov
import Verif.Model.UbxSbp
import Verif.Model.EphSbp
/-
The NovAtel to SBP converter: nov2sbp/src/nov2sbp.cc, swiftnav_conversion_helpers.cc, send_sbp_obs_messages.cc.

`float` and `double` are IEEE-754 with rounding to nearest (Model/Float.lean), here with infinities and NaN; the sign of zero is not kept.
Fields that are only copied are bit patterns.  `none` is a failed assertion or undefined behaviour (a floating value converted to an integer
type that cannot hold it, signed overflow).  The functions of libswiftnav and libm are the parameter `Lib`.  Assertions are enabled, sending
always succeeds (`assert(ret == SBP_OK)`).  The static variables time_tracker and last_position_flags are the state.
-/
namespace Verif.Nov
open Verif.Fp
open Verif.Ubx (Fl dbl flt castTo)
open Verif.EphSbp (mPi)
open Verif.Msm (Code)

/-! ### floating point -/

/-- result of an operation in double: overflow gives an infinity -/
def rnd64 (x : ℚ) : Fl := if 2 ^ 1024 ≤ |f64 x| then .inf (f64 x < 0) else .fin (f64 x)
/-- result of an operation in float, conversion of a double to float -/
def rnd32 (x : ℚ) : Fl := if 2 ^ 128 ≤ |f32 x| then .inf (f32 x < 0) else .fin (f32 x)

/-- product, rounded by `rnd` -/
def mulFl (rnd : ℚ → Fl) : Fl → Fl → Fl
  | .fin x, .fin y => rnd (x * y)
  | .inf s, .fin y => if y = 0 then .nan else .inf (s != decide (y < 0))
  | .fin x, .inf s => if x = 0 then .nan else .inf (s != decide (x < 0))
  | .inf s, .inf t => .inf (s != t)
  | .nan, _ => .nan
  | _, .nan => .nan

/-- quotient by a positive constant -/
def divFl (rnd : ℚ → Fl) : Fl → ℚ → Fl
  | .fin x, c => rnd (x / c)
  | a, _ => a

def addFl (rnd : ℚ → Fl) : Fl → Fl → Fl
  | .fin x, .fin y => rnd (x + y)
  | .inf s, .inf t => if s = t then .inf s else .nan
  | .inf s, .fin _ => .inf s
  | .fin _, .inf s => .inf s
  | .nan, _ => .nan
  | _, .nan => .nan

/-- conversion to float -/
def toF32 : Fl → Fl
  | .fin x => rnd32 x
  | a => a

/-- fmax -/
def fmaxFl : Fl → Fl → Fl
  | .nan, b => b
  | a, .nan => a
  | .inf false, _ => .inf false
  | _, .inf false => .inf false
  | .inf true, b => b
  | a, .inf true => a
  | .fin x, .fin y => .fin (if x < y then y else x)

/-- what is taken from libswiftnav and libm: get_geoid_offset, cos, sin, sqrt, sid_valid, encode_lock_time -/
structure Lib where
  geoid : Fl → Fl → Fl
  cos : Fl → Fl
  sin : Fl → Fl
  sqrt : Fl → Fl
  sidValid : Code → Nat → Bool
  encodeLock : ℚ → Nat

/-! ### swiftnav_conversion_helpers.cc -/

/-- swiftnav_conversion_helpers.cc:25-27 float_to_u16: the conversion comes before the comparison -/
def floatToU16 : Fl → Option Nat
  | .fin x => (castTo 0 65535 (cround x)).map fun v => min v.toNat 65535
  | _ => none

/-- swiftnav_conversion_helpers.cc:29-55 double_to_s16, double_to_s32 -/
def doubleTo (lo hi : Int) : Fl → Option Int
  | .fin x => if cround x ≤ lo then some lo else if hi ≤ cround x then some hi else castTo lo hi (cround x)
  | .inf true => some lo
  | .inf false => some hi
  | .nan => none

def doubleToS16 (x : Fl) : Option Int := doubleTo (-32768) 32767 x
def doubleToS32 (x : Fl) : Option Int := doubleTo (-2147483648) 2147483647 x

/-- swiftnav_conversion_helpers.cc:57-81, on numbers -/
def radToDeg (v : ℚ) : ℚ := f64 (f64 (v * 180) / mPi)
def degToRad (v : ℚ) : ℚ := f64 (f64 (v * mPi) / 180)
def radToMicrodeg (v : ℚ) : ℚ := f64 (radToDeg v * 1000000)
def arcsecToRad (v : ℚ) : ℚ := degToRad (f64 (v / 3600))
/-- swiftnav_conversion_helpers.cc:19 -/
def gravity : ℚ := f64 (9806 / 1000)
/-- swiftnav_conversion_helpers.cc:77-79 milligee_to_metres -/
def milligeeToMetres (v : ℚ) : ℚ := f64 (f64 (v * 1000) * gravity)
def feetToMetres (v : ℚ) : ℚ := f64 (v * f64 (3048 / 10000))
/-- swiftnav_conversion_helpers.cc:61-63 degrees_to_radians, of a received value -/
def degToRadFl (v : Fl) : Fl := divFl rnd64 (mulFl rnd64 v (.fin mPi)) 180

/-- swiftnav_conversion_helpers.cc:283-342 get_position_flags.  POSITION_MODE_*: 0 none, 1 SPP, 2 DGNSS, 3 float, 4 fixed, 6 SBAS -/
def getPositionFlags (t : BitVec 32) : Nat :=
  if t = 0#32 then 0
  else if t = 16#32 then 1
  else if t = 17#32 then 2
  else if t = 18#32 then 6
  else if t = 34#32 then 3
  else if t = 48#32 ∨ t = 50#32 ∨ t = 49#32 then 4
  else if t = 53#32 then 1 ||| 8
  else if t = 52#32 then 6 ||| 8
  else if t = 54#32 then 2 ||| 8
  else if t = 55#32 then 3 ||| 8
  else if t = 56#32 then 4 ||| 8
  else 1

/-- msg_gps_time_t -/
structure TimeMsg where
  wn : BitVec 16 := 0
  tow : BitVec 32 := 0
  ns : Int := 0
  flags : Nat := 0
deriving DecidableEq

structure PosLlh where
  tow : BitVec 32
  lat : BitVec 64
  lon : BitVec 64
  height : Fl
  hAcc : Nat
  vAcc : Nat
  nSats : BitVec 8
  flags : Nat
deriving DecidableEq

structure VelNed where
  tow : BitVec 32
  n : Int
  e : Int
  d : Int
  hAcc : Nat
  vAcc : Nat
  nSats : Nat
  flags : Nat
deriving DecidableEq

structure Orient where
  tow : BitVec 32
  roll : Int
  pitch : Int
  yaw : Int
  rollAcc : ℚ
  pitchAcc : ℚ
  yawAcc : ℚ
  flags : Nat
deriving DecidableEq

structure AngularRate where
  tow : BitVec 32
  x : Int
  y : Int
  z : Int
  flags : Nat
deriving DecidableEq

structure ImuRaw where
  tow : BitVec 32
  towF : Nat
  accX : Int
  accY : Int
  accZ : Int
  gyrX : Int
  gyrY : Int
  gyrZ : Int
deriving DecidableEq

structure PackedObs where
  P : Nat
  Li : Int
  Lf : Nat
  Di : Int
  Df : Nat
  cn0 : Nat
  lock : Nat
  flags : BitVec 8
  sat : Nat
  code : Code
deriving DecidableEq

structure ObsMsg where
  tow : Nat
  ns : Int
  wn : BitVec 16
  seq : Nat
  obs : List PackedObs
deriving DecidableEq

/-- msg_ephemeris_gps_t -/
structure EphGps where
  sat : Nat
  code : Code
  toeTow : Nat
  toeWn : Nat
  ura : Fl
  fitInterval : Nat
  valid : Nat
  healthBits : BitVec 8
  tgd : Fl
  c_rc : Fl
  c_rs : Fl
  c_uc : Fl
  c_us : Fl
  c_ic : Fl
  c_is : Fl
  dn : BitVec 64
  m0 : BitVec 64
  ecc : BitVec 64
  sqrta : Fl
  omega0 : BitVec 64
  omegadot : BitVec 64
  w : BitVec 64
  inc : BitVec 64
  inc_dot : BitVec 64
  af0 : Fl
  af1 : Fl
  af2 : Fl
  tocTow : Nat
  tocWn : Nat
  iode : BitVec 8
  iodc : BitVec 16
deriving DecidableEq

inductive Out where
  | gpsTime (m : TimeMsg)
  | posLlh (m : PosLlh)
  | velNed (m : VelNed)
  | orient (m : Orient)
  | angularRate (m : AngularRate)
  | imuRaw (m : ImuRaw)
  | imuAux (imuType temp conf : Nat)
  | obs (m : ObsMsg)
  | ephGps (m : EphGps)
deriving DecidableEq

/-- nov2sbp.cc:36-52 timestamps_t, swiftnav_conversion_helpers.cc:84-104 PositionFlagsTracker -/
structure St where
  gpsTime : TimeMsg := {}
  imuRecv : TimeMsg := {}
  imuAux : TimeMsg := {}
  posTow : BitVec 32 := 0xFFFFFFFF#32
  posFlags : Nat := 0
deriving DecidableEq

/-- swiftnav_conversion_helpers.cc:614-623 convert_header_to_gps_time -/
def headerTime (h : Header) : TimeMsg where
  wn := h.week
  tow := h.ms
  ns := 0
  flags := 1

/-- nov2sbp.cc:79-96 send_time_message, swiftnav_conversion_helpers.cc:625-631 gps_time_compare -/
def sendTime (st : St) (t : TimeMsg) : St × List Out :=
  ({ st with gpsTime := t }, if st.gpsTime.wn = t.wn ∧ st.gpsTime.tow = t.tow ∧ st.gpsTime.ns = t.ns ∧ st.gpsTime.flags = t.flags then []
    else [.gpsTime t])

/-- swiftnav_conversion_helpers.cc:559-566 convert_to_wgs84_height; D2R is M_PI / 180.0 -/
def wgs84Height (L : Lib) (lat lon hgt : Fl) : Fl :=
  addFl rnd64 hgt (L.geoid (mulFl rnd64 lat (.fin (f64 (mPi / 180)))) (mulFl rnd64 lon (.fin (f64 (mPi / 180)))))

/-- swiftnav_conversion_helpers.cc:568-589 convert_bestpos_to_pos_llh: fmax has double arguments, its result is a float value -/
def bestposToLlh (L : Lib) (h : Header) (m : BestPos) : Option PosLlh := do
  let vAcc ← floatToU16 (mulFl rnd32 (.fin 1000) (flt m.hgt_stddev))
  let hAcc ← floatToU16 (fmaxFl (mulFl rnd32 (.fin 1000) (flt m.lat_stddev)) (mulFl rnd32 (.fin 1000) (flt m.lon_stddev)))
  return { tow := h.ms, lat := m.lat, lon := m.lon, height := wgs84Height L (dbl m.lat) (dbl m.lon) (dbl m.hgt), hAcc, vAcc,
           nSats := m.num_sv_in_soln, flags := getPositionFlags m.pos_type }

/-- nov2sbp.cc:144-165 write_sbp_best_pos -/
def writeBestPos (L : Lib) (st : St) (h : Header) (m : BestPos) : Option (St × List Out) := do
  let (st, os) := sendTime st (headerTime h)
  let llh ← bestposToLlh L h m
  return ({ st with posTow := h.ms, posFlags := llh.flags }, os ++ [.posLlh llh])

/-- swiftnav_conversion_helpers.cc:591-612 convert_bestvel_to_vel_ned; the negation of INT32_MIN overflows -/
def bestvelToNed (L : Lib) (st : St) (h : Header) (m : BestVel) : Option VelNed := do
  let n ← doubleToS32 (mulFl rnd64 (mulFl rnd64 (.fin 1000) (dbl m.hor_speed)) (L.cos (degToRadFl (dbl m.trk_gnd))))
  let e ← doubleToS32 (mulFl rnd64 (mulFl rnd64 (.fin 1000) (dbl m.hor_speed)) (L.sin (degToRadFl (dbl m.trk_gnd))))
  let d ← doubleToS32 (mulFl rnd64 (.fin 1000) (dbl m.vert_speed))
  let d ← if d = -2147483648 then none else some (-d)
  return { tow := h.ms, n, e, d, hAcc := 0, vAcc := 0, nSats := 0, flags := if h.ms = st.posTow then st.posFlags else 0 }

/-- nov2sbp.cc:167-184 write_sbp_best_vel -/
def writeBestVel (L : Lib) (st : St) (h : Header) (m : BestVel) : Option (St × List Out) := do
  let (st, os) := sendTime st (headerTime h)
  let v ← bestvelToNed L st h m
  return (st, os ++ [.velNed v])

/-- swiftnav_conversion_helpers.cc:853-871 convert_insatt_to_orient_euler, nov2sbp.cc:186-200 write_sbp_ins_att -/
def writeInsAtt (st : St) (h : Header) (m : InsAtt) : Option (St × List Out) := do
  let roll ← doubleToS32 (mulFl rnd64 (dbl m.roll) (.fin 1000000))
  let pitch ← doubleToS32 (mulFl rnd64 (dbl m.pitch) (.fin 1000000))
  let yaw ← doubleToS32 (mulFl rnd64 (dbl m.azimuth) (.fin 1000000))
  return (st, [.orient { tow := h.ms, roll, pitch, yaw, rollAcc := 0, pitchAcc := 0, yawAcc := 0, flags := if m.status = 3#32 then 1 else 0 }])

/-! #### IMU -/

/-- swiftnav_conversion_helpers.cc:343-367 compute_imu_rate -/
def computeImuRate (last : TimeMsg) (h : Header) : Option ℚ :=
  let weekPrev := last.wn
  let towPrev := last.tow
  let weekCur := last.wn
  let towCur := h.ms
  if weekPrev ≠ 0#16 ∧ weekCur ≠ 0#16 ∧ towPrev ≠ 0#32 ∧ towCur ≠ 0#32 then
    if towPrev.toNat < towCur.toNat ∧ weekCur = weekPrev then some (f64 (1000 / ((towCur - towPrev).toNat : ℚ)))
    else if towCur.toNat < towPrev.toNat ∧ weekCur.toNat = weekPrev.toNat + 1 then
      some (f64 (1000 / ((604800000#32 - towPrev + towCur).toNat : ℚ)))
    else none
  else none

/-- swiftnav_conversion_helpers.cc:369-413 get_imu_rate_from_type.  A type that is not in the enumeration takes the default case. -/
def imuRateFromType (t : BitVec 8) : Option ℚ :=
  if t.toNat ∈ [1, 4, 11, 12, 5, 27, 20, 28, 58] then some 100
  else if t.toNat ∈ [32, 56, 41] then some 125
  else if t.toNat ∈ [26, 13, 8, 33, 31, 61, 62] then some 200
  else none

/-- swiftnav_conversion_helpers.cc:415-483 get_imu_scale_gyro -/
def imuScaleGyro (t : BitVec 8) (rate : ℚ) : Option ℚ :=
  if t.toNat ∈ [11, 5, 27, 20, 28, 12, 58] then some (1 / 2 ^ 33)
  else if t.toNat = 33 then some (f64 (f64 (1 / 10) / f64 (3600 * 256)))
  else if t.toNat = 13 then some (arcsecToRad (f64 (1 / 10) / 2 ^ 8))
  else if t.toNat = 8 then some (1 / 2 ^ 19)
  else if t.toNat = 26 then some (f64 (1 / 1000000000))
  else if t.toNat = 31 then some (degToRad (720 / 2 ^ 31))
  else if t.toNat ∈ [32, 56] then some (degToRad (1 / 2 ^ 21))
  else if t.toNat ∈ [41, 62] then some (degToRad (f64 (f64 (f64 (8 / 1000) / 65536) / rate)))
  else if t.toNat = 61 then some (degToRad (f64 (f64 (f64 (151515 / 10000000) / 65536) / 200)))
  else none

/-- swiftnav_conversion_helpers.cc:485-557 get_imu_scale_accel -/
def imuScaleAccel (t : BitVec 8) (rate : ℚ) : Option ℚ :=
  if t.toNat ∈ [11, 5, 27, 20, 28] then some (feetToMetres (1 / 2 ^ 27))
  else if t.toNat = 12 then some (feetToMetres (1 / 2 ^ 26))
  else if t.toNat = 58 then some (1 / 2 ^ 29)
  else if t.toNat ∈ [33, 13] then some (f64 (5 / 100) / 2 ^ 15)
  else if t.toNat = 8 then some (1 / 2 ^ 14)
  else if t.toNat = 26 then some (f64 (2 / 100000000))
  else if t.toNat = 31 then some (200 / 2 ^ 31)
  else if t.toNat ∈ [32, 56] then some (1 / 2 ^ 22)
  else if t.toNat ∈ [41, 62] then some (milligeeToMetres (f64 (f64 (f64 (200 / 1000) / 65536) / rate)))
  else if t.toNat = 61 then some (milligeeToMetres (f64 (f64 (f64 (400 / 1000) / 65536) / 200)))
  else none

/-- the rate: swiftnav_conversion_helpers.cc:892-896, 933-937 -/
def imuRate (last : TimeMsg) (h : Header) (m : RawImuSx) : Option ℚ := (computeImuRate last h).orElse fun _ => imuRateFromType m.imu_type

/-- swiftnav_conversion_helpers.cc:902-907 an axis of the angular rate, from the value and its scale and rate -/
def angularAxis (v : Int) (scale rate : ℚ) : Option Int := doubleToS32 (.fin (radToMicrodeg (f64 (f64 (v * scale) * rate))))

/-- swiftnav_conversion_helpers.cc:873-911 convert_rawimu_to_angular_rate, after the assertions; the inner `none`: not sent -/
def toAngularRate (last : TimeMsg) (h : Header) (m : RawImuSx) : Option (Option AngularRate) :=
  match imuRate last h m with
  | none => some none
  | some rate =>
    match imuScaleGyro m.imu_type rate with
    | none => some none
    | some scale => do
      let x ← angularAxis m.x_gyro scale rate
      let y ← angularAxis (-m.y_gyro) scale rate
      let z ← angularAxis m.z_gyro scale rate
      return some { tow := h.ms, x, y, z, flags := 1 }

/-- swiftnav_conversion_helpers.cc:947-955 an axis of the acceleration -/
def accAxis (v : Int) (scale rate : ℚ) : Option Int :=
  doubleToS16 (.fin (f64 (f64 (f64 (f64 (v * scale) * rate) * 32768) / f64 (8 * gravity))))

/-- swiftnav_conversion_helpers.cc:957-968 an axis of the rotation -/
def gyrAxis (v : Int) (scale rate : ℚ) : Option Int :=
  doubleToS16 (.fin (f64 (f64 (radToDeg (f64 (f64 (v * scale) * rate)) * 32768) / 125)))

/-- swiftnav_conversion_helpers.cc:913-971 convert_rawimu_to_imu_raw, after the assertions -/
def toImuRaw (last : TimeMsg) (h : Header) (m : RawImuSx) : Option (Option ImuRaw) :=
  match imuRate last h m with
  | none => some none
  | some rate =>
    match imuScaleGyro m.imu_type rate, imuScaleAccel m.imu_type rate with
    | some gyro, some accel => do
      let accX ← accAxis m.x_accel accel rate
      let accY ← accAxis (-m.y_accel) accel rate
      let accZ ← accAxis m.z_accel accel rate
      let gyrX ← gyrAxis m.x_gyro gyro rate
      let gyrY ← gyrAxis (-m.y_gyro) gyro rate
      let gyrZ ← gyrAxis m.z_gyro gyro rate
      return some { tow := h.ms, towF := 0, accX, accY, accZ, gyrX, gyrY, gyrZ }
    | _, _ => some none

/-- swiftnav_conversion_helpers.cc:973-993 convert_rawimu_to_imu_aux: whether it is sent -/
def sendsAux (last : TimeMsg) (h : Header) : Bool :=
  !(last.wn ≠ 0#16 ∧ h.week ≠ 0#16 ∧ last.tow ≠ 0#32 ∧ h.ms ≠ 0#32 ∧ h.ms.toNat < (last.tow + 1000#32).toNat)

/-- nov2sbp.cc:202-250 write_sbp_raw_imu -/
def writeRawImu (st : St) (h : Header) (m : RawImuSx) : Option (St × List Out) := do
  if m.imu_info &&& 1#8 ≠ 0#8 ∨ m.imu_info &&& 2#8 ≠ 0#8 then none
  let ang ← toAngularRate st.imuRecv h m
  let raw ← toImuRaw st.imuRecv h m
  let aux := sendsAux st.imuAux h
  return ({ st with imuAux := if aux then { st.imuAux with tow := h.ms, wn := h.week } else st.imuAux,
                    imuRecv := { st.imuRecv with tow := h.ms, wn := h.week } },
    (ang.map Out.angularRate).toList ++ (raw.map Out.imuRaw).toList ++ (if aux then [.imuAux 1 0 0x42] else []))

/-! #### observations -/

/-- swiftnav_conversion_helpers.cc:716-807 convert_tracking_status_to_gnss_code -/
def trackingCode (t : BitVec 32) : Code :=
  let system := ((t &&& 0x00070000#32) >>> 16).toNat
  let signal := ((t &&& 0x03F00000#32) >>> 21).toNat
  match system, signal with
  | 0, 0 => .gps_l1ca
  | 0, 5 => .gps_l2p
  | 1, 0 => .glo_l1of
  | 1, 1 => .glo_l2of
  | _, _ => .invalid

/-- nav_meas_flags_t: the flags that are used -/
structure NavFlags where
  code : Bool
  phase : Bool
  doppler : Bool
  half : Bool
  cn0 : Bool
deriving DecidableEq

/-- swiftnav_conversion_helpers.cc:809-830 convert_tracking_status_to_navmeas_flags -/
def trackingFlags (t : BitVec 32) : NavFlags where
  code := t &&& 0x00001000#32 ≠ 0#32
  phase := t &&& (0x00000400#32 ||| 0x00000800#32) ≠ 0#32
  doppler := t &&& 0x00001000#32 ≠ 0#32
  half := t &&& 0x10000000#32 ≠ 0#32
  cn0 := t &&& 0x00001000#32 ≠ 0#32

/-- swiftnav_conversion_helpers.h:94-109 mini_navigation_measurement_t -/
structure MiniNav where
  P : ℚ
  L : ℚ
  D : ℚ
  cn0 : ℚ
  lock : ℚ
  sat : Nat
  code : Code
  flags : NavFlags

/-- swiftnav_conversion_helpers.cc:832-851 convert_rangecmp_record_to_mini_navmeas -/
def toMiniNav (r : RangeRec) : MiniNav where
  P := f64 ((r.pseudorange.toNat : ℚ) / 128)
  L := f64 ((r.ADR : ℚ) / 256)
  D := f64 ((r.doppler : ℚ) / 256)
  cn0 := f64 ((r.CN0.toNat : ℚ) + 20)
  lock := f64 ((r.lock_time.toNat : ℚ) / 32)
  sat := r.prn_slot.toNat
  code := trackingCode r.tracking_status
  flags := trackingFlags r.tracking_status

/-- send_sbp_obs_messages.cc:81-99 nm_flags_to_sbp -/
def sbpFlags (f : NavFlags) : BitVec 8 :=
  (if f.code then 1#8 else 0#8) ||| (if f.phase then 2#8 else 0#8) ||| (if f.half then 4#8 else 0#8) ||| (if f.doppler then 8#8 else 0#8)

/-- integer and fraction of a value in 1/256: send_sbp_obs_messages.cc:137-150, 152-165; `none`: the integer is out of range.  The value of
`round` is at most 256. -/
def packFrac (lo hi : Int) (v : ℚ) : Option (Int × Nat) :=
  let i := ⌊v⌋
  if i < lo ∨ hi < i then none
  else
    let f := (cround (f64 (f64 (v - i) * 256))).toNat
    if 256 ≤ f then some (i + 1, 0) else some (i, f)

/-- send_sbp_obs_messages.cc:101-185 pack_obs_content; `none`: -1 -/
def packObs (L : Lib) (m : MiniNav) : Option PackedObs := do
  if !L.sidValid m.code m.sat then none
  let P := cround (f64 (m.P * 50))
  if m.P < 0 ∨ P > 4294967295 then none
  let (Li, Lf) ← packFrac (-2147483648) 2147483647 (-m.L)
  let (Di, Df) ← packFrac (-32768) 32767 m.D
  let cn0 := if m.flags.cn0 then cround (f64 (m.cn0 * 4)) else 0
  if m.flags.cn0 ∧ (m.cn0 < 0 ∨ cn0 > 255) then none
  return { P := P.toNat, Li, Lf, Di, Df, cn0 := cn0.toNat, lock := L.encodeLock m.lock, flags := sbpFlags m.flags, sat := m.sat, code := m.code }

/-- send_sbp_obs_messages.cc:53-63 round_time_nano: week, time of week, residual; `none`: the conversion of a negative time to uint32_t -/
def roundTime (wn : BitVec 16) (tow : ℚ) : Option (BitVec 16 × Nat × Int) := do
  let t ← castTo 0 4294967295 (cround (f64 (tow * 1000)))
  let ns ← castTo (-2147483648) 2147483647 (cround (f64 (f64 (tow - f64 (t / 1000)) * 1000000000)))
  return if 604800000 ≤ t then (wn + 1, (t - 604800000).toNat, ns) else (wn, t.toNat, ns)

/-- send_sbp_obs_messages.cc:187-246 send_sbp_obs_messages, the loop: the messages left (of `total`), the records left.  A record that cannot
be packed is left out, and the message is shorter for it. -/
def obsLoop (L : Lib) (t : BitVec 16 × Nat × Int) (total : Nat) : Nat → List MiniNav → List Out
  | 0, _ => []
  | k + 1, l => .obs { wn := t.1, tow := t.2.1, ns := t.2.2, seq := total * 16 + (total - (k + 1)) % 16, obs := (l.take 14).filterMap (packObs L) } ::
      obsLoop L t total k (l.drop 14)

/-- send_sbp_obs_messages.cc:187-246: (255 - 11) / 17 = 14 observations in a message, at most 15 messages.  Without records the time is
GPS_TIME_UNKNOWN, whose time of week is -1. -/
def sendObs (L : Lib) (wn : BitVec 16) (tow : ℚ) (l : List MiniNav) : Option (List Out) :=
  if l.length = 0 then (roundTime 0xFFFF#16 (-1)).map fun t => [.obs { wn := t.1, tow := t.2.1, ns := t.2.2, seq := 16, obs := [] }]
  else
    let total := min ((l.length + 14 - 1) / 14) 15
    (roundTime wn tow).map fun t => obsLoop L t total total l

/-- nov2sbp.cc:101-123 write_sbp_range_cmp -/
def writeRangeCmp (L : Lib) (st : St) (h : Header) (rs : List RangeRec) : Option (St × List Out) :=
  (sendObs L h.week (f64 ((h.ms.toInt : ℚ) / 1000)) (rs.map toMiniNav)).map fun os => (st, os)

/-! #### ephemerides -/

/-- `assert(x <= UINT32_MAX)` and the conversion of a double to uint32_t -/
def toU32 : Fl → Option Nat
  | .fin x => if x ≤ 4294967295 then (castTo 0 4294967295 x).map Int.toNat else none
  | _ => none

/-- swiftnav_conversion_helpers.cc:633-681 convert_gpsephem_to_ephemeris_gps -/
def toEphGps (L : Lib) (m : GpsEphem) : Option EphGps := do
  if 255 < m.prn.toNat then none
  let toe ← toU32 (dbl m.toe)
  let toc ← toU32 (dbl m.toc)
  if 65535 < m.week.toNat then none
  return {
    sat := m.prn.toNat, code := .gps_l1ca, toeTow := toe, toeWn := m.week.toNat, ura := toF32 (L.sqrt (dbl m.URA)), fitInterval := 14400, valid := 1,
    healthBits := m.health.setWidth 8, tgd := toF32 (dbl m.tgd), c_rc := toF32 (dbl m.crc), c_rs := toF32 (dbl m.crs),
    c_uc := toF32 (dbl m.cuc), c_us := toF32 (dbl m.cus), c_ic := toF32 (dbl m.cic), c_is := toF32 (dbl m.cis), dn := m.delta_N, m0 := m.M0,
    ecc := m.ecc, sqrta := L.sqrt (dbl m.A), omega0 := m.omega0, omegadot := m.omega_dot, w := m.omega, inc := m.I0, inc_dot := m.I_dot,
    af0 := toF32 (dbl m.af0), af1 := toF32 (dbl m.af1), af2 := toF32 (dbl m.af2), tocTow := toc, tocWn := m.week.toNat,
    iode := m.iode1.setWidth 8, iodc := m.iodc.setWidth 16 }

/-- nov2sbp.cc:125-142 write_sbp_gps_ephem -/
def writeGpsEphem (L : Lib) (st : St) (m : GpsEphem) : Option (St × List Out) := (toEphGps L m).map fun e => (st, [.ephGps e])

/-! ### nov2sbp.cc -/

/-- nov2sbp.cc:297-305 the callbacks, parser/parser.cc:213-224: a message without one is dropped -/
def convert (L : Lib) (st : St) (m : Msg) : Option (St × List Out) :=
  match m.body with
  | .gpsephem b => writeGpsEphem L st b
  | .bestpos b => writeBestPos L st m.header b
  | .bestvel b => writeBestVel L st m.header b
  | .rangecmp b => writeRangeCmp L st m.header b
  | .insatt b => writeInsAtt st m.header b
  | .rawimusx b => writeRawImu st m.header b
  | .gloephemeris _ => some (st, [])
  | .other => some (st, [])

/-- the messages one after another: the SBP messages sent, and whether the program is still alive.  What is sent for the message in which it
aborts is left out. -/
def convertAll (L : Lib) : St → List Msg → List Out × Bool
  | _, [] => ([], true)
  | st, m :: ms =>
    match convert L st m with
    | none => ([], false)
    | some (st, os) => (os ++ (convertAll L st ms).1, (convertAll L st ms).2)

/-- nov2sbp.cc:259-311 nov2sbp_main: all reads until the parser ends.  The parser calls back for every message it hands on. -/
def nov2sbp (L : Lib) (n : Nat) (src : List Verif.Ixcom.Rd) : List Out × Bool := convertAll L {} (run n [] src).1

end Verif.Nov
