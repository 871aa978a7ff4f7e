import Verif.Model.Ubx
import Verif.Model.UbxMsg
import Verif.Model.UbxEph
import Verif.Model.Float
import Verif.Model.GpsTime
import Verif.Model.MsmUtils
/-
The UBX to SBP converter gnss_converters/src/ubx_sbp.c: every message handler, the dispatch and ubx_sbp_process.

`float` and `double` are IEEE-754 (Model/Float.lean); values of received fields may be infinite or NaN.  Undefined behaviour (a
conversion of a floating value to an integer type that cannot hold it, signed overflow) is `none`.  Conversions to
narrower integer types wrap.  Logging is left out.  The static variable pvt_state is the part `pvt` of the state.
libswiftnav is a parameter: normalize_gps_time and its safe variant, gps_time_match_weeks_safe, gps_time_valid, encode_lock_time;
so are the sizes of libsbp's message arrays.
-/
namespace Verif.Ubx
open Verif.Fp Verif.Time
open Verif.Msm (Code)

/-- a received floating point value -/
inductive Fl where
  | fin (x : ℚ)
  | inf (neg : Bool)
  | nan
deriving DecidableEq

/-- the number, if it is one -/
def Fl.num : Fl → Option ℚ
  | .fin x => some x
  | _ => none

/-- IEEE-754 binary64 -/
def dbl (b : BitVec 64) : Fl :=
  let s : ℚ := if b.getLsbD 63 then -1 else 1
  let e : Nat := b.toNat / 2 ^ 52 % 2 ^ 11
  let m : Nat := b.toNat % 2 ^ 52
  if e = 2047 then (if m = 0 then .inf (b.getLsbD 63) else .nan)
  else if e = 0 then .fin (s * m * 2 ^ (-1074 : Int))
  else .fin (s * (2 ^ 52 + m : Nat) * 2 ^ ((e : Int) - 1075))

/-- IEEE-754 binary32 -/
def flt (b : BitVec 32) : Fl :=
  let s : ℚ := if b.getLsbD 31 then -1 else 1
  let e : Nat := b.toNat / 2 ^ 23 % 2 ^ 8
  let m : Nat := b.toNat % 2 ^ 23
  if e = 255 then (if m = 0 then .inf (b.getLsbD 31) else .nan)
  else if e = 0 then .fin (s * m * 2 ^ (-149 : Int))
  else .fin (s * (2 ^ 23 + m : Nat) * 2 ^ ((e : Int) - 150))

/-- conversion of a double to an integer type with values `lo` to `hi` -/
def castTo (lo hi : Int) (x : ℚ) : Option Int := if lo ≤ ctrunc x ∧ ctrunc x ≤ hi then some (ctrunc x) else none

def castU32 (x : ℚ) : Option Nat := (castTo 0 4294967295 x).map Int.toNat

/-- result of a 32-bit signed operation -/
def s32 (x : Int) : Option Int := if -2147483648 ≤ x ∧ x ≤ 2147483647 then some x else none

/-- conversion to a 16-bit signed type -/
def toS16 (x : Int) : Int := (x + 32768) % 65536 - 32768

/-! ### libswiftnav and libsbp -/

structure SbpLib (E : Type) extends EphLib E where
  /-- normalize_gps_time (and _safe, `none`: false) of a time in week 0 -/
  normalize : ℚ → Option GpsTime
  /-- gps_time_match_weeks_safe(t, ref): `none`: false -/
  matchWeeks : GpsTime → GpsTime → Option GpsTime
  /-- encode_lock_time, of seconds -/
  encodeLock : ℚ → Nat
  /-- SBP_MSG_SV_AZ_EL_AZEL_MAX, SBP_MSG_MEASUREMENT_STATE_STATES_MAX, size of fwd_payload -/
  maxAz : Nat
  maxStates : Nat
  maxFwd : Nat

/-! ### SBP messages -/

/-- sbp_packed_obs_content_t; `L`, `D` are `none` when the converter leaves the field as it was (indeterminate) -/
structure PackedObs where
  P : Nat
  L : Option (Int × Nat)
  D : Option (Int × Nat)
  cn0 : Nat
  lock : Nat
  flags : Nat
  sat : Nat
  code : Code
deriving DecidableEq

/-- sbp_msg_obs_t: time of week (ms), residual (ns), week, sequence byte, observations -/
structure ObsOut where
  tow : Nat
  ns : Int
  wn : Nat
  seq : Nat
  obs : List PackedObs
deriving DecidableEq

structure PosLlh where
  tow : Nat
  lat : ℚ
  lon : ℚ
  height : ℚ
  hAcc : Nat
  vAcc : Nat
  nSats : Nat
  flags : Nat
deriving DecidableEq

structure Orient where
  tow : Nat
  roll : Int
  pitch : Int
  yaw : Int
  rollAcc : ℚ
  pitchAcc : ℚ
  yawAcc : ℚ
  flags : Nat
deriving DecidableEq

structure VelEcef where
  tow : Nat
  x : Int
  y : Int
  z : Int
  acc : Nat
  nSats : Nat
  flags : Nat
deriving DecidableEq

structure ImuRaw where
  tow : Nat := 0
  towF : Nat := 0
  accX : Int := 0
  accY : Int := 0
  accZ : Int := 0
  gyrX : Int := 0
  gyrY : Int := 0
  gyrZ : Int := 0
deriving DecidableEq

/-- what the converter hands to its callback -/
inductive Out (E : Type) where
  | obs (m : ObsOut)
  | posLlh (m : PosLlh)
  | orient (m : Orient)
  | velEcef (m : VelEcef)
  | odometry (tow : Nat) (velocity : Int) (flags : Nat)
  | wheeltick (time : Nat) (flags source : Nat) (ticks : Int)
  | imuRaw (m : ImuRaw)
  | imuAux (imuType : Nat) (temp : Int) (conf : Nat)
  | svAzEl (l : List (Nat × Code × Nat × Int))
  | measState (l : List (Nat × Code × Nat))
  | timeOffset (weeks ms : Int) (us : Nat) (flags : Nat)
  | fwd (source protocol : Nat) (payload : Buf)
  | eph (e : E)
deriving DecidableEq

/-! ### state -/

/-- struct ubx_esf_state, ubx_sbp.h:57-70 -/
structure EsfSt where
  lastObs : GpsTime := .unknown
  lastImu : GpsTime := .unknown
  runImu : Int := -1
  runOdo : Int := -1
  lastImuMsss : Nat := 0
  lastOdoMsss : Nat := 0
  rawSent : Nat := 0
  lastTick : Nat := 4294967295
  outTick : BitVec 32 := 0
  temp : ℚ := 0
  tempSet : Bool := false
  weekSet : Bool := false

/-- struct ubx_pvt_state, ubx_sbp.c:104-110: one for all converters -/
structure PvtSt where
  numSats : Nat := 0
  flags : Nat := 0
  fixType : Nat := 0

/-- struct ubx_sbp_state, ubx_sbp.h:72-95, without the reader, the sender id and the callback; `eph.tow` is last_tow_ms -/
structure CSt where
  useHnr : Bool := false
  esf : EsfSt := {}
  eph : EphSt := {}
  orient : Orient := ⟨0, 0, 0, 0, 0, 0, 0, 0⟩
  pvt : PvtSt := {}

/-! ### observations -/

/-- ubx_sbp.c:223-294 convert_ubx_gnssid_sigid -/
def ubxCode (gnss sig : Nat) : Code :=
  if gnss = 0 ∧ sig = 0 then .gps_l1ca
  else if gnss = 0 ∧ sig = 3 then .gps_l2cl
  else if gnss = 0 ∧ sig = 4 then .gps_l2cm
  else if gnss = 1 ∧ sig = 0 then .sbas_l1ca
  else if gnss = 2 ∧ sig = 0 then .gal_e1c
  else if gnss = 2 ∧ sig = 1 then .gal_e1b
  else if gnss = 2 ∧ sig = 5 then .gal_e7i
  else if gnss = 2 ∧ sig = 6 then .gal_e7q
  else if gnss = 3 ∧ sig = 0 then .bds2_b1
  else if gnss = 3 ∧ sig = 1 then .bds2_b1
  else if gnss = 3 ∧ sig = 2 then .bds2_b2
  else if gnss = 3 ∧ sig = 3 then .bds2_b2
  else if gnss = 5 ∧ sig = 0 then .qzs_l1ca
  else if gnss = 5 ∧ sig = 4 then .qzs_l2cm
  else if gnss = 5 ∧ sig = 5 then .qzs_l2cl
  else if gnss = 6 ∧ sig = 0 then .glo_l1of
  else if gnss = 6 ∧ sig = 2 then .glo_l2of
  else .invalid

/-- the fraction of a value in 1/256: `(u16)round((x - floor(x)) * 256)` -/
def frac256 (x : ℚ) : Int := cround (f64 (f64 (x - ⌊x⌋) * 256))

/-- ubx_sbp.c:296-313 pack_carrier_phase; `some none`: returned false, nothing written; `none`: undefined (NaN, or the carry
overflows s32) -/
def packCarrier : Fl → Option (Option (Int × Nat))
  | .nan => none
  | .inf _ => some none
  | .fin x =>
    if ⌊x⌋ < -2147483648 ∨ 2147483647 < ⌊x⌋ then some none
    else if 255 < frac256 x then (s32 (⌊x⌋ + 1)).map fun i => some (i, 0)
    else some (some (⌊x⌋, (frac256 x).toNat))

/-- ubx_sbp.c:316-333 pack_doppler; the carry is converted to s16 -/
def packDoppler : Fl → Option (Option (Int × Nat))
  | .nan => none
  | .inf _ => some none
  | .fin x =>
    if ⌊x⌋ < -32768 ∨ 32767 < ⌊x⌋ then some none
    else if 255 < frac256 x then some (some (toS16 (⌊x⌋ + 1), 0))
    else some (some (⌊x⌋, (frac256 x).toNat))

/-- ubx_sbp.c:354-371 the time: `ms` is the receiver time in milliseconds, a double -/
def obsTime (t : ℚ) : Option (Nat × Int) := do
  let ms := f64 (1000 * t)
  let ns := f64 (1000000 * (ms - ctrunc ms))
  let tow ← castU32 (ctrunc ms)
  let res ← castTo (-2147483648) 2147483647 ns
  if 500000 < res then some ((tow + 1) % 4294967296, res - 1000000) else some (tow, res)

/-- ubx_sbp.c:383 the pseudorange in 2 cm -/
def packPr : Fl → Option Nat
  | .fin x => castU32 (f64 (50 * x))
  | _ => none

/-- ubx_sbp.c:381-406 the loop body of fill_msg_obs -/
def packObs {E : Type} (L : SbpLib E) (m : RawxMeas) : Option PackedObs := do
  let P ← packPr (dbl m.pseudorange_m)
  let l ← packCarrier (dbl m.carrier_phase_cycles)
  let d ← packDoppler (flt m.doppler_hz)
  some {
    P, L := l, D := d
    cn0 := if 0x3F < m.cno_dbhz.toNat then 0xFF else 4 * m.cno_dbhz.toNat
    lock := L.encodeLock (f64 (m.lock_time.toNat / 1000)) % 256
    flags := 8 ||| (m.track_state.toNat &&& 7)
    sat := m.sat_id.toNat
    code := ubxCode m.gnss_id.toNat m.sig_id.toNat }

/-- ubx_sbp.c:1206-1234 the messages of an epoch -/
def obsMessages (t : Nat × Int) (wn : Nat) (obs : List PackedObs) : List ObsOut :=
  let total := if 0 < obs.length then 1 + (obs.length - 1) / 14 else 1
  (List.range total).map fun k =>
    { tow := t.1, ns := t.2, wn, seq := (total * 16 + k) % 256, obs := (obs.drop (14 * k)).take 14 }

/-- ubx_sbp.c:354-409 fill_msg_obs and 1191-1235 handle_rxm_rawx after decoding; a receiver time that is infinite or not a number makes
the conversion to u32 undefined -/
def rawxStep {E : Type} (L : SbpLib E) (st : CSt) (m : RxmRawx) : Option (CSt × List (Out E)) := do
  let tow ← (dbl m.rcv_tow).num
  let esf := if m.num_meas ≠ 0 ∧ m.rcv_wn ≠ 0 ∧ st.esf.weekSet then { st.esf with lastObs := ⟨m.rcv_wn.toInt, tow⟩ } else st.esf
  let utc := if m.rec_status.toNat % 2 = 1 then some (m.leap_second.toNat, m.rcv_wn.toNat) else none
  let t ← obsTime tow
  let obs ← m.meas.mapM (packObs L)
  let wn := if m.rcv_wn = 0 then 65535 else m.rcv_wn.toNat
  some ({ st with esf, eph := { st.eph with utc } }, (obsMessages t wn obs).map .obs)

/-! ### navigation solution -/

/-- ubx_sbp.c:411-435 fill_msg_orient_euler -/
def orientOf (st : CSt) (m : NavAtt) : Option Orient := do
  let roll ← s32 (m.roll.toInt * 10)
  let pitch ← s32 (m.pitch.toInt * 10)
  let yaw ← s32 (m.heading.toInt * 10)
  some {
    tow := m.i_tow.toNat, roll, pitch, yaw
    rollAcc := f32 (f64 (m.acc_roll.toNat * f64 (1 / 100000)))
    pitchAcc := f32 (f64 (m.acc_pitch.toNat * f64 (1 / 100000)))
    yawAcc := f32 (f64 (m.acc_heading.toNat * f64 (1 / 100000)))
    flags := if st.pvt.fixType = 1 ∨ st.pvt.fixType = 4 then 1 else 0 }

/-- ubx_sbp.c:437-493 the flags of fill_msg_pos_llh -/
def llhFlags (fix flags : Nat) : Nat :=
  let mode :=
    if fix = 0 ∨ fix = 5 then 0
    else if fix = 1 then 5
    else if fix = 2 ∨ fix = 3 ∨ fix = 4 then
      if flags &&& 2 = 0 then 1
      else
        let c := flags &&& 0xC0
        if c = 0 then 2 else if c = 0x40 then 3 else if c = 0x80 then 4 else 0
    else 0
  mode ||| (if fix = 1 ∨ fix = 4 then 8 else 0)

def degE7 (x : Int) : ℚ := f64 (f64 (1 / 10000000) * x)
def mmToM (x : Int) : ℚ := f64 (f64 (1 / 1000) * x)

/-- ubx_sbp.c:437-493 fill_msg_pos_llh -/
def llhOf (m : NavPvt) : PosLlh :=
  { tow := m.i_tow.toNat, lat := degE7 m.lat.toInt, lon := degE7 m.lon.toInt, height := mmToM m.height.toInt
    hAcc := min m.horizontal_accuracy.toNat 65535, vAcc := min m.vertical_accuracy.toNat 65535
    nSats := m.num_sats.toNat, flags := llhFlags m.fix_type.toNat m.flags.toNat }

/-- ubx_sbp.c:495-519 fill_msg_vel_ecef -/
def velOf (st : CSt) (m : NavVelecef) : Option VelEcef := do
  let x ← s32 (m.ecefVX.toInt * 10)
  let y ← s32 (m.ecefVY.toInt * 10)
  let z ← s32 (m.ecefVZ.toInt * 10)
  some { tow := m.i_tow.toNat, x, y, z, acc := m.speed_acc.toNat % 65536, nSats := st.pvt.numSats
         flags := (if 0 < st.pvt.fixType then 5 else 0) ||| 8 }

/-- ubx_sbp.c:521-539 fill_msg_pos_llh_hnr -/
def hnrLlh (st : CSt) (m : HnrPvt) : PosLlh :=
  { tow := m.i_tow.toNat, lat := degE7 m.lat.toInt, lon := degE7 m.lon.toInt, height := mmToM m.height.toInt
    hAcc := min m.horizontal_accuracy.toNat 65535, vAcc := min m.vertical_accuracy.toNat 65535
    nSats := st.pvt.numSats, flags := st.pvt.flags }

variable {E : Type}

/-- ubx_sbp.c:969-991 handle_hnr_pvt after decoding -/
def hnrStep (st : CSt) (m : HnrPvt) : Option (CSt × List (Out E)) := do
  let yaw ← s32 (m.heading_vehicle.toInt * 10)
  let o : Orient := { st.orient with tow := m.i_tow.toNat, yaw, yawAcc := f32 (f64 (m.heading_acc.toNat * f64 (1 / 100000))) }
  some ({ st with eph := { st.eph with tow := m.i_tow.toNat } },
    if st.useHnr then [.posLlh (hnrLlh st m), .orient o] else [])

/-- ubx_sbp.c:993-1007 handle_nav_att after decoding -/
def attStep (st : CSt) (m : NavAtt) : Option (CSt × List (Out E)) := do
  let o ← orientOf st m
  some ({ st with orient := o }, if st.useHnr then [] else [.orient o])

/-- ubx_sbp.c:1009-1021 handle_nav_pvt after decoding -/
def pvtStep (st : CSt) (m : NavPvt) : CSt × List (Out E) :=
  ({ st with
      pvt := { numSats := m.num_sats.toNat, flags := llhFlags m.fix_type.toNat m.flags.toNat, fixType := m.fix_type.toNat }
      eph := { st.eph with tow := m.i_tow.toNat } },
    if st.useHnr then [] else [.posLlh (llhOf m)])

/-! ### satellites in view -/

/-- ubx_sbp.c:1055-1100 the loop of handle_nav_sat -/
def satLoop (L : SbpLib E) : List NavSatData → List (Nat × Code × Nat × Int) → List (Nat × Code × Nat) → List (Out E)
  | [], az, ms => (if 0 < az.length then [.svAzEl az] else []) ++ (if 0 < ms.length then [.measState ms] else [])
  | d :: ds, az, ms =>
    let code := ubxCode d.gnss_id.toNat 0
    let az := az ++ [(d.sv_id.toNat, code, (cround (f64 ((d.azim.toInt : ℚ) / 2)) % 256).toNat, d.elev.toInt)]
    let ms := ms ++ [(d.sv_id.toNat, code, (cround (f64 ((d.cno.toNat : ℚ) * 4)) % 256).toNat)]
    let o1 : List (Out E) := if L.maxAz < az.length + 1 then [.svAzEl az] else []
    let o2 : List (Out E) := if L.maxStates < ms.length + 1 then [.measState ms] else []
    o1 ++ o2 ++ satLoop L ds (if L.maxAz < az.length + 1 then [] else az) (if L.maxStates < ms.length + 1 then [] else ms)

/-! ### external sensors -/

/-- ubx_sbp.c:335-343 convert24b -/
def convert24b (v : Nat) : Int := if (2 : Int) ^ 23 - 1 < v then (v : Int) - 2 ^ 24 else v

/-- ubx_sbp.c:562-568 is_odo -/
def isOdo (t : Nat) : Bool := t = 8 || t = 9 || t = 6 || t = 7 || t = 10 || t = 11

/-- ubx_sbp.c:570-586 get_wheeltick_velocity_source -/
def tickSource (t : Nat) : Nat := if t = 8 then 1 else if t = 9 then 0 else if t = 6 then 2 else if t = 7 then 3 else 0

/-- ubx_sbp.c:598-606 set_wheeltick_time; `0.001 * msss` in double -/
def tickTime (L : SbpLib E) (msss : Int) : Option Nat := do
  let t ← L.normalize (f64 (f64 (1 / 1000) * f64 msss))
  (castTo 0 18446744073709551615 (f64 (t.tow * 1000000))).map Int.toNat

/-- ubx_sbp.c:608-618 set_odo_time -/
def odoTime (L : SbpLib E) (msss : Int) : Option Nat := do
  let t ← L.normalize (f64 (f64 (1 / 1000) * f64 msss))
  castU32 (f64 (t.tow * 1000))

/-- ubx_sbp.c:634-700 the loop of handle_esf_meas with a valid calibration time tag -/
def measLoop (L : SbpLib E) (calib : Nat) : List (BitVec 32) → EsfSt → Option (EsfSt × List (Out E))
  | [], s => some (s, [])
  | w :: ws, s =>
    let type := w.toNat / 2 ^ 24 % 2 ^ 6
    let value : Nat := w.toNat % 2 ^ 24
    if !isOdo type then measLoop L calib ws s
    else if s.runOdo ≠ -1 ∧ 1000 < ((calib : Int) - s.runOdo) % 2 ^ 64 then some ({ s with runOdo := -1 }, [])
    else do
      let run := if s.runOdo = -1 then (calib : Int) else s.runOdo + ((calib : Int) - s.lastOdoMsss) % 2 ^ 32
      let s := { s with runOdo := run, lastOdoMsss := calib }
      if type = 11 then do
        let tow ← odoTime L run
        let (s', os) ← measLoop L calib ws s
        some (s', .odometry tow (convert24b value) (2 ||| (value / 2 ^ 23) * 2 ^ 5 ||| 3 * 2 ^ 3) :: os)
      else do
        let tick : Nat := value % 2 ^ 22
        let s :=
          if s.lastTick = 4294967295 then { s with lastTick := tick, outTick := BitVec.ofNat 32 tick }
          else
            let inc := BitVec.ofInt 32 ((tick : Int) - s.lastTick)
            { s with lastTick := tick, outTick := if value / 2 ^ 23 = 1 then s.outTick - inc else s.outTick + inc }
        let time ← tickTime L run
        let (s', os) ← measLoop L calib ws s
        some (s', .wheeltick time 2 (tickSource type) s.outTick.toInt :: os)

/-- ubx_sbp.c:620-700 handle_esf_meas after decoding -/
def measStep (L : SbpLib E) (st : CSt) (m : EsfMeas) : Option (CSt × List (Out E)) :=
  match m.calib_tag with
  | none => some (st, [])
  | some t => (measLoop L t.toNat m.data st.esf).map fun r => ({ st with esf := r.1 }, r.2)

/-- ubx_sbp.c:702-714 ubx_convert_temperature_to_bmi160 -/
def bmi160 (t : ℚ) : Int :=
  if 87 - 1 / 512 ≤ t then 32767
  else if t ≤ -41 + 1 / 512 then -32767
  else ctrunc (f64 (f64 (t - 23) * 512))

/-- ubx_sbp.c:721-727 convert_tow_to_imuraw_time; the fraction is converted to u32 and then u8 -/
def imuTime (tow : ℚ) : Option (Nat × Nat) := do
  let ms := f64 (tow * 1000)
  let t ← castU32 ms
  let f ← castU32 (f64 (f64 (ms - t) * 256))
  some (t, f % 256)

/-- ubx_sbp.c:729-739 float_to_s16_clamped -/
def clampS16 (x : ℚ) : Int := if x < -32768 then -32768 else if 32767 < x then 32767 else toS16 (cround x)

/-- ubx_sbp.c:741-794 maybe_parse_imu_data -/
def parseImu (data type : Nat) (m : ImuRaw) : ImuRaw :=
  let v := convert24b data
  let gyr := clampS16 (f32 (f32 (f32 (1 / 4096) * f32 v) / f32 (f64 (125 / 32768))))
  let acc := clampS16 (f32 (f32 (f32 (1 / 1024) * f32 v) / f32 (f64 (f64 (4 * f64 (980665 / 100000)) / 32768))))
  if type = 14 then { m with gyrX := gyr }
  else if type = 13 then { m with gyrY := gyr }
  else if type = 5 then { m with gyrZ := gyr }
  else if type = 16 then { m with accX := acc }
  else if type = 17 then { m with accY := acc }
  else if type = 18 then { m with accZ := acc }
  else m

/-- ubx_sbp.c:809-812 the sensor time difference (s32), with the loop adding 2^24 while it is negative -/
def sensorDiff (this first : Nat) : Int :=
  let d := ((this : Int) - first + 2 ^ 31) % 2 ^ 32 - 2 ^ 31
  if d < 0 then d % 2 ^ 24 else d

/-- ubx_sbp.c:796-842 set_sbp_imu_time: the time and the new last_imu_time_msss, `some none`: false is returned -/
def imuRawTime (L : SbpLib E) (this first : Nat) (msss : Int) : Option (Option (GpsTime × Nat × Nat)) :=
  let firstTss := f64 (f64 (1 / 1000) * f64 msss)
  match L.normalize firstTss with
  | none => some none
  | some cpu =>
    match L.normalize (f64 (f64 (f64 (f64 (390625 / 10000000000) * sensorDiff this first) + firstTss) - f64 (5 / 100))) with
    | none => some none
    | some t =>
      match L.matchWeeks t cpu with
      | none => some none
      | some t => (imuTime t.tow).map fun r => some (t, r.1 ||| 2 ^ 30, r.2)

/-- ubx_sbp.c:857-882 send_imu_aux -/
def imuAux (s : EsfSt) : Out E := .imuAux 0 (if s.tempSet then bmi160 s.temp else -32768) (4 * 2 ^ 4 ||| 1)

/-- ubx_sbp.c:884-891 is_imu_data -/
def isImu (t : Nat) : Bool := t = 14 || t = 13 || t = 5 || t = 16 || t = 17 || t = 18

/-- what the loop of handle_esf_raw keeps: received_number_msgs, current_msg_number, the message -/
structure RawAcc where
  recv : Nat → Nat := fun _ => 0
  cur : Nat := 0
  msg : ImuRaw := {}

/-- ubx_sbp.c:908-966 the loop of handle_esf_raw; a gap or a lost axis ends it -/
def rawLoop (L : SbpLib E) (msss first : Nat) : List EsfRawData → RawAcc → EsfSt → Option (EsfSt × List (Out E))
  | [], _, s => some (s, [])
  | d :: ds, a, s =>
    let type := d.data.toNat / 2 ^ 24 % 2 ^ 8
    let data := d.data.toNat % 2 ^ 24
    let s := if type = 12 then { s with temp := f64 (f64 (1 / 100) * convert24b data), tempSet := true } else s
    if !isImu type then rawLoop L msss first ds a s
    else if s.runImu ≠ -1 ∧ 1000 < ((msss : Int) - s.lastImuMsss) % 2 ^ 32 then some ({ s with runImu := -1 }, [])
    else do
      let run := if s.runImu = -1 then (msss : Int) else s.runImu + ((msss : Int) - s.lastImuMsss) % 2 ^ 32
      let s := { s with runImu := run, lastImuMsss := msss }
      match ← imuRawTime L d.sensor_time_tag.toNat first run with
      | none => some (s, [])
      | some (t, tow, towF) =>
        let s := { s with lastImu := t }
        let msg := parseImu data type { a.msg with tow, towF }
        let recv := fun i => if i = type then a.recv i + 1 else a.recv i
        if recv type ≠ a.cur + 1 then some (s, [])
        else if [14, 13, 5, 16, 17, 18].all (fun i => recv i = a.cur + 1) then do
          let aux : List (Out E) := if s.rawSent % 20 = 0 then [imuAux s] else []
          let sent := (if s.rawSent % 20 = 0 then 0 else s.rawSent) + 1
          let (s', os) ← rawLoop L msss first ds { recv, cur := a.cur + 1, msg } { s with rawSent := sent % 2 ^ 32 }
          some (s', aux ++ .imuRaw msg :: os)
        else rawLoop L msss first ds { a with recv, msg } s

/-- ubx_sbp.c:893-967 handle_esf_raw after decoding -/
def rawStep (L : SbpLib E) (st : CSt) (m : EsfRaw) : Option (CSt × List (Out E)) :=
  (rawLoop L m.msss.toNat ((m.data.head?.map fun d => d.sensor_time_tag.toNat).getD 0) m.data {} st.esf).map fun r =>
    ({ st with esf := r.1 }, r.2)

/-! ### receiver status -/

/-- ubx_sbp.c:1102-1171 handle_nav_status after decoding.  The two differences are stored in s16 and double. -/
def statusStep (L : SbpLib E) (st : CSt) (m : NavStatus) : Option (CSt × List (Out E)) :=
  let fl := m.status_flags.toNat
  let fixGood := (m.fix_type = 3#8 ∨ m.fix_type = 4#8) ∧ fl &&& 1 ≠ 0
  let timeGood := fl &&& 8 ≠ 0 ∧ fl &&& 4 ≠ 0
  let st := if timeGood then { st with esf := { st.esf with weekSet := true } } else st
  if fixGood ∧ timeGood ∧ st.esf.lastObs.valid then
    match L.normalize (f64 (f64 (1 / 1000) * m.i_tow.toNat)) with
    | none => some (st, [])
    | some g =>
      match L.matchWeeks g st.esf.lastObs with
      | none => some (st, [])
      | some g =>
        if st.esf.lastImu.valid then
          match L.normalize (f64 (f64 (1 / 1000) * m.msss.toNat)) with
          | none => some (st, [])
          | some l =>
            match L.matchWeeks l st.esf.lastImu with
            | none => some (st, [])
            | some l =>
              (s32 (cround (f64 (1000 * f64 (g.tow - l.tow))))).map fun ms =>
                ({ st with eph := { st.eph with tow := m.i_tow.toNat } }, [.timeOffset (toS16 (g.wn - l.wn)) ms 0 0])
        else some (st, [])
  else some (st, [])

/-! ### dispatch -/

/-- ubx_sbp.c:541-560 fill_msg_fwd and 1285-1293 handle_mon_hw -/
def fwdStep (L : SbpLib E) (st : CSt) (frame : Buf) : CSt × List (Out E) :=
  (st, if L.maxFwd < frame.length then [] else if 0 < frame.length then [.fwd 0 1 frame] else [])

/-- run a decoder and a handler; nothing happens when the decoder fails -/
def withMsg {α : Type} (d : Dec α) (frame : Buf) (st : CSt) (h : α → Option (CSt × List (Out E))) : Option (CSt × List (Out E)) :=
  match d frame with
  | .ok (m, _) => h m
  | .error _ => some (st, [])

/-- ubx_sbp.c:1237-1283 handle_rxm_sfrbx after decoding -/
def sfrbxStep (L : SbpLib E) (st : CSt) (m : RxmSfrbx) : Option (CSt × List (Out E)) :=
  (ephStep L.toEphLib st.eph (.sfrbx m.gnss_id.toNat m.sat_id.toNat m.freq_id.toNat m.data_words)).map fun r =>
    ({ st with eph := r.1 }, r.2.toList.map .eph)

/-- ubx_sbp.c:1295-1360 ubx_handle_frame -/
def handleFrame (L : SbpLib E) (st : CSt) (frame : Buf) : Option (CSt × List (Out E)) :=
  if frame.length < 2 then some (st, [])
  else
    let cls := frame.getD 0 0
    let id := frame.getD 1 0
    if cls = 0x10#8 then
      if id = 0x03#8 then withMsg decEsfRaw frame st (rawStep L st)
      else if id = 0x02#8 then withMsg decEsfMeas frame st (measStep L st)
      else some (st, [])
    else if cls = 0x28#8 then
      if id = 0x00#8 then withMsg decHnrPvt frame st (hnrStep st) else some (st, [])
    else if cls = 0x01#8 then
      if id = 0x05#8 then withMsg decNavAtt frame st (attStep st)
      else if id = 0x07#8 then withMsg decNavPvt frame st fun m => some (pvtStep st m)
      else if id = 0x11#8 then withMsg decNavVelecef frame st fun m => (velOf st m).map fun v => (st, [.velEcef v])
      else if id = 0x35#8 then withMsg decNavSat frame st fun m => some (st, satLoop L m.data [] [])
      else if id = 0x03#8 then withMsg decNavStatus frame st (statusStep L st)
      else some (st, [])
    else if cls = 0x02#8 then
      if id = 0x15#8 then withMsg decRxmRawx frame st (rawxStep L st)
      else if id = 0x13#8 then withMsg decRxmSfrbx frame st (sfrbxStep L st)
      else some (st, [])
    else if cls = 0x0A#8 then
      if id = 0x09#8 then some (fwdStep L st frame) else some (st, [])
    else some (st, [])

/-- ubx_sbp.c:1362-1389 ubx_sbp_init; pvt_state is static and zero at program start -/
def CSt.init : CSt := {}

/-- ubx_sbp.c:1362-1397 ubx_sbp_init and ubx_set_hnr_flag -/
def CSt.start (useHnr : Bool) : CSt := { CSt.init with useHnr }

/-- the frames handled one after the other -/
def handleAll (L : SbpLib E) (st : CSt) : List Buf → Option (CSt × List (Out E))
  | [] => some (st, [])
  | f :: fs => do
    let (st, o) ← handleFrame L st f
    let (st, os) ← handleAll L st fs
    some (st, o ++ os)

/-- ubx_sbp.c:1415-1431 ubx_sbp_process: return value, messages sent -/
def process (L : SbpLib E) (r : RSt) (st : CSt) : Option (Int × RSt × CSt × List (Out E)) :=
  match readFrame r with
  | (r, .error c) => some (c, r, st, [])
  | (r, .ok frame) => (handleFrame L st frame).map fun x => (frame.length, r, x.1, x.2)

/-- `n` calls of ubx_sbp_process: the messages sent -/
def processes (L : SbpLib E) : Nat → RSt → CSt → Option (CSt × List (Out E))
  | 0, _, st => some (st, [])
  | n + 1, r, st => do
    let (_, r, st, o) ← process L r st
    let (st, os) ← processes L n r st
    some (st, o ++ os)

end Verif.Ubx
