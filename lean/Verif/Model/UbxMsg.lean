import Verif.Model.Bits
/-
The UBX message encoders and decoders of libubx (c/libubx/src/encode.c, decode.c).  The host is little-endian (the files
say they assume it), so `memcpy` between a field and the buffer moves its bytes least significant first.
The byte stream functions swiftnav_bytestream_get_bytes / _remove belong to libswiftnav: the first copies n bytes or fails when
fewer are left, the second drops them.
An array field that is only partly used is the list of its used entries: the decoders leave the other entries as they were and the
encoders do not look at them.
-/
namespace Verif.Ubx

/-- `memcpy(&buff[index], &field, n)` of a field of `w` bits -/
def put {w : Nat} (n : Nat) (v : BitVec w) : Buf := (List.range n).map fun i => v.extractLsb' (8 * i) 8

/-- `for (int i = 0; i < k; i++) memcpy(&buff[index], &field[i], n)` -/
def putN {w : Nat} (k n : Nat) (l : List (BitVec w)) : Buf := (List.range k).flatMap fun i => put n (l.getD i 0)

/-- a decoder: reads from the byte stream, or returns RC_MESSAGE_TYPE_MISMATCH = -1 or RC_INVALID_MESSAGE = -2
(ubx_messages.h:21-25) -/
abbrev Dec (α : Type) := StateT Buf (Except Int) α

/-- libubx/src/decode_helpers.h:4-12 BYTESTREAM_DECODE_BYTES: `n` bytes into a field of `w` bits -/
def get (w n : Nat) : Dec (BitVec w) := fun b =>
  if b.length < n then .error (-2)
  else .ok (((b.take n).reverse.foldl (fun (a : BitVec w) x => (a <<< 8) ||| x.setWidth w) 0), b.drop n)

/-- `if (…) return RC_MESSAGE_TYPE_MISMATCH;` -/
def reject (c : Prop) [Decidable c] : Dec Unit := fun b => if c then .error (-1) else .ok ((), b)

/-- `if (…) return RC_INVALID_MESSAGE;` -/
def invalid (c : Prop) [Decidable c] : Dec Unit := fun b => if c then .error (-2) else .ok ((), b)

/-- `for (int i = 0; i < k; i++)` around a decoding step -/
def repeatD {α : Type} : Nat → Dec α → Dec (List α)
  | 0, _ => return []
  | k + 1, d => do
    let x ← d
    let xs ← repeatD k d
    return x :: xs

/-- libubx/include/ubx/ubx_messages.h:58-87 ubx_hnr_pvt (bit patterns; signed fields are read with `toInt`) -/
structure HnrPvt where
  class_id : BitVec 8
  msg_id : BitVec 8
  length : BitVec 16
  i_tow : BitVec 32
  year : BitVec 16
  month : BitVec 8
  day : BitVec 8
  hour : BitVec 8
  min : BitVec 8
  sec : BitVec 8
  valid : BitVec 8
  nano : BitVec 32
  fix_type : BitVec 8
  flags : BitVec 8
  reserved1 : List (BitVec 8)
  lon : BitVec 32
  lat : BitVec 32
  height : BitVec 32
  height_mean_sea_level : BitVec 32
  ground_speed : BitVec 32
  speed : BitVec 32
  heading_of_motion : BitVec 32
  heading_vehicle : BitVec 32
  horizontal_accuracy : BitVec 32
  vertical_accuracy : BitVec 32
  speed_acc : BitVec 32
  heading_acc : BitVec 32
  reserved2 : List (BitVec 8)
deriving DecidableEq

/-- libubx/src/decode.c:48-98 ubx_decode_hnr_pvt_bytestream -/
def decHnrPvt : Dec HnrPvt := do
  let class_id ← get 8 1
  let msg_id ← get 8 1
  reject (class_id ≠ 0x28#8)
  reject (msg_id ≠ 0x00#8)
  let length ← get 16 2
  let i_tow ← get 32 4
  let year ← get 16 2
  let month ← get 8 1
  let day ← get 8 1
  let hour ← get 8 1
  let min ← get 8 1
  let sec ← get 8 1
  let valid ← get 8 1
  let nano ← get 32 4
  let fix_type ← get 8 1
  let flags ← get 8 1
  let reserved1 ← repeatD 2 (get 8 1)
  let lon ← get 32 4
  let lat ← get 32 4
  let height ← get 32 4
  let height_mean_sea_level ← get 32 4
  let ground_speed ← get 32 4
  let speed ← get 32 4
  let heading_of_motion ← get 32 4
  let heading_vehicle ← get 32 4
  let horizontal_accuracy ← get 32 4
  let vertical_accuracy ← get 32 4
  let speed_acc ← get 32 4
  let heading_acc ← get 32 4
  let reserved2 ← repeatD 4 (get 8 1)
  return { class_id, msg_id, length, i_tow, year, month, day, hour, min, sec, valid, nano, fix_type, flags, reserved1, lon, lat, height, height_mean_sea_level, ground_speed, speed, heading_of_motion, heading_vehicle, horizontal_accuracy, vertical_accuracy, speed_acc, heading_acc, reserved2 }

/-- libubx/src/encode.c:70-138 ubx_encode_hnr_pvt -/
def encHnrPvt (m : HnrPvt) : Buf :=
  put 1 m.class_id ++ put 1 m.msg_id ++ put 2 m.length ++ put 4 m.i_tow ++ put 2 m.year ++ put 1 m.month ++
  put 1 m.day ++ put 1 m.hour ++ put 1 m.min ++ put 1 m.sec ++ put 1 m.valid ++ put 4 m.nano ++ put 1 m.fix_type ++
  put 1 m.flags ++ putN 2 1 m.reserved1 ++ put 4 m.lon ++ put 4 m.lat ++ put 4 m.height ++
  put 4 m.height_mean_sea_level ++ put 4 m.ground_speed ++ put 4 m.speed ++ put 4 m.heading_of_motion ++
  put 4 m.heading_vehicle ++ put 4 m.horizontal_accuracy ++ put 4 m.vertical_accuracy ++ put 4 m.speed_acc ++
  put 4 m.heading_acc ++ putN 4 1 m.reserved2

/-- libubx/include/ubx/ubx_messages.h:153-166 ubx_nav_att (bit patterns; signed fields are read with `toInt`) -/
structure NavAtt where
  class_id : BitVec 8
  msg_id : BitVec 8
  length : BitVec 16
  i_tow : BitVec 32
  version : BitVec 8
  reserved : List (BitVec 8)
  roll : BitVec 32
  pitch : BitVec 32
  heading : BitVec 32
  acc_roll : BitVec 32
  acc_pitch : BitVec 32
  acc_heading : BitVec 32
deriving DecidableEq

/-- libubx/src/decode.c:157-188 ubx_decode_nav_att_bytestream -/
def decNavAtt : Dec NavAtt := do
  let class_id ← get 8 1
  let msg_id ← get 8 1
  reject (class_id ≠ 0x01#8)
  reject (msg_id ≠ 0x05#8)
  let length ← get 16 2
  let i_tow ← get 32 4
  let version ← get 8 1
  let reserved ← repeatD 3 (get 8 1)
  let roll ← get 32 4
  let pitch ← get 32 4
  let heading ← get 32 4
  let acc_roll ← get 32 4
  let acc_pitch ← get 32 4
  let acc_heading ← get 32 4
  return { class_id, msg_id, length, i_tow, version, reserved, roll, pitch, heading, acc_roll, acc_pitch, acc_heading }

/-- libubx/src/encode.c:214-248 ubx_encode_nav_att -/
def encNavAtt (m : NavAtt) : Buf :=
  put 1 m.class_id ++ put 1 m.msg_id ++ put 2 m.length ++ put 4 m.i_tow ++ put 1 m.version ++ putN 3 1 m.reserved ++
  put 4 m.roll ++ put 4 m.pitch ++ put 4 m.heading ++ put 4 m.acc_roll ++ put 4 m.acc_pitch ++ put 4 m.acc_heading

/-- libubx/include/ubx/ubx_messages.h:168-177 ubx_nav_clock (bit patterns; signed fields are read with `toInt`) -/
structure NavClock where
  class_id : BitVec 8
  msg_id : BitVec 8
  length : BitVec 16
  i_tow : BitVec 32
  clk_bias : BitVec 32
  clk_drift : BitVec 32
  time_acc : BitVec 32
  freq_acc : BitVec 32
deriving DecidableEq

/-- libubx/src/decode.c:196-220 ubx_decode_nav_clock_bytestream -/
def decNavClock : Dec NavClock := do
  let class_id ← get 8 1
  let msg_id ← get 8 1
  reject (class_id ≠ 0x01#8)
  reject (msg_id ≠ 0x22#8)
  let length ← get 16 2
  let i_tow ← get 32 4
  let clk_bias ← get 32 4
  let clk_drift ← get 32 4
  let time_acc ← get 32 4
  let freq_acc ← get 32 4
  return { class_id, msg_id, length, i_tow, clk_bias, clk_drift, time_acc, freq_acc }

/-- libubx/src/encode.c:256-280 ubx_encode_nav_clock -/
def encNavClock (m : NavClock) : Buf :=
  put 1 m.class_id ++ put 1 m.msg_id ++ put 2 m.length ++ put 4 m.i_tow ++ put 4 m.clk_bias ++ put 4 m.clk_drift ++
  put 4 m.time_acc ++ put 4 m.freq_acc

/-- libubx/include/ubx/ubx_messages.h:179-216 ubx_nav_pvt (bit patterns; signed fields are read with `toInt`) -/
structure NavPvt where
  class_id : BitVec 8
  msg_id : BitVec 8
  length : BitVec 16
  i_tow : BitVec 32
  year : BitVec 16
  month : BitVec 8
  day : BitVec 8
  hour : BitVec 8
  min : BitVec 8
  sec : BitVec 8
  valid : BitVec 8
  time_acc : BitVec 32
  nano : BitVec 32
  fix_type : BitVec 8
  flags : BitVec 8
  flags2 : BitVec 8
  num_sats : BitVec 8
  lon : BitVec 32
  lat : BitVec 32
  height : BitVec 32
  height_mean_sea_level : BitVec 32
  horizontal_accuracy : BitVec 32
  vertical_accuracy : BitVec 32
  vel_north : BitVec 32
  vel_east : BitVec 32
  vel_down : BitVec 32
  ground_speed : BitVec 32
  heading_of_motion : BitVec 32
  speed_acc : BitVec 32
  heading_acc : BitVec 32
  PDOP : BitVec 16
  flags3 : BitVec 8
  reserved1 : List (BitVec 8)
  heading_vehicle : BitVec 32
  magnetic_declination : BitVec 16
  magnetic_declination_accuracy : BitVec 16
deriving DecidableEq

/-- libubx/src/decode.c:228-287 ubx_decode_nav_pvt_bytestream -/
def decNavPvt : Dec NavPvt := do
  let class_id ← get 8 1
  let msg_id ← get 8 1
  reject (class_id ≠ 0x01#8)
  reject (msg_id ≠ 0x07#8)
  let length ← get 16 2
  let i_tow ← get 32 4
  let year ← get 16 2
  let month ← get 8 1
  let day ← get 8 1
  let hour ← get 8 1
  let min ← get 8 1
  let sec ← get 8 1
  let valid ← get 8 1
  let time_acc ← get 32 4
  let nano ← get 32 4
  let fix_type ← get 8 1
  let flags ← get 8 1
  let flags2 ← get 8 1
  let num_sats ← get 8 1
  let lon ← get 32 4
  let lat ← get 32 4
  let height ← get 32 4
  let height_mean_sea_level ← get 32 4
  let horizontal_accuracy ← get 32 4
  let vertical_accuracy ← get 32 4
  let vel_north ← get 32 4
  let vel_east ← get 32 4
  let vel_down ← get 32 4
  let ground_speed ← get 32 4
  let heading_of_motion ← get 32 4
  let speed_acc ← get 32 4
  let heading_acc ← get 32 4
  let PDOP ← get 16 2
  let flags3 ← get 8 1
  let reserved1 ← repeatD 5 (get 8 1)
  let heading_vehicle ← get 32 4
  let magnetic_declination ← get 16 2
  let magnetic_declination_accuracy ← get 16 2
  return { class_id, msg_id, length, i_tow, year, month, day, hour, min, sec, valid, time_acc, nano, fix_type, flags, flags2, num_sats, lon, lat, height, height_mean_sea_level, horizontal_accuracy, vertical_accuracy, vel_north, vel_east, vel_down, ground_speed, heading_of_motion, speed_acc, heading_acc, PDOP, flags3, reserved1, heading_vehicle, magnetic_declination, magnetic_declination_accuracy }

/-- libubx/src/encode.c:288-369 ubx_encode_nav_pvt -/
def encNavPvt (m : NavPvt) : Buf :=
  put 1 m.class_id ++ put 1 m.msg_id ++ put 2 m.length ++ put 4 m.i_tow ++ put 2 m.year ++ put 1 m.month ++
  put 1 m.day ++ put 1 m.hour ++ put 1 m.min ++ put 1 m.sec ++ put 1 m.valid ++ put 4 m.time_acc ++ put 4 m.nano ++
  put 1 m.fix_type ++ put 1 m.flags ++ put 1 m.flags2 ++ put 1 m.num_sats ++ put 4 m.lon ++ put 4 m.lat ++
  put 4 m.height ++ put 4 m.height_mean_sea_level ++ put 4 m.horizontal_accuracy ++ put 4 m.vertical_accuracy ++
  put 4 m.vel_north ++ put 4 m.vel_east ++ put 4 m.vel_down ++ put 4 m.ground_speed ++ put 4 m.heading_of_motion ++
  put 4 m.speed_acc ++ put 4 m.heading_acc ++ put 2 m.PDOP ++ put 1 m.flags3 ++ putN 5 1 m.reserved1 ++
  put 4 m.heading_vehicle ++ put 2 m.magnetic_declination ++ put 2 m.magnetic_declination_accuracy

/-- libubx/include/ubx/ubx_messages.h:218-227 ubx_nav_velecef (bit patterns; signed fields are read with `toInt`) -/
structure NavVelecef where
  class_id : BitVec 8
  msg_id : BitVec 8
  length : BitVec 16
  i_tow : BitVec 32
  ecefVX : BitVec 32
  ecefVY : BitVec 32
  ecefVZ : BitVec 32
  speed_acc : BitVec 32
deriving DecidableEq

/-- libubx/src/decode.c:295-319 ubx_decode_nav_velecef_bytestream -/
def decNavVelecef : Dec NavVelecef := do
  let class_id ← get 8 1
  let msg_id ← get 8 1
  reject (class_id ≠ 0x01#8)
  reject (msg_id ≠ 0x11#8)
  let length ← get 16 2
  let i_tow ← get 32 4
  let ecefVX ← get 32 4
  let ecefVY ← get 32 4
  let ecefVZ ← get 32 4
  let speed_acc ← get 32 4
  return { class_id, msg_id, length, i_tow, ecefVX, ecefVY, ecefVZ, speed_acc }

/-- libubx/src/encode.c:377-401 ubx_encode_nav_velecef -/
def encNavVelecef (m : NavVelecef) : Buf :=
  put 1 m.class_id ++ put 1 m.msg_id ++ put 2 m.length ++ put 4 m.i_tow ++ put 4 m.ecefVX ++ put 4 m.ecefVY ++
  put 4 m.ecefVZ ++ put 4 m.speed_acc

/-- libubx/include/ubx/ubx_messages.h:250-261 ubx_nav_status (bit patterns; signed fields are read with `toInt`) -/
structure NavStatus where
  class_id : BitVec 8
  msg_id : BitVec 8
  length : BitVec 16
  i_tow : BitVec 32
  fix_type : BitVec 8
  status_flags : BitVec 8
  fix_status : BitVec 8
  status_flags_ext : BitVec 8
  ttff_ms : BitVec 32
  msss : BitVec 32
deriving DecidableEq

/-- libubx/src/decode.c:374-400 ubx_decode_nav_status_bytestream -/
def decNavStatus : Dec NavStatus := do
  let class_id ← get 8 1
  let msg_id ← get 8 1
  reject (class_id ≠ 0x01#8)
  reject (msg_id ≠ 0x03#8)
  let length ← get 16 2
  let i_tow ← get 32 4
  let fix_type ← get 8 1
  let status_flags ← get 8 1
  let fix_status ← get 8 1
  let status_flags_ext ← get 8 1
  let ttff_ms ← get 32 4
  let msss ← get 32 4
  return { class_id, msg_id, length, i_tow, fix_type, status_flags, fix_status, status_flags_ext, ttff_ms, msss }

/-- libubx/src/encode.c:461-489 ubx_encode_nav_status -/
def encNavStatus (m : NavStatus) : Buf :=
  put 1 m.class_id ++ put 1 m.msg_id ++ put 2 m.length ++ put 4 m.i_tow ++ put 1 m.fix_type ++
  put 1 m.status_flags ++ put 1 m.fix_status ++ put 1 m.status_flags_ext ++ put 4 m.ttff_ms ++ put 4 m.msss

/-- libubx/include/ubx/ubx_messages.h:116-151 ubx_mga_gps_eph (bit patterns; signed fields are read with `toInt`) -/
structure MgaGpsEph where
  class_id : BitVec 8
  msg_id : BitVec 8
  length : BitVec 16
  msg_type : BitVec 8
  version : BitVec 8
  sat_id : BitVec 8
  reserved1 : BitVec 8
  fit_interval : BitVec 8
  ura_index : BitVec 8
  sat_health : BitVec 8
  tgd : BitVec 8
  iodc : BitVec 16
  toc : BitVec 16
  reserved2 : BitVec 8
  af2 : BitVec 8
  af1 : BitVec 16
  af0 : BitVec 32
  crs : BitVec 16
  delta_N : BitVec 16
  m0 : BitVec 32
  cuc : BitVec 16
  cus : BitVec 16
  e : BitVec 32
  sqrt_A : BitVec 32
  toe : BitVec 16
  cic : BitVec 16
  omega0 : BitVec 32
  cis : BitVec 16
  crc : BitVec 16
  i0 : BitVec 32
  omega : BitVec 32
  omega_dot : BitVec 32
  i_dot : BitVec 16
  reserved3 : List (BitVec 8)
deriving DecidableEq

/-- libubx/src/decode.c:408-463 ubx_decode_mga_gps_eph_bytestream -/
def decMgaGpsEph : Dec MgaGpsEph := do
  let class_id ← get 8 1
  let msg_id ← get 8 1
  reject (class_id ≠ 0x13#8)
  reject (msg_id ≠ 0x00#8)
  let length ← get 16 2
  let msg_type ← get 8 1
  let version ← get 8 1
  let sat_id ← get 8 1
  let reserved1 ← get 8 1
  let fit_interval ← get 8 1
  let ura_index ← get 8 1
  let sat_health ← get 8 1
  let tgd ← get 8 1
  let iodc ← get 16 2
  let toc ← get 16 2
  let reserved2 ← get 8 1
  let af2 ← get 8 1
  let af1 ← get 16 2
  let af0 ← get 32 4
  let crs ← get 16 2
  let delta_N ← get 16 2
  let m0 ← get 32 4
  let cuc ← get 16 2
  let cus ← get 16 2
  let e ← get 32 4
  let sqrt_A ← get 32 4
  let toe ← get 16 2
  let cic ← get 16 2
  let omega0 ← get 32 4
  let cis ← get 16 2
  let crc ← get 16 2
  let i0 ← get 32 4
  let omega ← get 32 4
  let omega_dot ← get 32 4
  let i_dot ← get 16 2
  let reserved3 ← repeatD 2 (get 8 1)
  return { class_id, msg_id, length, msg_type, version, sat_id, reserved1, fit_interval, ura_index, sat_health, tgd, iodc, toc, reserved2, af2, af1, af0, crs, delta_N, m0, cuc, cus, e, sqrt_A, toe, cic, omega0, cis, crc, i0, omega, omega_dot, i_dot, reserved3 }

/-- libubx/src/encode.c:497-577 ubx_encode_mga_gps_eph -/
def encMgaGpsEph (m : MgaGpsEph) : Buf :=
  put 1 m.class_id ++ put 1 m.msg_id ++ put 2 m.length ++ put 1 m.msg_type ++ put 1 m.version ++ put 1 m.sat_id ++
  put 1 m.reserved1 ++ put 1 m.fit_interval ++ put 1 m.ura_index ++ put 1 m.sat_health ++ put 1 m.tgd ++
  put 2 m.iodc ++ put 2 m.toc ++ put 1 m.reserved2 ++ put 1 m.af2 ++ put 2 m.af1 ++ put 4 m.af0 ++ put 2 m.crs ++
  put 2 m.delta_N ++ put 4 m.m0 ++ put 2 m.cuc ++ put 2 m.cus ++ put 4 m.e ++ put 4 m.sqrt_A ++ put 2 m.toe ++
  put 2 m.cic ++ put 4 m.omega0 ++ put 2 m.cis ++ put 2 m.crc ++ put 4 m.i0 ++ put 4 m.omega ++ put 4 m.omega_dot ++
  put 2 m.i_dot ++ putN 2 1 m.reserved3

/-- libubx/include/ubx/ubx_messages.h:295-308 ubx_esf_ins (bit patterns; signed fields are read with `toInt`) -/
structure EsfIns where
  class_id : BitVec 8
  msg_id : BitVec 8
  length : BitVec 16
  bitfield0 : BitVec 32
  reserved1 : List (BitVec 8)
  i_tow : BitVec 32
  x_ang_rate : BitVec 32
  y_ang_rate : BitVec 32
  z_ang_rate : BitVec 32
  x_accel : BitVec 32
  y_accel : BitVec 32
  z_accel : BitVec 32
deriving DecidableEq

/-- libubx/src/decode.c:514-546 ubx_decode_esf_ins_bytestream -/
def decEsfIns : Dec EsfIns := do
  let class_id ← get 8 1
  let msg_id ← get 8 1
  reject (class_id ≠ 0x10#8)
  reject (msg_id ≠ 0x15#8)
  let length ← get 16 2
  let bitfield0 ← get 32 4
  let reserved1 ← repeatD 4 (get 8 1)
  let i_tow ← get 32 4
  let x_ang_rate ← get 32 4
  let y_ang_rate ← get 32 4
  let z_ang_rate ← get 32 4
  let x_accel ← get 32 4
  let y_accel ← get 32 4
  let z_accel ← get 32 4
  return { class_id, msg_id, length, bitfield0, reserved1, i_tow, x_ang_rate, y_ang_rate, z_ang_rate, x_accel, y_accel, z_accel }

/-- libubx/src/encode.c:630-666 ubx_encode_esf_ins -/
def encEsfIns (m : EsfIns) : Buf :=
  put 1 m.class_id ++ put 1 m.msg_id ++ put 2 m.length ++ put 4 m.bitfield0 ++ putN 4 1 m.reserved1 ++
  put 4 m.i_tow ++ put 4 m.x_ang_rate ++ put 4 m.y_ang_rate ++ put 4 m.z_ang_rate ++ put 4 m.x_accel ++
  put 4 m.y_accel ++ put 4 m.z_accel

/-- libubx/include/ubx/ubx_messages.h:89-114 ubx_rxm_rawx: entry i of the measurement arrays -/
structure RawxMeas where
  pseudorange_m : BitVec 64
  carrier_phase_cycles : BitVec 64
  doppler_hz : BitVec 32
  gnss_id : BitVec 8
  sat_id : BitVec 8
  sig_id : BitVec 8
  freq_id : BitVec 8
  lock_time : BitVec 16
  cno_dbhz : BitVec 8
  pr_std_m : BitVec 8
  cp_std_cycles : BitVec 8
  doppler_std_hz : BitVec 8
  track_state : BitVec 8
  reserved2 : BitVec 8
deriving DecidableEq, Inhabited

/-- libubx/include/ubx/ubx_messages.h:89-114 ubx_rxm_rawx; doubles and floats are their bit patterns -/
structure RxmRawx where
  class_id : BitVec 8
  msg_id : BitVec 8
  length : BitVec 16
  rcv_tow : BitVec 64
  rcv_wn : BitVec 16
  leap_second : BitVec 8
  num_meas : BitVec 8
  rec_status : BitVec 8
  version : BitVec 8
  reserved1 : List (BitVec 8)
  meas : List RawxMeas
deriving DecidableEq

/-- libubx/src/decode.c:131-147 the loop body -/
def decRawxMeas : Dec RawxMeas := do
  let pseudorange_m ← get 64 8
  let carrier_phase_cycles ← get 64 8
  let doppler_hz ← get 32 4
  let gnss_id ← get 8 1
  let sat_id ← get 8 1
  let sig_id ← get 8 1
  let freq_id ← get 8 1
  let lock_time ← get 16 2
  let cno_dbhz ← get 8 1
  let pr_std_m ← get 8 1
  let cp_std_cycles ← get 8 1
  let doppler_std_hz ← get 8 1
  let track_state ← get 8 1
  let reserved2 ← get 8 1
  return { pseudorange_m, carrier_phase_cycles, doppler_hz, gnss_id, sat_id, sig_id, freq_id, lock_time, cno_dbhz, pr_std_m, cp_std_cycles, doppler_std_hz, track_state, reserved2 }

/-- libubx/src/decode.c:106-149 ubx_decode_rxm_rawx_bytestream (the arrays have UBX_MAX_NUM_OBS = 256 entries, num_meas is a u8) -/
def decRxmRawx : Dec RxmRawx := do
  let class_id ← get 8 1
  let msg_id ← get 8 1
  reject (class_id ≠ 0x02#8)
  reject (msg_id ≠ 0x15#8)
  let length ← get 16 2
  let rcv_tow ← get 64 8
  let rcv_wn ← get 16 2
  let leap_second ← get 8 1
  let num_meas ← get 8 1
  let rec_status ← get 8 1
  let version ← get 8 1
  let reserved1 ← repeatD 2 (get 8 1)
  let meas ← repeatD num_meas.toNat decRawxMeas
  return { class_id, msg_id, length, rcv_tow, rcv_wn, leap_second, num_meas, rec_status, version, reserved1, meas }

/-- libubx/src/encode.c:174-203 the loop body -/
def encRawxMeas (m : RawxMeas) : Buf :=
  put 8 m.pseudorange_m ++ put 8 m.carrier_phase_cycles ++ put 4 m.doppler_hz ++ put 1 m.gnss_id ++ put 1 m.sat_id ++
  put 1 m.sig_id ++ put 1 m.freq_id ++ put 2 m.lock_time ++ put 1 m.cno_dbhz ++ put 1 m.pr_std_m ++
  put 1 m.cp_std_cycles ++ put 1 m.doppler_std_hz ++ put 1 m.track_state ++ put 1 m.reserved2

/-- libubx/src/encode.c:146-206 ubx_encode_rawx -/
def encRxmRawx (m : RxmRawx) : Buf :=
  put 1 m.class_id ++ put 1 m.msg_id ++ put 2 m.length ++ put 8 m.rcv_tow ++ put 2 m.rcv_wn ++ put 1 m.leap_second ++
  put 1 m.num_meas ++ put 1 m.rec_status ++ put 1 m.version ++ putN 2 1 m.reserved1 ++
  (List.range m.num_meas.toNat).flatMap fun i => encRawxMeas (m.meas.getD i default)

/-- libubx/include/ubx/ubx_messages.h:229-237 ubx_nav_sat_data -/
structure NavSatData where
  gnss_id : BitVec 8
  sv_id : BitVec 8
  cno : BitVec 8
  elev : BitVec 8
  azim : BitVec 16
  pr_res : BitVec 16
  flags : BitVec 32
deriving DecidableEq, Inhabited

/-- libubx/include/ubx/ubx_messages.h:239-248 ubx_nav_sat -/
structure NavSat where
  class_id : BitVec 8
  msg_id : BitVec 8
  length : BitVec 16
  i_tow : BitVec 32
  version : BitVec 8
  num_svs : BitVec 8
  reserved1 : BitVec 16
  data : List NavSatData
deriving DecidableEq

/-- libubx/src/decode.c:355-362 the loop body -/
def decNavSatData : Dec NavSatData := do
  let gnss_id ← get 8 1
  let sv_id ← get 8 1
  let cno ← get 8 1
  let elev ← get 8 1
  let azim ← get 16 2
  let pr_res ← get 16 2
  let flags ← get 32 4
  return { gnss_id, sv_id, cno, elev, azim, pr_res, flags }

/-- libubx/src/decode.c:327-366 ubx_decode_nav_sat_bytestream; the loop over num_svs breaks at NAV_DATA_MAX_COUNT = 100 -/
def decNavSat : Dec NavSat := do
  let class_id ← get 8 1
  let msg_id ← get 8 1
  reject (class_id ≠ 0x01#8)
  reject (msg_id ≠ 0x35#8)
  let length ← get 16 2
  let i_tow ← get 32 4
  let version ← get 8 1
  let num_svs ← get 8 1
  let reserved1 ← get 16 2
  let data ← repeatD (min num_svs.toNat 100) decNavSatData
  return { class_id, msg_id, length, i_tow, version, num_svs, reserved1, data }

/-- libubx/src/encode.c:435-449 the loop body -/
def encNavSatData (d : NavSatData) : Buf :=
  put 1 d.gnss_id ++ put 1 d.sv_id ++ put 1 d.cno ++ put 1 d.elev ++ put 2 d.azim ++ put 2 d.pr_res ++ put 4 d.flags

/-- libubx/src/encode.c:409-453 ubx_encode_nav_sat -/
def encNavSat (m : NavSat) : Buf :=
  put 1 m.class_id ++ put 1 m.msg_id ++ put 2 m.length ++ put 4 m.i_tow ++ put 1 m.version ++ put 1 m.num_svs ++
  put 2 m.reserved1 ++ (List.range (min m.num_svs.toNat 100)).flatMap fun i => encNavSatData (m.data.getD i default)

/-- libubx/include/ubx/ubx_messages.h:263-276 ubx_rxm_sfrbx -/
structure RxmSfrbx where
  class_id : BitVec 8
  msg_id : BitVec 8
  length : BitVec 16
  gnss_id : BitVec 8
  sat_id : BitVec 8
  reserved1 : BitVec 8
  freq_id : BitVec 8
  num_words : BitVec 8
  channel : BitVec 8
  version : BitVec 8
  reserved2 : BitVec 8
  data_words : List (BitVec 32)
deriving DecidableEq

/-- libubx/src/decode.c:471-506 ubx_decode_rxm_sfrbx_bytestream; UBX_RXM_SFRBX_MAX_DATA_WORDS = 10 -/
def decRxmSfrbx : Dec RxmSfrbx := do
  let class_id ← get 8 1
  let msg_id ← get 8 1
  reject (class_id ≠ 0x02#8)
  reject (msg_id ≠ 0x13#8)
  let length ← get 16 2
  let gnss_id ← get 8 1
  let sat_id ← get 8 1
  let reserved1 ← get 8 1
  let freq_id ← get 8 1
  let num_words ← get 8 1
  let channel ← get 8 1
  let version ← get 8 1
  let reserved2 ← get 8 1
  invalid (num_words.toNat > 10)
  let data_words ← repeatD num_words.toNat (get 32 4)
  return { class_id, msg_id, length, gnss_id, sat_id, reserved1, freq_id, num_words, channel, version, reserved2, data_words }

/-- libubx/src/encode.c:585-622 ubx_encode_rxm_sfrbx; `none`: num_words > 10 makes it read behind data_words.  The memset of the 40
bytes at the data words shows only behind the returned length. -/
def encRxmSfrbx (m : RxmSfrbx) : Option Buf :=
  if m.num_words.toNat > 10 then none
  else some <|
    put 1 m.class_id ++ put 1 m.msg_id ++ put 2 m.length ++ put 1 m.gnss_id ++ put 1 m.sat_id ++ put 1 m.reserved1 ++
    put 1 m.freq_id ++ put 1 m.num_words ++ put 1 m.channel ++ put 1 m.version ++ put 1 m.reserved2 ++
    putN m.num_words.toNat 4 m.data_words

/-- libubx/include/ubx/ubx_messages.h:310-319 ubx_esf_meas; calib_tag is `none` when the message has none (the decoder leaves the field
as it was then) -/
structure EsfMeas where
  class_id : BitVec 8
  msg_id : BitVec 8
  length : BitVec 16
  time_tag : BitVec 32
  flags : BitVec 16
  id : BitVec 16
  data : List (BitVec 32)
  calib_tag : Option (BitVec 32)
deriving DecidableEq

/-- libubx/src/decode.c:580-583 -/
def decCalib (has_calib : Bool) : Dec (Option (BitVec 32)) :=
  if has_calib then do
    let t ← get 32 4
    return some t
  else return none

/-- libubx/src/decode.c:554-586 ubx_decode_esf_meas_bytestream -/
def decEsfMeas : Dec EsfMeas := do
  let class_id ← get 8 1
  let msg_id ← get 8 1
  reject (class_id ≠ 0x10#8)
  reject (msg_id ≠ 0x02#8)
  let length ← get 16 2
  let time_tag ← get 32 4
  let flags ← get 16 2
  let id ← get 16 2
  let data ← repeatD ((flags >>> 11) &&& 0x1F).toNat (get 32 4)
  let calib_tag ← decCalib (flags &&& 0x8 != 0)
  return { class_id, msg_id, length, time_tag, flags, id, data, calib_tag }

/-- libubx/src/encode.c:674-705 ubx_encode_esf_meas -/
def encEsfMeas (m : EsfMeas) : Buf :=
  put 1 m.class_id ++ put 1 m.msg_id ++ put 2 m.length ++ put 4 m.time_tag ++ put 2 m.flags ++ put 2 m.id ++
  putN ((m.flags >>> 11) &&& 0x1F).toNat 4 m.data ++
  (if m.flags &&& 0x8 != 0 then put 4 (m.calib_tag.getD 0) else [])

/-- libubx/include/ubx/ubx_messages.h:321-328 ubx_esf_raw: entry i of the arrays data and sensor_time_tag -/
structure EsfRawData where
  data : BitVec 32
  sensor_time_tag : BitVec 32
deriving DecidableEq, Inhabited

/-- libubx/include/ubx/ubx_messages.h:321-328 ubx_esf_raw -/
structure EsfRaw where
  class_id : BitVec 8
  msg_id : BitVec 8
  length : BitVec 16
  msss : BitVec 32
  data : List EsfRawData
deriving DecidableEq

/-- libubx/src/decode.c:610 `(msg_esf_raw->length - 4) / 8` in int -/
def esfRawCount (length : BitVec 16) : Int := Int.tdiv ((length.toNat : Int) - 4) 8

/-- libubx/src/decode.c:617-621 the loop body -/
def decEsfRawData : Dec EsfRawData := do
  let data ← get 32 4
  let sensor_time_tag ← get 32 4
  return { data, sensor_time_tag }

/-- libubx/src/decode.c:594-624 ubx_decode_esf_raw_bytestream; ESF_DATA_MAX_COUNT = 128 -/
def decEsfRaw : Dec EsfRaw := do
  let class_id ← get 8 1
  let msg_id ← get 8 1
  reject (class_id ≠ 0x10#8)
  reject (msg_id ≠ 0x03#8)
  let length ← get 16 2
  invalid (esfRawCount length > 128)
  let msss ← get 32 4
  let data ← repeatD (esfRawCount length).toNat decEsfRawData
  return { class_id, msg_id, length, msss, data }

/-- libubx/src/encode.c:713-735 ubx_encode_esf_raw; `none`: a length beyond 128 measurements makes it read behind the arrays -/
def encEsfRaw (m : EsfRaw) : Option Buf :=
  if esfRawCount m.length > 128 then none
  else some <|
    put 1 m.class_id ++ put 1 m.msg_id ++ put 2 m.length ++ put 4 m.msss ++
    (List.range (esfRawCount m.length).toNat).flatMap fun i =>
      put 4 (m.data.getD i default).data ++ put 4 (m.data.getD i default).sensor_time_tag

end Verif.Ubx
