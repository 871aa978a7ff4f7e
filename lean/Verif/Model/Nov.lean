import Verif.Model.Ixcom
/-
The parser of NovAtel binary logs: nov2sbp/parser/*.cc and *.h.  Little-endian host (the unaligned loads of read_little_endian.h are taken as
loads); assertions are taken to be enabled.
-/
namespace Verif.Nov
open Verif.Ixcom (Rd u16At u32At)

/-! ### nov2sbp/parser/crc_checker.cc -/

/-- crc_checker.cc:22-32 crc32_byte_value, one turn of the loop -/
def crcTurn (c : BitVec 32) : BitVec 32 := if c &&& 1 ≠ 0 then (c >>> 1) ^^^ 0xEDB88320#32 else c >>> 1

/-- crc_checker.cc:22-32 crc32_byte_value -/
def crcByteValue (b : BitVec 8) : BitVec 32 := Nat.repeat crcTurn 8 (b.zeroExtend 32)

/-- crc_checker.cc:34-44 get_crc, the body of the loop -/
def crcStep (crc : BitVec 32) (b : BitVec 8) : BitVec 32 :=
  ((crc >>> 8) &&& 0x00FFFFFF#32) ^^^ crcByteValue (((crc ^^^ b.zeroExtend 32) &&& 0xFF#32).setWidth 8)

/-- crc_checker.cc:34-44 get_crc -/
def getCrc (b : Buf) : BitVec 32 := b.foldl crcStep 0

/-! ### nov2sbp/parser/read_little_endian.h -/

/-- read_little_endian.h:58-65 read_le_double: the bits -/
def u64At (b : Buf) (i : Nat) : BitVec 64 := u32At b (i + 4) ++ u32At b i

/-- a pointer to the bytes that moves on -/
abbrev Rdr := StateT Nat (ReaderM Buf)

def rd8 : Rdr (BitVec 8) := fun i b => (b.getD i 0, i + 1)
/-- read_little_endian.h:41-44 read_le_uint16 -/
def rd16 : Rdr (BitVec 16) := fun i b => (u16At b i, i + 2)
/-- read_little_endian.h:46-56, 67-74 read_le_uint32, read_le_int32, read_le_float (the bits) -/
def rd32 : Rdr (BitVec 32) := fun i b => (u32At b i, i + 4)
def rd64 : Rdr (BitVec 64) := fun i b => (u64At b i, i + 8)

/-- read_little_endian.h:76-88 read_le_bits64, from the byte at `at0`; `1LL << i` with i ≤ 63 -/
def leBits (b : Buf) (at0 off n : Nat) : BitVec 64 :=
  (List.range n).foldl (fun val i =>
    val ||| (if (b.getD (at0 + (off + i) / 8) 0).zeroExtend 32 &&& (1#32 <<< ((off + i) % 8)) ≠ 0 then 1#64 <<< i else 0)) 0

/-! ### nov2sbp/parser/binary_header.cc -/

/-- binary_header.h:37-48 BinaryHeaderRegular without the fields of BinaryHeader -/
structure Ext where
  message_type : BitVec 8
  port_addr : BitVec 8
  sequence : BitVec 16
  idle_time : BitVec 8
  time_status : BitVec 8
  rx_status : BitVec 32
  reserved : BitVec 16
  rx_software_version : BitVec 16
deriving DecidableEq

/-- binary_header.h:25-32 BinaryHeader -/
structure Header where
  message_len : BitVec 16
  message_id : BitVec 16
  week : BitVec 16
  ms : BitVec 32
  ext : Option Ext
deriving DecidableEq

/-- binary_header.cc:18-27 BinaryHeader::read -/
def readShort : Rdr Header := do
  let len ← rd8
  let message_id ← rd16
  let week ← rd16
  let ms ← rd32
  return { message_len := len.zeroExtend 16, message_id, week, ms, ext := none }

/-- binary_header.cc:29-49 BinaryHeaderRegular::read -/
def readRegular : Rdr Header := do
  let message_id ← rd16
  let message_type ← rd8
  let port_addr ← rd8
  let message_len ← rd16
  let sequence ← rd16
  let idle_time ← rd8
  let time_status ← rd8
  let week ← rd16
  let ms ← rd32
  let rx_status ← rd32
  let reserved ← rd16
  let rx_software_version ← rd16
  return { message_len, message_id, week, ms, ext := some { message_type, port_addr, sequence, idle_time, time_status, rx_status, reserved,
                                                            rx_software_version } }

/-! ### message bodies -/

/-- nov2sbp/parser/message_gpsephem.h:21-54 -/
structure GpsEphem where
  prn : BitVec 32
  tow : BitVec 64
  health : BitVec 32
  iode1 : BitVec 32
  iode2 : BitVec 32
  week : BitVec 32
  z_week : BitVec 32
  toe : BitVec 64
  A : BitVec 64
  delta_N : BitVec 64
  M0 : BitVec 64
  ecc : BitVec 64
  omega : BitVec 64
  cuc : BitVec 64
  cus : BitVec 64
  crc : BitVec 64
  crs : BitVec 64
  cic : BitVec 64
  cis : BitVec 64
  I0 : BitVec 64
  I_dot : BitVec 64
  omega0 : BitVec 64
  omega_dot : BitVec 64
  iodc : BitVec 32
  toc : BitVec 64
  tgd : BitVec 64
  af0 : BitVec 64
  af1 : BitVec 64
  af2 : BitVec 64
  AS : BitVec 32
  N : BitVec 64
  URA : BitVec 64
deriving DecidableEq

/-- nov2sbp/parser/message_gpsephem.cc:20-91 -/
def readGpsEphem : Rdr GpsEphem := do
  let prn ← rd32
  let tow ← rd64
  let health ← rd32
  let iode1 ← rd32
  let iode2 ← rd32
  let week ← rd32
  let z_week ← rd32
  let toe ← rd64
  let A ← rd64
  let delta_N ← rd64
  let M0 ← rd64
  let ecc ← rd64
  let omega ← rd64
  let cuc ← rd64
  let cus ← rd64
  let crc ← rd64
  let crs ← rd64
  let cic ← rd64
  let cis ← rd64
  let I0 ← rd64
  let I_dot ← rd64
  let omega0 ← rd64
  let omega_dot ← rd64
  let iodc ← rd32
  let toc ← rd64
  let tgd ← rd64
  let af0 ← rd64
  let af1 ← rd64
  let af2 ← rd64
  let AS ← rd32
  let N ← rd64
  let URA ← rd64
  return { prn, tow, health, iode1, iode2, week, z_week, toe, A, delta_N, M0, ecc, omega, cuc, cus, crc, crs, cic, cis, I0, I_dot, omega0,
           omega_dot, iodc, toc, tgd, af0, af1, af2, AS, N, URA }

/-- nov2sbp/parser/message_bestpos.h:21-43 -/
structure BestPos where
  sol_stat : BitVec 32
  pos_type : BitVec 32
  lat : BitVec 64
  lon : BitVec 64
  hgt : BitVec 64
  undulation : BitVec 32
  datum_id : BitVec 32
  lat_stddev : BitVec 32
  lon_stddev : BitVec 32
  hgt_stddev : BitVec 32
  stn_id : BitVec 8 × BitVec 8 × BitVec 8 × BitVec 8
  diff_age : BitVec 32
  sol_age : BitVec 32
  num_sv_tracked : BitVec 8
  num_sv_in_soln : BitVec 8
  num_sv_in_soln_L1 : BitVec 8
  num_sv_in_soln_multi : BitVec 8
  reserved : BitVec 8
  ext_sol_stat : BitVec 8
  galileo_beidou_mask : BitVec 8
  gps_glonass_mask : BitVec 8
deriving DecidableEq

/-- nov2sbp/parser/message_bestpos.cc:20-63 -/
def readBestPos : Rdr BestPos := do
  let sol_stat ← rd32
  let pos_type ← rd32
  let lat ← rd64
  let lon ← rd64
  let hgt ← rd64
  let undulation ← rd32
  let datum_id ← rd32
  let lat_stddev ← rd32
  let lon_stddev ← rd32
  let hgt_stddev ← rd32
  let s0 ← rd8
  let s1 ← rd8
  let s2 ← rd8
  let s3 ← rd8
  let diff_age ← rd32
  let sol_age ← rd32
  let num_sv_tracked ← rd8
  let num_sv_in_soln ← rd8
  let num_sv_in_soln_L1 ← rd8
  let num_sv_in_soln_multi ← rd8
  let reserved ← rd8
  let ext_sol_stat ← rd8
  let galileo_beidou_mask ← rd8
  let gps_glonass_mask ← rd8
  return { sol_stat, pos_type, lat, lon, hgt, undulation, datum_id, lat_stddev, lon_stddev, hgt_stddev, stn_id := (s0, s1, s2, s3), diff_age
           sol_age, num_sv_tracked, num_sv_in_soln, num_sv_in_soln_L1, num_sv_in_soln_multi, reserved, ext_sol_stat, galileo_beidou_mask
           gps_glonass_mask }

/-- nov2sbp/parser/message_bestvel.h:10-20 -/
structure BestVel where
  sol_stat : BitVec 32
  vel_type : BitVec 32
  latency : BitVec 32
  diff_age : BitVec 32
  hor_speed : BitVec 64
  trk_gnd : BitVec 64
  vert_speed : BitVec 64
  reserved : BitVec 32
deriving DecidableEq

/-- nov2sbp/parser/message_bestvel.cc:8-30 -/
def readBestVel : Rdr BestVel := do
  let sol_stat ← rd32
  let vel_type ← rd32
  let latency ← rd32
  let diff_age ← rd32
  let hor_speed ← rd64
  let trk_gnd ← rd64
  let vert_speed ← rd64
  let reserved ← rd32
  return { sol_stat, vel_type, latency, diff_age, hor_speed, trk_gnd, vert_speed, reserved }

/-- nov2sbp/parser/message_insatt.h -/
structure InsAtt where
  gnss_week : BitVec 32
  tow : BitVec 64
  roll : BitVec 64
  pitch : BitVec 64
  azimuth : BitVec 64
  status : BitVec 32
deriving DecidableEq

/-- nov2sbp/parser/message_insatt.cc:20-38 -/
def readInsAtt : Rdr InsAtt := do
  let gnss_week ← rd32
  let tow ← rd64
  let roll ← rd64
  let pitch ← rd64
  let azimuth ← rd64
  let status ← rd32
  return { gnss_week, tow, roll, pitch, azimuth, status }

/-- nov2sbp/parser/message_gloephemeris.h:21-50 -/
structure GloEphemeris where
  sloto : BitVec 16
  freqo : BitVec 16
  sat_type : BitVec 8
  reserved_1 : BitVec 8
  e_week : BitVec 16
  e_time : BitVec 32
  t_offset : BitVec 32
  Nt : BitVec 16
  reserved_2 : BitVec 16
  issue : BitVec 32
  health : BitVec 32
  pos_x : BitVec 64
  pos_y : BitVec 64
  pos_z : BitVec 64
  vel_x : BitVec 64
  vel_y : BitVec 64
  vel_z : BitVec 64
  LS_acc_x : BitVec 64
  LS_acc_y : BitVec 64
  LS_acc_z : BitVec 64
  tau_n : BitVec 64
  delta_tau_n : BitVec 64
  gamma : BitVec 64
  Tk : BitVec 32
  P : BitVec 32
  Ft : BitVec 32
  age : BitVec 32
  flags : BitVec 32
deriving DecidableEq

/-- nov2sbp/parser/message_gloephemeris.cc:20-57 -/
def readGloEphemeris : Rdr GloEphemeris := do
  let sloto ← rd16
  let freqo ← rd16
  let sat_type ← rd8
  let reserved_1 ← rd8
  let e_week ← rd16
  let e_time ← rd32
  let t_offset ← rd32
  let Nt ← rd16
  let reserved_2 ← rd16
  let issue ← rd32
  let health ← rd32
  let pos_x ← rd64
  let pos_y ← rd64
  let pos_z ← rd64
  let vel_x ← rd64
  let vel_y ← rd64
  let vel_z ← rd64
  let LS_acc_x ← rd64
  let LS_acc_y ← rd64
  let LS_acc_z ← rd64
  let tau_n ← rd64
  let delta_tau_n ← rd64
  let gamma ← rd64
  let Tk ← rd32
  let P ← rd32
  let Ft ← rd32
  let age ← rd32
  let flags ← rd32
  return { sloto, freqo, sat_type, reserved_1, e_week, e_time, t_offset, Nt, reserved_2, issue, health, pos_x, pos_y, pos_z, vel_x, vel_y
           vel_z, LS_acc_x, LS_acc_y, LS_acc_z, tau_n, delta_tau_n, gamma, Tk, P, Ft, age, flags }

/-- nov2sbp/parser/message_rawimusx.h:21-35; the integers signed -/
structure RawImuSx where
  imu_info : BitVec 8
  imu_type : BitVec 8
  gnss_week : BitVec 16
  gnss_week_seconds : BitVec 64
  imu_status : BitVec 32
  z_accel : Int
  y_accel : Int
  x_accel : Int
  z_gyro : Int
  y_gyro : Int
  x_gyro : Int
deriving DecidableEq

/-- nov2sbp/parser/message_rawimusx.cc:20-46; the negations overflow (undefined) for the least value: the range is checked in `fromBytes` -/
def readRawImuSx : Rdr RawImuSx := do
  let imu_info ← rd8
  let imu_type ← rd8
  let gnss_week ← rd16
  let gnss_week_seconds ← rd64
  let imu_status ← rd32
  let z_accel ← rd32
  let y_accel ← rd32
  let x_accel ← rd32
  let z_gyro ← rd32
  let y_gyro ← rd32
  let x_gyro ← rd32
  return { imu_info, imu_type, gnss_week, gnss_week_seconds, imu_status, z_accel := z_accel.toInt, y_accel := -y_accel.toInt
           x_accel := x_accel.toInt, z_gyro := z_gyro.toInt, y_gyro := -y_gyro.toInt, x_gyro := x_gyro.toInt }

/-- nov2sbp/parser/message_rangecmp.h:24-37 -/
structure RangeRec where
  tracking_status : BitVec 32
  doppler : Int
  pseudorange : BitVec 64
  ADR : Int
  stddev_psr : BitVec 8
  stddev_adr : BitVec 8
  prn_slot : BitVec 8
  lock_time : BitVec 32
  CN0 : BitVec 8
  glo_freq_no : BitVec 8
  reserved : BitVec 16
deriving DecidableEq

/-- nov2sbp/parser/message_rangecmp.cc:43-60, the body of the loop; the record begins at `p` -/
def readRangeRec (b : Buf) (p : Nat) : RangeRec where
  tracking_status := (leBits b p 0 32).setWidth 32
  doppler := (((leBits b p 32 28).setWidth 32 <<< 4).sshiftRight 4).toInt
  pseudorange := leBits b p 60 36
  ADR := ((leBits b p 96 32).setWidth 32).toInt
  stddev_psr := (leBits b p 128 4).setWidth 8
  stddev_adr := (leBits b p 132 4).setWidth 8
  prn_slot := (leBits b p 136 8).setWidth 8
  lock_time := (leBits b p 144 21).setWidth 32
  CN0 := (leBits b p 165 5).setWidth 8
  glo_freq_no := (leBits b p 170 6).setWidth 8
  reserved := (leBits b p 176 16).setWidth 16

/-- nov2sbp/parser/message_rangecmp.cc:24-61 RANGECMP_t::FromBytes; `none`: an assertion fails -/
def readRangeCmp (b : Buf) : Option (List RangeRec) :=
  if b.length < 4 then none
  else
    let n := (u32At b 0).toNat
    if b.length ≠ 4 + n * 24 then none
    else some ((List.range (min n 63)).map fun i => readRangeRec b (4 + 24 * i))

inductive Body where
  | gpsephem (m : GpsEphem)
  | bestpos (m : BestPos)
  | bestvel (m : BestVel)
  | rangecmp (m : List RangeRec)
  | insatt (m : InsAtt)
  | gloephemeris (m : GloEphemeris)
  | rawimusx (m : RawImuSx)
  | other
deriving DecidableEq

/-- FromBytes: read all the fields, then `assert(i == n_bytes)`.  When the assertion holds, all that was read is the body. -/
def fromBytes {α : Type} (r : Rdr α) (b : Buf) : Option α :=
  match (r.run 0).run b with
  | (m, i) => if i = b.length then some m else none

/-- message_rawimusx.cc:35, 41 the negation of INT32_MIN -/
def negOk (m : RawImuSx) : Bool := m.y_accel ≤ 2147483647 && m.y_gyro ≤ 2147483647

/-- nov2sbp/parser/parser.cc:164-211 parse_body, without the callback; `none`: an assertion fails, or the behaviour is undefined -/
def parseBody (id : BitVec 16) (b : Buf) : Option Body :=
  if id = 7#16 then (fromBytes readGpsEphem b).map .gpsephem
  else if id = 42#16 then (fromBytes readBestPos b).map .bestpos
  else if id = 99#16 then (fromBytes readBestVel b).map .bestvel
  else if id = 140#16 then (readRangeCmp b).map .rangecmp
  else if id = 263#16 then (fromBytes readInsAtt b).map .insatt
  else if id = 723#16 then (fromBytes readGloEphemeris b).map .gloephemeris
  else if id = 1462#16 then ((fromBytes readRawImuSx b).bind fun m => if negOk m then some m else none).map .rawimusx
  else some .other

/-! ### nov2sbp/parser/parser.cc -/

/-- a message handed on -/
structure Msg where
  header : Header
  body : Body
deriving DecidableEq

/-- parser.cc:99-128 parse_regular_message: the number of bytes consumed and the header and bytes of the message, if there is one -/
def parseRegular (buf : Buf) : Nat × Option (Header × Buf) :=
  if 32 ≤ buf.length then
    if buf.getD 3 0 = 28#8 then
      let h := ((readRegular.run 4).run buf).1
      let len := h.message_len.toNat
      if len ≤ buf.length - 28 - 4 then
        if u32At buf (28 + len) = getCrc (buf.take (28 + len)) then (28 + 4 + len, some (h, (buf.drop 28).take len))
        else (1, none)
      else (1, none)
    else (1, none)
  else (1, none)

/-- parser.cc:134-158 parse_short_message -/
def parseShort (buf : Buf) : Nat × Option (Header × Buf) :=
  if 16 ≤ buf.length then
    let h := ((readShort.run 3).run buf).1
    let len := h.message_len.toNat
    if len ≤ buf.length - 12 - 4 then
      if u32At buf (12 + len) = getCrc (buf.take (12 + len)) then (12 + 4 + len, some (h, (buf.drop 12).take len))
      else (1, none)
    else (1, none)
  else (1, none)

/-- parser.cc:70-83 the message at the beginning of the buffer -/
def parseAt (buf : Buf) : Nat × Option (Header × Buf) :=
  if 3 ≤ buf.length then
    if buf.take 3 = [0xAA#8, 0x44#8, 0x12#8] then parseRegular buf
    else if buf.take 3 = [0xAA#8, 0x44#8, 0x13#8] then parseShort buf
    else (1, none)
  else (1, none)

/-- readfn_: the bytes stored, or a negative return value.  The source is a list of what the calls find (Model/Ixcom.lean): a call takes what
is there, at most `n` bytes; if that is less than `n` the next call finds the next entry.  Standard input (nov2sbp/src/nov2sbp_main.cc:30-36)
is `[.data file, .err 0]`: fread gives less than it was asked for only at the end of the file, and the next call then returns -1. -/
def readFn (src : List Rd) (n : Nat) : List Rd × Except Int Buf :=
  match src with
  | [] => ([], .ok [])
  | .err k :: s => (s, .error (-(k + 1)))
  | .data b :: s => if b.length < n then (s, .ok b) else (.data (b.drop n) :: s, .ok (b.take n))

/-- how Parser::process ends: it is still running, it got a read error, the buffer became empty, an assertion failed (or the behaviour is
undefined) -/
inductive Ended where
  | running
  | readError
  | empty
  | aborted
deriving DecidableEq

/-- parser.cc:85-91 drop the consumed bytes: `rest` is what the remaining turns do with the others -/
def dropConsumed (buf : Buf) (k : Nat) (out : List Msg) (rest : Buf → List Msg × Ended) : List Msg × Ended :=
  if buf.length < k then (out, .aborted)
  else if buf.length - k = 0 then (out, .empty)
  else (out ++ (rest (buf.drop k)).1, (rest (buf.drop k)).2)

/-- parser.cc:57-92 Parser::process, at most `n` turns of the loop: the messages handed on, and how it ended -/
def run : Nat → Buf → List Rd → List Msg × Ended
  | 0, _, _ => ([], .running)
  | n + 1, buf, src =>
    match readFn src (4096 - buf.length) with
    | (_, .error _) => ([], .readError)
    | (src, .ok b) =>
      match parseAt (buf ++ b) with
      | (k, some (h, body)) =>
        match parseBody h.message_id body with
        | none => ([], .aborted)
        | some m => dropConsumed (buf ++ b) k [⟨h, m⟩] fun s => run n s src
      | (k, none) => dropConsumed (buf ++ b) k [] fun s => run n s src

/-- the whole of standard input; every turn of the loop consumes a byte, and there is one turn more for the error -/
def processFile (file : Buf) : List Msg × Ended := run (file.length + 1) [] [.data file, .err 0]

end Verif.Nov
