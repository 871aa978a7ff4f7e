import Verif.Model.UbxSbp
import Verif.Model.EphSbp
/-
The iXCOM reader and converter: libixcom/src/decode.c, encode.c, messages.c and gnss_converters/src/ixcom_sbp.c.  Little-endian host.
-/
namespace Verif.Ixcom
open Verif.Fp
open Verif.Ubx (Fl flt ImuRaw castTo clampS16)
open Verif.EphSbp (mPi)

/-! ### libixcom -/

/-- libixcom/src/decode.c:26-56 crc_table -/
def crcTable : List (BitVec 16) := [
    0x0000, 0x1021, 0x2042, 0x3063, 0x4084, 0x50a5, 0x60c6, 0x70e7, 0x8108, 0x9129, 0xa14a, 0xb16b, 0xc18c, 0xd1ad, 0xe1ce, 0xf1ef,
    0x1231, 0x0210, 0x3273, 0x2252, 0x52b5, 0x4294, 0x72f7, 0x62d6, 0x9339, 0x8318, 0xb37b, 0xa35a, 0xd3bd, 0xc39c, 0xf3ff, 0xe3de,
    0x2462, 0x3443, 0x0420, 0x1401, 0x64e6, 0x74c7, 0x44a4, 0x5485, 0xa56a, 0xb54b, 0x8528, 0x9509, 0xe5ee, 0xf5cf, 0xc5ac, 0xd58d,
    0x3653, 0x2672, 0x1611, 0x0630, 0x76d7, 0x66f6, 0x5695, 0x46b4, 0xb75b, 0xa77a, 0x9719, 0x8738, 0xf7df, 0xe7fe, 0xd79d, 0xc7bc,
    0x48c4, 0x58e5, 0x6886, 0x78a7, 0x0840, 0x1861, 0x2802, 0x3823, 0xc9cc, 0xd9ed, 0xe98e, 0xf9af, 0x8948, 0x9969, 0xa90a, 0xb92b,
    0x5af5, 0x4ad4, 0x7ab7, 0x6a96, 0x1a71, 0x0a50, 0x3a33, 0x2a12, 0xdbfd, 0xcbdc, 0xfbbf, 0xeb9e, 0x9b79, 0x8b58, 0xbb3b, 0xab1a,
    0x6ca6, 0x7c87, 0x4ce4, 0x5cc5, 0x2c22, 0x3c03, 0x0c60, 0x1c41, 0xedae, 0xfd8f, 0xcdec, 0xddcd, 0xad2a, 0xbd0b, 0x8d68, 0x9d49,
    0x7e97, 0x6eb6, 0x5ed5, 0x4ef4, 0x3e13, 0x2e32, 0x1e51, 0x0e70, 0xff9f, 0xefbe, 0xdfdd, 0xcffc, 0xbf1b, 0xaf3a, 0x9f59, 0x8f78,
    0x9188, 0x81a9, 0xb1ca, 0xa1eb, 0xd10c, 0xc12d, 0xf14e, 0xe16f, 0x1080, 0x00a1, 0x30c2, 0x20e3, 0x5004, 0x4025, 0x7046, 0x6067,
    0x83b9, 0x9398, 0xa3fb, 0xb3da, 0xc33d, 0xd31c, 0xe37f, 0xf35e, 0x02b1, 0x1290, 0x22f3, 0x32d2, 0x4235, 0x5214, 0x6277, 0x7256,
    0xb5ea, 0xa5cb, 0x95a8, 0x8589, 0xf56e, 0xe54f, 0xd52c, 0xc50d, 0x34e2, 0x24c3, 0x14a0, 0x0481, 0x7466, 0x6447, 0x5424, 0x4405,
    0xa7db, 0xb7fa, 0x8799, 0x97b8, 0xe75f, 0xf77e, 0xc71d, 0xd73c, 0x26d3, 0x36f2, 0x0691, 0x16b0, 0x6657, 0x7676, 0x4615, 0x5634,
    0xd94c, 0xc96d, 0xf90e, 0xe92f, 0x99c8, 0x89e9, 0xb98a, 0xa9ab, 0x5844, 0x4865, 0x7806, 0x6827, 0x18c0, 0x08e1, 0x3882, 0x28a3,
    0xcb7d, 0xdb5c, 0xeb3f, 0xfb1e, 0x8bf9, 0x9bd8, 0xabbb, 0xbb9a, 0x4a75, 0x5a54, 0x6a37, 0x7a16, 0x0af1, 0x1ad0, 0x2ab3, 0x3a92,
    0xfd2e, 0xed0f, 0xdd6c, 0xcd4d, 0xbdaa, 0xad8b, 0x9de8, 0x8dc9, 0x7c26, 0x6c07, 0x5c64, 0x4c45, 0x3ca2, 0x2c83, 0x1ce0, 0x0cc1,
    0xef1f, 0xff3e, 0xcf5d, 0xdf7c, 0xaf9b, 0xbfba, 0x8fd9, 0x9ff8, 0x6e17, 0x7e36, 0x4e55, 0x5e74, 0x2e93, 0x3eb2, 0x0ed1, 0x1ef0]

/-- decode.c:66-68 crc_byte; the index is below 256 -/
def crcByte (crc : BitVec 16) (byte : BitVec 8) : BitVec 16 :=
  (crc <<< 8) ^^^ crcTable.getD ((crc >>> 8) ^^^ byte.zeroExtend 16).toNat 0

/-- decode.c:78-84 ixcom_checksum -/
def checksum (b : Buf) : BitVec 16 := b.foldl crcByte 0

/-- libixcom/src/messages.c:22-32 ixcom_set_bytes into a 16-bit or 32-bit integer, from offset `i` -/
def u16At (b : Buf) (i : Nat) : BitVec 16 := b.getD (i + 1) 0 ++ b.getD i 0
def u32At (b : Buf) (i : Nat) : BitVec 32 := b.getD (i + 3) 0 ++ (b.getD (i + 2) 0 ++ (b.getD (i + 1) 0 ++ b.getD i 0))

/-- libixcom/include/ixcom/XCOMdat.h:28-45 XCOMHeader -/
structure Header where
  sync : BitVec 8
  msg_id : BitVec 8
  frame_counter : BitVec 8
  trigger_source : BitVec 8
  msg_len : BitVec 16
  gps_week : BitVec 16
  gps_time_sec : BitVec 32
  gps_time_usec : BitVec 32
deriving DecidableEq

/-- XCOMdat.h:137-147 XCOMFooter -/
structure Footer where
  global_status : BitVec 16
  crc16 : BitVec 16
deriving DecidableEq

/-- XCOMdat.h:149-156 XCOMmsg_IMURAW; floats as their bits -/
structure Imu where
  header : Header
  acc : BitVec 32 × BitVec 32 × BitVec 32
  omg : BitVec 32 × BitVec 32 × BitVec 32
  footer : Footer
deriving DecidableEq

/-- XCOMdat.h:158-163 XCOMmsg_WHEELDATA -/
structure Wheel where
  header : Header
  speed : BitVec 32
  ticks : BitVec 32
  footer : Footer
deriving DecidableEq

/-- decode.c:86-112 ixcom_decode_header; `none`: IXCOM_RC_INVALID_MESSAGE -/
def decHeader (b : Buf) : Option Header :=
  if b.getD 0 0 ≠ 0x7E#8 then none
  else some {
    sync := b.getD 0 0, msg_id := b.getD 1 0, frame_counter := b.getD 2 0, trigger_source := b.getD 3 0
    msg_len := u16At b 4, gps_week := u16At b 6, gps_time_sec := u32At b 8, gps_time_usec := u32At b 12 }

/-- decode.c:114-129 ixcom_decode_footer -/
def decFooter (b : Buf) (i : Nat) : Footer := { global_status := u16At b i, crc16 := u16At b (i + 2) }

/-- decode.c:160-163, 199-202: the checksum of the first `msg_len - 2u` bytes; `none`: outside the buffer (the unsigned difference wraps
below 2) -/
def lenChecksum (b : Buf) (len : BitVec 16) : Option (BitVec 16) :=
  if len.toNat < 2 ∨ b.length < len.toNat - 2 then none else some (checksum (b.take (len.toNat - 2)))

/-- decode.c:131-166 ixcom_decode_imuraw; `none`: access outside the buffer, `some none`: IXCOM_RC_INVALID_MESSAGE -/
def decImu (b : Buf) : Option (Option Imu) :=
  if b.length < 16 then none
  else match decHeader b with
  | none => some none
  | some header =>
    if header.msg_id ≠ 0x00#8 then some none
    else if b.length < 44 then none
    else
      let footer := decFooter b 40
      (lenChecksum b header.msg_len).map fun ck =>
        if ck ≠ footer.crc16 then none
        else some { header, acc := (u32At b 16, u32At b 20, u32At b 24), omg := (u32At b 28, u32At b 32, u32At b 36), footer }

/-- decode.c:168-205 ixcom_decode_wheeldata -/
def decWheel (b : Buf) : Option (Option Wheel) :=
  if b.length < 16 then none
  else match decHeader b with
  | none => some none
  | some header =>
    if header.msg_id ≠ 0x16#8 then some none
    else if b.length < 28 then none
    else
      let footer := decFooter b 24
      (lenChecksum b header.msg_len).map fun ck =>
        if ck ≠ footer.crc16 then none else some { header, speed := u32At b 16, ticks := u32At b 20, footer }

/-- messages.c:22-32 ixcom_set_bytes from an integer -/
def bytes16 (v : BitVec 16) : Buf := [v.extractLsb' 0 8, v.extractLsb' 8 8]
def bytes32 (v : BitVec 32) : Buf := [v.extractLsb' 0 8, v.extractLsb' 8 8, v.extractLsb' 16 8, v.extractLsb' 24 8]

/-- libixcom/src/encode.c:23-42 ixcom_encode_header -/
def encHeader (h : Header) : Buf :=
  [h.sync, h.msg_id, h.frame_counter, h.trigger_source] ++ bytes16 h.msg_len ++ bytes16 h.gps_week ++ bytes32 h.gps_time_sec ++
    bytes32 h.gps_time_usec

/-- encode.c:44-55 ixcom_encode_footer -/
def encFooter (f : Footer) : Buf := bytes16 f.global_status ++ bytes16 f.crc16

/-- encode.c:57-80 ixcom_encode_imuraw -/
def encImu (m : Imu) : Buf :=
  encHeader m.header ++ bytes32 m.acc.1 ++ bytes32 m.acc.2.1 ++ bytes32 m.acc.2.2 ++ bytes32 m.omg.1 ++ bytes32 m.omg.2.1 ++
    bytes32 m.omg.2.2 ++ encFooter m.footer

/-- encode.c:82-99 ixcom_encode_wheeldata -/
def encWheel (m : Wheel) : Buf := encHeader m.header ++ bytes32 m.speed ++ bytes32 m.ticks ++ encFooter m.footer

/-! ### reader -/

/-- What the next calls of read_stream_func find: bytes (a call takes as many as it asks for, the rest stays; an empty chunk is a call that
returns 0), or an error, the return value -(k+1) -/
inductive Rd where
  | data (b : Buf)
  | err (k : Nat)
deriving DecidableEq

/-- read_stream_func(buf, n, context): the bytes stored, or the negative return value; 0 when nothing is left -/
def readFn (src : List Rd) (n : Nat) : List Rd × Except Int Buf :=
  match src with
  | [] => ([], .ok [])
  | .err k :: s => (s, .error (-(k + 1)))
  | .data b :: s => if b.length ≤ n then (s, .ok b) else (.data (b.drop n) :: s, .ok (b.take n))

/-- struct ixcom_sbp_state (gnss_converters/include/gnss-converters/ixcom_sbp.h:32-43), without the callback and the sender id; `src` as
above -/
structure St where
  buf : Buf := List.replicate 4096 0
  index : Nat := 0
  sent : BitVec 8 := 0
  src : List Rd := []
deriving DecidableEq

/-- ixcom_sbp.c:36-47 read_ixcom_bytes; `none`: the assertion fails -/
def readBytes (st : St) (n : Nat) : Option (St × Int) :=
  if ¬ st.index + n < 4096 then none
  else match readFn st.src n with
    | (src, .error c) => some ({ st with src }, c)
    | (src, .ok b) =>
      some ({ st with src, buf := st.buf.take st.index ++ b ++ st.buf.drop (st.index + b.length), index := st.index + b.length }, b.length)

/-- ixcom_sbp.c:75-91 the third part of the loop body: a return value, or `none`: once more.  A message length below the index makes the
unsigned number of bytes to read enormous: `none`, undefined. -/
def part3 (st : St) : Option (St × Option Int) :=
  if 16 ≤ st.index then
    let len := (st.buf.getD 4 0).toNat + ((st.buf.getD 5 0).toNat <<< 8)
    if len < st.index then none
    else (readBytes st (len - st.index)).map fun (st, ret) =>
      (st, if ret ≤ 0 then some ret else if len ≤ st.index then some (len : Int) else none)
  else some (st, none)

/-- ixcom_sbp.c:69-73 the second part: the rest of the header -/
def part2 (st : St) : Option (St × Option Int) :=
  if 0 < st.index ∧ st.index < 16 then do
    let (st, ret) ← readBytes st (16 - st.index)
    if ret ≤ 0 then some (st, some ret) else part3 st
  else part3 st

/-- ixcom_sbp.c:58-67 the first part: the sync byte -/
def part1 (st : St) : Option (St × Option Int) :=
  if st.index = 0 then do
    let (st, ret) ← readBytes st 1
    if ret ≤ 0 then some (st, some ret)
    else if st.buf.getD 0 0 ≠ 0x7E#8 then some ({ st with index := 0 }, none)
    else part2 st
  else part2 st

/-- ixcom_sbp.c:54-95 read_ixcom_frame: the length of the frame, or the last return value (≤ 0) -/
def readFrameLoop : Nat → St → Option (St × Int)
  | 0, st => some (st, 0)
  | fuel + 1, st => do
    match ← part1 st with
    | (st, some r) => some (st, r)
    | (st, none) => readFrameLoop fuel st

/-- bytes that can still be read: bounds the loop -/
def St.left (st : St) : Nat := (st.src.map fun r => match r with | .data b => b.length | .err _ => 0).sum

def readFrame (st : St) : Option (St × Int) := readFrameLoop (st.left + 1) st

/-! ### conversion -/

inductive Out where
  | imuRaw (m : ImuRaw)
  | imuAux (imuType temp conf : Nat)
  | odometry (tow : Nat) (velocity : Int) (flags : Nat)
  | wheeltick (time : Nat) (flags source : Nat) (ticks : Int)
deriving DecidableEq

/-- ixcom_sbp.c:101-107 convert_ixcom_to_sbp_tow -/
def sbpTow (sec usec : Nat) : Nat × Nat := ((sec * 1000 + usec / 1000) % 2 ^ 32, usec % 1000 * 256 / 1000 % 256)

/-- ixcom_sbp.c:109-122 send_imu_aux -/
def imuAux : Out := .imuAux 255 0 (4 <<< 4 ||| 1)

/-- ixcom_sbp.c:124-134 float_to_s16_clamped of `x` converted by `f`; the quotient of an infinity is one.  `none`: lroundf of a NaN, whose
value is unspecified. -/
def clampFl (f : ℚ → ℚ) : Fl → Option Int
  | .fin x => some (clampS16 (f x))
  | .inf true => some (-32768)
  | .inf false => some 32767
  | .nan => none

/-- ixcom_sbp.c:148-166 m/s² to 4 g / 32768 -/
def accUnits (x : ℚ) : ℚ := f32 (x / f32 (f64 (f64 (4 * f64 (980665 / 100000)) / 32768)))
/-- ixcom_sbp.c:148-166 rad/s to 125 deg/s / 32768 -/
def gyrUnits (x : ℚ) : ℚ := f32 (f32 (x * f32 (f64 (180 / mPi))) / f32 (f64 (125 / 32768)))

/-- ixcom_sbp.c:141-166 the IMU_RAW message -/
def imuMsg (m : Imu) : Option ImuRaw := do
  let t := sbpTow m.header.gps_time_sec.toNat m.header.gps_time_usec.toNat
  let accX ← clampFl accUnits (flt m.acc.1)
  let accY ← clampFl accUnits (flt m.acc.2.1)
  let accZ ← clampFl accUnits (flt m.acc.2.2)
  let gyrX ← clampFl gyrUnits (flt m.omg.1)
  let gyrY ← clampFl gyrUnits (flt m.omg.2.1)
  let gyrZ ← clampFl gyrUnits (flt m.omg.2.2)
  some { tow := t.1, towF := t.2, accX, accY, accZ, gyrX, gyrY, gyrZ }

/-- ixcom_sbp.c:136-177 handle_imuraw -/
def handleImu (buf : Buf) (sent : BitVec 8) : Option (BitVec 8 × List Out) := do
  match ← decImu buf with
  | none => some (sent, [])
  | some m =>
    let r ← imuMsg m
    if sent.toNat % 100 = 0 then some (1, [.imuRaw r, imuAux]) else some (sent + 1, [.imuRaw r])

/-- ixcom_sbp.c:190-192 the speed (m/s) in mm/s; `none`: outside s32 -/
def speedMm : Fl → Option Int
  | .fin x => castTo (-2147483648) 2147483647 (f32 (x * 1000))
  | _ => none

/-- ixcom_sbp.c:179-214 handle_wheeldata -/
def handleWheel (buf : Buf) : Option (List Out) := do
  match ← decWheel buf with
  | none => some []
  | some m =>
    let sec := m.header.gps_time_sec.toNat
    let usec := m.header.gps_time_usec.toNat
    let v ← speedMm (flt m.speed)
    some [.odometry ((sec * 1000 + usec / 1000) % 2 ^ 32) v 1, .wheeltick (sec * 1000000 + usec) 1 0 m.ticks.toInt]

/-- ixcom_sbp.c:216-234 ixcom_handle_frame: number of IMU_RAW messages sent, messages -/
def handle (buf : Buf) (sent : BitVec 8) : Option (BitVec 8 × List Out) :=
  if buf.getD 1 0 = 0x00#8 then handleImu buf sent
  else if buf.getD 1 0 = 0x16#8 then (handleWheel buf).map fun o => (sent, o)
  else some (sent, [])

/-- ixcom_sbp.c:253-257 ixcom_sbp_process: return value, messages; `none`: the program aborts, or does something undefined -/
def process (st : St) : Option (St × Int × List Out) := do
  let (st, ret) ← readFrame st
  if ret ≤ 0 then some (st, ret, [])
  else
    let (sent, o) ← handle st.buf st.sent
    some ({ st with sent, index := 0 }, ret, o)

/-- `n` calls: all messages -/
def calls : Nat → St → Option (St × List Out)
  | 0, st => some (st, [])
  | n + 1, st => do
    let (st, _, o) ← process st
    let (st, os) ← calls n st
    some (st, o ++ os)

/-- ixcom_sbp.c:17-30 ixcom_sbp_init -/
def start (src : List Rd) : St := { src }

end Verif.Ixcom
