import Verif.Spec.Crc
import Verif.Spec.RtcmFraming
import Verif.Spec.UbxMsg
import Verif.Model.Nov
/-! What a NovAtel binary log is (OEM7 Commands and Logs Reference Manual, sections 1.3, 1.4, 1.12 and the logs), and what it means for one to
be found in a stream. -/
namespace Verif.Nov.Spec
open Verif.Crc Verif.Nov
open Verif.Ubx.Spec (leAt)

/-- the 32-bit CRC at the end, low byte first, is that of the bytes before it: bytes and check bits, each byte from its lowest bit on, are a
multiple of the generator polynomial -/
def CrcOk (f : List (BitVec 8)) : Prop := gen32 ∣ bitPoly (byteBitsLsb f)

/-- a log with the 28-byte header -/
def IsLong (f : List (BitVec 8)) : Prop :=
  f.take 4 = [0xAA#8, 0x44#8, 0x12#8, 28#8] ∧ 32 ≤ f.length ∧ f.length = 28 + leAt f 8 2 + 4 ∧ CrcOk f

/-- a log with the 12-byte header -/
def IsShort (f : List (BitVec 8)) : Prop :=
  f.take 3 = [0xAA#8, 0x44#8, 0x13#8] ∧ 16 ≤ f.length ∧ f.length = 12 + leAt f 3 1 + 4 ∧ CrcOk f

def IsFrame (f : List (BitVec 8)) : Prop := IsLong f ∨ IsShort f

/-- the kind is told by the third byte -/
def isLong (f : List (BitVec 8)) : Bool := f.getD 2 0 == 0x12#8
def hdrLen (f : List (BitVec 8)) : Nat := if isLong f then 28 else 12
def payload (f : List (BitVec 8)) : List (BitVec 8) := (f.drop (hdrLen f)).take (f.length - hdrLen f - 4)
def msgId (f : List (BitVec 8)) : Nat := leAt f 4 2
def week (f : List (BitVec 8)) : Nat := if isLong f then leAt f 14 2 else leAt f 6 2
def ms (f : List (BitVec 8)) : Nat := if isLong f then leAt f 16 4 else leAt f 8 4

/-! ### bodies: offset, size, value of every field -/

/-- two's complement -/
def signed (n v : Nat) : Int := if v < 2 ^ (n - 1) then v else (v : Int) - 2 ^ n

def Table (b : List (BitVec 8)) (len : Nat) (t : List (Nat × Nat × Nat)) : Prop :=
  b.length = len ∧ ∀ x ∈ t, leAt b x.1 x.2.1 = x.2.2

def gpsephem (m : GpsEphem) : List (Nat × Nat × Nat) := [
  (0, 4, m.prn.toNat), (4, 8, m.tow.toNat), (12, 4, m.health.toNat), (16, 4, m.iode1.toNat), (20, 4, m.iode2.toNat), (24, 4, m.week.toNat),
  (28, 4, m.z_week.toNat), (32, 8, m.toe.toNat), (40, 8, m.A.toNat), (48, 8, m.delta_N.toNat), (56, 8, m.M0.toNat), (64, 8, m.ecc.toNat),
  (72, 8, m.omega.toNat), (80, 8, m.cuc.toNat), (88, 8, m.cus.toNat), (96, 8, m.crc.toNat), (104, 8, m.crs.toNat), (112, 8, m.cic.toNat),
  (120, 8, m.cis.toNat), (128, 8, m.I0.toNat), (136, 8, m.I_dot.toNat), (144, 8, m.omega0.toNat), (152, 8, m.omega_dot.toNat),
  (160, 4, m.iodc.toNat), (164, 8, m.toc.toNat), (172, 8, m.tgd.toNat), (180, 8, m.af0.toNat), (188, 8, m.af1.toNat), (196, 8, m.af2.toNat),
  (204, 4, m.AS.toNat), (208, 8, m.N.toNat), (216, 8, m.URA.toNat)]

def bestpos (m : BestPos) : List (Nat × Nat × Nat) := [
  (0, 4, m.sol_stat.toNat), (4, 4, m.pos_type.toNat), (8, 8, m.lat.toNat), (16, 8, m.lon.toNat), (24, 8, m.hgt.toNat),
  (32, 4, m.undulation.toNat), (36, 4, m.datum_id.toNat), (40, 4, m.lat_stddev.toNat), (44, 4, m.lon_stddev.toNat), (48, 4, m.hgt_stddev.toNat),
  (52, 1, m.stn_id.1.toNat), (53, 1, m.stn_id.2.1.toNat), (54, 1, m.stn_id.2.2.1.toNat), (55, 1, m.stn_id.2.2.2.toNat),
  (56, 4, m.diff_age.toNat), (60, 4, m.sol_age.toNat), (64, 1, m.num_sv_tracked.toNat), (65, 1, m.num_sv_in_soln.toNat),
  (66, 1, m.num_sv_in_soln_L1.toNat), (67, 1, m.num_sv_in_soln_multi.toNat), (68, 1, m.reserved.toNat), (69, 1, m.ext_sol_stat.toNat),
  (70, 1, m.galileo_beidou_mask.toNat), (71, 1, m.gps_glonass_mask.toNat)]

def bestvel (m : BestVel) : List (Nat × Nat × Nat) := [
  (0, 4, m.sol_stat.toNat), (4, 4, m.vel_type.toNat), (8, 4, m.latency.toNat), (12, 4, m.diff_age.toNat), (16, 8, m.hor_speed.toNat),
  (24, 8, m.trk_gnd.toNat), (32, 8, m.vert_speed.toNat), (40, 4, m.reserved.toNat)]

def insatt (m : InsAtt) : List (Nat × Nat × Nat) := [
  (0, 4, m.gnss_week.toNat), (4, 8, m.tow.toNat), (12, 8, m.roll.toNat), (20, 8, m.pitch.toNat), (28, 8, m.azimuth.toNat),
  (36, 4, m.status.toNat)]

def gloephemeris (m : GloEphemeris) : List (Nat × Nat × Nat) := [
  (0, 2, m.sloto.toNat), (2, 2, m.freqo.toNat), (4, 1, m.sat_type.toNat), (5, 1, m.reserved_1.toNat), (6, 2, m.e_week.toNat),
  (8, 4, m.e_time.toNat), (12, 4, m.t_offset.toNat), (16, 2, m.Nt.toNat), (18, 2, m.reserved_2.toNat), (20, 4, m.issue.toNat),
  (24, 4, m.health.toNat), (28, 8, m.pos_x.toNat), (36, 8, m.pos_y.toNat), (44, 8, m.pos_z.toNat), (52, 8, m.vel_x.toNat),
  (60, 8, m.vel_y.toNat), (68, 8, m.vel_z.toNat), (76, 8, m.LS_acc_x.toNat), (84, 8, m.LS_acc_y.toNat), (92, 8, m.LS_acc_z.toNat),
  (100, 8, m.tau_n.toNat), (108, 8, m.delta_tau_n.toNat), (116, 8, m.gamma.toNat), (124, 4, m.Tk.toNat), (128, 4, m.P.toNat),
  (132, 4, m.Ft.toNat), (136, 4, m.age.toNat), (140, 4, m.flags.toNat)]

/-- the y axes are stored negated -/
def rawimusx (b : List (BitVec 8)) (m : RawImuSx) : Prop :=
  Table b 40 [(0, 1, m.imu_info.toNat), (1, 1, m.imu_type.toNat), (2, 2, m.gnss_week.toNat), (4, 8, m.gnss_week_seconds.toNat),
    (12, 4, m.imu_status.toNat)] ∧
  m.z_accel = signed 32 (leAt b 16 4) ∧ m.y_accel = -signed 32 (leAt b 20 4) ∧ m.x_accel = signed 32 (leAt b 24 4) ∧
  m.z_gyro = signed 32 (leAt b 28 4) ∧ m.y_gyro = -signed 32 (leAt b 32 4) ∧ m.x_gyro = signed 32 (leAt b 36 4)

/-- `n` bits from bit `off` on of the 24 bytes of a record, as a number -/
def bits (b : List (BitVec 8)) (p off n : Nat) : Nat := leAt b p 24 / 2 ^ off % 2 ^ n

/-- the record of RANGECMP at byte `p` -/
def rangeRec (b : List (BitVec 8)) (p : Nat) (r : RangeRec) : Prop :=
  r.tracking_status.toNat = bits b p 0 32 ∧ r.doppler = signed 28 (bits b p 32 28) ∧ r.pseudorange.toNat = bits b p 60 36 ∧
  r.ADR = signed 32 (bits b p 96 32) ∧ r.stddev_psr.toNat = bits b p 128 4 ∧ r.stddev_adr.toNat = bits b p 132 4 ∧
  r.prn_slot.toNat = bits b p 136 8 ∧ r.lock_time.toNat = bits b p 144 21 ∧ r.CN0.toNat = bits b p 165 5 ∧
  r.glo_freq_no.toNat = bits b p 170 6 ∧ r.reserved.toNat = bits b p 176 16

/-- at most 63 records are kept -/
def rangecmp (b : List (BitVec 8)) (rs : List RangeRec) : Prop :=
  4 ≤ b.length ∧ b.length = 4 + 24 * leAt b 0 4 ∧ rs.length = min (leAt b 0 4) 63 ∧ ∀ (i : Nat) (r : RangeRec), rs[i]? = some r → rangeRec b (4 + 24 * i) r

/-- the message of a log with this number and these bytes -/
def BodyOf (id : Nat) (b : List (BitVec 8)) : Body → Prop
  | .gpsephem m => id = 7 ∧ Table b 224 (gpsephem m)
  | .bestpos m => id = 42 ∧ Table b 72 (bestpos m)
  | .bestvel m => id = 99 ∧ Table b 44 (bestvel m)
  | .rangecmp rs => id = 140 ∧ rangecmp b rs
  | .insatt m => id = 263 ∧ Table b 40 (insatt m)
  | .gloephemeris m => id = 723 ∧ Table b 144 (gloephemeris m)
  | .rawimusx m => id = 1462 ∧ rawimusx b m
  | .other => id ∉ [7, 42, 99, 140, 263, 723, 1462]

/-- the fields of the long header that the short one does not have -/
def ext (f : List (BitVec 8)) (e : Ext) : Prop :=
  ∀ x ∈ [(6, 1, e.message_type.toNat), (7, 1, e.port_addr.toNat), (10, 2, e.sequence.toNat), (12, 1, e.idle_time.toNat),
    (13, 1, e.time_status.toNat), (20, 4, e.rx_status.toNat), (24, 2, e.reserved.toNat), (26, 2, e.rx_software_version.toNat)],
    leAt f x.1 x.2.1 = x.2.2

/-- the message handed on for the log `f` -/
def Says (f : List (BitVec 8)) (m : Msg) : Prop :=
  m.header.message_id.toNat = msgId f ∧ m.header.week.toNat = week f ∧ m.header.ms.toNat = ms f ∧
  m.header.message_len.toNat = (payload f).length ∧ (m.header.ext.isSome = isLong f) ∧ (∀ e, m.header.ext = some e → ext f e) ∧
  BodyOf (msgId f) (payload f) m.body

/-- The body has the length of its type, and values on the y axes of an IMU that can be negated.  The converter assumes this of every log with
a correct CRC. -/
def ProperBody (id : Nat) (b : List (BitVec 8)) : Prop :=
  (id = 7 → b.length = 224) ∧ (id = 42 → b.length = 72) ∧ (id = 99 → b.length = 44) ∧
  (id = 140 → 4 ≤ b.length ∧ b.length = 4 + 24 * leAt b 0 4) ∧ (id = 263 → b.length = 40) ∧ (id = 723 → b.length = 144) ∧
  (id = 1462 → b.length = 40 ∧ leAt b 20 4 ≠ 2 ^ 31 ∧ leAt b 32 4 ≠ 2 ^ 31)

def Proper (f : List (BitVec 8)) : Prop := ProperBody (msgId f) (payload f)

/-! ### streams -/

/-- the bytes that can be read before the first error -/
def dataOf : List Verif.Ixcom.Rd → List (BitVec 8)
  | [] => []
  | .err _ :: _ => []
  | .data b :: s => b ++ dataOf s

/-- no log of at most 4096 bytes begins here -/
def NoFrame (s : List (BitVec 8)) : Prop := ∀ f t, s = f ++ t → f.length ≤ 4096 → ¬ IsFrame f

/-- Looking for logs from left to right, as long as 4096 bytes follow: a log of at most 4096 bytes that begins here is taken, otherwise one byte
is skipped.  `r` is what is left. -/
inductive Greedy : List (BitVec 8) → List (List (BitVec 8)) → List (BitVec 8) → Prop
  | stop (s) : s.length < 4096 → Greedy s [] s
  | frame (f t fs r) : 4096 ≤ (f ++ t).length → IsFrame f → f.length ≤ 4096 → Greedy t fs r → Greedy (f ++ t) (f :: fs) r
  | skip (b t fs r) : 4096 ≤ (b :: t).length → NoFrame (b :: t) → Greedy t fs r → Greedy (b :: t) fs r

/-- The bytes left over, fewer than 4096, are only looked at once. -/
inductive LastLook : List (BitVec 8) → List (List (BitVec 8)) → Prop
  | frame (f t) : IsFrame f → LastLook (f ++ t) [f]
  | none (r) : NoFrame r → LastLook r []

/-- A stream of these logs, possibly separated by bytes that are not the first sync byte. -/
inductive Interleaved : List (List (BitVec 8)) → List (BitVec 8) → Prop
  | nil : Interleaved [] []
  | noise (b fs s) : b ≠ 0xAA#8 → Interleaved fs s → Interleaved fs (b :: s)
  | frame (f fs s) : Interleaved fs s → Interleaved (f :: fs) (f ++ s)

end Verif.Nov.Spec
