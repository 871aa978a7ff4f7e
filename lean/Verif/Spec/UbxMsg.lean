import Verif.Model.UbxMsg
/-!
The payload layouts of the u-blox protocol specification (offset in the payload, number of bytes, value; little-endian), and what it means
that a decoder and an encoder follow them.
-/
namespace Verif.Ubx.Spec
open Verif.Ubx

/-- the little-endian unsigned number in the `n` bytes from offset `off` -/
def leAt (b : List (BitVec 8)) (off : Nat) : Nat → Nat
  | 0 => 0
  | n + 1 => (b.getD off 0).toNat + 256 * leAt b (off + 1) n

/-- UBX-HNR-PVT -/
def hnrPvt (m : HnrPvt) : List (Nat × Nat × Nat) :=
  [(0, 4, m.i_tow.toNat), (4, 2, m.year.toNat), (6, 1, m.month.toNat), (7, 1, m.day.toNat), (8, 1, m.hour.toNat),
   (9, 1, m.min.toNat), (10, 1, m.sec.toNat), (11, 1, m.valid.toNat), (12, 4, m.nano.toNat), (16, 1, m.fix_type.toNat),
   (17, 1, m.flags.toNat), (20, 4, m.lon.toNat), (24, 4, m.lat.toNat), (28, 4, m.height.toNat),
   (32, 4, m.height_mean_sea_level.toNat), (36, 4, m.ground_speed.toNat), (40, 4, m.speed.toNat),
   (44, 4, m.heading_of_motion.toNat), (48, 4, m.heading_vehicle.toNat), (52, 4, m.horizontal_accuracy.toNat),
   (56, 4, m.vertical_accuracy.toNat), (60, 4, m.speed_acc.toNat), (64, 4, m.heading_acc.toNat)]

/-- UBX-NAV-ATT -/
def navAtt (m : NavAtt) : List (Nat × Nat × Nat) :=
  [(0, 4, m.i_tow.toNat), (4, 1, m.version.toNat), (8, 4, m.roll.toNat), (12, 4, m.pitch.toNat), (16, 4, m.heading.toNat),
   (20, 4, m.acc_roll.toNat), (24, 4, m.acc_pitch.toNat), (28, 4, m.acc_heading.toNat)]

/-- UBX-NAV-CLOCK -/
def navClock (m : NavClock) : List (Nat × Nat × Nat) :=
  [(0, 4, m.i_tow.toNat), (4, 4, m.clk_bias.toNat), (8, 4, m.clk_drift.toNat), (12, 4, m.time_acc.toNat),
   (16, 4, m.freq_acc.toNat)]

/-- UBX-NAV-PVT -/
def navPvt (m : NavPvt) : List (Nat × Nat × Nat) :=
  [(0, 4, m.i_tow.toNat), (4, 2, m.year.toNat), (6, 1, m.month.toNat), (7, 1, m.day.toNat), (8, 1, m.hour.toNat),
   (9, 1, m.min.toNat), (10, 1, m.sec.toNat), (11, 1, m.valid.toNat), (12, 4, m.time_acc.toNat), (16, 4, m.nano.toNat),
   (20, 1, m.fix_type.toNat), (21, 1, m.flags.toNat), (22, 1, m.flags2.toNat), (23, 1, m.num_sats.toNat),
   (24, 4, m.lon.toNat), (28, 4, m.lat.toNat), (32, 4, m.height.toNat), (36, 4, m.height_mean_sea_level.toNat),
   (40, 4, m.horizontal_accuracy.toNat), (44, 4, m.vertical_accuracy.toNat), (48, 4, m.vel_north.toNat),
   (52, 4, m.vel_east.toNat), (56, 4, m.vel_down.toNat), (60, 4, m.ground_speed.toNat), (64, 4, m.heading_of_motion.toNat),
   (68, 4, m.speed_acc.toNat), (72, 4, m.heading_acc.toNat), (76, 2, m.PDOP.toNat), (78, 1, m.flags3.toNat),
   (84, 4, m.heading_vehicle.toNat), (88, 2, m.magnetic_declination.toNat), (90, 2, m.magnetic_declination_accuracy.toNat)]

/-- UBX-NAV-VELECEF -/
def navVelecef (m : NavVelecef) : List (Nat × Nat × Nat) :=
  [(0, 4, m.i_tow.toNat), (4, 4, m.ecefVX.toNat), (8, 4, m.ecefVY.toNat), (12, 4, m.ecefVZ.toNat), (16, 4, m.speed_acc.toNat)]

/-- UBX-NAV-STATUS -/
def navStatus (m : NavStatus) : List (Nat × Nat × Nat) :=
  [(0, 4, m.i_tow.toNat), (4, 1, m.fix_type.toNat), (5, 1, m.status_flags.toNat), (6, 1, m.fix_status.toNat),
   (7, 1, m.status_flags_ext.toNat), (8, 4, m.ttff_ms.toNat), (12, 4, m.msss.toNat)]

/-- UBX-MGA-GPS-EPH -/
def mgaGpsEph (m : MgaGpsEph) : List (Nat × Nat × Nat) :=
  [(0, 1, m.msg_type.toNat), (1, 1, m.version.toNat), (2, 1, m.sat_id.toNat), (3, 1, m.reserved1.toNat),
   (4, 1, m.fit_interval.toNat), (5, 1, m.ura_index.toNat), (6, 1, m.sat_health.toNat), (7, 1, m.tgd.toNat),
   (8, 2, m.iodc.toNat), (10, 2, m.toc.toNat), (12, 1, m.reserved2.toNat), (13, 1, m.af2.toNat), (14, 2, m.af1.toNat),
   (16, 4, m.af0.toNat), (20, 2, m.crs.toNat), (22, 2, m.delta_N.toNat), (24, 4, m.m0.toNat), (28, 2, m.cuc.toNat),
   (30, 2, m.cus.toNat), (32, 4, m.e.toNat), (36, 4, m.sqrt_A.toNat), (40, 2, m.toe.toNat), (42, 2, m.cic.toNat),
   (44, 4, m.omega0.toNat), (48, 2, m.cis.toNat), (50, 2, m.crc.toNat), (52, 4, m.i0.toNat), (56, 4, m.omega.toNat),
   (60, 4, m.omega_dot.toNat), (64, 2, m.i_dot.toNat)]

/-- UBX-ESF-INS -/
def esfIns (m : EsfIns) : List (Nat × Nat × Nat) :=
  [(0, 4, m.bitfield0.toNat), (8, 4, m.i_tow.toNat), (12, 4, m.x_ang_rate.toNat), (16, 4, m.y_ang_rate.toNat),
   (20, 4, m.z_ang_rate.toNat), (24, 4, m.x_accel.toNat), (28, 4, m.y_accel.toNat), (32, 4, m.z_accel.toNat)]

/-- UBX-NAV-SAT: the fixed part -/
def navSat (m : NavSat) : List (Nat × Nat × Nat) :=
  [(0, 4, m.i_tow.toNat), (4, 1, m.version.toNat), (5, 1, m.num_svs.toNat), (6, 2, m.reserved1.toNat)]
/-- UBX-NAV-SAT: one satellite block, 12 bytes -/
def navSatBlock (d : NavSatData) : List (Nat × Nat × Nat) :=
  [(0, 1, d.gnss_id.toNat), (1, 1, d.sv_id.toNat), (2, 1, d.cno.toNat), (3, 1, d.elev.toNat),
   (4, 2, d.azim.toNat), (6, 2, d.pr_res.toNat), (8, 4, d.flags.toNat)]

/-- UBX-RXM-RAWX: the fixed part -/
def rxmRawx (m : RxmRawx) : List (Nat × Nat × Nat) :=
  [(0, 8, m.rcv_tow.toNat), (8, 2, m.rcv_wn.toNat), (10, 1, m.leap_second.toNat), (11, 1, m.num_meas.toNat),
   (12, 1, m.rec_status.toNat), (13, 1, m.version.toNat)]
/-- UBX-RXM-RAWX: one measurement block, 32 bytes -/
def rxmRawxBlock (d : RawxMeas) : List (Nat × Nat × Nat) :=
  [(0, 8, d.pseudorange_m.toNat), (8, 8, d.carrier_phase_cycles.toNat), (16, 4, d.doppler_hz.toNat),
   (20, 1, d.gnss_id.toNat), (21, 1, d.sat_id.toNat), (22, 1, d.sig_id.toNat),
   (23, 1, d.freq_id.toNat), (24, 2, d.lock_time.toNat), (26, 1, d.cno_dbhz.toNat),
   (27, 1, d.pr_std_m.toNat), (28, 1, d.cp_std_cycles.toNat), (29, 1, d.doppler_std_hz.toNat),
   (30, 1, d.track_state.toNat), (31, 1, d.reserved2.toNat)]

/-- UBX-RXM-SFRBX: the fixed part -/
def rxmSfrbx (m : RxmSfrbx) : List (Nat × Nat × Nat) :=
  [(0, 1, m.gnss_id.toNat), (1, 1, m.sat_id.toNat), (2, 1, m.reserved1.toNat), (3, 1, m.freq_id.toNat), (4, 1, m.num_words.toNat),
   (5, 1, m.channel.toNat), (6, 1, m.version.toNat), (7, 1, m.reserved2.toNat)]
/-- UBX-RXM-SFRBX: one data word -/
def rxmSfrbxBlock (d : BitVec 32) : List (Nat × Nat × Nat) := [(0, 4, d.toNat)]

/-- UBX-ESF-MEAS: the fixed part and the calibration time tag behind the data -/
def esfMeas (m : EsfMeas) : List (Nat × Nat × Nat) :=
  [(0, 4, m.time_tag.toNat), (4, 2, m.flags.toNat), (6, 2, m.id.toNat)] ++
  (match m.calib_tag with | some t => [(8 + 4 * m.data.length, 4, t.toNat)] | none => [])
/-- UBX-ESF-MEAS: one datum -/
def esfMeasBlock (d : BitVec 32) : List (Nat × Nat × Nat) := [(0, 4, d.toNat)]

/-- UBX-ESF-RAW: the fixed part -/
def esfRaw (m : EsfRaw) : List (Nat × Nat × Nat) := [(0, 4, m.msss.toNat)]
/-- UBX-ESF-RAW: one measurement block, 8 bytes -/
def esfRawBlock (d : EsfRawData) : List (Nat × Nat × Nat) :=
  [(0, 4, d.data.toNat), (4, 4, d.sensor_time_tag.toNat)]

/-- repeated blocks of `size` bytes from payload offset `start` -/
def blocks {α : Type} (start size : Nat) (f : α → List (Nat × Nat × Nat)) (l : List α) : List (Nat × Nat × Nat) :=
  l.zipIdx.flatMap fun x => (f x.1).map fun z => (start + size * x.2 + z.1, z.2)

/-! What a C value of the message type is: class and number are right, the arrays have their length and the used entries are there. -/
def wfHnrPvt (m : HnrPvt) : Prop := m.class_id = 0x28#8 ∧ m.msg_id = 0x00#8 ∧ m.reserved1.length = 2 ∧ m.reserved2.length = 4
def wfNavAtt (m : NavAtt) : Prop := m.class_id = 0x01#8 ∧ m.msg_id = 0x05#8 ∧ m.reserved.length = 3
def wfNavClock (m : NavClock) : Prop := m.class_id = 0x01#8 ∧ m.msg_id = 0x22#8
def wfNavPvt (m : NavPvt) : Prop := m.class_id = 0x01#8 ∧ m.msg_id = 0x07#8 ∧ m.reserved1.length = 5
def wfNavVelecef (m : NavVelecef) : Prop := m.class_id = 0x01#8 ∧ m.msg_id = 0x11#8
def wfNavStatus (m : NavStatus) : Prop := m.class_id = 0x01#8 ∧ m.msg_id = 0x03#8
def wfMgaGpsEph (m : MgaGpsEph) : Prop := m.class_id = 0x13#8 ∧ m.msg_id = 0x00#8 ∧ m.reserved3.length = 2
def wfEsfIns (m : EsfIns) : Prop := m.class_id = 0x10#8 ∧ m.msg_id = 0x15#8 ∧ m.reserved1.length = 4
/-- at most 255 measurements, all of them present -/
def wfRxmRawx (m : RxmRawx) : Prop :=
  m.class_id = 0x02#8 ∧ m.msg_id = 0x15#8 ∧ m.reserved1.length = 2 ∧ m.meas.length = m.num_meas.toNat
/-- the first 100 satellites -/
def wfNavSat (m : NavSat) : Prop := m.class_id = 0x01#8 ∧ m.msg_id = 0x35#8 ∧ m.data.length = min m.num_svs.toNat 100
/-- at most 10 words -/
def wfRxmSfrbx (m : RxmSfrbx) : Prop :=
  m.class_id = 0x02#8 ∧ m.msg_id = 0x13#8 ∧ m.data_words.length = m.num_words.toNat ∧ m.num_words.toNat ≤ 10
/-- the number of measurements is in bits 11-15 of the flags, bit 3 says that there is a calibration time tag -/
def wfEsfMeas (m : EsfMeas) : Prop :=
  m.class_id = 0x10#8 ∧ m.msg_id = 0x02#8 ∧ m.data.length = m.flags.toNat / 2 ^ 11 ∧ m.calib_tag.isSome = m.flags.getLsbD 3
/-- the number of measurements follows from the length field: (length - 4) / 8, at most 128 -/
def wfEsfRaw (m : EsfRaw) : Prop :=
  m.class_id = 0x10#8 ∧ m.msg_id = 0x03#8 ∧ m.data.length = (m.length.toNat - 4) / 8 ∧ m.data.length ≤ 128

/-- Every message within `wf` is decoded from its encoding, whatever follows it. -/
def RoundTrip {M : Type} (dec : Dec M) (enc : M → List (BitVec 8)) (wf : M → Prop) : Prop :=
  ∀ m rest, wf m → dec (enc m ++ rest) = .ok (m, rest)

/-- What is decoded is within `wf`, and is exactly what the consumed bytes say according to the table: class, message number and
length in the four header bytes, then `size` payload bytes with the fields at their offsets. -/
def Follows {M : Type} (dec : Dec M) (cls id : Nat) (length : M → BitVec 16) (wf : M → Prop)
    (table : M → List (Nat × Nat × Nat)) (size : M → Nat) : Prop :=
  ∀ b m rest, dec b = .ok (m, rest) →
    wf m ∧ (∃ used, b = used ++ rest ∧ used.length = 4 + size m) ∧
    leAt b 0 1 = cls ∧ leAt b 1 1 = id ∧ leAt b 2 2 = (length m).toNat ∧
    ∀ f ∈ table m, leAt b (4 + f.1) f.2.1 = f.2.2

/-- Messages of another class or number are rejected with RC_MESSAGE_TYPE_MISMATCH. -/
def Rejects {M : Type} (dec : Dec M) (cls id : BitVec 8) : Prop :=
  ∀ x y rest, (x ≠ cls ∨ y ≠ id) → dec (x :: y :: rest) = .error (-1)

/-- A message that is cut off is rejected with RC_INVALID_MESSAGE. -/
def RejectsCut {M : Type} (dec : Dec M) (enc : M → List (BitVec 8)) (wf : M → Prop) : Prop :=
  ∀ m p q, wf m → enc m = p ++ q → q ≠ [] → dec p = .error (-2)

end Verif.Ubx.Spec
