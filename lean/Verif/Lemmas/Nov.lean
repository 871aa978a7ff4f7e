import Verif.Lemmas.NovCrc
import Verif.Spec.Nov
/-! NovAtel logs: fields, and the parser at the beginning of the buffer. -/
namespace Verif.Nov
open Verif.Crc Verif.Nov.Spec
open Verif.Ubx.Spec (leAt)
open Verif.Ixcom (Rd u16At u32At)

theorem cat_toNat' {m n : Nat} (a : BitVec m) (b : BitVec n) : (a ++ b).toNat = a.toNat * 2 ^ n + b.toNat := by
  rw [BitVec.toNat_append, Nat.shiftLeft_eq, mul_comm, Nat.two_pow_add_eq_or_of_lt b.isLt]

theorem u8_le (b : Buf) (i : Nat) : leAt b i 1 = (b.getD i 0).toNat := by simp [leAt]
theorem u16_le (b : Buf) (i : Nat) : leAt b i 2 = (u16At b i).toNat := by
  unfold u16At; rw [cat_toNat']; simp only [leAt]; omega
theorem u32_le (b : Buf) (i : Nat) : leAt b i 4 = (u32At b i).toNat := by
  unfold u32At
  rw [cat_toNat', cat_toNat', cat_toNat']
  simp only [leAt, Nat.add_assoc, Nat.reduceAdd]; omega
theorem u64_le (b : Buf) (i : Nat) : leAt b i 8 = (u64At b i).toNat := by
  unfold u64At; rw [cat_toNat', ← u32_le, ← u32_le]; simp only [leAt, Nat.add_assoc, Nat.reduceAdd]; omega

theorem leAt_take (b : Buf) (k n : Nat) : ∀ i, i + n ≤ k → leAt (b.take k) i n = leAt b i n := by
  induction n with
  | zero => intro i _; rfl
  | succ n ih =>
    intro i h
    simp only [leAt]
    rw [ih _ (by omega)]
    congr 2
    rw [List.getD_eq_getElem?_getD, List.getD_eq_getElem?_getD, List.getElem?_take_of_lt (by omega)]

theorem leAt_app (f t : Buf) (n : Nat) : ∀ i, i + n ≤ f.length → leAt (f ++ t) i n = leAt f i n := by
  intro i h
  have := leAt_take (f ++ t) f.length n i h
  rw [List.take_left] at this
  exact this.symm

theorem toInt_signed (v : BitVec 32) : v.toInt = signed 32 v.toNat := by
  unfold signed
  rw [BitVec.toInt]
  have := v.isLt
  split <;> split <;> first | rfl | omega

/-! ### readers -/

theorem fromBytes_iff {α : Type} (r : Rdr α) (v : Buf → α) (n : Nat) (h : ∀ b, (r.run 0).run b = (v b, n)) (b : Buf) (m : α) :
    fromBytes r b = some m ↔ b.length = n ∧ m = v b := by
  unfold fromBytes
  rw [h]
  simp only
  split
  · rename_i hn
    constructor
    · intro h; exact ⟨hn.symm, (Option.some.inj h).symm⟩
    · rintro ⟨_, rfl⟩; rfl
  · rename_i hn
    constructor
    · intro h; cases h
    · rintro ⟨h, _⟩; exact absurd h.symm hn

def gpsEphemAt (b : Buf) : GpsEphem where
  prn := u32At b 0
  tow := u64At b 4
  health := u32At b 12
  iode1 := u32At b 16
  iode2 := u32At b 20
  week := u32At b 24
  z_week := u32At b 28
  toe := u64At b 32
  A := u64At b 40
  delta_N := u64At b 48
  M0 := u64At b 56
  ecc := u64At b 64
  omega := u64At b 72
  cuc := u64At b 80
  cus := u64At b 88
  crc := u64At b 96
  crs := u64At b 104
  cic := u64At b 112
  cis := u64At b 120
  I0 := u64At b 128
  I_dot := u64At b 136
  omega0 := u64At b 144
  omega_dot := u64At b 152
  iodc := u32At b 160
  toc := u64At b 164
  tgd := u64At b 172
  af0 := u64At b 180
  af1 := u64At b 188
  af2 := u64At b 196
  AS := u32At b 204
  N := u64At b 208
  URA := u64At b 216

theorem run_gpsephem (b : Buf) : (readGpsEphem.run 0).run b = (gpsEphemAt b, 224) := rfl

def bestPosAt (b : Buf) : BestPos where
  sol_stat := u32At b 0
  pos_type := u32At b 4
  lat := u64At b 8
  lon := u64At b 16
  hgt := u64At b 24
  undulation := u32At b 32
  datum_id := u32At b 36
  lat_stddev := u32At b 40
  lon_stddev := u32At b 44
  hgt_stddev := u32At b 48
  stn_id := (b.getD 52 0, b.getD 53 0, b.getD 54 0, b.getD 55 0)
  diff_age := u32At b 56
  sol_age := u32At b 60
  num_sv_tracked := b.getD 64 0
  num_sv_in_soln := b.getD 65 0
  num_sv_in_soln_L1 := b.getD 66 0
  num_sv_in_soln_multi := b.getD 67 0
  reserved := b.getD 68 0
  ext_sol_stat := b.getD 69 0
  galileo_beidou_mask := b.getD 70 0
  gps_glonass_mask := b.getD 71 0

theorem run_bestpos (b : Buf) : (readBestPos.run 0).run b = (bestPosAt b, 72) := rfl

def bestVelAt (b : Buf) : BestVel where
  sol_stat := u32At b 0
  vel_type := u32At b 4
  latency := u32At b 8
  diff_age := u32At b 12
  hor_speed := u64At b 16
  trk_gnd := u64At b 24
  vert_speed := u64At b 32
  reserved := u32At b 40

theorem run_bestvel (b : Buf) : (readBestVel.run 0).run b = (bestVelAt b, 44) := rfl

def insAttAt (b : Buf) : InsAtt where
  gnss_week := u32At b 0
  tow := u64At b 4
  roll := u64At b 12
  pitch := u64At b 20
  azimuth := u64At b 28
  status := u32At b 36

theorem run_insatt (b : Buf) : (readInsAtt.run 0).run b = (insAttAt b, 40) := rfl

def gloEphemerisAt (b : Buf) : GloEphemeris where
  sloto := u16At b 0
  freqo := u16At b 2
  sat_type := b.getD 4 0
  reserved_1 := b.getD 5 0
  e_week := u16At b 6
  e_time := u32At b 8
  t_offset := u32At b 12
  Nt := u16At b 16
  reserved_2 := u16At b 18
  issue := u32At b 20
  health := u32At b 24
  pos_x := u64At b 28
  pos_y := u64At b 36
  pos_z := u64At b 44
  vel_x := u64At b 52
  vel_y := u64At b 60
  vel_z := u64At b 68
  LS_acc_x := u64At b 76
  LS_acc_y := u64At b 84
  LS_acc_z := u64At b 92
  tau_n := u64At b 100
  delta_tau_n := u64At b 108
  gamma := u64At b 116
  Tk := u32At b 124
  P := u32At b 128
  Ft := u32At b 132
  age := u32At b 136
  flags := u32At b 140

theorem run_gloephemeris (b : Buf) : (readGloEphemeris.run 0).run b = (gloEphemerisAt b, 144) := rfl

def rawImuSxAt (b : Buf) : RawImuSx where
  imu_info := b.getD 0 0
  imu_type := b.getD 1 0
  gnss_week := u16At b 2
  gnss_week_seconds := u64At b 4
  imu_status := u32At b 12
  z_accel := (u32At b 16).toInt
  y_accel := -(u32At b 20).toInt
  x_accel := (u32At b 24).toInt
  z_gyro := (u32At b 28).toInt
  y_gyro := -(u32At b 32).toInt
  x_gyro := (u32At b 36).toInt

theorem run_rawimusx (b : Buf) : (readRawImuSx.run 0).run b = (rawImuSxAt b, 40) := rfl

/-! ### bit fields -/

theorem leAt_testBit (b : Buf) (n : Nat) : ∀ p j, (leAt b p n).testBit j = (decide (j < 8 * n) && (b.getD (p + j / 8) 0).getLsbD (j % 8)) := by
  induction n with
  | zero => intro p j; simp [leAt]
  | succ n ih =>
    intro p j
    simp only [leAt]
    have e : (b.getD p 0).toNat + 256 * leAt b (p + 1) n = 2 ^ 8 * leAt b (p + 1) n + (b.getD p 0).toNat := by omega
    rw [e, Nat.testBit_two_pow_mul_add _ (b.getD p 0).isLt]
    split
    · rename_i h
      have h0 : j / 8 = 0 := by omega
      have h1 : j % 8 = j := by omega
      have h2 : j < 8 * (n + 1) := by omega
      rw [h0, h1]
      simp [h2, BitVec.getLsbD]
    · rename_i h
      rw [ih]
      have h0 : p + 1 + (j - 8) / 8 = p + j / 8 := by omega
      have h1 : (j - 8) % 8 = j % 8 := by omega
      have h2 : (j - 8 < 8 * n) ↔ j < 8 * (n + 1) := by omega
      rw [h0, h1, decide_eq_decide.2 h2]

theorem bit_test (x : BitVec 8) (k : Nat) (hk : k < 8) : (x.zeroExtend 32 &&& (1#32 <<< k) ≠ 0) ↔ x.getLsbD k = true := by
  constructor
  · intro h
    cases hx : x.getLsbD k
    · refine absurd ?_ h
      apply BitVec.eq_of_getLsbD_eq
      intro i hi
      by_cases e : i = k
      · subst e; simp [hx]
      · have h1 : (1#32 <<< k).getLsbD i = false := by
          rw [BitVec.getLsbD_shiftLeft, BitVec.getLsbD_one]
          have : ¬ (i - k = 0 ∧ ¬ i < k) := by omega
          by_cases hik : i < k
          · simp [hik]
          · have : i - k ≠ 0 := by omega
            simp [this]
        rw [BitVec.getLsbD_and, h1, Bool.and_false]
        exact (BitVec.getLsbD_zero).symm
    · rfl
  · intro hx h
    have := congrArg (fun v => v.getLsbD k) h
    simp only [BitVec.getLsbD_and] at this
    have h1 : (1#32 <<< k).getLsbD k = true := by
      rw [BitVec.getLsbD_shiftLeft, BitVec.getLsbD_one]
      simp; omega
    have h2 : (x.zeroExtend 32).getLsbD k = true := by
      rw [BitVec.zeroExtend, BitVec.getLsbD_setWidth, hx]; simp; omega
    rw [h1, h2] at this
    simp at this

theorem leBits_get (b : Buf) (p off n : Nat) (hn : n ≤ 64) : ∀ j, j < 64 →
    (leBits b p off n).getLsbD j = (decide (j < n) && (b.getD (p + (off + j) / 8) 0).getLsbD ((off + j) % 8)) := by
  induction n with
  | zero => intro j _; simp [leBits]
  | succ n ih =>
    intro j hj
    have e : leBits b p off (n + 1) = leBits b p off n |||
        (if (b.getD (p + (off + n) / 8) 0).zeroExtend 32 &&& (1#32 <<< ((off + n) % 8)) ≠ 0 then 1#64 <<< n else 0) := by
      unfold leBits
      rw [List.range_succ, List.foldl_append]
      rfl
    rw [e, BitVec.getLsbD_or, ih (by omega) j hj]
    have hone : (1#64 <<< n).getLsbD j = decide (j = n) := by
      rw [BitVec.getLsbD_shiftLeft, BitVec.getLsbD_one]
      by_cases h : j = n
      · subst h; simp [hj]
      · by_cases h2 : j < n
        · simp [h2, h]
        · have : j - n ≠ 0 := by omega
          simp [this, h]
    have hb := bit_test (b.getD (p + (off + n) / 8) 0) ((off + n) % 8) (by omega)
    by_cases hj2 : j = n
    · subst hj2
      have hc : ((b.getD (p + (off + j) / 8) 0).zeroExtend 32 &&& (1#32 <<< ((off + j) % 8)) ≠ 0) ∨
        ¬ ((b.getD (p + (off + j) / 8) 0).zeroExtend 32 &&& (1#32 <<< ((off + j) % 8)) ≠ 0) := Decidable.em _
      rcases hc with hc | hc
      · rw [if_pos hc, hone, hb.1 hc]; simp
      · rw [if_neg hc]
        have : (b.getD (p + (off + j) / 8) 0).getLsbD ((off + j) % 8) = false := by
          cases hx : (b.getD (p + (off + j) / 8) 0).getLsbD ((off + j) % 8)
          · rfl
          · exact absurd (hb.2 hx) hc
        rw [this]; simp
    · have hlt : (j < n + 1) ↔ j < n := by omega
      rw [decide_eq_decide.2 hlt]
      have : (if (b.getD (p + (off + n) / 8) 0).zeroExtend 32 &&& (1#32 <<< ((off + n) % 8)) ≠ 0 then 1#64 <<< n else 0).getLsbD j = false := by
        split
        · rw [hone]; simp [hj2]
        · exact BitVec.getLsbD_zero
      rw [this, Bool.or_false]

theorem leBits_num (b : Buf) (p off n : Nat) (hn : n ≤ 64) (ho : off + n ≤ 192) : (leBits b p off n).toNat = bits b p off n := by
  apply Nat.eq_of_testBit_eq
  intro j
  unfold bits
  rw [Nat.testBit_mod_two_pow, Nat.testBit_div_two_pow, leAt_testBit]
  by_cases hj : j < 64
  · have := leBits_get b p off n hn j hj
    rw [BitVec.getLsbD] at this
    rw [this, Nat.add_comm j off]
    by_cases h : j < n
    · have : off + j < 8 * 24 := by omega
      simp [h, this]
    · simp [h]
  · have h1 : (leBits b p off n).toNat.testBit j = false := BitVec.getLsbD_of_ge _ _ (by omega)
    have h2 : ¬ j < n := by omega
    rw [h1]; simp [h2]

theorem bits_lt (b : Buf) (p off n : Nat) : bits b p off n < 2 ^ n := Nat.mod_lt _ (by positivity)

theorem leBits_field (b : Buf) (p off n w : Nat) (hn : n ≤ w) (hw : w ≤ 64) (ho : off + n ≤ 192) :
    ((leBits b p off n).setWidth w).toNat = bits b p off n := by
  rw [BitVec.toNat_setWidth, leBits_num b p off n (by omega) ho]
  exact Nat.mod_eq_of_lt (lt_of_lt_of_le (bits_lt b p off n) (Nat.pow_le_pow_right (by omega) hn))

theorem sext28 (v : BitVec 32) (h : v.toNat < 2 ^ 28) : ((v <<< 4).sshiftRight 4).toInt = signed 28 v.toNat := by
  rw [BitVec.toInt_sshiftRight, Int.shiftRight_eq_div_pow]
  have e : (v <<< 4).toNat = v.toNat * 16 := by
    rw [BitVec.toNat_shiftLeft, Nat.shiftLeft_eq, Nat.mod_eq_of_lt (by omega)]
  rw [BitVec.toInt, e]
  unfold signed
  split <;> split <;> push_cast <;> omega

theorem rangeRec_ok (b : Buf) (p : Nat) : rangeRec b p (readRangeRec b p) := by
  refine ⟨leBits_field b p 0 32 32 (by omega) (by omega) (by omega), ?_, leBits_num b p 60 36 (by omega) (by omega), ?_,
    leBits_field b p 128 4 8 (by omega) (by omega) (by omega), leBits_field b p 132 4 8 (by omega) (by omega) (by omega),
    leBits_field b p 136 8 8 (by omega) (by omega) (by omega), leBits_field b p 144 21 32 (by omega) (by omega) (by omega),
    leBits_field b p 165 5 8 (by omega) (by omega) (by omega), leBits_field b p 170 6 8 (by omega) (by omega) (by omega),
    leBits_field b p 176 16 16 (by omega) (by omega) (by omega)⟩
  · have h := leBits_field b p 32 28 32 (by omega) (by omega) (by omega)
    have hl := bits_lt b p 32 28
    rw [← h] at hl ⊢
    exact sext28 _ hl
  · have h := leBits_field b p 96 32 32 (by omega) (by omega) (by omega)
    rw [← h]
    exact toInt_signed _

/-! ### bodies -/

theorem parseBody_of {id : BitVec 16} {b : Buf} {m : Body} (h : parseBody id b = some m) : BodyOf id.toNat b m := by
  have hid : ∀ k : BitVec 16, id ≠ k → id.toNat ≠ k.toNat := fun k h e => h (BitVec.eq_of_toNat_eq e)
  unfold parseBody at h
  split at h
  · rename_i hi; subst hi
    rw [Option.map_eq_some_iff] at h
    obtain ⟨x, hx, rfl⟩ := h
    obtain ⟨hl, rfl⟩ := (fromBytes_iff _ _ _ run_gpsephem b x).1 hx
    refine ⟨rfl, hl, ?_⟩
    simp only [gpsephem, List.forall_mem_cons, u32_le, u64_le, gpsEphemAt, List.not_mem_nil, false_imp_iff, implies_true, and_self]
  split at h
  · rename_i hi; subst hi
    rw [Option.map_eq_some_iff] at h
    obtain ⟨x, hx, rfl⟩ := h
    obtain ⟨hl, rfl⟩ := (fromBytes_iff _ _ _ run_bestpos b x).1 hx
    refine ⟨rfl, hl, ?_⟩
    simp only [bestpos, List.forall_mem_cons, u8_le, u32_le, u64_le, bestPosAt, List.not_mem_nil, false_imp_iff, implies_true, and_self]
  split at h
  · rename_i hi; subst hi
    rw [Option.map_eq_some_iff] at h
    obtain ⟨x, hx, rfl⟩ := h
    obtain ⟨hl, rfl⟩ := (fromBytes_iff _ _ _ run_bestvel b x).1 hx
    refine ⟨rfl, hl, ?_⟩
    simp only [bestvel, List.forall_mem_cons, u32_le, u64_le, bestVelAt, List.not_mem_nil, false_imp_iff, implies_true, and_self]
  split at h
  · rename_i hi; subst hi
    rw [Option.map_eq_some_iff] at h
    obtain ⟨x, hx, rfl⟩ := h
    unfold readRangeCmp at hx
    split at hx
    · cases hx
    rename_i h4
    simp only at hx
    split at hx
    · cases hx
    rename_i hl
    obtain rfl := Option.some.inj hx
    refine ⟨rfl, by omega, ?_, ?_, ?_⟩
    · rw [u32_le]; push Not at hl; omega
    · rw [u32_le]; simp
    · intro i r hr
      rw [List.getElem?_map, Option.map_eq_some_iff] at hr
      obtain ⟨j, hj, rfl⟩ := hr
      rw [List.getElem?_eq_some_iff] at hj
      obtain ⟨hj, hj2⟩ := hj
      rw [List.getElem_range] at hj2
      subst hj2
      exact rangeRec_ok b _
  split at h
  · rename_i hi; subst hi
    rw [Option.map_eq_some_iff] at h
    obtain ⟨x, hx, rfl⟩ := h
    obtain ⟨hl, rfl⟩ := (fromBytes_iff _ _ _ run_insatt b x).1 hx
    refine ⟨rfl, hl, ?_⟩
    simp only [insatt, List.forall_mem_cons, u32_le, u64_le, insAttAt, List.not_mem_nil, false_imp_iff, implies_true, and_self]
  split at h
  · rename_i hi; subst hi
    rw [Option.map_eq_some_iff] at h
    obtain ⟨x, hx, rfl⟩ := h
    obtain ⟨hl, rfl⟩ := (fromBytes_iff _ _ _ run_gloephemeris b x).1 hx
    refine ⟨rfl, hl, ?_⟩
    simp only [gloephemeris, List.forall_mem_cons, u8_le, u16_le, u32_le, u64_le, gloEphemerisAt, List.not_mem_nil, false_imp_iff, implies_true, and_self]
  split at h
  · rename_i hi; subst hi
    rw [Option.map_eq_some_iff] at h
    obtain ⟨x, hx, rfl⟩ := h
    rw [Option.bind_eq_some_iff] at hx
    obtain ⟨y, hy, hx⟩ := hx
    split at hx
    · obtain rfl := Option.some.inj hx
      obtain ⟨hl, rfl⟩ := (fromBytes_iff _ _ _ run_rawimusx b y).1 hy
      refine ⟨rfl, ⟨hl, ?_⟩, ?_⟩
      · simp only [List.forall_mem_cons, u8_le, u16_le, u32_le, u64_le, rawImuSxAt, List.not_mem_nil, false_imp_iff, implies_true, and_self]
      · simp only [u32_le, ← toInt_signed, rawImuSxAt, and_self]
    · cases hx
  · obtain rfl := Option.some.inj h
    rename_i h1 h2 h3 h4 h5 h6 h7
    simp only [BodyOf, List.mem_cons, List.not_mem_nil, or_false]
    have := hid _ h1; have := hid _ h2; have := hid _ h3; have := hid _ h4; have := hid _ h5; have := hid _ h6; have := hid _ h7
    simp only [BitVec.toNat_ofNat, Nat.reducePow, Nat.reduceMod] at *
    omega

theorem fromBytes_some {α : Type} (r : Rdr α) (v : Buf → α) (n : Nat) (h : ∀ b, (r.run 0).run b = (v b, n)) (b : Buf) :
    (fromBytes r b).isSome ↔ b.length = n := by
  rw [Option.isSome_iff_exists]
  constructor
  · rintro ⟨m, hm⟩; exact ((fromBytes_iff r v n h b m).1 hm).1
  · intro hl; exact ⟨v b, (fromBytes_iff r v n h b _).2 ⟨hl, rfl⟩⟩

theorem neg_ok (v : BitVec 32) : (-v.toInt ≤ 2147483647) ↔ v.toNat ≠ 2 ^ 31 := by
  rw [BitVec.toInt]
  have := v.isLt
  split <;> omega

theorem parseBody_some (id : BitVec 16) (b : Buf) : (parseBody id b).isSome ↔ ProperBody id.toNat b := by
  have hid : ∀ k : BitVec 16, id ≠ k → id.toNat ≠ k.toNat := fun k h e => h (BitVec.eq_of_toNat_eq e)
  unfold parseBody ProperBody
  split
  · rename_i hi; subst hi
    rw [Option.isSome_map, fromBytes_some _ _ _ run_gpsephem b]
    simp
  split
  · rename_i hi; subst hi
    rw [Option.isSome_map, fromBytes_some _ _ _ run_bestpos b]
    simp
  split
  · rename_i hi; subst hi
    rw [Option.isSome_map, fromBytes_some _ _ _ run_bestvel b]
    simp
  split
  · rename_i hi; subst hi
    rw [Option.isSome_map]
    have : (readRangeCmp b).isSome ↔ (4 ≤ b.length ∧ b.length = 4 + 24 * leAt b 0 4) := by
      unfold readRangeCmp
      rw [u32_le]
      split
      · rename_i h; simp; omega
      · rename_i h
        simp only
        split
        · rename_i h2
          simp only [Option.isSome_none, Bool.false_eq_true, false_iff]
          omega
        · rename_i h2
          push Not at h2
          simp only [Option.isSome_some, true_iff]
          omega
    rw [this]
    simp
  split
  · rename_i hi; subst hi
    rw [Option.isSome_map, fromBytes_some _ _ _ run_insatt b]
    simp
  split
  · rename_i hi; subst hi
    rw [Option.isSome_map, fromBytes_some _ _ _ run_gloephemeris b]
    simp
  split
  · rename_i hi; subst hi
    rw [Option.isSome_map]
    have : ((fromBytes readRawImuSx b).bind fun m => if negOk m then some m else none).isSome ↔
        (b.length = 40 ∧ leAt b 20 4 ≠ 2 ^ 31 ∧ leAt b 32 4 ≠ 2 ^ 31) := by
      rw [u32_le, u32_le, ← neg_ok, ← neg_ok]
      constructor
      · intro h
        rw [Option.isSome_iff_exists] at h
        obtain ⟨x, hx⟩ := h
        rw [Option.bind_eq_some_iff] at hx
        obtain ⟨y, hy, hx⟩ := hx
        obtain ⟨hl, rfl⟩ := (fromBytes_iff _ _ _ run_rawimusx b y).1 hy
        split at hx
        · rename_i hn
          simp only [negOk, rawImuSxAt, Bool.and_eq_true] at hn
          exact ⟨hl, of_decide_eq_true hn.1, of_decide_eq_true hn.2⟩
        · cases hx
      · rintro ⟨hl, hn⟩
        rw [(fromBytes_iff _ _ _ run_rawimusx b _).2 ⟨hl, rfl⟩, Option.bind_some, if_pos]
        · rfl
        · simp only [negOk, rawImuSxAt, Bool.and_eq_true]
          exact ⟨decide_eq_true hn.1, decide_eq_true hn.2⟩
    rw [this]
    simp
  · rename_i h1 h2 h3 h4 h5 h6 h7
    have := hid _ h1; have := hid _ h2; have := hid _ h3; have := hid _ h4; have := hid _ h5; have := hid _ h6; have := hid _ h7
    simp only [BitVec.toNat_ofNat, Nat.reducePow, Nat.reduceMod, Option.isSome_some, true_iff] at *
    exact ⟨by omega, by omega, by omega, by omega, by omega, by omega, by omega⟩

/-! ### the log at the beginning of the buffer -/

def longHeader (f : Buf) : Header where
  message_len := u16At f 8
  message_id := u16At f 4
  week := u16At f 14
  ms := u32At f 16
  ext := some { message_type := f.getD 6 0, port_addr := f.getD 7 0, sequence := u16At f 10, idle_time := f.getD 12 0
                time_status := f.getD 13 0, rx_status := u32At f 20, reserved := u16At f 24, rx_software_version := u16At f 26 }

def shortHeader (f : Buf) : Header where
  message_len := (f.getD 3 0).zeroExtend 16
  message_id := u16At f 4
  week := u16At f 6
  ms := u32At f 8
  ext := none

theorem run_long (b : Buf) : ((readRegular.run 4).run b).1 = longHeader b := rfl
theorem run_short (b : Buf) : ((readShort.run 3).run b).1 = shortHeader b := rfl

theorem get_app {f : Buf} (t : Buf) {i : Nat} (h : i < f.length) : (f ++ t).getD i 0 = f.getD i 0 := by
  rw [List.getD_eq_getElem?_getD, List.getD_eq_getElem?_getD, List.getElem?_append_left h]
theorem u16_app {f : Buf} (t : Buf) {i : Nat} (h : i + 1 < f.length) : u16At (f ++ t) i = u16At f i := by
  unfold u16At; rw [get_app t h, get_app t (by omega)]
theorem u32_app {f : Buf} (t : Buf) {i : Nat} (h : i + 3 < f.length) : u32At (f ++ t) i = u32At f i := by
  unfold u32At; rw [get_app t h, get_app t (by omega), get_app t (by omega), get_app t (by omega)]

theorem longHeader_app {f : Buf} (t : Buf) (h : 28 ≤ f.length) : longHeader (f ++ t) = longHeader f := by
  unfold longHeader
  rw [u16_app t (by omega), u16_app t (by omega), u16_app t (by omega), u32_app t (by omega), get_app t (by omega), get_app t (by omega),
    u16_app t (by omega), get_app t (by omega), get_app t (by omega), u32_app t (by omega), u16_app t (by omega), u16_app t (by omega)]

theorem shortHeader_app {f : Buf} (t : Buf) (h : 12 ≤ f.length) : shortHeader (f ++ t) = shortHeader f := by
  unfold shortHeader
  rw [get_app t (by omega), u16_app t (by omega), u16_app t (by omega), u32_app t (by omega)]

theorem lsb_append {m n : Nat} (a : BitVec m) (b : BitVec n) : lsbFirst (a ++ b) = lsbFirst b ++ lsbFirst a := by
  apply List.ext_getElem
  · simp [lsbFirst]; omega
  · intro i h1 h2
    simp only [lsbFirst, List.length_map, List.length_range] at h1
    rw [List.getElem_append]
    split
    · rename_i h
      simp only [lsbFirst, List.length_map, List.length_range] at h
      simp [lsbFirst, BitVec.getLsbD_append, h]
    · rename_i h
      simp only [lsbFirst, List.length_map, List.length_range] at h
      simp [lsbFirst, BitVec.getLsbD_append, h]

theorem drop4 {f : Buf} {n : Nat} (h : f.length = n + 4) : f.drop n = [f.getD n 0, f.getD (n + 1) 0, f.getD (n + 2) 0, f.getD (n + 3) 0] := by
  apply List.ext_getElem
  · simp [h]
  · intro i h1 h2
    simp only [List.length_cons, List.length_nil, zero_add, Nat.reduceAdd] at h2
    rw [List.getElem_drop]
    rcases (by omega : i = 0 ∨ i = 1 ∨ i = 2 ∨ i = 3) with rfl | rfl | rfl | rfl <;> simp [h]

theorem crcOk_iff {f : Buf} {n : Nat} (h : f.length = n + 4) : u32At f n = getCrc (f.take n) ↔ CrcOk f := by
  rw [eq_comm, crc_iff]
  unfold IsCrc CrcOk
  have e : byteBitsLsb f = byteBitsLsb (f.take n) ++ lsbFirst (u32At f n) := by
    conv => lhs; rw [← List.take_append_drop n f]
    rw [byteBitsLsb_append, drop4 h]
    unfold u32At
    rw [lsb_append, lsb_append, lsb_append]
    simp [byteBitsLsb]
  rw [e]

/-- the header of a log -/
def headerOf (f : Buf) : Header := if isLong f then longHeader f else shortHeader f

theorem take3 {f : Buf} {a b c : BitVec 8} (h : f.take 3 = [a, b, c]) : 3 ≤ f.length ∧ f.getD 2 0 = c := by
  have hl := congrArg List.length h
  simp only [List.length_take, List.length_cons, List.length_nil, zero_add, Nat.reduceAdd] at hl
  refine ⟨by omega, ?_⟩
  have := congrArg (fun l => l.getD 2 0) h
  simp only [List.getD_eq_getElem?_getD, List.getElem?_take_of_lt (show 2 < 3 by omega)] at this
  rw [List.getD_eq_getElem?_getD, this]
  rfl

theorem take4 {f : Buf} {a b c d : BitVec 8} : f.take 4 = [a, b, c, d] ↔ f.take 3 = [a, b, c] ∧ f.getD 3 0 = d ∧ 4 ≤ f.length := by
  rcases f with _ | ⟨x, _ | ⟨y, _ | ⟨z, _ | ⟨w, f⟩⟩⟩⟩ <;> simp [and_assoc]

theorem isLong_of {f : Buf} (h : IsLong f) : isLong f = true ∧ hdrLen f = 28 := by
  have := (take3 (take4.1 h.1).1).2
  have e : isLong f = true := by unfold isLong; rw [this]; rfl
  exact ⟨e, by unfold hdrLen; rw [e]; rfl⟩

theorem isShort_of {f : Buf} (h : IsShort f) : isLong f = false ∧ hdrLen f = 12 := by
  have := (take3 h.1).2
  have e : isLong f = false := by unfold isLong; rw [this]; rfl
  exact ⟨e, by unfold hdrLen; rw [e]; rfl⟩

theorem parse_long {f : Buf} (h : IsLong f) (t : Buf) : parseAt (f ++ t) = (f.length, some (headerOf f, payload f)) := by
  obtain ⟨h4, hmin, hl, hc⟩ := h
  have hi := isLong_of ⟨h4, hmin, hl, hc⟩
  obtain ⟨h3, hb, _⟩ := take4.1 h4
  have hlen : (longHeader f).message_len.toNat = leAt f 8 2 := (u16_le f 8).symm
  unfold parseAt
  rw [if_pos (by rw [List.length_append]; omega), List.take_append_of_le_length (by omega), if_pos h3]
  unfold parseRegular
  rw [if_pos (by rw [List.length_append]; omega), get_app t (by omega), if_pos hb]
  simp only
  rw [run_long, longHeader_app t (by omega), hlen]
  have hle : leAt f 8 2 ≤ (f ++ t).length - 28 - 4 := by rw [List.length_append]; omega
  rw [if_pos hle, u32_app t (by omega), List.take_append_of_le_length (by omega), if_pos ((crcOk_iff (by omega)).2 hc)]
  have e1 : headerOf f = longHeader f := by unfold headerOf; rw [hi.1]; rfl
  have e2 : payload f = (f.drop 28).take (leAt f 8 2) := by
    unfold payload; rw [hi.2]; congr 1; omega
  rw [e1, e2, List.drop_append_of_le_length (by omega), List.take_append_of_le_length (by rw [List.length_drop]; omega)]
  congr 1
  omega

theorem parse_short {f : Buf} (h : IsShort f) (t : Buf) : parseAt (f ++ t) = (f.length, some (headerOf f, payload f)) := by
  obtain ⟨h3, hmin, hl, hc⟩ := h
  have hi := isShort_of ⟨h3, hmin, hl, hc⟩
  have hlen : (shortHeader f).message_len.toNat = leAt f 3 1 := by
    rw [u8_le]
    have := (f.getD 3 0).isLt
    simp only [shortHeader, BitVec.zeroExtend, BitVec.toNat_setWidth]
    rw [Nat.mod_eq_of_lt (by omega)]
  unfold parseAt
  rw [if_pos (by rw [List.length_append]; omega), List.take_append_of_le_length (by omega), if_neg (by rw [h3]; decide), if_pos h3]
  unfold parseShort
  rw [if_pos (by rw [List.length_append]; omega)]
  simp only
  rw [run_short, shortHeader_app t (by omega), hlen]
  have hle : leAt f 3 1 ≤ (f ++ t).length - 12 - 4 := by rw [List.length_append]; omega
  rw [if_pos hle, u32_app t (by omega), List.take_append_of_le_length (by omega), if_pos ((crcOk_iff (by omega)).2 hc)]
  have e1 : headerOf f = shortHeader f := by unfold headerOf; rw [hi.1]; rfl
  have e2 : payload f = (f.drop 12).take (leAt f 3 1) := by
    unfold payload; rw [hi.2]; congr 1; omega
  rw [e1, e2, List.drop_append_of_le_length (by omega), List.take_append_of_le_length (by rw [List.length_drop]; omega)]
  congr 1
  omega

theorem parse_frame {f : Buf} (h : IsFrame f) (t : Buf) : parseAt (f ++ t) = (f.length, some (headerOf f, payload f)) :=
  h.elim (fun h => parse_long h t) (fun h => parse_short h t)

theorem parse_cases (buf : Buf) : parseAt buf = (1, none) ∨ ∃ f t, buf = f ++ t ∧ IsFrame f := by
  unfold parseAt
  split
  · split
    · rename_i h3
      unfold parseRegular
      split
      · rename_i h32
        split
        · rename_i hb
          simp only
          rw [run_long]
          have hlen : (longHeader buf).message_len.toNat = leAt buf 8 2 := (u16_le buf 8).symm
          rw [hlen]
          split
          · rename_i hle
            split
            · rename_i hc
              right
              generalize hn : leAt buf 8 2 = n at *
              have hfl : (buf.take (28 + n + 4)).length = 28 + n + 4 := by rw [List.length_take]; omega
              refine ⟨buf.take (28 + n + 4), buf.drop (28 + n + 4), (List.take_append_drop _ _).symm, Or.inl ⟨?_, by omega, ?_, ?_⟩⟩
              · rw [List.take_take, show min 4 (28 + n + 4) = 4 by omega]
                exact take4.2 ⟨h3, hb, by omega⟩
              · rw [hfl, leAt_take _ _ _ _ (by omega), hn]
              · rw [← crcOk_iff hfl]
                have e := List.take_append_drop (28 + n + 4) buf
                rw [List.take_take, show min (28 + n) (28 + n + 4) = 28 + n by omega, ← hc]
                conv => rhs; rw [← e]
                rw [u32_app _ (by omega)]
            · exact Or.inl rfl
          · exact Or.inl rfl
        · exact Or.inl rfl
      · exact Or.inl rfl
    · split
      · rename_i h3
        unfold parseShort
        split
        · rename_i h16
          simp only
          rw [run_short]
          have hlen : (shortHeader buf).message_len.toNat = leAt buf 3 1 := by
            rw [u8_le]
            have := (buf.getD 3 0).isLt
            simp only [shortHeader, BitVec.zeroExtend, BitVec.toNat_setWidth]
            rw [Nat.mod_eq_of_lt (by omega)]
          rw [hlen]
          split
          · rename_i hle
            split
            · rename_i hc
              right
              generalize hn : leAt buf 3 1 = n at *
              have hfl : (buf.take (12 + n + 4)).length = 12 + n + 4 := by rw [List.length_take]; omega
              refine ⟨buf.take (12 + n + 4), buf.drop (12 + n + 4), (List.take_append_drop _ _).symm, Or.inr ⟨?_, by omega, ?_, ?_⟩⟩
              · rw [List.take_take, show min 3 (12 + n + 4) = 3 by omega]
                exact h3
              · rw [hfl, leAt_take _ _ _ _ (by omega), hn]
              · rw [← crcOk_iff hfl]
                have e := List.take_append_drop (12 + n + 4) buf
                rw [List.take_take, show min (12 + n) (12 + n + 4) = 12 + n by omega, ← hc]
                conv => rhs; rw [← e]
                rw [u32_app _ (by omega)]
            · exact Or.inl rfl
          · exact Or.inl rfl
        · exact Or.inl rfl
      · exact Or.inl rfl
  · exact Or.inl rfl

theorem frame_len {f : Buf} (h : IsFrame f) : 16 ≤ f.length := by
  rcases h with ⟨_, h, _⟩ | ⟨_, h, _⟩ <;> omega

theorem payload_len {f : Buf} (h : IsFrame f) : f.length = hdrLen f + (payload f).length + 4 := by
  rcases h with h | h
  · have e := (isLong_of h).2
    obtain ⟨_, h1, h2, _⟩ := h
    unfold payload
    rw [e, List.length_take, List.length_drop]
    omega
  · have e := (isShort_of h).2
    obtain ⟨_, h1, h2, _⟩ := h
    unfold payload
    rw [e, List.length_take, List.length_drop]
    omega

theorem headerOf_id (f : Buf) : (headerOf f).message_id.toNat = msgId f := by
  unfold headerOf msgId
  rw [u16_le]
  split <;> rfl

theorem says_of {f : Buf} (h : IsFrame f) {b : Body} (hb : parseBody (headerOf f).message_id (payload f) = some b) : Says f ⟨headerOf f, b⟩ := by
  have hid := headerOf_id f
  have hbody := parseBody_of hb
  rw [hid] at hbody
  refine ⟨hid, ?_, ?_, ?_, ?_, ?_, hbody⟩
  · unfold headerOf week; split
    · exact (u16_le f 14).symm
    · exact (u16_le f 6).symm
  · unfold headerOf ms; split
    · exact (u32_le f 16).symm
    · exact (u32_le f 8).symm
  · have hp := payload_len h
    rcases h with h | h
    · obtain ⟨e1, e2⟩ := isLong_of h
      have e : headerOf f = longHeader f := by unfold headerOf; rw [e1]; rfl
      have hl := h.2.2.1
      rw [e2] at hp
      show (headerOf f).message_len.toNat = _
      rw [e, show (longHeader f).message_len.toNat = leAt f 8 2 from (u16_le f 8).symm]
      omega
    · obtain ⟨e1, e2⟩ := isShort_of h
      have e : headerOf f = shortHeader f := by unfold headerOf; rw [e1]; rfl
      have hl := h.2.2.1
      rw [e2] at hp
      show (headerOf f).message_len.toNat = _
      have hlen : (shortHeader f).message_len.toNat = leAt f 3 1 := by
        rw [u8_le]
        have := (f.getD 3 0).isLt
        simp only [shortHeader, BitVec.zeroExtend, BitVec.toNat_setWidth]
        rw [Nat.mod_eq_of_lt (by omega)]
      rw [e, hlen]
      omega
  · unfold headerOf; split
    · rename_i h; rw [h]; rfl
    · rename_i h; simp only [Bool.not_eq_true] at h; rw [h]; rfl
  · intro e he
    unfold headerOf at he
    simp only at he
    split at he
    · obtain rfl := Option.some.inj he
      simp only [ext, List.forall_mem_cons, u8_le, u16_le, u32_le, List.not_mem_nil, false_imp_iff, implies_true, and_self]
    · cases he

end Verif.Nov
