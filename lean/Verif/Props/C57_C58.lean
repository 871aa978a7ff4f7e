import Verif.Props.C45_C46
import Mathlib.Analysis.Real.Pi.Bounds
/-! iXCOM: values and cadence of the IMU messages (C57), the codec (C58). -/
namespace Verif.Ixcom
open Verif.Fp Verif.Crc
open Verif.Ixcom.Spec
open Verif.Ubx (Fl flt clampS16 castTo ImuRaw)
open Verif.EphSbp (mPi)

/-! ### C57 -/

theorem mPi_near : |(mPi : ℝ) - Real.pi| ≤ 1 / 10 ^ 14 := by
  have h1 := Real.pi_gt_d20
  have h2 := Real.pi_lt_d20
  unfold mPi
  push_cast
  rw [abs_le]
  norm_num at h1 h2 ⊢
  constructor <;> linarith

/-- what an IMU_RAW field must be for a value of `y` units: the nearest integer, within the range, but for the rounding of the computation -/
def SaysReal (r : Int) (y : ℝ) : Prop := |(r : ℝ) - max (-32768) (min 32767 y)| ≤ 1 / 2 + 1 / 100

def clampR (x : ℝ) : ℝ := max (-32768) (min 32767 x)

theorem clampR_lip (x y : ℝ) : |clampR x - clampR y| ≤ |x - y| := by
  have h1 : ∀ a b : ℝ, a ≤ b → clampR a ≤ clampR b ∧ clampR b ≤ clampR a + (b - a) := by
    intro a b hab
    unfold clampR
    refine ⟨max_le_max le_rfl (min_le_min le_rfl hab), ?_⟩
    refine max_le ?_ ?_
    · have := le_max_left (-32768 : ℝ) (min 32767 a); linarith
    · have h2 := le_max_right (-32768 : ℝ) (min 32767 a)
      have h3 : min 32767 b ≤ min 32767 a + (b - a) := by
        rcases le_total 32767 a with h | h
        · rw [min_eq_left h]; have := min_le_left 32767 b; linarith
        · rw [min_eq_right h]; have := min_le_right 32767 b; linarith
      linarith
  rcases le_total x y with hxy | hxy
  · have := h1 x y hxy
    rw [abs_le]; have := neg_abs_le (x - y); constructor <;> linarith [le_abs_self (x - y)]
  · have := h1 y x hxy
    rw [abs_le]; have := neg_abs_le (x - y); constructor <;> linarith [le_abs_self (x - y)]

theorem says_real {r : Int} {y : ℚ} {z : ℝ} (h : Ubx.Spec.Says16 r y) (hz : |(y : ℝ) - z| ≤ |z| / 10 ^ 12) : SaysReal r z := by
  have hq : |(r : ℝ) - clampR y| ≤ 1 / 2 + 1 / 128 := by
    unfold Ubx.Spec.Says16 at h
    have : |((r : ℚ) : ℝ) - ((max (-32768) (min 32767 y) : ℚ) : ℝ)| ≤ ((1 / 2 + 1 / 128 : ℚ) : ℝ) := by exact_mod_cast h
    unfold clampR
    push_cast at this
    convert this using 2
  have hc : |clampR y - clampR z| ≤ 1 / 10 ^ 6 := by
    by_cases h1 : |z| ≤ 40000
    · refine (clampR_lip _ _).trans (hz.trans ?_)
      norm_num; linarith
    · push Not at h1
      rw [abs_le] at hz
      unfold clampR
      rcases le_total 0 z with hy | hy
      · rw [abs_of_nonneg hy] at hz h1
        norm_num at hz
        rw [min_eq_left (by linarith [hz.1]), min_eq_left (by linarith)]; norm_num
      · rw [abs_of_nonpos hy] at hz h1
        norm_num at hz
        rw [max_eq_left (by rw [min_eq_right (by linarith [hz.2])]; linarith [hz.2]), max_eq_left (by rw [min_eq_right (by linarith)]; linarith)]
        norm_num
  unfold SaysReal
  change |_ - clampR z| ≤ _
  refine (abs_sub_le _ (clampR y) _).trans ?_
  norm_num at hq hc ⊢
  linarith

theorem acc_real {r : Int} {s : Fl} {x : ℚ} (h : SaysFl r (32768 / (4 * 9.80665)) s) (hs : s = .fin x) :
    SaysReal r ((x : ℝ) / (4 * 9.80665 / 32768)) := by
  subst hs
  refine says_real h ?_
  have : ((x * (32768 / (4 * 9.80665)) : ℚ) : ℝ) = (x : ℝ) / (4 * 9.80665 / 32768) := by push_cast; norm_num; ring
  rw [this]; simp; positivity

theorem gyr_real {r : Int} {s : Fl} {x : ℚ} (h : SaysFl r (180 / mPi * (32768 / 125)) s) (hs : s = .fin x) :
    SaysReal r ((x : ℝ) * (180 / Real.pi) / (125 / 32768)) := by
  subst hs
  refine says_real h ?_
  have h0 := mPi_near
  have hp := Real.pi_gt_three
  have hm : (3 : ℝ) < mPi := by unfold mPi; norm_num
  have e : ((x * (180 / mPi * (32768 / 125)) : ℚ) : ℝ) - (x : ℝ) * (180 / Real.pi) / (125 / 32768) =
      (x : ℝ) * (180 / Real.pi) / (125 / 32768) * ((Real.pi - mPi) / mPi) := by
    push_cast
    field_simp
  rw [e, abs_mul, div_eq_mul_inv |_|]
  refine mul_le_mul_of_nonneg_left ?_ (abs_nonneg _)
  rw [abs_div, abs_of_pos (by linarith : (0 : ℝ) < mPi), abs_sub_comm, div_le_iff₀ (by linarith)]
  norm_num at h0 ⊢
  linarith

/-- Every IMU_RAW message has the accelerations (m/s²) and angular rates (rad/s) of an IMURAW frame with a correct CRC, in the units that go
with the auxiliary message: 4 g and 125 deg/s for 2^15. -/
theorem C57_imu_values (src : List Rd) {fs : List (List (BitVec 8))} {r : List (BitVec 8)} (hc : Cut (dataOf src) fs r)
    (hp : ∀ f ∈ fs, Proper f) (hs : ∀ f ∈ fs, Sane f) {n : Nat} (hn : src.length + fs.length ≤ n) :
    ∃ st os, calls n (start src) = some (st, os) ∧ ∀ m, .imuRaw m ∈ os → ∃ f ∈ fs, typ f = 0x00 ∧ CrcOk f ∧
      (∀ a ∈ [(m.accX, 16), (m.accY, 20), (m.accZ, 24)], ∀ x, single f a.2 = .fin x → SaysReal a.1 ((x : ℝ) / (4 * 9.80665 / 32768))) ∧
      (∀ a ∈ [(m.gyrX, 28), (m.gyrY, 32), (m.gyrZ, 36)], ∀ x, single f a.2 = .fin x →
        SaysReal a.1 ((x : ℝ) * (180 / Real.pi) / (125 / 32768))) := by
  obtain ⟨st, os, h1, h2⟩ := C45_messages src hc hp hs hn
  refine ⟨st, os, h1, fun m hm => ?_⟩
  obtain ⟨f, hf, h3, h4, h5⟩ := imu_mem h2 m hm
  refine ⟨f, hf, h3, h4, fun a ha x hx => ?_, fun a ha x hx => ?_⟩
  · simp only [List.mem_cons, List.not_mem_nil, or_false] at ha
    rcases ha with rfl | rfl | rfl
    exacts [acc_real h5.accX hx, acc_real h5.accY hx, acc_real h5.accZ hx]
  · simp only [List.mem_cons, List.not_mem_nil, or_false] at ha
    rcases ha with rfl | rfl | rfl
    exacts [gyr_real h5.gyrX hx, gyr_real h5.gyrY hx, gyr_real h5.gyrZ hx]

def isAuxMsg : Out → Bool
  | .imuAux .. => true
  | _ => false

/-- messages sent before the `n`-th IMU_RAW message -/
def sentBefore (n : Nat) : Nat := n + (n + 99) / 100

theorem cadence {n : Nat} {fs : List Buf} {os : List Out} (h : Messages n fs os) :
    ∀ k o, (os.filter isImuMsg)[k]? = some o → (isAuxMsg o ↔ (sentBefore n + k) % 101 = 1) := by
  induction h with
  | nil => intro k o ho; simp at ho
  | imu n f fs m os h1 h2 h3 _ ih =>
    intro k o ho
    by_cases hn : n % 100 = 0
    · rw [if_pos hn, show List.filter isImuMsg ([.imuRaw m, .imuAux 255 0 0x41] ++ os) =
        .imuRaw m :: .imuAux 255 0 0x41 :: os.filter isImuMsg from rfl] at ho
      match k with
      | 0 => simp at ho; subst ho; simp [isAuxMsg, sentBefore]; omega
      | 1 => simp at ho; subst ho; simp [isAuxMsg, sentBefore]; omega
      | k + 2 =>
        rw [List.getElem?_cons_succ, List.getElem?_cons_succ] at ho
        rw [ih k o ho]
        unfold sentBefore
        have : n + 1 + (n + 1 + 99) / 100 + k = n + (n + 99) / 100 + (k + 2) := by omega
        rw [this]
    · rw [if_neg hn, show List.filter isImuMsg ([.imuRaw m] ++ os) = .imuRaw m :: os.filter isImuMsg from rfl] at ho
      match k with
      | 0 => simp at ho; subst ho; simp [isAuxMsg, sentBefore]; omega
      | k + 1 =>
        rw [List.getElem?_cons_succ] at ho
        rw [ih k o ho]
        unfold sentBefore
        have : n + 1 + (n + 1 + 99) / 100 + k = n + (n + 99) / 100 + (k + 1) := by omega
        rw [this]
  | wheel n f fs v os _ _ _ _ ih =>
    intro k o ho
    simp only [List.filter_cons, isImuMsg, Bool.false_eq_true, if_false] at ho
    exact ih k o ho
  | other n f fs os _ _ ih => exact ih

/-- Of the IMU messages, the second, and then each hundred and first, is an auxiliary message: directly after the first of each hundred
IMU_RAW messages. -/
theorem C57_cadence (src : List Rd) {fs : List (List (BitVec 8))} {r : List (BitVec 8)} (hc : Cut (dataOf src) fs r)
    (hp : ∀ f ∈ fs, Proper f) (hs : ∀ f ∈ fs, Sane f) {n : Nat} (hn : src.length + fs.length ≤ n) :
    ∃ st os, calls n (start src) = some (st, os) ∧ ∀ k o, (os.filter isImuMsg)[k]? = some o → (isAuxMsg o ↔ k % 101 = 1) := by
  obtain ⟨st, os, h1, h2⟩ := C45_messages src hc hp hs hn
  refine ⟨st, os, h1, fun k o ho => ?_⟩
  have := cadence h2 k o ho
  simpa [sentBefore] using this

/-- Every odometry message has the speed of a WHEELDATA frame with a correct CRC, in mm/s, and every wheel tick message its tick count. -/
theorem C57_wheel_values (src : List Rd) {fs : List (List (BitVec 8))} {r : List (BitVec 8)} (hc : Cut (dataOf src) fs r)
    (hp : ∀ f ∈ fs, Proper f) (hs : ∀ f ∈ fs, Sane f) {n : Nat} (hn : src.length + fs.length ≤ n) :
    ∃ st os, calls n (start src) = some (st, os) ∧
      (∀ t (v : Int) k, .odometry t v k ∈ os → ∃ f ∈ fs, typ f = 0x16 ∧ CrcOk f ∧ k = 1 ∧
        ∃ x, single f 16 = .fin x ∧ |(v : ℚ) - 1000 * x| ≤ 1001 / 1000 + |x| / 16000 ∧ (0 ≤ x → 0 ≤ v) ∧ (x ≤ 0 → v ≤ 0)) ∧
      ∀ t k s (c : Int), .wheeltick t k s c ∈ os → ∃ f ∈ fs, typ f = 0x16 ∧ CrcOk f ∧ k = 1 ∧ s = 0 ∧ -2 ^ 31 ≤ c ∧ c < 2 ^ 31 ∧
        (2 ^ 32 : Int) ∣ c - num f 20 := by
  obtain ⟨st, os, h1, h2⟩ := C45_messages src hc hp hs hn
  refine ⟨st, os, h1, fun t v k hm => ?_, fun t k s c hm => ?_⟩
  · obtain ⟨f, hf, h3, h4, h5, h6, h7⟩ := (wheel_mem h2).1 t v k hm
    refine ⟨f, hf, h3, h4, h7, ?_⟩
    match hx : single f 16, h6 with
    | .fin x, h6 => exact ⟨x, rfl, h6⟩
  · obtain ⟨f, hf, h3, h4, h5, h6, h7, h8⟩ := (wheel_mem h2).2 t k s c hm
    subst h8
    have a := BitVec.le_toInt (BitVec.ofNat 32 (num f 20))
    have b := BitVec.toInt_lt (x := BitVec.ofNat 32 (num f 20))
    refine ⟨f, hf, h3, h4, h6, h7, by simpa using a, by simpa using b, ?_⟩
    rw [BitVec.toInt_eq_toNat_bmod, BitVec.toNat_ofNat]
    have h9 := Int.bmod_eq_emod ((num f 20 % 2 ^ 32 : Nat) : Int) (2 ^ 32)
    generalize num f 20 = w at *
    generalize Int.bmod _ _ = z at *
    split at h9 <;> omega

/-- the hypotheses are met -/
example : Cut (dataOf exSrc) [exImu, exWheel] [126, 0] ∧ (∀ f ∈ [exImu, exWheel], Proper f) ∧ ∀ f ∈ [exImu, exWheel], Sane f :=
  ⟨exSrc_cut, ex_proper, ex_sane⟩

/-- A NaN in an IMURAW frame with a correct CRC: the conversion is undefined. -/
theorem C57_nan_bug : process (start [.data [126, 0, 1, 0, 44, 0, 52, 8, 1, 0, 0, 0, 0, 0, 0, 0, 0, 0, 192, 127, 0, 0, 0, 0, 0, 0, 0, 0, 0, 0, 0, 0,
    0, 0, 0, 0, 0, 0, 0, 0, 0, 0, 11, 162]]) = none := by decide +kernel

/-- A speed of 3000 km/s in a WHEELDATA frame with a correct CRC: the conversion is undefined. -/
theorem C57_speed_bug : process (start [.data [126, 22, 2, 0, 28, 0, 52, 8, 1, 0, 0, 0, 0, 0, 0, 0, 0, 27, 55, 74, 0, 0, 0, 0, 0, 0, 197, 129]]) = none := by
  decide +kernel

/-! ### C58 -/

theorem cat2 (v : BitVec 16) : v.extractLsb' 8 8 ++ v.extractLsb' 0 8 = v := by
  apply BitVec.eq_of_toNat_eq
  rw [cat_toNat]
  simp [BitVec.extractLsb'_toNat, Nat.shiftRight_eq_div_pow]
  have := v.isLt
  omega

theorem cat4 (v : BitVec 32) : v.extractLsb' 24 8 ++ (v.extractLsb' 16 8 ++ (v.extractLsb' 8 8 ++ v.extractLsb' 0 8)) = v := by
  apply BitVec.eq_of_toNat_eq
  simp only [cat_toNat]
  simp [BitVec.extractLsb'_toNat, Nat.shiftRight_eq_div_pow]
  have := v.isLt
  omega

theorem at16 {f : Buf} {i : Nat} {v : BitVec 16} (h : ∃ b, f.drop i = v.extractLsb' 0 8 :: v.extractLsb' 8 8 :: b) : u16At f i = v := by
  obtain ⟨b, h⟩ := h
  unfold u16At
  have e : ∀ k, f.getD (i + k) 0 = (f.drop i).getD k 0 := by intro k; simp [List.getD_eq_getElem?_getD]
  have e0 := e 0
  rw [Nat.add_zero] at e0
  rw [e 1, e0, h]
  exact cat2 v

theorem at32 {f : Buf} {i : Nat} {v : BitVec 32}
    (h : ∃ b, f.drop i = v.extractLsb' 0 8 :: v.extractLsb' 8 8 :: v.extractLsb' 16 8 :: v.extractLsb' 24 8 :: b) : u32At f i = v := by
  obtain ⟨b, h⟩ := h
  unfold u32At
  have e : ∀ k, f.getD (i + k) 0 = (f.drop i).getD k 0 := by intro k; simp [List.getD_eq_getElem?_getD]
  have e0 := e 0
  rw [Nat.add_zero] at e0
  rw [e 1, e 2, e 3, e0, h]
  exact cat4 v

theorem ext2 (a b : BitVec 8) : bytes16 (b ++ a) = [a, b] := by
  have := a.isLt; have := b.isLt
  unfold bytes16
  simp only [List.cons.injEq, and_true]
  constructor <;> apply BitVec.eq_of_toNat_eq <;> simp only [BitVec.extractLsb'_toNat, cat_toNat, Nat.shiftRight_eq_div_pow] <;> omega

theorem ext4 (a b c d : BitVec 8) : bytes32 (d ++ (c ++ (b ++ a))) = [a, b, c, d] := by
  have := a.isLt; have := b.isLt; have := c.isLt; have := d.isLt
  unfold bytes32
  simp only [List.cons.injEq, and_true]
  refine ⟨?_, ?_, ?_, ?_⟩ <;> apply BitVec.eq_of_toNat_eq <;>
    simp only [BitVec.extractLsb'_toNat, cat_toNat, Nat.shiftRight_eq_div_pow] <;> omega

theorem take2 {f : Buf} {i : Nat} (h : i + 1 < f.length) : (f.drop i).take 2 = [f.getD i 0, f.getD (i + 1) 0] := by
  have e : (f.drop i).take 2 = [f[i], f[i + 1]] := by
    rw [List.drop_eq_getElem_cons (by omega), List.drop_eq_getElem_cons (i := i + 1) (by omega)]
    rfl
  rw [e]
  simp [List.getD_eq_getElem?_getD, show i < f.length by omega, h]

theorem take4 {f : Buf} {i : Nat} (h : i + 3 < f.length) : (f.drop i).take 4 = [f.getD i 0, f.getD (i + 1) 0, f.getD (i + 2) 0, f.getD (i + 3) 0] := by
  rw [show 4 = 2 + 2 from rfl, List.take_add, List.drop_drop, take2 (by omega), take2 (by omega)]
  rfl

theorem bytes16_at {f : Buf} {i : Nat} (h : i + 1 < f.length) : bytes16 (u16At f i) = (f.drop i).take 2 := by
  rw [take2 h]; exact ext2 _ _
theorem bytes32_at {f : Buf} {i : Nat} (h : i + 3 < f.length) : bytes32 (u32At f i) = (f.drop i).take 4 := by
  rw [take4 h]; exact ext4 _ _ _ _

set_option maxHeartbeats 2000000 in
/-- An encoded IMURAW message: 44 bytes; whatever follows it in the buffer, decoding gives the message back exactly, provided that sync byte,
identifier, length and CRC are set as the protocol requires (the encoder copies them from the message); with another CRC it is rejected. -/
theorem C58_imu_roundtrip (m : Imu) (t : List (BitVec 8)) (h1 : m.header.sync = 0x7E#8) (h2 : m.header.msg_id = 0#8)
    (h3 : m.header.msg_len = 44#16) : (encImu m).length = 44 ∧
      (IsCrc gen16 (byteBits ((encImu m).take 42)) (msbFirst m.footer.crc16) → decImu (encImu m ++ t) = some (some m)) ∧
      (¬ IsCrc gen16 (byteBits ((encImu m).take 42)) (msbFirst m.footer.crc16) → decImu (encImu m ++ t) = some none) := by
  have hl : (encImu m).length = 44 := rfl
  have hd : decHeader (encImu m ++ t) = some m.header := by
    unfold decHeader
    rw [show (encImu m ++ t).getD 0 0 = m.header.sync from rfl, h1, if_neg (by decide)]
    have e1 : u16At (encImu m ++ t) 4 = m.header.msg_len := at16 ⟨_, rfl⟩
    have e2 : u16At (encImu m ++ t) 6 = m.header.gps_week := at16 ⟨_, rfl⟩
    have e3 : u32At (encImu m ++ t) 8 = m.header.gps_time_sec := at32 ⟨_, rfl⟩
    have e4 : u32At (encImu m ++ t) 12 = m.header.gps_time_usec := at32 ⟨_, rfl⟩
    rw [e1, e2, e3, e4, ← h1]
    rfl
  have a1 : u32At (encImu m ++ t) 16 = m.acc.1 := at32 ⟨_, rfl⟩
  have a2 : u32At (encImu m ++ t) 20 = m.acc.2.1 := at32 ⟨_, rfl⟩
  have a3 : u32At (encImu m ++ t) 24 = m.acc.2.2 := at32 ⟨_, rfl⟩
  have a4 : u32At (encImu m ++ t) 28 = m.omg.1 := at32 ⟨_, rfl⟩
  have a5 : u32At (encImu m ++ t) 32 = m.omg.2.1 := at32 ⟨_, rfl⟩
  have a6 : u32At (encImu m ++ t) 36 = m.omg.2.2 := at32 ⟨_, rfl⟩
  have a7 : decFooter (encImu m ++ t) 40 = m.footer := by
    unfold decFooter
    have e1 : u16At (encImu m ++ t) 40 = m.footer.global_status := at16 ⟨_, rfl⟩
    have e2 : u16At (encImu m ++ t) (40 + 2) = m.footer.crc16 := at16 ⟨_, rfl⟩
    rw [e1, e2]
  have hlen : (encImu m ++ t).length = 44 + t.length := by rw [List.length_append, hl]
  have hc : lenChecksum (encImu m ++ t) m.header.msg_len = some (checksum ((encImu m).take 42)) := by
    unfold lenChecksum
    rw [h3, if_neg (by rw [hlen]; simp; omega), show (44#16).toNat - 2 = 42 from rfl, List.take_append_of_le_length (by rw [hl]; omega)]
  rw [← checksum_iff]
  refine ⟨hl, fun h => ?_, fun h => ?_⟩
  all_goals
    unfold decImu
    rw [if_neg (by omega), hd]
    simp only
    rw [h2, if_neg (by decide), if_neg (by omega), hc, a1, a2, a3, a4, a5, a6, a7]
    simp only [Option.map_some]
  · rw [if_neg (by simpa using h)]
  · rw [if_pos h]

/-- The same for WHEELDATA messages, of 28 bytes. -/
theorem C58_wheel_roundtrip (m : Wheel) (t : List (BitVec 8)) (h1 : m.header.sync = 0x7E#8) (h2 : m.header.msg_id = 0x16#8)
    (h3 : m.header.msg_len = 28#16) : (encWheel m).length = 28 ∧
      (IsCrc gen16 (byteBits ((encWheel m).take 26)) (msbFirst m.footer.crc16) → decWheel (encWheel m ++ t) = some (some m)) ∧
      (¬ IsCrc gen16 (byteBits ((encWheel m).take 26)) (msbFirst m.footer.crc16) → decWheel (encWheel m ++ t) = some none) := by
  have hl : (encWheel m).length = 28 := rfl
  have hd : decHeader (encWheel m ++ t) = some m.header := by
    unfold decHeader
    rw [show (encWheel m ++ t).getD 0 0 = m.header.sync from rfl, h1, if_neg (by decide)]
    have e1 : u16At (encWheel m ++ t) 4 = m.header.msg_len := at16 ⟨_, rfl⟩
    have e2 : u16At (encWheel m ++ t) 6 = m.header.gps_week := at16 ⟨_, rfl⟩
    have e3 : u32At (encWheel m ++ t) 8 = m.header.gps_time_sec := at32 ⟨_, rfl⟩
    have e4 : u32At (encWheel m ++ t) 12 = m.header.gps_time_usec := at32 ⟨_, rfl⟩
    rw [e1, e2, e3, e4, ← h1]
    rfl
  have a1 : u32At (encWheel m ++ t) 16 = m.speed := at32 ⟨_, rfl⟩
  have a2 : u32At (encWheel m ++ t) 20 = m.ticks := at32 ⟨_, rfl⟩
  have a7 : decFooter (encWheel m ++ t) 24 = m.footer := by
    unfold decFooter
    have e1 : u16At (encWheel m ++ t) 24 = m.footer.global_status := at16 ⟨_, rfl⟩
    have e2 : u16At (encWheel m ++ t) (24 + 2) = m.footer.crc16 := at16 ⟨_, rfl⟩
    rw [e1, e2]
  have hlen : (encWheel m ++ t).length = 28 + t.length := by rw [List.length_append, hl]
  have hc : lenChecksum (encWheel m ++ t) m.header.msg_len = some (checksum ((encWheel m).take 26)) := by
    unfold lenChecksum
    rw [h3, if_neg (by rw [hlen]; simp; omega), show (28#16).toNat - 2 = 26 from rfl, List.take_append_of_le_length (by rw [hl]; omega)]
  rw [← checksum_iff]
  refine ⟨hl, fun h => ?_, fun h => ?_⟩
  all_goals
    unfold decWheel
    rw [if_neg (by omega), hd]
    simp only
    rw [h2, if_neg (by decide), if_neg (by omega), hc, a1, a2, a7]
    simp only [Option.map_some]
  · rw [if_neg (by simpa using h)]
  · rw [if_pos h]

theorem header_back {f : Buf} {h : Header} (hl : 16 ≤ f.length) (hd : decHeader f = some h) : encHeader h = f.take 16 := by
  unfold decHeader at hd
  split at hd
  · cases hd
  · obtain rfl := Option.some.inj hd
    unfold encHeader
    simp only
    rw [bytes16_at (by omega), bytes16_at (by omega), bytes32_at (by omega), bytes32_at (by omega),
      ← take4 (i := 0) (by omega), List.drop_zero, ← List.take_add, ← List.take_add, ← List.take_add, ← List.take_add]

/-- Decoding loses nothing: encoding a decoded message gives back the bytes it was decoded from. -/
theorem C58_imu_bytes {f : List (BitVec 8)} {m : Imu} (h : decImu f = some (some m)) : encImu m = f.take 44 := by
  unfold decImu at h
  split at h
  · cases h
  · split at h
    · cases h
    · rename_i hl header hd
      split at h
      · cases h
      · split at h
        · cases h
        · rename_i hl2
          simp only at h
          cases hc : lenChecksum f header.msg_len with
          | none => rw [hc] at h; cases h
          | some ck =>
            rw [hc] at h
            simp only [Option.map_some, Option.some.injEq] at h
            split at h
            · cases h
            · obtain rfl := Option.some.inj h
              unfold encImu encFooter decFooter
              simp only
              rw [header_back (by omega) hd, bytes16_at (by omega), bytes16_at (by omega), bytes32_at (by omega), bytes32_at (by omega),
                bytes32_at (by omega), bytes32_at (by omega), bytes32_at (by omega), bytes32_at (by omega), ← List.take_add, ← List.take_add,
                ← List.take_add, ← List.take_add, ← List.take_add, ← List.take_add, ← List.append_assoc, ← List.take_add, ← List.take_add]

theorem C58_wheel_bytes {f : List (BitVec 8)} {m : Wheel} (h : decWheel f = some (some m)) : encWheel m = f.take 28 := by
  unfold decWheel at h
  split at h
  · cases h
  · split at h
    · cases h
    · rename_i hl header hd
      split at h
      · cases h
      · split at h
        · cases h
        · rename_i hl2
          simp only at h
          cases hc : lenChecksum f header.msg_len with
          | none => rw [hc] at h; cases h
          | some ck =>
            rw [hc] at h
            simp only [Option.map_some, Option.some.injEq] at h
            split at h
            · cases h
            · obtain rfl := Option.some.inj h
              unfold encWheel encFooter decFooter
              simp only
              rw [header_back (by omega) hd, bytes16_at (by omega), bytes16_at (by omega), bytes32_at (by omega), bytes32_at (by omega),
                ← List.take_add, ← List.take_add, ← List.append_assoc, ← List.take_add, ← List.take_add]

/-- the hypotheses are met -/
def exImuMsg : Imu :=
  { header := ⟨0x7E, 0, 1, 0, 44, 2100, 345678, 123456⟩, acc := (0x411cf5c3, 0xbf000000, 0x42c80000), omg := (0x3dcccccd, 0xc0400000, 0),
    footer := { global_status := 0, crc16 := 0x1574 } }

example : encImu exImuMsg = exImu := by decide
example : decImu exImu = some (some exImuMsg) :=
  ((C58_imu_roundtrip exImuMsg [] rfl rfl rfl).2.1 ((checksum_iff _ _).1 (by decide +kernel)) :)
example : (decWheel exWheel).isSome := by decide +kernel

end Verif.Ixcom
