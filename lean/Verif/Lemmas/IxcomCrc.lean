import Verif.Lemmas.CrcUniq
import Verif.Model.Ixcom
/-! The table-driven CRC of libixcom is the polynomial remainder. -/
namespace Verif.Ixcom
open Polynomial Verif.Crc

/-- the shift register -/
def s1 (c : BitVec 16) : BitVec 16 := (c <<< 1) ^^^ (if c.getLsbD 15 then 0x1021#16 else 0)
def s8 (c : BitVec 16) : BitVec 16 := s1^[8] c

theorem s1_xor (a b : BitVec 16) : s1 (a ^^^ b) = s1 a ^^^ s1 b := by
  unfold s1
  rw [BitVec.getLsbD_xor, BitVec.shiftLeft_xor_distrib]
  cases a.getLsbD 15 <;> cases b.getLsbD 15 <;> simp only [Bool.xor_true, Bool.xor_false, Bool.not_false, Bool.not_true, if_true,
    Bool.false_eq_true, if_false] <;> ext i hi <;> simp <;> grind

theorem s8_xor (a b : BitVec 16) : s8 (a ^^^ b) = s8 a ^^^ s8 b := by
  unfold s8
  simp only [Function.iterate_succ_apply, Function.iterate_zero, id, s1_xor]

theorem table_ok (x : BitVec 8) : crcTable.getD x.toNat 0 = s8 (x.zeroExtend 16 <<< 8) := by
  have : ∀ n, n < 256 → crcTable.getD n 0 = s8 ((BitVec.ofNat 16 n) <<< 8) := by decide +kernel
  have h := this x.toNat x.isLt
  rw [h]
  congr 2
  apply BitVec.eq_of_toNat_eq
  have := x.isLt
  simp

theorem low_ok (x : BitVec 8) : s8 (x.zeroExtend 16) = x.zeroExtend 16 <<< 8 := by
  have : ∀ n, n < 256 → s8 (BitVec.ofNat 16 n) = (BitVec.ofNat 16 n) <<< 8 := by decide +kernel
  have h := this x.toNat x.isLt
  have e : BitVec.ofNat 16 x.toNat = x.zeroExtend 16 := by
    apply BitVec.eq_of_toNat_eq
    have := x.isLt
    simp
  rwa [e] at h

theorem crcByte_eq (c : BitVec 16) (x : BitVec 8) : crcByte c x = s8 (c ^^^ (x.zeroExtend 16 <<< 8)) := by
  have e : c ^^^ (x.zeroExtend 16 <<< 8) =
      ((c.extractLsb' 8 8 ^^^ x).zeroExtend 16 <<< 8) ^^^ ((c.extractLsb' 0 8).zeroExtend 16) := by
    ext i hi
    by_cases h : i < 8
    · simp [h, BitVec.getLsbD_eq_getElem, hi]
    · have e : 8 + (i - 8) = i := by omega
      have h2 : i - 8 < 8 := by omega
      simp [h, h2, e, BitVec.getLsbD_eq_getElem, hi]
  have e2 : ((c >>> 8) ^^^ x.zeroExtend 16).toNat = (c.extractLsb' 8 8 ^^^ x).toNat := by
    have : (c >>> 8) ^^^ x.zeroExtend 16 = (c.extractLsb' 8 8 ^^^ x).zeroExtend 16 := by
      ext i hi
      by_cases h : i < 8
      · simp [h]
      · have h1 : c.getLsbD (8 + i) = false := BitVec.getLsbD_of_ge _ _ (by omega)
        simp [h, h1]
    rw [this]
    have := (c.extractLsb' 8 8 ^^^ x).isLt
    rw [BitVec.zeroExtend, BitVec.toNat_setWidth, Nat.mod_eq_of_lt (by omega)]
  unfold crcByte
  rw [e, s8_xor, e2, table_ok, low_ok, BitVec.xor_comm]
  congr 1
  ext i hi
  by_cases h : i < 8
  · simp [h]
  · have h2 : i - 8 < 8 := by omega
    have h3 : i - 8 < 16 := by omega
    simp [h, h2, BitVec.getLsbD_eq_getElem h3]

/-- the register as a polynomial -/
noncomputable def P (c : BitVec 16) : (ZMod 2)[X] := pol 16 fun i => c.getLsbD i

theorem P_xor (a b : BitVec 16) : P (a ^^^ b) = P a + P b := by
  unfold P; rw [← pol_xor]; exact pol_congr fun i _ => BitVec.getLsbD_xor

theorem gen16_eq : gen16 = X ^ 16 + pol 16 fun i => (0x1021#16).getLsbD i := by
  have h : ∀ i, i < 16 → (0x1021#16).getLsbD i = (decide (i = 0) || decide (i = 5) || decide (i = 12)) := by decide
  rw [pol_congr h]
  unfold gen16 pol
  simp [Finset.sum_range_succ]
  ring

theorem s1_dvd (c : BitVec 16) : gen16 ∣ P (s1 c) + X * P c := by
  rw [gen16_eq]
  refine pol_step 15 _ _ _ fun i hi => ?_
  unfold s1
  rw [BitVec.getLsbD_xor]
  congr 1
  · cases i with
    | zero => simp
    | succ i =>
      have : decide (i + 1 < 16) = true := by simp; omega
      rw [BitVec.getLsbD_shiftLeft, this]; simp
  · cases c.getLsbD 15
    · simp
    · rfl

theorem s8_dvd (c : BitVec 16) : gen16 ∣ P (s8 c) + X ^ 8 * P c := dvd_iter P s1 s1_dvd 8 c

theorem P_byte (x : BitVec 8) : P (x.zeroExtend 16 <<< 8) = X ^ 8 * bitPoly (msbFirst x) := by
  rw [bitPoly_msb]
  unfold P pol
  simp [Finset.sum_range_succ, BitVec.getLsbD_shiftLeft, mul_add, BitVec.getLsbD_setWidth]
  simp only [← pow_succ, ← pow_add, Nat.reduceAdd]

theorem fold_dvd (b : Buf) : ∀ c, gen16 ∣ P (b.foldl crcByte c) + (X ^ (8 * b.length) * P c + X ^ 16 * bitPoly (byteBits b)) := by
  induction b with
  | nil => intro c; simp [byteBits, bitPoly, two0]
  | cons x b ih =>
    intro c
    rw [List.foldl_cons]
    refine dvd_trans2 (ih _) ?_
    have h := s8_dvd (c ^^^ (x.zeroExtend 16 <<< 8))
    rw [← crcByte_eq, P_xor, P_byte] at h
    have := Dvd.dvd.mul_left h (X ^ (8 * b.length))
    rw [show byteBits (x :: b) = msbFirst x ++ byteBits b from rfl, bitPoly_append, byteBits_length]
    convert this using 1
    rw [List.length_cons]
    linear_combination two0 (X ^ 16 * bitPoly (byteBits b))

theorem checksum_crc (b : Buf) : IsCrc gen16 (byteBits b) (msbFirst (checksum b)) := by
  unfold IsCrc
  rw [bitPoly_append, len_msb, bitPoly_msb]
  have := fold_dvd b 0
  have e : P 0 = 0 := by unfold P; simpa using pol_zero 16
  rw [e, mul_zero, zero_add] at this
  rw [mul_comm, add_comm]
  exact this

theorem crc_unique {m : List Bool} {a b : BitVec 16} (ha : IsCrc gen16 m (msbFirst a)) (hb : IsCrc gen16 m (msbFirst b)) : a = b := by
  unfold IsCrc at ha hb
  rw [bitPoly_append, len_msb, bitPoly_msb] at ha hb
  have := dvd_add ha hb
  have e : bitPoly m * X ^ 16 + pol 16 (fun i => a.getLsbD i) + (bitPoly m * X ^ 16 + pol 16 fun i => b.getLsbD i) =
      pol 16 fun i => (a ^^^ b).getLsbD i := by
    change _ = P (a ^^^ b)
    rw [P_xor]; unfold P
    linear_combination two0 (bitPoly m * X ^ 16)
  rw [e, gen16_eq] at this
  apply BitVec.eq_of_getLsbD_eq
  intro i hi
  have := dvd_pol (degree_pol_lt 16 _) this hi
  rw [BitVec.getLsbD_xor] at this
  simpa using this

theorem checksum_iff (b : Buf) (c : BitVec 16) : checksum b = c ↔ IsCrc gen16 (byteBits b) (msbFirst c) :=
  ⟨fun h => h ▸ checksum_crc b, fun h => crc_unique (checksum_crc b) h⟩

end Verif.Ixcom
