import Verif.Lemmas.Bits
import Verif.Spec.Bits
/-! C05: bit-field writes read back exactly and touch nothing else. -/
namespace Verif
open Spec

theorem bitAt_eq (b : Buf) (i : Nat) : bitAt b i = (bitsOf b)[i]? := by
  unfold bitAt
  by_cases h : i < (bitsOf b).length
  · have h8 : i / 8 < b.length := by simp at h; omega
    rw [List.getElem?_eq_getElem h, List.getElem?_eq_getElem h8, bitsOf_getElem]
    simp [BitVec.getMsbD]
    intro; omega
  · have h8 : b.length ≤ i / 8 := by simp at h; omega
    rw [List.getElem?_eq_none h8, List.getElem?_eq_none (by omega)]; rfl

theorem splice_get_outside {α} (l : List α) (p : Nat) (bs : List α) (h : p + bs.length ≤ l.length) (i : Nat)
    (hi : i < p ∨ p + bs.length ≤ i) : (splice l p bs)[i]? = l[i]? := by
  unfold splice
  rcases hi with hi | hi
  · rw [List.append_assoc, List.getElem?_append_left (by simp; omega), List.getElem?_take_of_lt hi]
  · rw [List.getElem?_append_right (by simp; omega), List.getElem?_drop]
    congr 1; simp; omega

theorem splice_get_inside {α} (l : List α) (p : Nat) (bs : List α) (h : p + bs.length ≤ l.length) (j : Nat)
    (hj : j < bs.length) : (splice l p bs)[p + j]? = bs[j]? := by
  unfold splice
  rw [List.append_assoc, List.getElem?_append_right (by simp; omega), List.getElem?_append_left (by simp; omega)]
  congr 1; simp; omega

/-! ### unsigned fields -/

/-- Reading back an unsigned field gives the low `len` bits of the value written. -/
theorem C05_unsigned_readback (b : Buf) (pos len v : Nat) (hb : pos + len ≤ 8 * b.length) (h32 : len ≤ 32) :
    getbitu (setbitu b pos len v) pos len = v % 2 ^ len := by
  rw [getbitu_eq _ _ _ (by rw [setbitu_length]; exact hb) h32, bitsOf_setbitu _ _ _ _ hb h32]
  have := splice_read (bitsOf b) pos (toBits len v) (by simpa using hb)
  rw [toBits_length] at this
  rw [this, ofBits_toBits]

/-- ... hence the value itself when it fits the field. -/
theorem C05_unsigned_roundtrip (b : Buf) (pos len v : Nat) (hb : pos + len ≤ 8 * b.length) (h32 : len ≤ 32)
    (hv : v < 2 ^ len) : getbitu (setbitu b pos len v) pos len = v := by
  rw [C05_unsigned_readback b pos len v hb h32, Nat.mod_eq_of_lt hv]

/-- Same for the 64-bit variants. -/
theorem C05_unsigned_long_roundtrip (b : Buf) (pos len v : Nat) (hb : pos + len ≤ 8 * b.length) (h64 : len ≤ 64)
    (hv : v < 2 ^ len) : getbitul (setbitul b pos len v) pos len = v := by
  rw [getbitul_eq _ _ _ (by rw [setbitul_length]; exact hb) h64, bitsOf_setbitul _ _ _ _ hb h64]
  have := splice_read (bitsOf b) pos (toBits len v) (by simpa using hb)
  rw [toBits_length] at this
  rw [this, ofBits_toBits, Nat.mod_eq_of_lt hv]

/-- A write sets exactly the bits of the field, MSB first, and leaves every other bit and the buffer size alone. -/
theorem C05_write_exact (b : Buf) (pos len v : Nat) (hb : pos + len ≤ 8 * b.length) (h32 : len ≤ 32) :
    (setbitu b pos len v).length = b.length ∧
    (∀ j, j < len → bitAt (setbitu b pos len v) (pos + j) = some (v.testBit (len - 1 - j))) ∧
    (∀ i, i < pos ∨ pos + len ≤ i → bitAt (setbitu b pos len v) i = bitAt b i) := by
  refine ⟨setbitu_length _ _ _ _, ?_, ?_⟩
  · intro j hj
    rw [bitAt_eq, bitsOf_setbitu _ _ _ _ hb h32, splice_get_inside _ _ _ (by simpa using hb) _ (by simpa using hj)]
    rw [List.getElem?_eq_getElem (by simpa using hj), toBits_getElem]
  · intro i hi
    rw [bitAt_eq, bitAt_eq, bitsOf_setbitu _ _ _ _ hb h32]
    exact splice_get_outside _ _ _ (by simpa using hb) _ (by simpa using hi)

theorem C05_write_long_exact (b : Buf) (pos len v : Nat) (hb : pos + len ≤ 8 * b.length) (h64 : len ≤ 64) :
    (setbitul b pos len v).length = b.length ∧
    (∀ j, j < len → bitAt (setbitul b pos len v) (pos + j) = some (v.testBit (len - 1 - j))) ∧
    (∀ i, i < pos ∨ pos + len ≤ i → bitAt (setbitul b pos len v) i = bitAt b i) := by
  refine ⟨setbitul_length _ _ _ _, ?_, ?_⟩
  · intro j hj
    rw [bitAt_eq, bitsOf_setbitul _ _ _ _ hb h64, splice_get_inside _ _ _ (by simpa using hb) _ (by simpa using hj)]
    rw [List.getElem?_eq_getElem (by simpa using hj), toBits_getElem]
  · intro i hi
    rw [bitAt_eq, bitAt_eq, bitsOf_setbitul _ _ _ _ hb h64]
    exact splice_get_outside _ _ _ (by simpa using hb) _ (by simpa using hi)

/-- Reading a field depends only on its own bits: a write elsewhere does not disturb it. -/
theorem C05_disjoint_fields (b : Buf) (pos len v pos' len' : Nat) (hb : pos + len ≤ 8 * b.length) (h32 : len ≤ 32)
    (hb' : pos' + len' ≤ 8 * b.length) (h32' : len' ≤ 32) (hd : pos' + len' ≤ pos ∨ pos + len ≤ pos') :
    getbitu (setbitu b pos len v) pos' len' = getbitu b pos' len' := by
  rw [getbitu_eq _ _ _ (by rw [setbitu_length]; exact hb') h32', getbitu_eq _ _ _ hb' h32']
  congr 1
  apply List.ext_getElem?
  intro i
  by_cases hi : i < len'
  · rw [List.getElem?_take_of_lt hi, List.getElem?_take_of_lt hi, List.getElem?_drop, List.getElem?_drop,
      bitsOf_setbitu _ _ _ _ hb h32]
    exact splice_get_outside _ _ _ (by simpa using hb) _ (by simp; omega)
  · rw [List.getElem?_eq_none (by simp; omega), List.getElem?_eq_none (by simp; omega)]

/-! ### signed fields -/

theorem xor_two_pow_of_lt (k v : Nat) (hv : v < 2 ^ k) : v ^^^ 2 ^ k = v + 2 ^ k := by
  apply Nat.eq_of_testBit_eq
  intro i
  rw [Nat.add_comm, ← Nat.mul_one (2 ^ k), Nat.testBit_two_pow_mul_add _ hv, Nat.mul_one, Nat.testBit_xor,
    Nat.testBit_two_pow]
  by_cases h : i < k
  · have h3 : k ≠ i := by omega
    simp [h, h3]
  · have h2 : v.testBit i = false := Nat.testBit_lt_two_pow (Nat.lt_of_lt_of_le hv (Nat.pow_le_pow_right (by omega) (by omega)))
    rw [if_neg h, h2]
    by_cases h3 : k = i
    · subst h3; simp
    · rw [Nat.testBit_lt_two_pow (x := 1) (i := i - k) (by rw [← Nat.pow_zero 2]; exact Nat.pow_lt_pow_right (by omega) (by omega))]
      simp [h3]

theorem signext (w len v : Nat) (h0 : 0 < len) (hw : len ≤ w) (hv : v < 2 ^ len) :
    ((BitVec.ofNat w v ^^^ (1#w <<< (len - 1))) - (1#w <<< (len - 1))).toInt = toSigned len v := by
  obtain ⟨k, rfl⟩ : ∃ k, len = k + 1 := ⟨len - 1, by omega⟩
  simp only [Nat.add_sub_cancel]
  have hkw : 2 ^ k * 2 ≤ 2 ^ w := by rw [← Nat.pow_succ]; exact Nat.pow_le_pow_right (by omega) hw
  have hk0 : 0 < 2 ^ k := Nat.two_pow_pos k
  have hww : 2 ^ w = 2 * 2 ^ (w - 1) := by
    rw [← Nat.pow_succ']; congr 1; omega
  have hv' : v < 2 ^ k * 2 := by rw [← Nat.pow_succ]; exact hv
  have hm : (1#w <<< k).toNat = 2 ^ k := by
    rw [BitVec.toNat_shiftLeft, BitVec.toNat_ofNat, Nat.shiftLeft_eq, Nat.mod_mul_mod, Nat.one_mul,
      Nat.mod_eq_of_lt (by omega)]
  have hx : (BitVec.ofNat w v ^^^ (1#w <<< k)).toNat = v ^^^ 2 ^ k := by
    rw [BitVec.toNat_xor, hm, BitVec.toNat_ofNat, Nat.mod_eq_of_lt (by omega)]
  rw [BitVec.toInt_eq_toNat_cond, BitVec.toNat_sub, hx, hm]
  unfold toSigned
  simp only [Nat.add_sub_cancel]
  have hc : (((2 : Nat) ^ k : Nat) : Int) = (2:Int) ^ k := by rw [Int.natCast_pow]; rfl
  rw [Int.pow_succ, ← hc]
  by_cases h : v < 2 ^ k
  · rw [if_pos h, xor_two_pow_of_lt k v h]
    generalize 2 ^ k = K at *
    generalize hW : 2 ^ w = W at *
    have : (W - K + (v + K)) % W = v := by
      rw [show W - K + (v + K) = v + W by omega, Nat.add_mod_right, Nat.mod_eq_of_lt (by omega)]
    rw [this, if_pos (by omega)]
  · rw [if_neg h]
    have hx2 : v ^^^ 2 ^ k = v - 2 ^ k := by
      have h3 := xor_two_pow_of_lt k (v - 2 ^ k) (by omega)
      rw [show v - 2 ^ k + 2 ^ k = v by omega] at h3
      conv => lhs; rw [← h3]
      rw [Nat.xor_assoc, Nat.xor_self, Nat.xor_zero]
    rw [hx2]
    generalize 2 ^ k = K at *
    generalize hW : 2 ^ w = W at *
    have : (W - K + (v - K)) % W = W - K + (v - K) := Nat.mod_eq_of_lt (by omega)
    rw [this, if_neg (by omega)]
    omega

/-- Signed (two's complement) fields round-trip for every value the field can hold. -/
theorem C05_signed_roundtrip (b : Buf) (pos len : Nat) (v : Int) (hb : pos + len ≤ 8 * b.length)
    (h0 : 0 < len) (h32 : len ≤ 32) (hlo : -(2 ^ (len - 1)) ≤ v) (hhi : v < 2 ^ (len - 1)) :
    getbits (setbits b pos len v) pos len = v := by
  unfold getbits setbits
  rw [C05_unsigned_readback b pos len _ hb h32]
  rw [signext 32 len _ h0 h32 (Nat.mod_lt _ (Nat.two_pow_pos _)), u32_mod _ _ h32, toSigned_mod _ _ h0 hlo hhi]

theorem C05_signed_long_roundtrip (b : Buf) (pos len : Nat) (v : Int) (hb : pos + len ≤ 8 * b.length)
    (h0 : 0 < len) (h64 : len ≤ 64) (hlo : -(2 ^ (len - 1)) ≤ v) (hhi : v < 2 ^ (len - 1)) :
    getbitsl (setbitsl b pos len v) pos len = v := by
  unfold getbitsl setbitsl
  have hr : getbitul (setbitul b pos len (u64 v)) pos len = u64 v % 2 ^ len := by
    rw [getbitul_eq _ _ _ (by rw [setbitul_length]; exact hb) h64, bitsOf_setbitul _ _ _ _ hb h64]
    have := splice_read (bitsOf b) pos (toBits len (u64 v)) (by simpa using hb)
    rw [toBits_length] at this
    rw [this, ofBits_toBits]
  rw [hr]
  rw [signext 64 len _ h0 h64 (Nat.mod_lt _ (Nat.two_pow_pos _)), u64_mod _ _ h64, toSigned_mod _ _ h0 hlo hhi]

/-- Sign-magnitude fields round-trip for every value of magnitude below `2^(len-1)`. -/
theorem C05_signmag_roundtrip (b : Buf) (pos len : Nat) (v : Int) (hb : pos + len ≤ 8 * b.length)
    (h0 : 0 < len) (h32 : len ≤ 32) (hlo : -(2 ^ (len - 1)) < v) (hhi : v < 2 ^ (len - 1)) :
    getSignMag (setSignMag b pos len v) pos len = v := by
  unfold getSignMag setSignMag
  simp only []
  have hl : ∀ d, (setbitu b pos 1 d).length = b.length := fun d => setbitu_length _ _ _ _
  rw [C05_unsigned_readback _ (pos + 1) (len - 1) _ (by rw [hl]; omega) (by omega)]
  rw [C05_disjoint_fields _ (pos + 1) (len - 1) _ pos 1 (by rw [hl]; omega) (by omega) (by rw [hl]; omega) (by omega)
    (by omega)]
  rw [C05_unsigned_readback b pos 1 _ (by omega) (by omega)]
  rw [u32_mod _ _ (by omega)]
  have hP : (0:Int) < 2 ^ (len - 1) := Int.pow_pos (by decide)
  generalize (2:Int) ^ (len - 1) = P at *
  by_cases hv : v < 0
  · simp only [hv, if_true]
    rw [Int.emod_eq_of_lt (by omega) (by omega)]
    simp; omega
  · simp only [hv, if_false]
    rw [Int.emod_eq_of_lt (by omega) (by omega)]
    simp; omega

/-- Locality of the signed and sign-magnitude writers. -/
theorem C05_signed_local (b : Buf) (pos len : Nat) (v : Int) (hb : pos + len ≤ 8 * b.length) (h0 : 0 < len)
    (h32 : len ≤ 32) (i : Nat) (hi : i < pos ∨ pos + len ≤ i) :
    bitAt (setbits b pos len v) i = bitAt b i ∧ bitAt (setbitsl b pos len v) i = bitAt b i ∧
    bitAt (setSignMag b pos len v) i = bitAt b i := by
  refine ⟨(C05_write_exact b pos len _ hb h32).2.2 i hi, (C05_write_long_exact b pos len _ hb (by omega)).2.2 i hi, ?_⟩
  unfold setSignMag
  simp only []
  have hl : ∀ d, (setbitu b pos 1 d).length = b.length := fun d => setbitu_length _ _ _ _
  rw [(C05_write_exact _ (pos + 1) (len - 1) _ (by rw [hl]; omega) (by omega)).2.2 i (by omega)]
  exact (C05_write_exact b pos 1 _ (by omega) (by omega)).2.2 i (by omega)

/-- For widths below 32 the sign extension of the signed reader stays inside `int32_t` at every step (no undefined
signed overflow), whatever the buffer. -/
theorem C05_getbits_no_overflow (b : Buf) (pos len : Nat) (hb : pos + len ≤ 8 * b.length) (h0 : 0 < len)
    (h31 : len < 32) :
    let x : Int := ((getbitu b pos len ^^^ 2 ^ (len - 1) : Nat) : Int)
    x < 2 ^ 31 ∧ -(2 ^ 31) ≤ x ∧ -(2 ^ 31) ≤ x - 2 ^ (len - 1) ∧ x - 2 ^ (len - 1) < 2 ^ 31 := by
  intro x
  have h1 : getbitu b pos len < 2 ^ 31 := by
    rw [getbitu_eq b pos len hb (by omega)]
    calc _ < _ := ofBits_lt _
      _ ≤ 2 ^ 31 := Nat.pow_le_pow_right (by omega) (by simp; omega)
  have h2 : 2 ^ (len - 1) < 2 ^ 31 := Nat.pow_lt_pow_right (by omega) (by omega)
  have h3 : getbitu b pos len ^^^ 2 ^ (len - 1) < 2 ^ 31 := Nat.xor_lt_two_pow h1 h2
  have hc : (((2 : Nat) ^ (len - 1) : Nat) : Int) = (2:Int) ^ (len - 1) := by rw [Int.natCast_pow]; rfl
  have hx : x = ((getbitu b pos len ^^^ 2 ^ (len - 1) : Nat) : Int) := rfl
  have h4 : (0:Int) < (2:Int) ^ (len - 1) := Int.pow_pos (by decide)
  have h5 : (2:Int) ^ (len - 1) < 2 ^ 31 := by rw [← hc]; omega
  omega

/-- With a 32-bit field a negative value makes the C subtraction exceed `int32_t`: undefined behaviour in C. -/
theorem C05_getbits_overflow_bug :
    let b : Buf := [0xFF#8, 0xFF#8, 0xFF#8, 0xFF#8]
    let x : BitVec 32 := BitVec.ofNat 32 (getbitu b 0 32)
    (x ^^^ 0x80000000#32).toInt - (0x80000000#32).toInt > 2 ^ 31 - 1 := by decide

example : (3 : Nat) + 12 ≤ 8 * ([1#8, 2#8, 3#8] : Buf).length ∧ 1005 < 2 ^ 12 ∧
    getbitu (setbitu [1#8, 2#8, 3#8] 3 12 1005) 3 12 = 1005 := by decide
example : getbits (setbits [1#8, 2#8, 3#8] 5 9 (-200)) 5 9 = -200 := by decide
example : getSignMag (setSignMag [1#8, 2#8, 3#8] 5 9 (-200)) 5 9 = -200 := by decide

end Verif
