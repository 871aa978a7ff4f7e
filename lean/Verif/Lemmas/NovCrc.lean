import Verif.Lemmas.CrcUniq
import Verif.Model.Nov
/-! The CRC of the NovAtel parser is the polynomial remainder, and detects bursts of up to 32 bits. -/
namespace Verif.Nov
open Polynomial Verif.Crc

theorem turn_eq (c : BitVec 32) : crcTurn c = (c >>> 1) ^^^ (if c.getLsbD 0 then 0xEDB88320#32 else 0) := by
  have h : (c &&& 1 ≠ 0) ↔ c.getLsbD 0 = true := by
    have e : c &&& 1 = if c.getLsbD 0 then 1 else 0 := by
      ext i hi
      by_cases h : i = 0
      · subst h; cases hc : c[0] <;> simp [hc]
      · cases hc : c.getLsbD 0 <;> simp [h]
    rw [e]
    cases c.getLsbD 0 <;> simp
  unfold crcTurn
  by_cases h0 : c.getLsbD 0 = true
  · rw [if_pos (h.2 h0), if_pos h0]
  · rw [if_neg (fun x => h0 (h.1 x)), if_neg h0]
    simp

theorem turn_xor (a b : BitVec 32) : crcTurn (a ^^^ b) = crcTurn a ^^^ crcTurn b := by
  simp only [turn_eq]
  rw [BitVec.getLsbD_xor, BitVec.ushiftRight_xor_distrib]
  cases a.getLsbD 0 <;> cases b.getLsbD 0 <;> simp only [Bool.xor_true, Bool.xor_false, Bool.not_false, Bool.not_true, if_true,
    Bool.false_eq_true, if_false] <;> ext i hi <;> simp <;> grind

def turn8 (c : BitVec 32) : BitVec 32 := crcTurn^[8] c

theorem turn8_xor (a b : BitVec 32) : turn8 (a ^^^ b) = turn8 a ^^^ turn8 b := by
  unfold turn8
  simp only [Function.iterate_succ_apply, Function.iterate_zero, id, turn_xor]

theorem turn_even (c : BitVec 32) (h : c.toNat % 2 = 0) : (crcTurn c).toNat = c.toNat / 2 := by
  rw [turn_eq]
  have : c.getLsbD 0 = false := by
    rw [BitVec.getLsbD, Nat.testBit_zero]; simp; omega
  rw [this]
  simp [Nat.shiftRight_eq_div_pow]

theorem turn8_even (c : BitVec 32) (h : c.toNat % 256 = 0) : (turn8 c).toNat = c.toNat / 256 := by
  unfold turn8
  simp only [Function.iterate_succ_apply, Function.iterate_zero, id]
  have h1 := turn_even c (by omega)
  have h2 := turn_even (crcTurn c) (by omega)
  have h3 := turn_even (crcTurn (crcTurn c)) (by omega)
  have h4 := turn_even (crcTurn (crcTurn (crcTurn c))) (by omega)
  have h5 := turn_even (crcTurn (crcTurn (crcTurn (crcTurn c)))) (by omega)
  have h6 := turn_even (crcTurn (crcTurn (crcTurn (crcTurn (crcTurn c))))) (by omega)
  have h7 := turn_even (crcTurn (crcTurn (crcTurn (crcTurn (crcTurn (crcTurn c)))))) (by omega)
  have h8 := turn_even (crcTurn (crcTurn (crcTurn (crcTurn (crcTurn (crcTurn (crcTurn c))))))) (by omega)
  omega

theorem crcStep_eq (c : BitVec 32) (b : BitVec 8) : crcStep c b = turn8 (c ^^^ b.zeroExtend 32) := by
  have e : c ^^^ b.zeroExtend 32 = (((c ^^^ b.zeroExtend 32) &&& 0xFF#32).setWidth 8).zeroExtend 32 ^^^ (c >>> 8 <<< 8) := by
    ext i hi
    by_cases h : i < 8
    · have : ∀ i, i < 8 → (0xFF#32).getLsbD i = true := by decide
      have := this i h
      simp [h, this, ← BitVec.getLsbD_eq_getElem, hi]
    · have h8 : b.getLsbD i = false := BitVec.getLsbD_of_ge _ _ (by omega)
      have e : 8 + (i - 8) = i := by omega
      simp [h, h8, e, ← BitVec.getLsbD_eq_getElem, hi]
  have e2 : crcByteValue (((c ^^^ b.zeroExtend 32) &&& 0xFF#32).setWidth 8) = turn8 ((((c ^^^ b.zeroExtend 32) &&& 0xFF#32).setWidth 8).zeroExtend 32) := rfl
  unfold crcStep
  rw [e2]
  conv => rhs; rw [e, turn8_xor]
  rw [BitVec.xor_comm]
  congr 1
  apply BitVec.eq_of_toNat_eq
  have hl := c.isLt
  have h1 : (c >>> 8 <<< 8).toNat = c.toNat / 256 * 256 := by
    rw [BitVec.toNat_shiftLeft, BitVec.toNat_ushiftRight, Nat.shiftRight_eq_div_pow, Nat.shiftLeft_eq, Nat.mod_eq_of_lt (by omega)]
  rw [turn8_even _ (by rw [h1]; omega), h1, BitVec.toNat_and, BitVec.toNat_ushiftRight, Nat.shiftRight_eq_div_pow]
  rw [show (0x00FFFFFF#32).toNat = 2 ^ 24 - 1 from rfl, Nat.and_two_pow_sub_one_eq_mod]
  omega

/-- the register as a polynomial -/
noncomputable def P (c : BitVec 32) : (ZMod 2)[X] := pol 32 fun i => c.getMsbD i

theorem P_xor (a b : BitVec 32) : P (a ^^^ b) = P a + P b := by
  unfold P; rw [← pol_xor]; exact pol_congr fun i _ => by simp [BitVec.getMsbD_xor]

theorem gen32_eq : gen32 = X ^ 32 + pol 32 fun i => (0xEDB88320#32).getMsbD i := by
  have h : ∀ i, i < 32 → (0xEDB88320#32).getMsbD i = decide (i ∈ [0, 1, 2, 4, 5, 7, 8, 10, 11, 12, 16, 22, 23, 26]) := by decide
  rw [pol_congr h]
  unfold gen32 pol
  simp [Finset.sum_range_succ]
  ring

theorem turn_dvd (c : BitVec 32) : gen32 ∣ P (crcTurn c) + X * P c := by
  rw [gen32_eq]
  refine pol_step 31 _ _ _ fun i hi => ?_
  rw [turn_eq, BitVec.getMsbD_xor]
  congr 1
  · simp only [BitVec.getMsbD_ushiftRight]
    cases i with
    | zero => simp
    | succ i => simp; omega
  · have : c.getMsbD 31 = c.getLsbD 0 := by simp [BitVec.getMsbD]
    rw [this]
    cases c.getLsbD 0 <;> simp

theorem turn8_dvd (c : BitVec 32) : gen32 ∣ P (turn8 c) + X ^ 8 * P c := dvd_iter P crcTurn turn_dvd 8 c

theorem P_byte (x : BitVec 8) : P (x.zeroExtend 32) = X ^ 24 * bitPoly (lsbFirst x) := by
  rw [bitPoly_lsb]
  unfold P pol
  simp [Finset.sum_range_succ, BitVec.getMsbD, BitVec.getLsbD_setWidth, mul_add, ← pow_succ, ← pow_add]

theorem byteBitsLsb_append (a b : List (BitVec 8)) : byteBitsLsb (a ++ b) = byteBitsLsb a ++ byteBitsLsb b := List.flatMap_append

theorem byteBitsLsb_length (a : List (BitVec 8)) : (byteBitsLsb a).length = 8 * a.length := by
  induction a with
  | nil => rfl
  | cons x a ih => rw [show byteBitsLsb (x :: a) = lsbFirst x ++ byteBitsLsb a from rfl, List.length_append, len_lsb, ih, List.length_cons]; ring

theorem fold_dvd (b : Buf) : ∀ c, gen32 ∣ P (b.foldl crcStep c) + (X ^ (8 * b.length) * P c + X ^ 32 * bitPoly (byteBitsLsb b)) := by
  induction b with
  | nil => intro c; simp [byteBitsLsb, bitPoly, two0]
  | cons x b ih =>
    intro c
    rw [List.foldl_cons]
    refine dvd_trans2 (ih _) ?_
    have h := turn8_dvd (c ^^^ x.zeroExtend 32)
    rw [← crcStep_eq, P_xor, P_byte] at h
    have := Dvd.dvd.mul_left h (X ^ (8 * b.length))
    rw [show byteBitsLsb (x :: b) = lsbFirst x ++ byteBitsLsb b from rfl, bitPoly_append, byteBitsLsb_length]
    convert this using 1
    rw [List.length_cons]
    linear_combination two0 (X ^ 32 * bitPoly (byteBitsLsb b))

theorem bitPoly_lsb32 (c : BitVec 32) : bitPoly (lsbFirst c) = P c := bitPoly_lsb c

theorem crc_ok (b : Buf) : IsCrc gen32 (byteBitsLsb b) (lsbFirst (getCrc b)) := by
  unfold IsCrc
  rw [bitPoly_append, len_lsb, bitPoly_lsb32]
  have := fold_dvd b 0
  have e : P 0 = 0 := by unfold P; simpa using pol_zero 32
  rw [e, mul_zero, zero_add] at this
  rw [mul_comm, add_comm]
  exact this

theorem P_inj {a b : BitVec 32} (h : gen32 ∣ P a + P b) : a = b := by
  rw [← P_xor, gen32_eq] at h
  apply BitVec.eq_of_getMsbD_eq
  intro i hi
  have := dvd_pol (degree_pol_lt 32 _) h hi
  rw [BitVec.getMsbD_xor] at this
  simpa using this

theorem crc_iff (b : Buf) (c : BitVec 32) : getCrc b = c ↔ IsCrc gen32 (byteBitsLsb b) (lsbFirst c) := by
  constructor
  · rintro rfl; exact crc_ok b
  · intro h
    have h0 := crc_ok b
    unfold IsCrc at h h0
    rw [bitPoly_append, len_lsb, bitPoly_lsb32] at h h0
    refine P_inj ?_
    have := dvd_add h0 h
    have e : bitPoly (byteBitsLsb b) * X ^ 32 + P (getCrc b) + (bitPoly (byteBitsLsb b) * X ^ 32 + P c) = P (getCrc b) + P c := by
      linear_combination two0 (bitPoly (byteBitsLsb b) * X ^ 32)
    rwa [e] at this

/-! ### bursts -/

theorem bitPoly_pol (l : List Bool) : bitPoly l = pol l.length fun i => l.getD (l.length - 1 - i) false := by
  rw [← bitPoly_desc]
  congr 1
  apply List.ext_getElem
  · simp
  · intro i h1 h2
    have e : l.length - 1 - (l.length - 1 - i) = i := by omega
    simp [e, List.getElem?_eq_getElem h1]

theorem gen32_const : ∃ r : (ZMod 2)[X], gen32 = X * r + 1 := by
  refine ⟨X ^ 31 + X ^ 25 + X ^ 22 + X ^ 21 + X ^ 15 + X ^ 11 + X ^ 10 + X ^ 9 + X ^ 7 + X ^ 6 + X ^ 4 + X ^ 3 + X + 1, ?_⟩
  unfold gen32; ring

theorem short_inj {m m' : List Bool} (hl : m.length = m'.length) (h32 : m.length ≤ 32) (h : gen32 ∣ bitPoly m + bitPoly m') : m = m' := by
  rw [bitPoly_pol, bitPoly_pol, ← hl, ← pol_xor, gen32_eq] at h
  have hd : (pol m.length fun i => (m.getD (m.length - 1 - i) false ^^ m'.getD (m.length - 1 - i) false)).degree < (32 : Nat) :=
    lt_of_lt_of_le (degree_pol_lt _ _) (by exact_mod_cast h32)
  have h0 := dvd_small (degree_pol_lt 32 _) h hd
  apply List.ext_getElem hl
  intro i h1 h2
  have := pol_eq_zero h0 (i := m.length - 1 - i) (by omega)
  have e : m.length - 1 - (m.length - 1 - i) = i := by omega
  rw [e] at this
  simpa [List.getElem?_eq_getElem h1, List.getElem?_eq_getElem h2] using this

theorem burst {l l' : List Bool} (hl : l.length = l'.length) {i : Nat} (h : ∀ j, j < i ∨ i + 32 ≤ j → l[j]? = l'[j]?)
    (h1 : gen32 ∣ bitPoly l) (h2 : gen32 ∣ bitPoly l') : l = l' := by
  have split : ∀ l : List Bool, l = l.take i ++ ((l.drop i).take 32 ++ l.drop (i + 32)) := by
    intro l
    rw [← List.drop_drop, List.take_append_drop, List.take_append_drop]
  have ha : l.take i = l'.take i := by
    apply List.ext_getElem?
    intro j
    rw [List.getElem?_take, List.getElem?_take]
    split
    · exact h j (by omega)
    · rfl
  have hc : l.drop (i + 32) = l'.drop (i + 32) := by
    apply List.ext_getElem?
    intro j
    rw [List.getElem?_drop, List.getElem?_drop]
    exact h _ (by omega)
  have hm : ((l.drop i).take 32).length = ((l'.drop i).take 32).length := by simp [hl]
  have hm2 : ((l.drop i).take 32).length ≤ 32 := by simp
  rw [split l] at h1 ⊢
  rw [split l'] at h2 ⊢
  rw [ha, hc] at h1 ⊢
  generalize (l.drop i).take 32 = m at *
  generalize (l'.drop i).take 32 = m' at *
  generalize l'.take i = a at *
  generalize l'.drop (i + 32) = c at *
  rw [bitPoly_append, bitPoly_append] at h1 h2
  have h3 := dvd_add h1 h2
  have e : bitPoly a * X ^ (m ++ c).length + (bitPoly m * X ^ c.length + bitPoly c) +
      (bitPoly a * X ^ (m' ++ c).length + (bitPoly m' * X ^ c.length + bitPoly c)) = (bitPoly m + bitPoly m') * X ^ c.length := by
    rw [List.length_append, List.length_append, hm]
    linear_combination two0 (bitPoly a * X ^ (m'.length + c.length)) + two0 (bitPoly c)
  rw [e] at h3
  obtain ⟨r, hr⟩ := gen32_const
  rw [short_inj hm hm2 (dvd_shift hr _ h3)]

theorem lsb_inj {n : Nat} {a b : BitVec n} (h : lsbFirst a = lsbFirst b) : a = b := by
  apply BitVec.eq_of_getLsbD_eq
  intro i hi
  have := congrArg (·[i]?) h
  simpa [lsbFirst, hi] using this

theorem byteBitsLsb_inj : ∀ {a b : List (BitVec 8)}, byteBitsLsb a = byteBitsLsb b → a = b
  | [], [], _ => rfl
  | [], y :: b, h => by
    have := congrArg List.length h
    rw [byteBitsLsb_length, byteBitsLsb_length] at this; simp at this
  | x :: a, [], h => by
    have := congrArg List.length h
    rw [byteBitsLsb_length, byteBitsLsb_length] at this; simp at this
  | x :: a, y :: b, h => by
    obtain ⟨h1, h2⟩ := List.append_inj (s₁ := lsbFirst x) (s₂ := lsbFirst y) h (by rw [len_lsb, len_lsb])
    rw [lsb_inj h1, byteBitsLsb_inj h2]

end Verif.Nov
