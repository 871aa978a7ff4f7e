import Verif.Model.Bits
namespace Verif

@[simp] theorem toBits_length (n v : Nat) : (toBits n v).length = n := by
  induction n with
  | zero => rfl
  | succ n ih => simp [toBits, ih]

theorem toBits_getElem (n v i : Nat) (h : i < (toBits n v).length) :
    (toBits n v)[i] = v.testBit (n - 1 - i) := by
  induction n generalizing i with
  | zero => simp [toBits] at h
  | succ n ih =>
    cases i with
    | zero => simp [toBits]
    | succ i =>
      simp only [toBits, List.getElem_cons_succ]
      rw [ih]; congr 1; omega

theorem ofBits_cons_aux (l : List Bool) (acc : Nat) :
    l.foldl (fun acc b => acc * 2 + b.toNat) acc = acc * 2 ^ l.length + ofBits l := by
  induction l generalizing acc with
  | nil => simp [ofBits]
  | cons b l ih =>
    simp only [List.foldl_cons, ofBits, List.length_cons]
    rw [ih, ih (0 * 2 + b.toNat)]
    simp only [Nat.pow_succ, Nat.add_mul, Nat.zero_mul, Nat.zero_add]
    have : acc * 2 * 2 ^ l.length = acc * (2 ^ l.length * 2) := by
      rw [Nat.mul_assoc, Nat.mul_comm 2]
    omega

theorem ofBits_append (a b : List Bool) : ofBits (a ++ b) = ofBits a * 2 ^ b.length + ofBits b := by
  unfold ofBits
  rw [List.foldl_append, ofBits_cons_aux]; rfl

theorem ofBits_cons (x : Bool) (b : List Bool) : ofBits (x :: b) = x.toNat * 2 ^ b.length + ofBits b := by
  rw [show x :: b = [x] ++ b from rfl, ofBits_append]; simp [ofBits]

theorem ofBits_lt (l : List Bool) : ofBits l < 2 ^ l.length := by
  induction l with
  | nil => simp [ofBits]
  | cons x l ih =>
    rw [ofBits_cons, List.length_cons, Nat.pow_succ]
    cases x <;> simp <;> omega

theorem ofBits_toBits (n v : Nat) : ofBits (toBits n v) = v % 2 ^ n := by
  induction n with
  | zero => simp [toBits, ofBits, Nat.mod_one]
  | succ n ih =>
    rw [toBits, ofBits_cons, ih, toBits_length, Nat.testBit_eq_decide_div_mod_eq, Nat.pow_succ, Nat.mod_mul]
    rcases Nat.mod_two_eq_zero_or_one (v / 2 ^ n) with h | h <;> simp [h] <;> omega

theorem ofBits_toBits_of_lt {n v : Nat} (h : v < 2 ^ n) : ofBits (toBits n v) = v := by
  rw [ofBits_toBits, Nat.mod_eq_of_lt h]

theorem testBit_ofBits (l : List Bool) (i : Nat) (h : i < l.length) :
    (ofBits l).testBit i = l[l.length - 1 - i] := by
  induction l with
  | nil => simp at h
  | cons x l ih =>
    rw [ofBits_cons, Nat.mul_comm, Nat.testBit_two_pow_mul_add _ (ofBits_lt l)]
    simp only [List.length_cons] at h ⊢
    by_cases h2 : i < l.length
    · rw [if_pos h2, ih h2]
      have : l.length + 1 - 1 - i = (l.length - 1 - i) + 1 := by omega
      simp only [this, List.getElem_cons_succ]
    · have : i = l.length := by omega
      subst this
      simp
      cases x <;> simp

theorem toBits_ofBits (l : List Bool) : toBits l.length (ofBits l) = l := by
  apply List.ext_getElem (by simp)
  intro i h1 h2
  rw [toBits_getElem, testBit_ofBits _ _ (by omega)]
  congr 1; simp at h1; omega

theorem toBits_mod {n m v : Nat} (h : n ≤ m) : toBits n (v % 2 ^ m) = toBits n v := by
  apply List.ext_getElem (by simp)
  intro i h1 h2
  simp at h1
  rw [toBits_getElem, toBits_getElem, Nat.testBit_mod_two_pow]
  simp; omega

/-! ### buffers -/

@[simp] theorem bitsOf_nil : bitsOf [] = [] := rfl
@[simp] theorem bitsOf_cons (x : Byte) (b : Buf) : bitsOf (x :: b) = toBits 8 x.toNat ++ bitsOf b := rfl
theorem bitsOf_append (a b : Buf) : bitsOf (a ++ b) = bitsOf a ++ bitsOf b := by
  simp [bitsOf]

@[simp] theorem bitsOf_length (b : Buf) : (bitsOf b).length = 8 * b.length := by
  induction b with
  | nil => rfl
  | cons x b ih => simp [ih]; omega

theorem bitsOf_take (b : Buf) (n : Nat) : bitsOf (b.take n) = (bitsOf b).take (8 * n) := by
  induction b generalizing n with
  | nil => simp
  | cons x b ih =>
    cases n with
    | zero => simp
    | succ n =>
      simp only [List.take_succ_cons, bitsOf_cons, ih]
      rw [List.take_append, List.take_of_length_le (l := toBits 8 x.toNat) (by rw [toBits_length]; omega), toBits_length]
      rw [show 8 * (n + 1) - 8 = 8 * n by omega]

theorem bitsOf_drop (b : Buf) (n : Nat) : bitsOf (b.drop n) = (bitsOf b).drop (8 * n) := by
  induction b generalizing n with
  | nil => simp
  | cons x b ih =>
    cases n with
    | zero => simp
    | succ n =>
      simp only [List.drop_succ_cons, bitsOf_cons, ih]
      rw [List.drop_append, List.drop_of_length_le (l := toBits 8 x.toNat) (by rw [toBits_length]; omega), toBits_length]
      rw [show 8 * (n + 1) - 8 = 8 * n by omega, List.nil_append]

theorem bitsOf_getElem (b : Buf) (i : Nat) (h : i < (bitsOf b).length) :
    (bitsOf b)[i] = (b[i / 8]'(by simp at h; omega)).getLsbD (7 - i % 8) := by
  induction b generalizing i with
  | nil => simp at h
  | cons x b ih =>
    by_cases h8 : i < 8
    · simp only [bitsOf_cons]
      rw [List.getElem_append_left (by simpa using h8)]
      rw [toBits_getElem]
      have h1 : i / 8 = 0 := by omega
      simp only [h1, List.getElem_cons_zero, BitVec.testBit_toNat]
      congr 1; omega
    · simp only [bitsOf_cons]
      rw [List.getElem_append_right (by simp; omega)]
      simp only [toBits_length]
      rw [ih]
      have h1 : i / 8 = (i - 8) / 8 + 1 := by omega
      simp only [h1, List.getElem_cons_succ]
      congr 1; omega

theorem getD_eq_getElem {α} (l : List α) (d : α) {n : Nat} (hn : n < l.length) : l.getD n d = l[n] := by
  simp [List.getD, hn]

theorem getBit_eq (b : Buf) (i : Nat) (h : i < (bitsOf b).length) : getBit b i = (bitsOf b)[i] := by
  rw [bitsOf_getElem]
  unfold getBit
  have hi : i / 8 < b.length := by simp at h; omega
  rw [getD_eq_getElem _ _ hi]
  generalize b[i / 8] = x
  have hk : 7 - i % 8 < 8 := by omega
  generalize 7 - i % 8 = k at hk
  have hx : (x >>> k &&& 1#8) = if x.getLsbD k then 1#8 else 0#8 := by
    rw [BitVec.and_one_eq_setWidth_ofBool_getLsbD]
    rw [BitVec.getLsbD_ushiftRight, Nat.add_zero]
    cases x.getLsbD k <;> rfl
  rw [hx]
  cases x.getLsbD k <;> rfl

theorem getBit_oob (b : Buf) (i : Nat) (h : (bitsOf b).length ≤ i) : getBit b i = false := by
  unfold getBit
  have hi : b.length ≤ i / 8 := by simp at h; omega
  rw [List.getD_eq_getElem?_getD, List.getElem?_eq_none hi]
  simp

theorem setBit_length (b : Buf) (i : Nat) (v : Bool) : (setBit b i v).length = b.length := by
  unfold setBit; simp only []; split <;> simp

theorem bitsOf_setBit (b : Buf) (i : Nat) (v : Bool) : bitsOf (setBit b i v) = (bitsOf b).set i v := by
  apply List.ext_getElem
  · simp [setBit_length]
  intro j h1 h2
  rw [bitsOf_getElem, List.getElem_set]
  have hj : j < (bitsOf b).length := by simpa using h2
  have hj' : j / 8 < b.length := by simp at hj; omega
  have hs : (setBit b i v)[j / 8]'(by rw [setBit_length]; exact hj') =
      if i / 8 = j / 8 then
        (if v then b[j / 8] ||| (1#8 <<< (7 - i % 8)) else b[j / 8] &&& ~~~(1#8 <<< (7 - i % 8)))
      else b[j / 8] := by
    unfold setBit
    by_cases hd : i / 8 = j / 8
    · simp only [hd, getD_eq_getElem _ _ hj', if_true]
      cases v <;> simp
    · cases v <;> simp [hd]
  rw [hs, bitsOf_getElem]
  by_cases hij : i = j
  · subst hij
    cases v
    · simp
    · simp; omega
  · rw [if_neg hij]
    by_cases hd : i / 8 = j / 8
    · have hm : 7 - i % 8 ≠ 7 - j % 8 := by omega
      rw [if_pos hd]
      have h0 : (1#8 <<< (7 - i % 8)).getLsbD (7 - j % 8) = false := by
        rw [BitVec.getLsbD_shiftLeft, BitVec.getLsbD_one]; simp; omega
      cases v
      · simp only [Bool.false_eq_true, if_false, BitVec.getLsbD_and, BitVec.getLsbD_not, h0]
        simp; omega
      · simp only [if_true, BitVec.getLsbD_or, h0, Bool.or_false]
    · rw [if_neg hd]

theorem setLoop_length (b : Buf) (pos data n : Nat) : (setLoop b pos data n).length = b.length := by
  induction n generalizing b pos with
  | zero => rfl
  | succ n ih => rw [setLoop, ih, setBit_length]

/-- Overwriting part of a list. -/
def splice {α} (l : List α) (p : Nat) (bs : List α) : List α := l.take p ++ bs ++ l.drop (p + bs.length)

theorem splice_length {α} (l : List α) (p : Nat) (bs : List α) (h : p + bs.length ≤ l.length) :
    (splice l p bs).length = l.length := by
  simp [splice]; omega

theorem splice_nil {α} (l : List α) (p : Nat) : splice l p [] = l := by simp [splice]

theorem splice_splice {α} (l : List α) (p : Nat) (bs cs : List α) (h : p + bs.length + cs.length ≤ l.length) :
    splice (splice l p bs) (p + bs.length) cs = splice l p (bs ++ cs) := by
  unfold splice
  have hl : (List.take p l ++ bs).length = p + bs.length := by simp; omega
  rw [List.take_append_of_le_length (by omega), List.take_of_length_le (by omega)]
  rw [List.drop_append, List.drop_of_length_le (by omega : (List.take p l ++ bs).length ≤ _)]
  rw [List.drop_drop, hl]
  simp only [List.length_append, List.nil_append, List.append_assoc]
  congr 4; omega

theorem splice_cons {α} (l : List α) (p : Nat) (x : α) (cs : List α) (h : p + 1 + cs.length ≤ l.length) :
    splice (l.set p x) (p + 1) cs = splice l p (x :: cs) := by
  have : l.set p x = splice l p [x] := by
    rw [List.set_eq_take_append_cons_drop, if_pos (by omega)]
    simp [splice]
  rw [this]
  exact splice_splice l p [x] cs (by simpa using h)

theorem bitsOf_setLoop (b : Buf) (pos data n : Nat) (h : pos + n ≤ 8 * b.length) :
    bitsOf (setLoop b pos data n) = splice (bitsOf b) pos (toBits n data) := by
  induction n generalizing b pos with
  | zero => simp [setLoop, toBits, splice_nil]
  | succ n ih =>
    rw [setLoop, ih _ _ (by rw [setBit_length]; omega), bitsOf_setBit, toBits, splice_cons]
    simp; omega

theorem getLoop_eq (w : Nat) (b : Buf) (acc pos n : Nat) (h : pos + n ≤ 8 * b.length) (hw : acc < 2 ^ w) :
    getLoop w b acc pos n = (acc * 2 ^ n + ofBits (((bitsOf b).drop pos).take n)) % 2 ^ w := by
  induction n generalizing acc pos with
  | zero => simp [getLoop, ofBits, Nat.mod_eq_of_lt hw]
  | succ n ih =>
    have hp : pos < (bitsOf b).length := by simp; omega
    have hpos : 0 < 2 ^ w := Nat.two_pow_pos w
    rw [getLoop, ih _ _ (by omega) (Nat.mod_lt _ hpos)]
    rw [List.drop_eq_getElem_cons hp, List.take_succ_cons, ofBits_cons, getBit_eq b pos hp]
    rw [List.length_take, List.length_drop, bitsOf_length, Nat.min_eq_left (by omega)]
    generalize (bitsOf b)[pos].toNat = x
    generalize ofBits _ = y
    rw [Nat.add_mod, Nat.mod_mul_mod, ← Nat.add_mod]
    congr 1
    rw [Nat.add_mul, Nat.pow_succ, Nat.mul_assoc, Nat.mul_comm 2]; omega

theorem splice_read {α} (l : List α) (p : Nat) (bs : List α) (h : p + bs.length ≤ l.length) :
    ((splice l p bs).drop p).take bs.length = bs := by
  unfold splice
  rw [List.append_assoc, List.drop_append_of_le_length (by simp; omega)]
  rw [List.drop_of_length_le (by simp; omega), List.nil_append, List.take_append_of_le_length (by omega)]
  simp

theorem setbitu_length (b : Buf) (pos len data : Nat) : (setbitu b pos len data).length = b.length := by
  unfold setbitu; split <;> simp [setLoop_length]
theorem setbitul_length (b : Buf) (pos len data : Nat) : (setbitul b pos len data).length = b.length := by
  unfold setbitul; split <;> simp [setLoop_length]

theorem bitsOf_setbitu (b : Buf) (pos len data : Nat) (h : pos + len ≤ 8 * b.length) (hl : len ≤ 32) :
    bitsOf (setbitu b pos len data) = splice (bitsOf b) pos (toBits len data) := by
  unfold setbitu
  split
  · have : len = 0 := by omega
    subst this; simp [toBits, splice_nil]
  · rw [bitsOf_setLoop _ _ _ _ h, toBits_mod hl]

theorem bitsOf_setbitul (b : Buf) (pos len data : Nat) (h : pos + len ≤ 8 * b.length) (hl : len ≤ 64) :
    bitsOf (setbitul b pos len data) = splice (bitsOf b) pos (toBits len data) := by
  unfold setbitul
  split
  · have : len = 0 := by omega
    subst this; simp [toBits, splice_nil]
  · rw [bitsOf_setLoop _ _ _ _ h, toBits_mod hl]

theorem getbitu_eq (b : Buf) (pos len : Nat) (h : pos + len ≤ 8 * b.length) (hl : len ≤ 32) :
    getbitu b pos len = ofBits (((bitsOf b).drop pos).take len) := by
  unfold getbitu
  rw [getLoop_eq _ _ _ _ _ h (by simp)]
  rw [Nat.zero_mul, Nat.zero_add]
  apply Nat.mod_eq_of_lt
  calc _ < _ := ofBits_lt _
    _ ≤ 2 ^ 32 := Nat.pow_le_pow_right (by omega) (by simp; omega)

theorem getbitul_eq (b : Buf) (pos len : Nat) (h : pos + len ≤ 8 * b.length) (hl : len ≤ 64) :
    getbitul b pos len = ofBits (((bitsOf b).drop pos).take len) := by
  unfold getbitul
  rw [getLoop_eq _ _ _ _ _ h (by simp)]
  rw [Nat.zero_mul, Nat.zero_add]
  apply Nat.mod_eq_of_lt
  calc _ < _ := ofBits_lt _
    _ ≤ 2 ^ 64 := Nat.pow_le_pow_right (by omega) (by simp; omega)

theorem u32_mod (n : Nat) (i : Int) (hn : n ≤ 32) : (u32 i) % 2 ^ n = (i % 2 ^ n).toNat := by
  unfold u32
  have h1 : ((2:Int) ^ n) ∣ 2 ^ 32 := by
    exact ⟨2 ^ (32 - n), by rw [← Int.pow_add]; congr 1; omega⟩
  have e : ((i % 2 ^ 32).toNat : Int) = i % 2 ^ 32 := Int.toNat_of_nonneg (Int.emod_nonneg _ (by decide))
  have h2 : (((i % 2 ^ 32).toNat % 2 ^ n : Nat) : Int) = i % 2 ^ n := by
    rw [Int.natCast_emod, e, Int.natCast_pow]
    exact Int.emod_emod_of_dvd _ h1
  omega

theorem u64_mod (n : Nat) (i : Int) (hn : n ≤ 64) : (u64 i) % 2 ^ n = (i % 2 ^ n).toNat := by
  unfold u64
  have h1 : ((2:Int) ^ n) ∣ 2 ^ 64 := by
    exact ⟨2 ^ (64 - n), by rw [← Int.pow_add]; congr 1; omega⟩
  have e : ((i % 2 ^ 64).toNat : Int) = i % 2 ^ 64 := Int.toNat_of_nonneg (Int.emod_nonneg _ (by decide))
  have h2 : (((i % 2 ^ 64).toNat % 2 ^ n : Nat) : Int) = i % 2 ^ n := by
    rw [Int.natCast_emod, e, Int.natCast_pow]
    exact Int.emod_emod_of_dvd _ h1
  omega

theorem toSigned_mod (n : Nat) (i : Int) (hn : 0 < n) (h1 : -(2 ^ (n - 1)) ≤ i) (h2 : i < 2 ^ (n - 1)) :
    toSigned n (i % 2 ^ n).toNat = i := by
  have hp : (2:Int) ^ n = 2 * 2 ^ (n - 1) := by
    obtain ⟨k, rfl⟩ : ∃ k, n = k + 1 := ⟨n - 1, by omega⟩
    simp [Int.pow_succ, Int.mul_comm]
  unfold toSigned
  have hpos : (0:Int) < 2 ^ (n - 1) := Int.pow_pos (by decide)
  have hcast : (((2:Nat) ^ (n - 1) : Nat) : Int) = 2 ^ (n - 1) := by push_cast; rfl
  generalize hP : (2:Int) ^ (n - 1) = P at *
  rw [hp]
  by_cases hi : 0 ≤ i
  · rw [Int.emod_eq_of_lt hi (by omega)]
    rw [if_pos (by omega)]; omega
  · have : i % (2 * P) = i + 2 * P := by
      rw [← Int.add_emod_right, Int.emod_eq_of_lt (by omega) (by omega)]
    rw [this, if_neg (by omega)]; omega

end Verif
