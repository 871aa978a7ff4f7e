import Verif.Lemmas.Codec
import Mathlib.Tactic.Ring
import Mathlib.Tactic.Linarith
/-!
What a successful decoding step says about the bits consumed: the value is in range, and the bits are those an encoder writes for it.
-/
namespace Verif
open Dec

theorem kG {β} {c : Prop} [Decidable c] {e : RC} {f : Unit → Dec β} {s : List Bool} {b : β} {r : List Bool}
    (h : (Dec.guard c e >>= f) s = (.ok b, r)) : c ∧ f () s = (.ok b, r) := guard_ok h

theorem kU {β} {n : Nat} {f : Nat → Dec β} {s : List Bool} {b : β} {r : List Bool}
    (h : (Dec.getU n >>= f) s = (.ok b, r)) : ∃ a s', a < 2 ^ n ∧ s = toBits n a ++ s' ∧ f a s' = (.ok b, r) := by
  obtain ⟨a, s', h1, h2⟩ := bind_ok h
  refine ⟨a, s', (getU_ok h1).1, ?_, h2⟩
  unfold Dec.getU at h1
  split at h1
  · simp at h1
  · simp only [Prod.mk.injEq, Except.ok.injEq] at h1
    obtain ⟨rfl, rfl⟩ := h1
    have := toBits_ofBits (s.take n)
    rw [List.length_take, Nat.min_eq_left (by omega)] at this
    rw [this, List.take_append_drop]

theorem toSigned_range {n v : Nat} (h0 : 0 < n) (h : v < 2 ^ n) :
    -(2 ^ (n - 1)) ≤ toSigned n v ∧ toSigned n v < 2 ^ (n - 1) := by
  obtain ⟨k, rfl⟩ : ∃ k, n = k + 1 := ⟨n - 1, by omega⟩
  have e : ((2 ^ k : Nat) : Int) = 2 ^ k := by push_cast; rfl
  have e2 : ((2 ^ (k + 1) : Nat) : Int) = 2 * 2 ^ k := by push_cast; ring
  have hp : (2 : Nat) ^ (k + 1) = 2 * 2 ^ k := by ring
  unfold toSigned
  rw [Nat.add_sub_cancel]
  split
  · omega
  · omega

theorem toSigned_emod {n v : Nat} (h : v < 2 ^ n) : (toSigned n v % 2 ^ n).toNat = v := by
  have e2 : ((2 ^ n : Nat) : Int) = 2 ^ n := by push_cast; rfl
  unfold toSigned
  split
  · rw [Int.emod_eq_of_lt (by omega) (by omega)]; omega
  · have : ((v : Int) - 2 ^ n) % 2 ^ n = v := by
      rw [Int.sub_emod, Int.emod_self, sub_zero, Int.emod_emod, Int.emod_eq_of_lt (by omega) (by omega)]
    rw [this]; omega

theorem kSv {β} {n : Nat} {f : Int → Dec β} {s : List Bool} {b : β} {r : List Bool}
    (h : (Dec.getS n >>= f) s = (.ok b, r)) :
    ∃ v s', v < 2 ^ n ∧ s = toBits n v ++ s' ∧ f (toSigned n v) s' = (.ok b, r) := by
  obtain ⟨a, s', h1, h2⟩ := bind_ok h
  unfold Dec.getS at h1
  split at h1
  · simp at h1
  · simp only [Prod.mk.injEq, Except.ok.injEq] at h1
    obtain ⟨rfl, rfl⟩ := h1
    have := toBits_ofBits (s.take n)
    have hl := ofBits_lt (s.take n)
    rw [List.length_take, Nat.min_eq_left (by omega)] at this hl
    exact ⟨_, _, hl, by rw [this, List.take_append_drop], h2⟩

theorem kS {β} {n : Nat} {f : Int → Dec β} {s : List Bool} {b : β} {r : List Bool}
    (h : (Dec.getS n >>= f) s = (.ok b, r)) (h0 : 0 < n) (hn : n ≤ 32) :
    ∃ a s', (-(2 ^ (n - 1)) ≤ a ∧ a < 2 ^ (n - 1)) ∧ s = toBits n (u32 a) ++ s' ∧ f a s' = (.ok b, r) := by
  obtain ⟨v, s', hv, rfl, h2⟩ := kSv h
  refine ⟨_, s', toSigned_range h0 hv, ?_, h2⟩
  congr 1
  have := u32_mod n (toSigned n v) hn
  rw [toSigned_emod hv] at this
  rw [← toBits_mod (n := n) (m := n) (v := u32 _) le_rfl, this]

theorem kS64 {β} {n : Nat} {f : Int → Dec β} {s : List Bool} {b : β} {r : List Bool}
    (h : (Dec.getS n >>= f) s = (.ok b, r)) (h0 : 0 < n) :
    ∃ a s', (-(2 ^ (n - 1)) ≤ a ∧ a < 2 ^ (n - 1)) ∧ f a s' = (.ok b, r) := by
  obtain ⟨v, s', hv, rfl, h2⟩ := kSv h
  exact ⟨_, s', toSigned_range h0 hv, h2⟩

theorem kK {β} {n : Nat} {f : Unit → Dec β} {s : List Bool} {b : β} {r : List Bool}
    (h : (Dec.skip n >>= f) s = (.ok b, r)) : ∃ s', f () s' = (.ok b, r) := ⟨_, h⟩

theorem kM {β} {n : Nat} {f : Int → Dec β} {s : List Bool} {b : β} {r : List Bool}
    (h : (Dec.getSM n >>= f) s = (.ok b, r)) :
    ∃ a s', (-(2 ^ (n - 1)) < a ∧ a < 2 ^ (n - 1)) ∧ f a s' = (.ok b, r) := by
  obtain ⟨a, s', h1, h2⟩ := bind_ok h
  unfold Dec.getSM at h1
  obtain ⟨sg, s1, -, h1⟩ := bind_ok h1
  obtain ⟨v, s2, hv, h1⟩ := bind_ok h1
  have hv := (getU_ok hv).1
  have e : ((2 ^ (n - 1) : Nat) : Int) = 2 ^ (n - 1) := by push_cast; rfl
  rw [Dec.pure_def] at h1
  simp only [Prod.mk.injEq, Except.ok.injEq] at h1
  refine ⟨a, s', ?_, h2⟩
  rw [← h1.1]
  split <;> omega

theorem many_bytes_ok {k : Nat} {s r : List Bool} {l : List Byte} (h : Dec.many Dec.getByte k s = (.ok l, r)) :
    l.length = k ∧ s = bitsOf l ++ r := by
  induction k generalizing s l r with
  | zero =>
    unfold Dec.many at h; rw [Dec.pure_def] at h
    simp only [Prod.mk.injEq, Except.ok.injEq] at h
    obtain ⟨rfl, rfl⟩ := h
    exact ⟨rfl, rfl⟩
  | succ k ih =>
    unfold Dec.many at h
    obtain ⟨a, s1, h1, h⟩ := bind_ok h
    obtain ⟨as, s2, h2, h⟩ := bind_ok h
    rw [Dec.pure_def] at h
    simp only [Prod.mk.injEq, Except.ok.injEq] at h
    obtain ⟨rfl, rfl⟩ := h
    obtain ⟨e1, e2⟩ := ih h2
    change (Dec.getU 8 >>= fun v => (pure (BitVec.ofNat 8 v) : Dec Byte)) s = _ at h1
    replace h1 := kU h1
    clear h
    obtain ⟨v, s3, hv, rfl, h1⟩ := h1
    rw [Dec.pure_def] at h1
    simp only [Prod.mk.injEq, Except.ok.injEq] at h1
    obtain ⟨rfl, rfl⟩ := h1
    refine ⟨by simp [e1], ?_⟩
    rw [e2, bitsOf_cons, List.append_assoc]
    congr 2
    simp only [BitVec.toNat_ofNat]
    omega

theorem kB {β} {k : Nat} {f : List Byte → Dec β} {s : List Bool} {b : β} {r : List Bool}
    (h : (Dec.many Dec.getByte k >>= f) s = (.ok b, r)) :
    ∃ l s', l.length = k ∧ s = bitsOf l ++ s' ∧ f l s' = (.ok b, r) := by
  obtain ⟨a, s', h1, h2⟩ := bind_ok h
  obtain ⟨e1, e2⟩ := many_bytes_ok h1
  exact ⟨a, s', e1, e2, h2⟩

theorem kP {α} {a b : α} {s r : List Bool} (h : (Pure.pure a : Dec α) s = (.ok b, r)) : b = a ∧ r = s := by
  rw [Dec.pure_def] at h
  simp only [Prod.mk.injEq, Except.ok.injEq] at h
  exact ⟨h.1.symm, h.2.symm⟩

/-- If an encoder writes the bits a payload starts with, and they fill whole bytes, the encoded payload is a prefix of it. -/
theorem payload_prefix {ws : List Wr} {b p : Buf} {r : List Bool} (hok : ∀ w ∈ ws, w.ok) (h : (wlen ws + 7) / 8 ≤ b.length)
    (hp : bitsOf p = wbits ws ++ r) (h8 : wlen ws % 8 = 0) : payloadOf (encodeWr ws b) <+: p := by
  obtain ⟨pad, hb, _⟩ := payload_bits ws b hok h
  have hl := payload_length ws b h
  have e := congrArg List.length hb
  rw [bitsOf_length, hl, List.length_append, wbits_length] at e
  have hpad : pad = [] := List.length_eq_zero_iff.mp (by omega)
  subst hpad
  rw [List.append_nil] at hb
  have hpl := congrArg List.length hp
  rw [bitsOf_length, List.length_append, wbits_length] at hpl
  have e2 : bitsOf (p.take (wlen ws / 8)) = wbits ws := by
    rw [bitsOf_take, hp, List.take_append_of_le_length (by rw [wbits_length]; omega),
      List.take_of_length_le (by rw [wbits_length]; omega)]
  have inj : ∀ a b : Buf, bitsOf a = bitsOf b → a = b := by
    intro a
    induction a with
    | nil =>
      intro b hb
      have := congrArg List.length hb
      simp only [bitsOf_length, List.length_nil] at this
      exact (List.length_eq_zero_iff.mp (by omega)).symm
    | cons x a ih =>
      intro b hb
      cases b with
      | nil => have := congrArg List.length hb; simp at this
      | cons y b =>
        rw [bitsOf_cons, bitsOf_cons] at hb
        obtain ⟨h1, h2⟩ := List.append_inj hb (by simp)
        have := congrArg ofBits h1
        rw [ofBits_toBits, ofBits_toBits, Nat.mod_eq_of_lt x.isLt, Nat.mod_eq_of_lt y.isLt] at this
        rw [BitVec.eq_of_toNat_eq this, ih b h2]
  rw [inj _ _ (hb.trans e2.symm)]
  exact List.take_prefix _ _

/-- If an encoder writes the bits a payload starts with, the encoded payload starts with the same bits. -/
theorem payload_same_bits {ws : List Wr} {b p : Buf} {r : List Bool} (hok : ∀ w ∈ ws, w.ok) (h : (wlen ws + 7) / 8 ≤ b.length)
    (hp : bitsOf p = wbits ws ++ r) {n : Nat} (hn : n ≤ wlen ws) :
    (bitsOf (payloadOf (encodeWr ws b))).take n = (bitsOf p).take n := by
  obtain ⟨pad, hb, _⟩ := payload_bits ws b hok h
  rw [hb, hp, List.take_append_of_le_length (by rw [wbits_length]; omega),
    List.take_append_of_le_length (by rw [wbits_length]; omega)]

end Verif
