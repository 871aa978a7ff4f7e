import Verif.Model.Codec
import Verif.Lemmas.Bits
namespace Verif
open Dec

theorem Dec.bind_def {α β} (d : Dec α) (f : α → Dec β) (s) : (d >>= f) s =
    (match d s with
     | (.ok a, r) => f a r
     | (.error e, r) => (.error e, r)) := rfl
theorem Dec.pure_def {α} (a : α) (s) : (Pure.pure a : Dec α) s = (.ok a, s) := rfl

/-- On input `bs ++ rest` the decoder returns `a` and leaves `rest`. -/
def Reads {α} (d : Dec α) (bs : List Bool) (a : α) : Prop := ∀ rest, d (bs ++ rest) = (.ok a, rest)

theorem Reads.pure {α} (a : α) : Reads (Pure.pure a : Dec α) [] a := fun _ => rfl
theorem Reads.bind {α β} {d : Dec α} {f : α → Dec β} {x y : List Bool} {a : α} {b : β}
    (h1 : Reads d x a) (h2 : Reads (f a) y b) : Reads (d >>= f) (x ++ y) b := by
  intro rest
  rw [List.append_assoc, Dec.bind_def, h1]
  exact h2 rest
theorem Reads.bind_nil {α β} {d : Dec α} {f : α → Dec β} {x : List Bool} {a : α} {b : β}
    (h1 : Reads d x a) (h2 : Reads (f a) [] b) : Reads (d >>= f) x b := by
  have := Reads.bind h1 h2
  simpa using this
theorem Reads.nil_bind {α β} {d : Dec α} {f : α → Dec β} {y : List Bool} {a : α} {b : β}
    (h1 : Reads d [] a) (h2 : Reads (f a) y b) : Reads (d >>= f) y b := Reads.bind h1 h2
theorem Reads.getU' (n v : Nat) : Reads (Dec.getU n) (toBits n v) (v % 2 ^ n) := by
  intro rest
  unfold Dec.getU
  rw [if_neg (by simp)]
  rw [List.take_append_of_le_length (by simp), List.drop_append_of_le_length (by simp),
    List.take_of_length_le (by simp), List.drop_of_length_le (by simp), ofBits_toBits]
  rfl
theorem Reads.getU {n v : Nat} (h : v < 2 ^ n) : Reads (Dec.getU n) (toBits n v) v := by
  have := Reads.getU' n v
  rwa [Nat.mod_eq_of_lt h] at this
theorem Reads.getS {n v : Nat} {i : Int} (h : toSigned n (v % 2 ^ n) = i) : Reads (Dec.getS n) (toBits n v) i := by
  intro rest
  unfold Dec.getS
  rw [if_neg (by simp)]
  rw [List.take_append_of_le_length (by simp), List.drop_append_of_le_length (by simp),
    List.take_of_length_le (by simp), List.drop_of_length_le (by simp), ofBits_toBits, h]
  rfl
theorem Reads.getS32 {n : Nat} {i : Int} (h0 : 0 < n) (hn : n ≤ 32) (h1 : -(2 ^ (n - 1)) ≤ i) (h2 : i < 2 ^ (n - 1)) :
    Reads (Dec.getS n) (toBits n (u32 i)) i :=
  Reads.getS (by rw [u32_mod _ _ hn, toSigned_mod _ _ h0 h1 h2])
theorem Reads.getS32' {n : Nat} {i : Int} (h0 : 0 < n) (hn : n ≤ 32) (h : -(2 ^ (n - 1)) ≤ i ∧ i < 2 ^ (n - 1)) :
    Reads (Dec.getS n) (toBits n (u32 i)) i := Reads.getS32 h0 hn h.1 h.2
theorem Reads.getS64 {n : Nat} {i : Int} (h0 : 0 < n) (hn : n ≤ 64) (h1 : -(2 ^ (n - 1)) ≤ i) (h2 : i < 2 ^ (n - 1)) :
    Reads (Dec.getS n) (toBits n (u64 i)) i :=
  Reads.getS (by rw [u64_mod _ _ hn, toSigned_mod _ _ h0 h1 h2])
theorem Reads.skip {n : Nat} {bs : List Bool} (h : bs.length = n) : Reads (Dec.skip n) bs () := by
  intro rest
  unfold Dec.skip
  rw [List.drop_append_of_le_length (by omega), List.drop_of_length_le (by omega)]
  rfl
theorem Reads.guard {c : Prop} [Decidable c] (e : RC) (h : c) : Reads (Dec.guard c e) [] () := by
  intro rest
  unfold Dec.guard; rw [if_pos h]; rfl
theorem Reads.attempt {α} {d : Dec α} {bs : List Bool} {a : α} (h : Reads d bs a) :
    Reads (Dec.attempt d) bs (some a) := by
  intro rest
  unfold Dec.attempt; rw [h]
theorem Reads.getByte (x : Byte) : Reads Dec.getByte (toBits 8 x.toNat) x := by
  have h := Reads.bind_nil (f := fun v => (Pure.pure (BitVec.ofNat 8 v) : Dec Byte))
    (Reads.getU (n := 8) (v := x.toNat) (by have := x.isLt; omega)) (Reads.pure _)
  have e : BitVec.ofNat 8 x.toNat = x := by simp
  rw [e] at h
  exact h
theorem Reads.many {α} {d : Dec α} {γ : Type} (enc : γ → List Bool) (out : γ → α) (l : List γ)
    (h : ∀ x ∈ l, Reads d (enc x) (out x)) : Reads (Dec.many d l.length) (l.flatMap enc) (l.map out) := by
  induction l with
  | nil => exact Reads.pure _
  | cons x l ih =>
    rw [List.flatMap_cons]
    refine Reads.bind (h x (by simp)) ?_
    refine Reads.bind_nil (ih fun y hy => h y (by simp [hy])) ?_
    exact Reads.pure _
theorem Reads.bytes (l : List Byte) : Reads (Dec.many Dec.getByte l.length) (bitsOf l) l := by
  have := Reads.many (d := Dec.getByte) (fun x : Byte => toBits 8 x.toNat) id l (fun x _ => Reads.getByte x)
  simpa [bitsOf] using this

theorem Reads.mapErr {α} {d : Dec α} {f : RC → RC} {bs : List Bool} {a : α} (h : Reads d bs a) :
    Reads (Dec.mapErr f d) bs a := by
  intro rest
  unfold Dec.mapErr; rw [h]

/-- the bits of a sign-magnitude write -/
theorem wbits_sm (n : Nat) (i : Int) : ((Wr.sm n i).flatMap Wr.bits) =
    toBits 1 (if i < 0 then 1 else 0) ++ toBits (n - 1) (u32 (if i < 0 then -i else i)) := by
  simp [Wr.sm, Wr.bits]
theorem Reads.getSM {n : Nat} {i : Int} (hn : n ≤ 32) (h : -(2 ^ (n - 1)) < i ∧ i < 2 ^ (n - 1)) :
    Reads (Dec.getSM n) ((Wr.sm n i).flatMap Wr.bits) i := by
  rw [wbits_sm]
  have hp : (2 : Int) ^ (n - 1) ≤ 2 ^ 31 := by
    have : 2 ^ (n - 1) ≤ 2 ^ 31 := Nat.pow_le_pow_right (by omega) (by omega)
    exact_mod_cast this
  have habs : ∃ v : Nat, (if i < 0 then -i else i) = (v : Int) ∧ v < 2 ^ (n - 1) := by
    refine ⟨(if i < 0 then -i else i).toNat, ?_, ?_⟩
    · split <;> omega
    · have : ((2 ^ (n - 1) : Nat) : Int) = 2 ^ (n - 1) := by push_cast; rfl
      split <;> omega
  obtain ⟨v, hv, hlt⟩ := habs
  have hu : u32 (if i < 0 then -i else i) = v := by
    rw [hv]; unfold u32
    have : ((2 ^ (n - 1) : Nat) : Int) = 2 ^ (n - 1) := by push_cast; rfl
    omega
  rw [hu]
  refine Reads.bind (a := if i < 0 then -1 else 0) (Reads.getS (by split <;> decide)) ?_
  refine Reads.bind_nil (Reads.getU hlt) ?_
  have e : (if (if i < 0 then (-1 : Int) else 0) ≠ 0 then -(v : Int) else v) = i := by
    split at hv <;> simp_all <;> omega
  rw [e]
  exact Reads.pure _

/-- On every input starting with `bs` the decoder returns the error `e`. -/
def Fails {α} (d : Dec α) (bs : List Bool) (e : RC) : Prop := ∀ rest, (d (bs ++ rest)).1 = .error e
theorem Fails.bind {α β} {d : Dec α} {f : α → Dec β} {x y : List Bool} {a : α} {e : RC}
    (h1 : Reads d x a) (h2 : Fails (f a) y e) : Fails (d >>= f) (x ++ y) e := by
  intro rest
  rw [List.append_assoc, Dec.bind_def, h1]
  exact h2 rest
theorem Fails.nil_bind {α β} {d : Dec α} {f : α → Dec β} {y : List Bool} {a : α} {e : RC}
    (h1 : Reads d [] a) (h2 : Fails (f a) y e) : Fails (d >>= f) y e := Fails.bind h1 h2
theorem Fails.left {α β} {d : Dec α} {f : α → Dec β} {x : List Bool} {e : RC}
    (h1 : Fails d x e) : Fails (d >>= f) x e := by
  intro rest
  rw [Dec.bind_def]
  have := h1 rest
  revert this
  rcases d (x ++ rest) with ⟨r, s'⟩
  intro this; simp at this; subst this; rfl
theorem Fails.guard {c : Prop} [Decidable c] {e : RC} (h : ¬ c) (bs) : Fails (Dec.guard c e) bs e := by
  intro rest
  unfold Dec.guard; rw [if_neg h]; rfl
theorem Fails.append {α} {d : Dec α} {x : List Bool} {e : RC} (h : Fails d x e) (y) : Fails d (x ++ y) e := by
  intro rest; rw [List.append_assoc]; exact h _

/-! ### Strictness: a decoder that succeeds does so on exactly the bits it consumed, and fails (with one of the
codes `E`) on every proper prefix of them. -/

def StrictOn (E : RC → Prop) {α} (d : Dec α) (bs : List Bool) (a : α) : Prop :=
  Reads d bs a ∧ ∀ k < bs.length, ∃ e, E e ∧ (d (bs.take k)).1 = .error e

def StrictE (E : RC → Prop) {α} (d : Dec α) : Prop :=
  ∀ s a r, d s = (.ok a, r) → ∃ bs, s = bs ++ r ∧ StrictOn E d bs a

/-- the usual case: prefixes are rejected with `RC_INVALID_MESSAGE` -/
abbrev Strict {α} (d : Dec α) : Prop := StrictE (· = .invalid) d

theorem StrictE.mono {E F : RC → Prop} {α} {d : Dec α} (h : StrictE E d) (hEF : ∀ e, E e → F e) : StrictE F d := by
  intro s a r hd
  obtain ⟨bs, h1, h2, h3⟩ := h s a r hd
  exact ⟨bs, h1, h2, fun k hk => (h3 k hk).imp fun e he => ⟨hEF e he.1, he.2⟩⟩

theorem StrictOn.bind {E : RC → Prop} {α β} {d : Dec α} {f : α → Dec β} {x y : List Bool} {a : α} {b : β}
    (h1 : StrictOn E d x a) (h2 : StrictOn E (f a) y b) : StrictOn E (d >>= f) (x ++ y) b := by
  refine ⟨Reads.bind h1.1 h2.1, ?_⟩
  intro k hk
  rw [Dec.bind_def]
  by_cases hx : k < x.length
  · rw [List.take_append_of_le_length (by omega)]
    obtain ⟨e, he, this⟩ := h1.2 k hx
    refine ⟨e, he, ?_⟩
    revert this
    rcases d (x.take k) with ⟨r, s'⟩
    intro this; simp at this; subst this; rfl
  · have e : (x ++ y).take k = x ++ y.take (k - x.length) := by
      rw [List.take_append, List.take_of_length_le (by omega)]
    rw [e, h1.1]
    exact h2.2 _ (by simp at hk; omega)

theorem StrictE.pure {E : RC → Prop} {α} (a : α) : StrictE E (Pure.pure a : Dec α) := by
  intro s b r h
  rw [Dec.pure_def] at h
  simp at h
  exact ⟨[], by simp [h.2], by rw [← h.1]; exact Reads.pure a, by simp⟩
theorem StrictE.fail {E : RC → Prop} {α} (e : RC) : StrictE E (Dec.fail e : Dec α) := by
  intro s b r h; simp [Dec.fail] at h
theorem StrictE.bind {E : RC → Prop} {α β} {d : Dec α} {f : α → Dec β} (h1 : StrictE E d)
    (h2 : ∀ a, StrictE E (f a)) : StrictE E (d >>= f) := by
  intro s b r h
  rw [Dec.bind_def] at h
  cases hd : d s with
  | mk o s' =>
    rw [hd] at h
    cases o with
    | error e => simp at h
    | ok a =>
      simp only at h
      obtain ⟨x, hx, sx⟩ := h1 _ _ _ hd
      obtain ⟨y, hy, sy⟩ := h2 a _ _ _ h
      exact ⟨x ++ y, by rw [hx, hy, List.append_assoc], StrictOn.bind sx sy⟩
/-- the error codes a truncation may produce include `RC_INVALID_MESSAGE` -/
class HasInvalid (E : RC → Prop) : Prop where
  inv : E .invalid
instance : HasInvalid (· = RC.invalid) := ⟨rfl⟩
theorem StrictE.getU {E : RC → Prop} [HasInvalid E] (n : Nat) : StrictE E (Dec.getU n) := by
  intro s a r h
  unfold Dec.getU at h
  split at h
  · simp at h
  · rename_i hs
    simp at h
    refine ⟨s.take n, by rw [← h.2]; simp, ?_, ?_⟩
    · intro rest
      unfold Dec.getU
      have hl : (s.take n).length = n := by simp; omega
      rw [if_neg (by simp; omega), List.take_append_of_le_length (by omega),
        List.drop_append_of_le_length (by omega), List.take_of_length_le (by omega),
        List.drop_of_length_le (by omega), h.1]; rfl
    · intro k hk
      refine ⟨_, HasInvalid.inv, ?_⟩
      unfold Dec.getU
      rw [if_pos (by simp at hk ⊢; omega)]
theorem StrictE.getS {E : RC → Prop} [HasInvalid E] (n : Nat) : StrictE E (Dec.getS n) := by
  intro s a r h
  unfold Dec.getS at h
  split at h
  · simp at h
  · rename_i hs
    simp at h
    refine ⟨s.take n, by rw [← h.2]; simp, ?_, ?_⟩
    · intro rest
      unfold Dec.getS
      have hl : (s.take n).length = n := by simp; omega
      rw [if_neg (by simp; omega), List.take_append_of_le_length (by omega),
        List.drop_append_of_le_length (by omega), List.take_of_length_le (by omega),
        List.drop_of_length_le (by omega), h.1]; rfl
    · intro k hk
      refine ⟨_, HasInvalid.inv, ?_⟩
      unfold Dec.getS
      rw [if_pos (by simp at hk ⊢; omega)]
theorem StrictE.guard {E : RC → Prop} (c : Prop) [Decidable c] (e : RC) : StrictE E (Dec.guard c e) := by
  unfold Dec.guard; split
  · exact StrictE.pure ()
  · exact StrictE.fail e
/-- A decoder that fails on the empty stream. -/
def FailsEmpty (E : RC → Prop) {α} (d : Dec α) : Prop := ∃ e, E e ∧ (d []).1 = .error e
theorem FailsEmpty.getU_bind {E : RC → Prop} [HasInvalid E] {β} {n : Nat} {f : Nat → Dec β} (h : 0 < n) :
    FailsEmpty E (Dec.getU n >>= f) :=
  ⟨_, HasInvalid.inv, by simp [Dec.bind_def, Dec.getU, h]⟩
theorem FailsEmpty.getS_bind {E : RC → Prop} [HasInvalid E] {β} {n : Nat} {f : Int → Dec β} (h : 0 < n) :
    FailsEmpty E (Dec.getS n >>= f) :=
  ⟨_, HasInvalid.inv, by simp [Dec.bind_def, Dec.getS, h]⟩
theorem FailsEmpty.left {E : RC → Prop} {α β} {d : Dec α} {f : α → Dec β} (h : FailsEmpty E d) :
    FailsEmpty E (d >>= f) := by
  obtain ⟨e, he, h⟩ := h
  refine ⟨e, he, ?_⟩
  rw [Dec.bind_def]
  revert h
  rcases d [] with ⟨r, s'⟩
  intro this; simp at this; subst this; rfl
theorem FailsEmpty.skip_bind {E : RC → Prop} {β} {n : Nat} {f : Unit → Dec β} (h : FailsEmpty E (f ())) :
    FailsEmpty E (Dec.skip n >>= f) := by
  obtain ⟨e, he, h⟩ := h
  refine ⟨e, he, ?_⟩
  show (f () (([] : List Bool).drop n)).1 = _
  rw [List.drop_nil]; exact h
theorem StrictE.skip_bind {E : RC → Prop} {β} {n : Nat} {f : Unit → Dec β} (h : StrictE E (f ()))
    (he : FailsEmpty E (f ())) : StrictE E (Dec.skip n >>= f) := by
  intro s b r hs
  have hs' : f () (s.drop n) = (.ok b, r) := hs
  obtain ⟨y, hy, sy⟩ := h _ _ _ hs'
  have hlen : n ≤ s.length := by
    refine Nat.le_of_not_lt fun hc => ?_
    rw [List.drop_of_length_le (by omega)] at hs'
    obtain ⟨e, _, he⟩ := he
    rw [hs'] at he
    simp at he
  refine ⟨s.take n ++ y, by rw [List.append_assoc, ← hy]; simp, ?_, ?_⟩
  · exact Reads.bind (Reads.skip (by simp; omega)) sy.1
  · intro k hk
    show ∃ e, E e ∧ (f () (((s.take n ++ y).take k).drop n)).1 = _
    by_cases hkn : k ≤ n
    · rw [List.drop_of_length_le (by simp; omega)]; exact he
    · have e : ((s.take n ++ y).take k).drop n = y.take (k - n) := by
        rw [List.take_append, List.take_of_length_le (by simp; omega)]
        have : (s.take n).length = n := by simp; omega
        rw [List.drop_append, List.drop_of_length_le (by omega), this]; simp
      rw [e]
      exact sy.2 _ (by simp at hk; omega)
theorem StrictE.many {E : RC → Prop} {α} {d : Dec α} (h : StrictE E d) (k : Nat) : StrictE E (Dec.many d k) := by
  induction k with
  | zero => exact StrictE.pure _
  | succ k ih => exact StrictE.bind h fun _ => StrictE.bind ih fun _ => StrictE.pure _
theorem StrictE.getByte {E : RC → Prop} [HasInvalid E] : StrictE E Dec.getByte :=
  StrictE.bind (StrictE.getU 8) fun _ => StrictE.pure _
theorem StrictE.ite {E : RC → Prop} {α} {c : Prop} [Decidable c] {d e : Dec α} (h1 : StrictE E d) (h2 : StrictE E e) :
    StrictE E (if c then d else e) := by split <;> assumption

/-- A strict decoder rejects every proper prefix of bits it is known to read. -/
theorem StrictE.prefix {E : RC → Prop} {α} {d : Dec α} (h : StrictE E d) {bs : List Bool} {a : α} (hr : Reads d bs a)
    {k : Nat} (hk : k < bs.length) : ∃ e, E e ∧ (d (bs.take k)).1 = .error e := by
  have h0 := hr []
  simp only [List.append_nil] at h0
  obtain ⟨x, hx, sx⟩ := h _ _ _ h0
  simp at hx; subst hx
  exact sx.2 k hk

/-! ### Inversion: what a successful run tells -/

theorem bind_ok {α β} {d : Dec α} {f : α → Dec β} {s : List Bool} {b : β} {r : List Bool}
    (h : (d >>= f) s = (.ok b, r)) : ∃ a s', d s = (.ok a, s') ∧ f a s' = (.ok b, r) := by
  rw [Dec.bind_def] at h
  split at h
  · rename_i a s' h1; exact ⟨a, s', h1, h⟩
  · simp at h

theorem guard_ok {β} {c : Prop} [Decidable c] {e : RC} {f : Unit → Dec β} {s : List Bool} {b : β} {r : List Bool}
    (h : (Dec.guard c e >>= f) s = (.ok b, r)) : c ∧ f () s = (.ok b, r) := by
  rw [Dec.bind_def] at h
  unfold Dec.guard at h
  by_cases hc : c
  · rw [if_pos hc] at h; exact ⟨hc, h⟩
  · rw [if_neg hc] at h; simp [Dec.fail] at h
theorem getU_ok {n v : Nat} {s r : List Bool} (h : Dec.getU n s = (.ok v, r)) : v < 2 ^ n ∧ n ≤ s.length := by
  unfold Dec.getU at h
  split at h
  · simp at h
  · simp at h
    rw [← h.1]
    have := ofBits_lt (s.take n)
    rw [List.length_take, Nat.min_eq_left (by omega)] at this
    omega
theorem many_ok_length {α} {d : Dec α} {k : Nat} {s r : List Bool} {l : List α} (h : Dec.many d k s = (.ok l, r)) :
    l.length = k := by
  induction k generalizing s l r with
  | zero => unfold Dec.many at h; rw [Dec.pure_def] at h; simp at h; simp [← h.1]
  | succ k ih =>
    unfold Dec.many at h
    obtain ⟨a, s1, _, h⟩ := bind_ok h
    obtain ⟨as, s2, h2, h⟩ := bind_ok h
    rw [Dec.pure_def] at h; simp at h
    rw [← h.1]; simp [ih h2]
theorem run_ok {α} {d : Dec α} {p : Buf} {a : α} (h : d.run p = .ok a) : ∃ r, d (bitsOf p) = (.ok a, r) :=
  ⟨_, Prod.ext h rfl⟩

/-! ### Encoders -/

theorem Wr.bits_length (w : Wr) : w.bits.length = w.len := by cases w <;> simp [Wr.bits, Wr.len]

def wbits (ws : List Wr) : List Bool := ws.flatMap Wr.bits
def wlen (ws : List Wr) : Nat := (ws.map Wr.len).sum

@[simp] theorem wbits_nil : wbits [] = [] := rfl
@[simp] theorem wbits_cons (w : Wr) (ws) : wbits (w :: ws) = w.bits ++ wbits ws := rfl
@[simp] theorem wbits_append (a b : List Wr) : wbits (a ++ b) = wbits a ++ wbits b := by simp [wbits]
@[simp] theorem wlen_nil : wlen [] = 0 := rfl
@[simp] theorem wlen_cons (w : Wr) (ws) : wlen (w :: ws) = w.len + wlen ws := by simp [wlen]
@[simp] theorem wlen_append (a b : List Wr) : wlen (a ++ b) = wlen a + wlen b := by simp [wlen]
@[simp] theorem Wr.bits_u (n v) : (Wr.u n v).bits = toBits n v := rfl
@[simp] theorem Wr.bits_ul (n v) : (Wr.ul n v).bits = toBits n v := rfl
@[simp] theorem Wr.bits_s (n i) : (Wr.s n i).bits = toBits n (u32 i) := rfl
@[simp] theorem Wr.bits_sl (n i) : (Wr.sl n i).bits = toBits n (u64 i) := rfl
@[simp] theorem Wr.len_u (n v) : (Wr.u n v).len = n := rfl
@[simp] theorem Wr.len_ul (n v) : (Wr.ul n v).len = n := rfl
@[simp] theorem Wr.len_s (n i) : (Wr.s n i).len = n := rfl
@[simp] theorem Wr.len_sl (n i) : (Wr.sl n i).len = n := rfl
@[simp] theorem Wr.ok_u (n v) : (Wr.u n v).ok = (n ≤ 32) := rfl
@[simp] theorem Wr.ok_ul (n v) : (Wr.ul n v).ok = (n ≤ 64) := rfl
@[simp] theorem Wr.ok_s (n v) : (Wr.s n v).ok = (n ≤ 32) := rfl
@[simp] theorem Wr.ok_sl (n v) : (Wr.sl n v).ok = (n ≤ 64) := rfl

theorem wbits_length (ws : List Wr) : (wbits ws).length = wlen ws := by
  induction ws with
  | nil => rfl
  | cons w ws ih => simp [ih, Wr.bits_length]

theorem Wr.put_length (w : Wr) (b p) : (w.put b p).length = b.length := by
  cases w <;> simp [Wr.put, setbitu_length, setbitul_length]
theorem Wr.bitsOf_put (w : Wr) (b : Buf) (p : Nat) (hok : w.ok) (h : p + w.len ≤ 8 * b.length) :
    bitsOf (w.put b p) = splice (bitsOf b) p w.bits := by
  cases w with
  | u n v => exact bitsOf_setbitu _ _ _ _ h hok
  | ul n v => exact bitsOf_setbitul _ _ _ _ h hok

theorem exec_length (ws : List Wr) (b : Buf) (p : Nat) : (exec ws b p).1.length = b.length := by
  induction ws generalizing b p with
  | nil => rfl
  | cons w ws ih => rw [exec, ih, Wr.put_length]
theorem exec_pos (ws : List Wr) (b : Buf) (p : Nat) : (exec ws b p).2 = p + wlen ws := by
  induction ws generalizing b p with
  | nil => rfl
  | cons w ws ih => rw [exec, ih]; simp; omega
theorem exec_append (ws vs : List Wr) (b : Buf) (p : Nat) :
    exec (ws ++ vs) b p = exec vs (exec ws b p).1 (exec ws b p).2 := by
  induction ws generalizing b p with
  | nil => rfl
  | cons w ws ih => simp [exec, ih]

theorem bitsOf_exec (ws : List Wr) (b : Buf) (p : Nat) (hok : ∀ w ∈ ws, w.ok) (h : p + wlen ws ≤ 8 * b.length) :
    bitsOf (exec ws b p).1 = splice (bitsOf b) p (wbits ws) := by
  induction ws generalizing b p with
  | nil => simp [exec, splice_nil]
  | cons w ws ih =>
    simp only [wlen_cons] at h
    rw [exec, ih _ _ (fun v hv => hok v (by simp [hv])) (by rw [Wr.put_length]; omega),
      Wr.bitsOf_put _ _ _ (hok w (by simp)) (by omega), wbits_cons]
    have := splice_splice (bitsOf b) p w.bits (wbits ws) (by
      rw [Wr.bits_length, wbits_length, bitsOf_length]; omega)
    rw [Wr.bits_length] at this
    exact this

/-- The bits of an encoder's payload start with the bits of its fields; what follows (fewer than 8 bits) are stale
bits of the caller's buffer. -/
theorem payload_bits (ws : List Wr) (b : Buf) (hok : ∀ w ∈ ws, w.ok) (h : (wlen ws + 7) / 8 ≤ b.length) :
    ∃ pad, bitsOf (payloadOf (encodeWr ws b)) = wbits ws ++ pad ∧ pad.length < 8 := by
  unfold payloadOf encodeWr
  simp only
  rw [exec_pos, Nat.zero_add, bitsOf_take, bitsOf_exec _ _ _ hok (by omega)]
  have hl := wbits_length ws
  unfold splice
  simp only [List.take_zero, List.nil_append]
  rw [List.take_append, List.take_of_length_le (by omega)]
  refine ⟨_, rfl, ?_⟩
  simp; omega

theorem payload_length (ws : List Wr) (b : Buf) (h : (wlen ws + 7) / 8 ≤ b.length) :
    (payloadOf (encodeWr ws b)).length = (wlen ws + 7) / 8 := by
  unfold payloadOf encodeWr
  simp only
  rw [exec_pos, List.length_take, exec_length]; omega

/-- Generic round trip. -/
theorem run_encode {α} {d : Dec α} {ws : List Wr} {a : α} (b : Buf) (hok : ∀ w ∈ ws, w.ok)
    (hlen : (wlen ws + 7) / 8 ≤ b.length) (hr : Reads d (wbits ws) a) :
    d.run (payloadOf (encodeWr ws b)) = .ok a := by
  obtain ⟨pad, hp, _⟩ := payload_bits ws b hok hlen
  unfold Dec.run
  rw [hp, hr]

/-- Generic truncation. -/
theorem run_truncated {α} {d : Dec α} {ws : List Wr} {a : α} (b : Buf) (hok : ∀ w ∈ ws, w.ok)
    (hlen : (wlen ws + 7) / 8 ≤ b.length) (hr : Reads d (wbits ws) a) {E : RC → Prop} (hs : StrictE E d)
    (k : Nat) (hk : k < (payloadOf (encodeWr ws b)).length) :
    ∃ e, E e ∧ d.run ((payloadOf (encodeWr ws b)).take k) = .error e := by
  obtain ⟨pad, hp, hpl⟩ := payload_bits ws b hok hlen
  rw [payload_length _ _ hlen] at hk
  unfold Dec.run
  rw [bitsOf_take, hp, List.take_append_of_le_length (by rw [wbits_length]; omega)]
  exact hs.prefix hr (by rw [wbits_length]; omega)

/-- Payload of any encoder whose writes amount to overwriting the buffer's first bits with `bs`. -/
theorem payload_of_splice {r : Buf × Nat} {buf : Buf} {bs : List Bool}
    (hb : bitsOf r.1 = splice (bitsOf buf) 0 bs) (hn : r.2 = (bs.length + 7) / 8) (hl : r.2 ≤ buf.length) :
    (∃ pad, bitsOf (payloadOf r) = bs ++ pad ∧ pad.length < 8) ∧ (payloadOf r).length = (bs.length + 7) / 8 := by
  have hlen : r.1.length = buf.length := by
    have := congrArg List.length hb
    rw [splice_length _ _ _ (by simp; omega)] at this
    simp at this; omega
  constructor
  · unfold payloadOf
    rw [bitsOf_take, hb]
    unfold splice
    simp only [List.take_zero, List.nil_append]
    rw [List.take_append, List.take_of_length_le (by omega)]
    refine ⟨_, rfl, ?_⟩
    simp; omega
  · unfold payloadOf; rw [List.length_take]; omega

theorem run_of_splice {α} {d : Dec α} {r : Buf × Nat} {buf : Buf} {bs : List Bool} {a : α}
    (hb : bitsOf r.1 = splice (bitsOf buf) 0 bs) (hn : r.2 = (bs.length + 7) / 8) (hl : r.2 ≤ buf.length)
    (hr : Reads d bs a) : d.run (payloadOf r) = .ok a := by
  obtain ⟨⟨pad, hp, _⟩, _⟩ := payload_of_splice hb hn hl
  unfold Dec.run
  rw [hp, hr]

theorem truncated_of_splice {α} {d : Dec α} {r : Buf × Nat} {buf : Buf} {bs : List Bool} {a : α}
    (hb : bitsOf r.1 = splice (bitsOf buf) 0 bs) (hn : r.2 = (bs.length + 7) / 8) (hl : r.2 ≤ buf.length)
    (hr : Reads d bs a) {E : RC → Prop} (hs : StrictE E d) (k : Nat) (hk : k < (payloadOf r).length) :
    ∃ e, E e ∧ d.run ((payloadOf r).take k) = .error e := by
  obtain ⟨⟨pad, hp, _⟩, hlen⟩ := payload_of_splice hb hn hl
  unfold Dec.run
  rw [bitsOf_take, hp, List.take_append_of_le_length (by omega)]
  exact hs.prefix hr (by omega)

theorem splice_overlap {α} (l : List α) (p : Nat) (a : α) (t y : List α) (h : p + 1 + y.length ≤ l.length)
    (ht : t.length ≤ y.length) : splice (splice l p (a :: t)) (p + 1) y = splice l p (a :: y) := by
  have e1 : List.take (p + 1) (splice l p (a :: t)) = List.take p l ++ [a] := by
    unfold splice
    rw [List.append_assoc, List.take_append, List.take_of_length_le (by simp; omega)]
    simp [show p + 1 - min p l.length = 1 by omega]
  have e2 : List.drop (p + 1 + y.length) (splice l p (a :: t)) = List.drop (p + 1 + y.length) l := by
    unfold splice
    rw [List.drop_append, List.drop_of_length_le (by simp; omega), List.nil_append, List.drop_drop]
    congr 1; simp; omega
  show List.take (p + 1) (splice l p (a :: t)) ++ y ++ List.drop (p + 1 + y.length) (splice l p (a :: t)) = _
  rw [e1, e2]
  unfold splice
  simp [Nat.add_comm, Nat.add_left_comm]

end Verif
