import Verif.Spec.UbxMsg
import Mathlib.Tactic.Ring
namespace Verif.Ubx
open Verif.Ubx.Spec

def leNat : Buf → Nat
  | [] => 0
  | x :: xs => x.toNat + 256 * leNat xs

theorem length_put {w n : Nat} (v : BitVec w) : (put n v).length = n := by simp [put]

theorem put_succ {w n : Nat} (v : BitVec w) : put (n + 1) v = v.setWidth 8 :: put n (v >>> 8) := by
  unfold put
  rw [List.range_succ_eq_map, List.map_cons, List.map_map]
  congr 1
  · apply BitVec.eq_of_toNat_eq; simp
  · apply List.map_congr_left
    intro i _
    apply BitVec.eq_of_toNat_eq
    simp [BitVec.extractLsb'_toNat, Nat.shiftRight_add, Nat.mul_succ, Nat.add_comm]

theorem leNat_put {w : Nat} (n : Nat) (v : BitVec w) : leNat (put n v) = v.toNat % 2 ^ (8 * n) := by
  induction n generalizing v with
  | zero => simp [put, leNat, Nat.mod_one]
  | succ n ih =>
    rw [put_succ, leNat, ih]
    have h1 : (v >>> 8).toNat = v.toNat / 256 := by simp [Nat.shiftRight_eq_div_pow]
    have h2 : (v.setWidth 8).toNat = v.toNat % 256 := by simp
    rw [h1, h2, show 2 ^ (8 * (n + 1)) = 256 * 2 ^ (8 * n) by rw [Nat.mul_succ, Nat.pow_add]; ring, Nat.mod_mul]

theorem leNat_lt (l : Buf) : leNat l < 2 ^ (8 * l.length) := by
  induction l with
  | nil => simp [leNat]
  | cons x xs ih =>
    have := x.isLt
    rw [leNat, List.length_cons, Nat.mul_succ, Nat.pow_add]
    omega

theorem leNat_inj {a b : Buf} (hl : a.length = b.length) (h : leNat a = leNat b) : a = b := by
  induction a generalizing b with
  | nil => cases b with
    | nil => rfl
    | cons => simp at hl
  | cons x xs ih =>
    cases b with
    | nil => simp at hl
    | cons y ys =>
      simp only [leNat] at h
      have hx := x.isLt
      have hy := y.isLt
      simp only [Nat.reducePow] at hx hy
      have e1 : x = y := BitVec.eq_of_toNat_eq (by omega)
      rw [e1, ih (by simpa using hl) (by omega)]

/-- the value read by `get` -/
def val (w : Nat) (l : Buf) : BitVec w := l.reverse.foldl (fun (a : BitVec w) x => (a <<< 8) ||| x.setWidth w) 0

theorem val_cons (w : Nat) (x : BitVec 8) (xs : Buf) : val w (x :: xs) = ((val w xs) <<< 8) ||| x.setWidth w := by
  simp [val]

theorem toNat_val {w : Nat} (l : Buf) (h : 8 * l.length ≤ w) : (val w l).toNat = leNat l := by
  induction l with
  | nil => simp [val, leNat]
  | cons x xs ih =>
    have hl : 8 * xs.length + 8 ≤ w := by simpa [Nat.mul_succ] using h
    have hi := ih (by omega)
    have hlt := leNat_lt xs
    have hw : 2 ^ (8 * xs.length) * 256 ≤ 2 ^ w := by
      rw [show (256 : Nat) = 2 ^ 8 from rfl, ← Nat.pow_add]; exact Nat.pow_le_pow_right (by decide) hl
    have hx := x.isLt
    have h256 : 256 ≤ 2 ^ w := le_trans (by have := Nat.two_pow_pos (8 * xs.length); omega) hw
    rw [val_cons, leNat, BitVec.toNat_or, BitVec.toNat_shiftLeft, hi, BitVec.toNat_setWidth]
    simp only [Nat.reducePow] at hx
    rw [Nat.mod_eq_of_lt (a := x.toNat) (by omega), Nat.shiftLeft_eq, Nat.mod_eq_of_lt (by simp only [Nat.reducePow]; omega)]
    rw [show leNat xs * 2 ^ 8 = 2 ^ 8 * leNat xs by ring, ← Nat.two_pow_add_eq_or_of_lt (by simpa using x.isLt)]
    simp only [Nat.reducePow]; omega

theorem get_put {w n : Nat} (hw : w = 8 * n) (v : BitVec w) (r : Buf) : get w n (put n v ++ r) = .ok (v, r) := by
  have hl := length_put (n := n) v
  unfold get
  rw [if_neg (by rw [List.length_append, hl]; omega)]
  have ht : (put n v ++ r).take n = put n v := by rw [List.take_append_of_le_length (by omega), List.take_of_length_le (by omega)]
  have hd : (put n v ++ r).drop n = r := by rw [List.drop_append_of_le_length (by omega), List.drop_of_length_le (by omega)]; rfl
  rw [ht, hd]
  congr 2
  apply BitVec.eq_of_toNat_eq
  rw [show (List.foldl _ _ (put n v).reverse) = val w (put n v) from rfl, toNat_val _ (by omega), leNat_put, ← hw]
  exact Nat.mod_eq_of_lt v.isLt

theorem get_inv {w n : Nat} (hw : w = 8 * n) {b : Buf} {v : BitVec w} {r : Buf} (h : get w n b = .ok (v, r)) :
    b = put n v ++ r := by
  unfold get at h
  by_cases hb : b.length < n
  · rw [if_pos hb] at h; simp at h
  · rw [if_neg hb] at h
    simp only [Except.ok.injEq, Prod.mk.injEq] at h
    obtain ⟨hv, rfl⟩ := h
    conv_lhs => rw [← List.take_append_drop n b]
    congr 1
    apply leNat_inj
    · rw [length_put, List.length_take]; omega
    · have : val w (b.take n) = v := hv
      rw [leNat_put, ← this, toNat_val _ (by rw [List.length_take]; omega)]
      have := leNat_lt (b.take n)
      rw [Nat.mod_eq_of_lt]
      rwa [List.length_take, min_eq_left (by omega)] at this

theorem get_err {w n : Nat} {b : Buf} {c : Int} (h : get w n b = .error c) : c = -2 := by
  unfold get at h
  split at h <;> simp at h
  exact h.symm

/-! ### decoders with an encoder -/

theorem bind_ok {α β : Type} {d : Dec α} {f : α → Dec β} {b r : Buf} {x : α} (h : d b = .ok (x, r)) :
    (d >>= f) b = f x r := by
  simp only [bind, StateT.bind, h, Except.bind]

theorem bind_inv {α β : Type} {d : Dec α} {f : α → Dec β} {b r : Buf} {y : β} (h : (d >>= f) b = .ok (y, r)) :
    ∃ x b', d b = .ok (x, b') ∧ f x b' = .ok (y, r) := by
  simp only [bind, StateT.bind, Except.bind] at h
  split at h
  · simp at h
  · rename_i v hv
    exact ⟨v.1, v.2, hv, h⟩

theorem bind_err {α β : Type} {d : Dec α} {f : α → Dec β} {b : Buf} {c : Int} (h : (d >>= f) b = .error c) :
    d b = .error c ∨ ∃ x b', d b = .ok (x, b') ∧ f x b' = .error c := by
  simp only [bind, StateT.bind, Except.bind] at h
  split at h
  · rename_i e he; left; rw [he]; simpa using h
  · rename_i v hv
    exact Or.inr ⟨v.1, v.2, hv, h⟩

theorem pure_inv {α : Type} {x y : α} {b r : Buf} (h : (pure x : Dec α) b = .ok (y, r)) : x = y ∧ b = r := by
  have : (Except.ok (x, b) : Except Int (α × Buf)) = .ok (y, r) := h
  simpa using this

theorem get_bind {β : Type} {w n : Nat} (hw : w = 8 * n) (v : BitVec w) (r : Buf) (f : BitVec w → Dec β) :
    (get w n >>= f) (put n v ++ r) = f v r := bind_ok (get_put hw v r)

theorem get_bind_inv {β : Type} {w n : Nat} (hw : w = 8 * n) {b r : Buf} {f : BitVec w → Dec β} {y : β}
    (h : (get w n >>= f) b = .ok (y, r)) : ∃ v b', b = put n v ++ b' ∧ f v b' = .ok (y, r) := by
  obtain ⟨x, b', h1, h2⟩ := bind_inv h
  exact ⟨x, b', get_inv hw h1, h2⟩

theorem reject_bind {β : Type} {c : Prop} [Decidable c] (hc : ¬ c) (b : Buf) (f : Unit → Dec β) : (reject c >>= f) b = f () b :=
  bind_ok (by simp [reject, hc])

theorem reject_bind_inv {β : Type} {c : Prop} [Decidable c] {b r : Buf} {f : Unit → Dec β} {y : β}
    (h : (reject c >>= f) b = .ok (y, r)) : ¬ c ∧ f () b = .ok (y, r) := by
  obtain ⟨x, b', h1, h2⟩ := bind_inv h
  unfold reject at h1
  split at h1 <;> simp at h1
  obtain rfl := h1
  exact ⟨by assumption, h2⟩

theorem invalid_bind {β : Type} {c : Prop} [Decidable c] (hc : ¬ c) (b : Buf) (f : Unit → Dec β) : (invalid c >>= f) b = f () b :=
  bind_ok (by simp [invalid, hc])

theorem invalid_bind_inv {β : Type} {c : Prop} [Decidable c] {b r : Buf} {f : Unit → Dec β} {y : β}
    (h : (invalid c >>= f) b = .ok (y, r)) : ¬ c ∧ f () b = .ok (y, r) := by
  obtain ⟨x, b', h1, h2⟩ := bind_inv h
  unfold invalid at h1
  split at h1 <;> simp at h1
  obtain rfl := h1
  exact ⟨by assumption, h2⟩

/-- the decoder `d` reads exactly what `e` writes -/
structure Pair {α : Type} (d : Dec α) (e : α → Buf) : Prop where
  rt : ∀ x r, d (e x ++ r) = .ok (x, r)
  inv : ∀ b x r, d b = .ok (x, r) → b = e x ++ r
  err : ∀ b c, d b = .error c → c = -2

theorem pair_get {w n : Nat} (hw : w = 8 * n) : Pair (get w n) (put n) :=
  ⟨get_put hw, fun _ _ _ h => get_inv hw h, fun _ _ h => get_err h⟩

theorem repeatD_rt {α : Type} {d : Dec α} {e : α → Buf} (p : Pair d e) (l : List α) (r : Buf) :
    repeatD l.length d (l.flatMap e ++ r) = .ok (l, r) := by
  induction l with
  | nil => rfl
  | cons x xs ih =>
    rw [List.length_cons, List.flatMap_cons, List.append_assoc, repeatD, bind_ok (p.rt _ _), bind_ok ih]
    rfl

theorem repeatD_inv {α : Type} {d : Dec α} {e : α → Buf} (p : Pair d e) (k : Nat) {b r : Buf} {l : List α}
    (h : repeatD k d b = .ok (l, r)) : l.length = k ∧ b = l.flatMap e ++ r := by
  induction k generalizing b l with
  | zero =>
    obtain ⟨rfl, rfl⟩ := pure_inv h
    exact ⟨rfl, rfl⟩
  | succ k ih =>
    rw [repeatD] at h
    obtain ⟨x, b1, h1, h2⟩ := bind_inv h
    obtain ⟨xs, b2, h3, h4⟩ := bind_inv h2
    obtain ⟨rfl, rfl⟩ := pure_inv h4
    obtain ⟨e1, e2⟩ := ih h3
    refine ⟨by simp [e1], ?_⟩
    rw [List.flatMap_cons, List.append_assoc, ← e2]
    exact p.inv _ _ _ h1

theorem repeatD_err {α : Type} {d : Dec α} (he : ∀ b c, d b = .error c → c = -2) (k : Nat) {b : Buf} {c : Int}
    (h : repeatD k d b = .error c) : c = -2 := by
  induction k generalizing b with
  | zero => cases h
  | succ k ih =>
    rw [repeatD] at h
    rcases bind_err h with h | ⟨x, b', _, h⟩
    · exact he _ _ h
    · rcases bind_err h with h | ⟨_, _, _, h⟩
      · exact ih h
      · cases h

theorem range_flatMap {α : Type} (l : List α) (x : α) (e : α → Buf) (k : Nat) (hk : k = l.length) :
    ((List.range k).flatMap fun i => e (l.getD i x)) = l.flatMap e := by
  subst hk
  rw [← List.flatMap_map (f := fun i => l.getD i x) (g := e)]
  congr 1
  apply List.ext_getElem
  · simp
  · intro i h1 h2
    have : i < l.length := by simpa using h2
    simp [List.getElem?_eq_getElem this]

theorem putN_eq {w : Nat} (k n : Nat) (l : List (BitVec w)) (h : k = l.length) : putN k n l = l.flatMap (put n) :=
  range_flatMap l 0 (put n) k h

/-! ### fields at offsets -/

theorem leAt_eq (b : Buf) (off n : Nat) (h : off + n ≤ b.length) : leAt b off n = leNat ((b.drop off).take n) := by
  induction n generalizing off with
  | zero => simp [leAt, leNat]
  | succ n ih =>
    rw [leAt, ih _ (by omega)]
    have hd : b.drop off = b.getD off 0 :: b.drop (off + 1) := by
      rw [List.drop_eq_getElem_cons (by omega)]
      congr 1
      rw [List.getD_eq_getElem?_getD, List.getElem?_eq_getElem (by omega)]
      rfl
    rw [hd, List.take_succ_cons, leNat]

theorem leAt_here {w n : Nat} (hw : w = 8 * n) (v : BitVec w) (r : Buf) : leAt (put n v ++ r) 0 n = v.toNat := by
  have hl := length_put (n := n) v
  rw [leAt_eq _ _ _ (by rw [List.length_append, hl]; omega), List.drop_zero, List.take_append_of_le_length (by omega),
    List.take_of_length_le (by omega), leNat_put, ← hw]
  exact Nat.mod_eq_of_lt v.isLt

theorem leAt_append (a r : Buf) (o n k : Nat) (hk : a.length = k) (h : k ≤ o) : leAt (a ++ r) o n = leAt r (o - k) n := by
  induction n generalizing o with
  | zero => rfl
  | succ n ih =>
    rw [leAt, leAt, ih _ (by omega), List.getD_eq_getElem?_getD, List.getElem?_append_right (by omega), ← List.getD_eq_getElem?_getD, hk, show o + 1 - k = o - k + 1 by omega]

theorem leAt_skip {w k : Nat} (v : BitVec w) (r : Buf) (o n : Nat) (h : k ≤ o) :
    leAt (put k v ++ r) o n = leAt r (o - k) n := leAt_append _ _ _ _ _ (length_put v) h

theorem leAt_within (a r : Buf) (o n : Nat) (h : o + n ≤ a.length) : leAt (a ++ r) o n = leAt a o n := by
  induction n generalizing o with
  | zero => rfl
  | succ n ih =>
    rw [leAt, leAt, ih _ (by omega), List.getD_eq_getElem?_getD, List.getElem?_append_left (by omega), ← List.getD_eq_getElem?_getD]

theorem length_flatMap_const {α : Type} (l : List α) (e : α → Buf) (s : Nat) (hs : ∀ x, (e x).length = s) :
    (l.flatMap e).length = s * l.length := by
  induction l with
  | nil => rfl
  | cons x xs ih => rw [List.flatMap_cons, List.length_append, hs, ih, List.length_cons, Nat.mul_succ, Nat.add_comm]

theorem leAt_block {α : Type} (l : List α) (e : α → Buf) (s : Nat) (hs : ∀ x, (e x).length = s) (r : Buf)
    (i : Nat) (x : α) (hi : l[i]? = some x) (o n : Nat) (ho : o + n ≤ s) :
    leAt (l.flatMap e ++ r) (s * i + o) n = leAt (e x) o n := by
  induction l generalizing i with
  | nil => simp at hi
  | cons y ys ih =>
    rw [List.flatMap_cons, List.append_assoc]
    cases i with
    | zero =>
      simp only [List.getElem?_cons_zero, Option.some.injEq] at hi
      subst hi
      rw [Nat.mul_zero, Nat.zero_add, leAt_within _ _ _ _ (by rw [hs]; exact ho)]
    | succ i =>
      rw [leAt_append _ _ _ _ _ (hs y) (by rw [Nat.mul_succ]; omega), show s * (i + 1) + o - s = s * i + o by rw [Nat.mul_succ]; omega]
      exact ih i (by simpa using hi)

/-! ### whole messages -/

theorem rep_bind {β : Type} {w n k : Nat} (hw : w = 8 * n) (l : List (BitVec w)) (hl : l.length = k) (r : Buf)
    (f : List (BitVec w) → Dec β) : (repeatD k (get w n) >>= f) (putN k n l ++ r) = f l r := by
  rw [putN_eq _ _ _ hl.symm, ← hl]
  exact bind_ok (repeatD_rt (pair_get hw) l r)

theorem rep_bind_inv {β : Type} {w n k : Nat} (hw : w = 8 * n) {b r : Buf} {f : List (BitVec w) → Dec β} {y : β}
    (h : (repeatD k (get w n) >>= f) b = .ok (y, r)) :
    ∃ l b', l.length = k ∧ b = putN k n l ++ b' ∧ f l b' = .ok (y, r) := by
  obtain ⟨l, b', h1, h2⟩ := bind_inv h
  obtain ⟨e1, e2⟩ := repeatD_inv (pair_get hw) k h1
  exact ⟨l, b', e1, by rw [putN_eq _ _ _ e1.symm]; exact e2, h2⟩

theorem length_putN {w : Nat} (k n : Nat) (l : List (BitVec w)) : (putN k n l).length = n * k := by
  unfold putN
  rw [length_flatMap_const _ _ n (fun _ => length_put _), List.length_range]

theorem leAt_skipN {w k j : Nat} (l : List (BitVec w)) (r : Buf) (o n : Nat) (h : j * k ≤ o) :
    leAt (putN k j l ++ r) o n = leAt r (o - j * k) n := leAt_append _ _ _ _ _ (length_putN _ _ _) h

def Short {α : Type} (d : Dec α) : Prop := ∀ b c, d b = .error c → c = -2

theorem short_bind {α β : Type} {d : Dec α} {f : α → Dec β} (h : Short d) (hf : ∀ x, Short (f x)) : Short (d >>= f) := by
  intro b c e
  rcases bind_err e with e | ⟨_, _, _, e⟩
  · exact h _ _ e
  · exact hf _ _ _ e
theorem short_get (w n : Nat) : Short (get w n) := fun _ _ h => get_err h
theorem short_pure {α : Type} (x : α) : Short (pure x) := fun _ _ h => by cases h
theorem short_rep {α : Type} (k : Nat) {d : Dec α} (h : Short d) : Short (repeatD k d) := fun _ _ e => repeatD_err h k e
theorem short_invalid (c : Prop) [Decidable c] : Short (invalid c) := by
  intro b e h
  unfold invalid at h
  split at h <;> simp at h
  exact h.symm

/-- every decoder begins like this -/
def header {M : Type} (cls id : BitVec 8) (k : BitVec 8 → BitVec 8 → Dec M) : Dec M := do
  let c ← get 8 1
  let i ← get 8 1
  reject (c ≠ cls)
  reject (i ≠ id)
  k c i

theorem put_one (x : BitVec 8) : put 1 x = [x] := by
  rw [put_succ]
  simp [put]

theorem header_rejects {M : Type} (cls id : BitVec 8) (k : BitVec 8 → BitVec 8 → Dec M) : Rejects (header cls id k) cls id := by
  intro x y rest h
  have e : x :: y :: rest = put 1 x ++ (put 1 y ++ rest) := by rw [put_one, put_one]; rfl
  rw [e, header, get_bind (by decide), get_bind (by decide)]
  by_cases hx : x ≠ cls
  · simp [reject, bind, StateT.bind, Except.bind, hx]
  · rw [reject_bind hx]
    have hy : y ≠ id := by tauto
    simp [reject, bind, StateT.bind, Except.bind, hy]

theorem header_err {M : Type} (cls id : BitVec 8) (k : BitVec 8 → BitVec 8 → Dec M) (hk : ∀ c i, Short (k c i)) (b : Buf) (e : Int)
    (h : header cls id k b = .error e) : e = -2 ∨ ∃ x y r, b = x :: y :: r ∧ (x ≠ cls ∨ y ≠ id) := by
  rcases bind_err h with h | ⟨x, b1, h1, h⟩
  · exact Or.inl (get_err h)
  rcases bind_err h with h | ⟨y, b2, h2, h⟩
  · exact Or.inl (get_err h)
  have eb : b = x :: y :: b2 := by
    rw [get_inv (by decide) h1, get_inv (by decide) h2, put_one, put_one]; rfl
  by_cases hx : x ≠ cls
  · exact Or.inr ⟨x, y, b2, eb, Or.inl hx⟩
  by_cases hy : y ≠ id
  · exact Or.inr ⟨x, y, b2, eb, Or.inr hy⟩
  rw [reject_bind hx, reject_bind hy] at h
  exact Or.inl (hk _ _ _ _ h)

theorem rejectsCut {M : Type} {dec : Dec M} {enc : M → Buf} {wf : M → Prop} {cls id : BitVec 8}
    (rt : RoundTrip dec enc wf) (inv : ∀ b m r, dec b = .ok (m, r) → wf m ∧ b = enc m ++ r)
    (rej : Rejects dec cls id)
    (err : ∀ b e, dec b = .error e → e = -2 ∨ ∃ x y r, b = x :: y :: r ∧ (x ≠ cls ∨ y ≠ id)) : RejectsCut dec enc wf := by
  intro m p q hm hp hq
  have h0 : dec (p ++ q) = .ok (m, []) := by rw [← hp, ← rt m [] hm, List.append_nil]
  cases h : dec p with
  | ok r =>
    exfalso
    obtain ⟨m', r'⟩ := r
    obtain ⟨hm', e⟩ := inv _ _ _ h
    have h1 := rt m' (r' ++ q) hm'
    rw [← List.append_assoc, ← e, h0] at h1
    simp only [Except.ok.injEq, Prod.mk.injEq] at h1
    exact hq (List.append_eq_nil_iff.1 h1.2.symm).2
  | error e =>
    rcases err _ _ h with rfl | ⟨x, y, r, e1, e2⟩
    · rfl
    · exfalso
      rw [e1, List.cons_append, List.cons_append, rej x y _ e2] at h0
      cases h0

end Verif.Ubx
