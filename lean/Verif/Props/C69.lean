import Verif.Model.Sta
import Verif.Props.C68
/-!
C69: the messages of ST receivers (999).
-/
namespace Verif.Sta
open Verif.Misc (rawGet cstr)
open Verif.Misc.Spec (fieldU)

/-! ### RF status -/

theorem bind_ok' {α β} {x : R α} {f : α → R β} {b : β} (h : x.bind f = some (.ok b)) : ∃ a, x = some (.ok a) ∧ f a = some (.ok b) := by
  unfold R.bind at h
  split at h
  · cases h
  · cases h
  · exact ⟨_, rfl, h⟩

theorem need_ok {α} {len bit k : Nat} {x : R α} {a : α} (h : need len bit k x = some (.ok a)) : bit + k < len ∧ x = some (.ok a) := by
  unfold need at h
  split at h
  · simp at h
  · exact ⟨by omega, h⟩

/-- a section that keeps the position before `len` -/
def Keeps {α} (len : Nat) (f : Nat → R (Option α × Nat)) : Prop := ∀ b c b', f b = some (.ok (c, b')) → b' < len

theorem opt_lt {α} {len mask i : Nat} {f : Nat → R (Option α × Nat)} (hf : Keeps len f) {b b' : Nat} {c : Option α} (hb : b < len)
    (h : opt mask i f b = some (.ok (c, b'))) : b' < len := by
  unfold opt at h
  split at h
  · exact hf _ _ _ h
  · simp only [Option.some.injEq, Except.ok.injEq, Prod.mk.injEq] at h
    omega

theorem cw_keeps (mem : Buf) (len : Nat) : Keeps len (cw mem len) := by
  intro b c b' h
  unfold cw at h
  obtain ⟨-, h⟩ := need_ok h
  obtain ⟨_, -, h⟩ := bind_ok' h
  obtain ⟨-, h⟩ := need_ok h
  obtain ⟨_, -, h⟩ := bind_ok' h
  obtain ⟨-, h⟩ := need_ok h
  obtain ⟨_, -, h⟩ := bind_ok' h
  obtain ⟨-, h⟩ := need_ok h
  obtain ⟨_, -, h⟩ := bind_ok' h
  obtain ⟨n, h⟩ := need_ok h
  obtain ⟨_, -, h⟩ := bind_ok' h
  simp only [Option.some.injEq, Except.ok.injEq, Prod.mk.injEq] at h
  omega

theorem agc_keeps (mem : Buf) (len : Nat) : Keeps len (agc mem len) := by
  intro b c b' h
  unfold agc at h
  obtain ⟨-, h⟩ := need_ok h
  obtain ⟨_, -, h⟩ := bind_ok' h
  obtain ⟨-, h⟩ := need_ok h
  obtain ⟨n, h⟩ := need_ok h
  obtain ⟨_, -, h⟩ := bind_ok' h
  simp only [Option.some.injEq, Except.ok.injEq, Prod.mk.injEq] at h
  omega

theorem ifm_keeps (mem : Buf) (len : Nat) : Keeps len (ifm mem len) := by
  intro b c b' h
  unfold ifm at h
  obtain ⟨-, h⟩ := need_ok h
  obtain ⟨_, -, h⟩ := bind_ok' h
  obtain ⟨n, h⟩ := need_ok h
  obtain ⟨_, -, h⟩ := bind_ok' h
  simp only [Option.some.injEq, Except.ok.injEq, Prod.mk.injEq] at h
  omega

theorem noise_keeps (mem : Buf) (len : Nat) : Keeps len (noise mem len) := by
  intro b c b' h
  unfold noise at h
  obtain ⟨n, h⟩ := need_ok h
  obtain ⟨_, -, h⟩ := bind_ok' h
  simp only [Option.some.injEq, Except.ok.injEq, Prod.mk.injEq] at h
  omega

theorem ant_keeps (mem : Buf) (len : Nat) : Keeps len (ant mem len) := by
  intro b c b' h
  unfold ant at h
  obtain ⟨n, h⟩ := need_ok h
  obtain ⟨_, -, h⟩ := bind_ok' h
  obtain ⟨_, -, h⟩ := bind_ok' h
  obtain ⟨_, -, h⟩ := bind_ok' h
  obtain ⟨_, -, h⟩ := bind_ok' h
  simp only [Option.some.injEq, Except.ok.injEq, Prod.mk.injEq] at h
  omega

/-- **C69** Defect: the RF status decoder accepts no message at all, of whatever contents and stated length: every section is refused when
it reaches the end of the message, and the whole is refused when it does not. -/
theorem C69_rfstatus_bug (mem : Buf) (len : Nat) : ¬ ∃ r, rfStatus mem len = some (.ok r) := by
  rintro ⟨r, h⟩
  unfold rfStatus at h
  obtain ⟨_, -, h⟩ := bind_ok' h
  obtain ⟨-, h⟩ := need_ok h
  obtain ⟨_, -, h⟩ := bind_ok' h
  split at h
  · simp at h
  obtain ⟨-, h⟩ := need_ok h
  obtain ⟨_, -, h⟩ := bind_ok' h
  obtain ⟨h0, h⟩ := need_ok h
  obtain ⟨_, -, h⟩ := bind_ok' h
  obtain ⟨⟨_, b1⟩, h1, h⟩ := bind_ok' h
  have := opt_lt (cw_keeps mem len) (by omega) h1
  obtain ⟨⟨_, b2⟩, h2, h⟩ := bind_ok' h
  have := opt_lt (agc_keeps mem len) this h2
  obtain ⟨⟨_, b3⟩, h3, h⟩ := bind_ok' h
  have := opt_lt (ifm_keeps mem len) this h3
  obtain ⟨⟨_, b4⟩, h4, h⟩ := bind_ok' h
  have := opt_lt (noise_keeps mem len) this h4
  obtain ⟨⟨_, b5⟩, h5, h⟩ := bind_ok' h
  have := opt_lt (ant_keeps mem len) this h5
  simp only at h
  rw [if_pos (by omega)] at h
  simp at h

/-! ### firmware version -/

/-- the characters of a text in consecutive bytes from bit `off` -/
def textAt (p : Buf) (off n : Nat) : Buf := (List.range n).map fun k => BitVec.ofNat 8 (fieldU p (off + 8 * k) 8)

theorem textAt_succ (p : Buf) (off n : Nat) : textAt p off (n + 1) = BitVec.ofNat 8 (fieldU p off 8) :: textAt p (off + 8) n := by
  unfold textAt
  rw [List.range_succ_eq_map, List.map_cons, List.map_map]
  refine List.cons_eq_cons.2 ⟨by simp, ?_⟩
  apply List.map_congr_left
  intro k _
  simp only [Function.comp_apply]
  rw [show off + 8 * k.succ = off + 8 + 8 * k by omega]

theorem textAt_length (p : Buf) (off n : Nat) : (textAt p off n).length = n := by simp [textAt]

theorem getStr_at (p after : Buf) : ∀ (k bit i : Nat) (out : Buf), bit + 8 * k ≤ 8 * p.length → i + k ≤ out.length →
    getStr (p ++ after) bit i k out = some (out.take i ++ textAt p bit k ++ out.drop (i + k)) := by
  intro k
  induction k with
  | zero => intro bit i out _ h; simp [getStr, textAt]
  | succ k ih =>
    intro bit i out h1 h2
    rw [getStr, Misc.rawGet_at p after bit 8 (by omega) (by omega)]
    simp only [Option.bind_eq_bind, Option.bind_some, put]
    rw [if_pos (by omega)]
    simp only [Option.bind_some]
    rw [ih (bit + 8) (i + 1) _ (by omega) (by rw [List.length_set]; omega), textAt_succ]
    refine congrArg some ?_
    rw [List.drop_set_of_lt (by omega), show i + 1 + k = i + (k + 1) by omega, List.set_eq_take_append_cons_drop, if_pos (by omega),
      List.take_append, List.length_take]
    have : min i out.length = i := by omega
    rw [this, List.take_of_length_le (by rw [List.length_take]; omega), show i + 1 - i = 1 by omega]
    simp

/-- **C69** (partial: `C69_fwver_bug`)  A firmware version text shorter than the caller's array is copied there with a terminator, and the
rest of the array is left alone; nothing outside the message is read. -/
theorem C69_fwver_partial (p after out : Buf) (h1 : fieldU p 0 12 = 999) (h2 : fieldU p 12 8 = 25) (h3 : 28 + 8 * fieldU p 20 8 ≤ 8 * p.length)
    (h4 : fieldU p 20 8 < out.length) :
    fwver (p ++ after) out = some (textAt p 28 (fieldU p 20 8) ++ 0#8 :: out.drop (fieldU p 20 8 + 1)) := by
  unfold fwver
  rw [Misc.rawGet_at p after 0 12 (by omega) (by omega), Misc.rawGet_at p after 12 8 (by omega) (by omega),
    Misc.rawGet_at p after 20 8 (by omega) (by omega)]
  simp only [Option.bind_eq_bind, Option.bind_some]
  rw [if_neg (not_not.2 ⟨h1, h2⟩), if_neg (by omega), getStr_at p after _ 28 0 out h3 (by omega)]
  simp only [Option.bind_some, put, List.take_zero, List.nil_append, Nat.zero_add]
  have hl := textAt_length p 28 (fieldU p 20 8)
  rw [if_pos (by rw [List.length_append, List.length_drop, hl]; omega)]
  refine congrArg some ?_
  rw [List.set_append_right _ _ (by omega), hl, Nat.sub_self]
  congr 1
  rw [List.drop_eq_getElem_cons h4]
  rfl

/-- **C69** Defect: with a text that fills the caller's array or exceeds it, the terminator is written behind the array. -/
theorem C69_fwver_bug (p after out : Buf) (h1 : fieldU p 0 12 = 999) (h2 : fieldU p 12 8 = 25) (h3 : 28 + 8 * fieldU p 20 8 ≤ 8 * p.length)
    (h4 : out.length ≤ fieldU p 20 8) : fwver (p ++ after) out = none := by
  unfold fwver
  rw [Misc.rawGet_at p after 0 12 (by omega) (by omega), Misc.rawGet_at p after 12 8 (by omega) (by omega),
    Misc.rawGet_at p after 20 8 (by omega) (by omega)]
  simp only [Option.bind_eq_bind, Option.bind_some]
  have hn : (if fieldU p 20 8 > out.length then out.length else fieldU p 20 8) = out.length := by split <;> omega
  rw [if_neg (not_not.2 ⟨h1, h2⟩), hn, getStr_at p after _ 28 0 out (by omega) (by omega)]
  simp only [Option.bind_some, put]
  rw [if_neg (by simp [textAt_length])]

def exFw : Buf := [0x3E, 0x71, 0x90, 0x24, 0x14, 0x20]
example : fieldU exFw 0 12 = 999 ∧ fieldU exFw 12 8 = 25 ∧ 28 + 8 * fieldU exFw 20 8 ≤ 8 * exFw.length ∧
    fwver exFw [7, 7, 7, 7] = some [0x41, 0x42, 0, 7] ∧ fwver exFw [7, 7] = none := by decide +kernel

/-! ### configuration text -/

/-- character `k` of the configuration text: four groups of four characters from bit 58, each group stored backwards -/
def rccChar (p : Buf) (k : Nat) : BitVec 8 := BitVec.ofNat 8 (fieldU p (58 + 32 * (k / 4) + 8 * (3 - k % 4)) 8)

theorem group_at (p after : Buf) (i : Nat) (hi : i < 4) (hp : 24 ≤ p.length) : ∀ (k j : Nat) (out : Buf), j + k = 4 → 16 ≤ out.length →
    ∃ r, group (p ++ after) i j k out = some r ∧ r.length = out.length ∧
      (∀ x : Nat, (x < 4 * i + j ∨ 4 * i + 4 ≤ x) → r[x]? = out[x]?) ∧
      (∀ y : Nat, j ≤ y → y < 4 → (∀ z, j ≤ z → z < y → rccChar p (4 * i + z) ≠ 0) → r[4 * i + y]? = some (rccChar p (4 * i + y))) := by
  intro k
  induction k with
  | zero => intro j out hj ho; exact ⟨out, rfl, rfl, fun _ _ => rfl, fun y h1 h2 => by omega⟩
  | succ k ih =>
    intro j out hj ho
    rw [group, Misc.rawGet_at p after _ 8 (by omega) (by omega)]
    simp only [Option.bind_eq_bind, Option.bind_some, put]
    rw [if_pos (by omega)]
    simp only [Option.bind_some]
    have hc : BitVec.ofNat 8 (fieldU p (58 + 24 + 32 * i - j * 8) 8) = rccChar p (4 * i + j) := by
      unfold rccChar
      rw [show 58 + 24 + 32 * i - j * 8 = 58 + 32 * ((4 * i + j) / 4) + 8 * (3 - (4 * i + j) % 4) by omega]
    rw [hc, show i * 4 + j = 4 * i + j by omega]
    have hset : (out.set (4 * i + j) (rccChar p (4 * i + j)))[4 * i + j]? = some (rccChar p (4 * i + j)) :=
      List.getElem?_set_self (by omega)
    by_cases hz : rccChar p (4 * i + j) = 0#8
    · rw [if_pos hz]
      refine ⟨_, rfl, List.length_set, ?_, ?_⟩
      · intro x hx; exact List.getElem?_set_ne (by omega)
      · intro y h1 h2 h3
        by_cases e : y = j
        · subst e; exact hset
        · exact absurd hz (h3 j (by omega) (by omega))
    · rw [if_neg hz]
      obtain ⟨r, a1, a2, a3, a4⟩ := ih (j + 1) (out.set (4 * i + j) (rccChar p (4 * i + j))) (by omega) (by rw [List.length_set]; exact ho)
      refine ⟨r, a1, by rw [a2, List.length_set], ?_, ?_⟩
      · intro x hx
        rw [a3 x (by omega), List.getElem?_set_ne (by omega)]
      · intro y h1 h2 h3
        by_cases e : y = j
        · subst e
          rw [a3 _ (by omega)]; exact hset
        · exact a4 y (by omega) h2 (fun z b1 b2 => h3 z (by omega) b2)

theorem cstr_eq (l : Buf) (c : Nat → BitVec 8) (m : Nat) (h : ∀ k : Nat, k < m → l[k]? = some (c k) ∧ c k ≠ 0) (hm : l[m]? = some 0) :
    cstr l = (List.range m).map c := by
  have hl : m < l.length := by
    rw [List.getElem?_eq_some_iff] at hm
    exact hm.1
  have e : l = (List.range m).map c ++ 0 :: l.drop (m + 1) := by
    apply List.ext_getElem?
    intro k
    rcases Nat.lt_trichotomy k m with hk | hk | hk
    · rw [(h k hk).1, List.getElem?_append_left (by simpa using hk), List.getElem?_map, List.getElem?_range hk]; rfl
    · subst hk
      rw [hm, List.getElem?_append_right (by simp)]; simp
    · rw [List.getElem?_append_right (by simp; omega)]
      simp only [List.length_map, List.length_range]
      rw [show k - m = (k - m - 1) + 1 by omega, List.getElem?_cons_succ, List.getElem?_drop]
      congr 1; omega
  unfold cstr
  rw [e, List.takeWhile_append_of_pos]
  · simp
  · intro x hx
    obtain ⟨k, hk, rfl⟩ := List.mem_map.1 hx
    simpa using (h k (List.mem_range.1 hk)).2

theorem takeWhile_range (c : Nat → BitVec 8) (n : Nat) :
    ∃ m ≤ n, ((List.range n).map c).takeWhile (· ≠ 0) = (List.range m).map c ∧ (∀ k < m, c k ≠ 0) ∧ (m < n → c m = 0) := by
  induction n with
  | zero => exact ⟨0, by omega, rfl, by omega, by omega⟩
  | succ n ih =>
    obtain ⟨m, h1, h2, h3, h4⟩ := ih
    rw [List.range_succ, List.map_append, List.map_singleton]
    by_cases e : m < n
    · refine ⟨m, by omega, ?_, h3, fun _ => h4 e⟩
      rw [← h2, List.takeWhile_append, if_neg]
      intro hl
      rw [h2] at hl
      simp at hl; omega
    · have e : m = n := by omega
      subst e
      have hl : (((List.range m).map c).takeWhile (· ≠ 0)).length = ((List.range m).map c).length := by rw [h2]
      by_cases hz : c m = 0
      · refine ⟨m, by omega, ?_, h3, fun _ => hz⟩
        rw [List.takeWhile_append, if_pos hl]
        simp [hz]
      · refine ⟨m + 1, by omega, ?_, ?_, by omega⟩
        · rw [List.takeWhile_append, if_pos hl, List.range_succ, List.map_append, List.map_singleton]
          congr 1
          rw [List.takeWhile_cons, if_pos (by simpa using hz)]; rfl
        · intro k hk
          by_cases e : k = m
          · rw [e]; exact hz
          · exact h3 k (by omega)

/-- **C69** The configuration text, read as a C string, is the text of the message with the characters of each group in the right order, up
to its first zero byte and at most 15 characters; only the first 16 bytes of the caller's array change; nothing outside the message is
read. -/
theorem C69_rcc (p after out : Buf) (h1 : fieldU p 0 12 = 999) (h2 : fieldU p 12 8 = 2) (hp : 24 ≤ p.length) (ho : 16 ≤ out.length) :
    ∃ r, rccConfig (p ++ after) out = some r ∧ r.length = out.length ∧ r.drop 16 = out.drop 16 ∧
      cstr r = ((List.range 15).map (rccChar p)).takeWhile (· ≠ 0) := by
  unfold rccConfig
  rw [Misc.rawGet_at p after 0 12 (by omega) (by omega), Misc.rawGet_at p after 12 8 (by omega) (by omega)]
  simp only [Option.bind_eq_bind, Option.bind_some]
  rw [if_neg (by simp [h1, h2]; omega)]
  obtain ⟨r0, a0, l0, u0, c0⟩ := group_at p after 0 (by omega) hp 4 0 out rfl ho
  obtain ⟨r1, a1, l1, u1, c1⟩ := group_at p after 1 (by omega) hp 4 0 r0 rfl (by omega)
  obtain ⟨r2, a2, l2, u2, c2⟩ := group_at p after 2 (by omega) hp 4 0 r1 rfl (by omega)
  obtain ⟨r3, a3, l3, u3, c3⟩ := group_at p after 3 (by omega) hp 4 0 r2 rfl (by omega)
  rw [a0]; simp only [Option.bind_some]
  rw [a1]; simp only [Option.bind_some]
  rw [a2]; simp only [Option.bind_some]
  rw [a3]; simp only [Option.bind_some, put]
  rw [if_pos (by omega)]
  refine ⟨_, rfl, by rw [List.length_set]; omega, ?_, ?_⟩
  · apply List.ext_getElem?
    intro k
    rw [List.getElem?_drop, List.getElem?_drop, List.getElem?_set_ne (by omega), u3 _ (by omega), u2 _ (by omega), u1 _ (by omega),
      u0 _ (by omega)]
  · obtain ⟨m, hm, e, g1, g2⟩ := takeWhile_range (rccChar p) 15
    rw [e]
    have key : ∀ k : Nat, k < 15 → (∀ z < k, rccChar p z ≠ 0) → (r3.set 15 0)[k]? = some (rccChar p k) := by
      intro k hk hz
      rw [List.getElem?_set_ne (by omega)]
      by_cases k3 : 12 ≤ k
      · have := c3 (k - 12) (by omega) (by omega) (fun z _ h => hz _ (by omega))
        rwa [show 4 * 3 + (k - 12) = k by omega] at this
      rw [u3 _ (by omega)]
      by_cases k2 : 8 ≤ k
      · have := c2 (k - 8) (by omega) (by omega) (fun z _ h => hz _ (by omega))
        rwa [show 4 * 2 + (k - 8) = k by omega] at this
      rw [u2 _ (by omega)]
      by_cases k1 : 4 ≤ k
      · have := c1 (k - 4) (by omega) (by omega) (fun z _ h => hz _ (by omega))
        rwa [show 4 * 1 + (k - 4) = k by omega] at this
      rw [u1 _ (by omega)]
      have := c0 k (by omega) (by omega) (fun z _ h => hz _ (by omega))
      rwa [show 4 * 0 + k = k by omega] at this
    apply cstr_eq
    · intro k hk
      exact ⟨key k (by omega) (fun z hz => g1 z (by omega)), g1 k hk⟩
    · by_cases e15 : m = 15
      · rw [e15]; exact List.getElem?_set_self (by omega)
      · rw [key m (by omega) g1, g2 (by omega)]

/-- the text of the test data of the repository -/
def exRcc : Buf := [0x3E, 0x70, 0x20, 0x00, 0x3F, 0x3F, 0xFF, 0xD0, 0x4D, 0x94, 0x94, 0x0E, 0x0D, 0x8C, 0x08, 0x18, 0x8D, 0xCE, 0x4D, 0xC0, 0x00,
    0x0C, 0x4C, 0x40]
example : fieldU exRcc 0 12 = 999 ∧ fieldU exRcc 12 8 = 2 ∧ 24 ≤ exRcc.length ∧
    (rccConfig exRcc (List.replicate 20 7)).map cstr = some (Misc.asc "PR6A 068797b11") := by decide +kernel

end Verif.Sta
