import Verif.Spec.Ixcom
/-! The iXCOM reader. -/
namespace Verif.Ixcom
open Verif.Ixcom.Spec

theorem lenField_append {p : Buf} (u : Buf) (h : 6 ≤ p.length) : lenField (p ++ u) = lenField p := by
  unfold lenField
  simp only [List.getD_eq_getElem?_getD]
  rw [List.getElem?_append_left (by omega), List.getElem?_append_left (by omega)]

theorem head_append {p : Buf} (u : Buf) (h : p ≠ []) : (p ++ u).head? = p.head? := by
  cases p with
  | nil => exact absurd rfl h
  | cons a p => rfl

/-- a stream that begins with the sync byte -/
theorem cut_sync {s : Buf} {fs : List Buf} {r : Buf} (h : Cut s fs r) (h0 : s.head? = some 0x7E#8) :
    (fs = [] ∧ r = s ∧ Begins s) ∨ ∃ f s' fs', s = f ++ s' ∧ fs = f :: fs' ∧ IsFrame f ∧ Cut s' fs' r := by
  cases h with
  | nil => simp at h0
  | rest _ hb => exact .inl ⟨rfl, rfl, hb⟩
  | noise b s _ _ hb _ => simp at h0; exact absurd h0 hb
  | frame f s fs _ hf hc => exact .inr ⟨f, s, fs, rfl, rfl, hf, hc⟩

theorem cut_noise {b : BitVec 8} {s : Buf} {fs : List Buf} {r : Buf} (h : Cut (b :: s) fs r) (hb : b ≠ 0x7E#8) : Cut s fs r := by
  generalize hx : b :: s = x at h
  cases h with
  | nil => cases hx
  | rest _ h => subst hx; have := h.sync; simp at this; exact absurd this hb
  | noise b' s' _ _ _ h => obtain ⟨rfl, rfl⟩ := List.cons.inj hx; exact h
  | frame f s' fs _ hf _ =>
    have := hf.sync
    match f, this with
    | a :: f, this => simp at this; subst this; exact absurd (List.cons.inj hx).1 hb

/-- a stream that begins with a whole header -/
theorem cut_header {p u : Buf} {fs : List Buf} {r : Buf} (h : Cut (p ++ u) fs r) (h0 : p.head? = some 0x7E#8) (hl : 16 ≤ p.length) :
    16 < lenField p ∧ lenField p < 4096 ∧
    ((fs = [] ∧ (p ++ u).length < lenField p) ∨
     ∃ fs', fs = (p ++ u).take (lenField p) :: fs' ∧ lenField p ≤ (p ++ u).length ∧ Cut ((p ++ u).drop (lenField p)) fs' r) := by
  have hp : p ≠ [] := by intro h; subst h; simp at hl
  rcases cut_sync h (by rw [head_append u hp, h0]) with ⟨rfl, rfl, hb⟩ | ⟨f, s', fs', he, rfl, hf, hc⟩
  · have := hb.rest (by simp; omega)
    rw [lenField_append u (by omega)] at this
    exact ⟨this.1, this.2.1, .inl ⟨rfl, this.2.2⟩⟩
  · have e : lenField f = lenField p := by
      rw [← lenField_append s' (by have := hf.lo; omega), ← he, lenField_append u (by omega)]
    have h1 := hf.len
    have h2 := hf.lo
    have h3 := hf.hi
    rw [← e]
    refine ⟨by omega, by omega, .inr ⟨fs', ?_, ?_, ?_⟩⟩
    · rw [he, ← h1, List.take_left]
    · rw [he]; simp; omega
    · rw [he, ← h1, List.drop_left]; exact hc

/-! ### the source -/

theorem dataOf_cons_data (b : Buf) (s : List Rd) : dataOf (.data b :: s) = b ++ dataOf s := rfl
theorem dataOf_cons_err (k : Nat) (s : List Rd) : dataOf (.err k :: s) = dataOf s := rfl

theorem left_eq (st : St) : st.left = (dataOf st.src).length := by
  unfold St.left dataOf
  rw [List.length_flatMap]
  congr 1
  refine List.map_congr_left fun r _ => ?_
  cases r <;> rfl

/-- what a read does: nothing (at the end of the source, or because an element of it is used up), or some bytes -/
theorem readFn_spec (src : List Rd) {n : Nat} (hn : 0 < n) :
    (src = [] ∧ readFn src n = ([], .ok [])) ∨
    (∃ s c, src ≠ [] ∧ s.length < src.length ∧ dataOf src = dataOf s ∧ c ≤ 0 ∧
      (readFn src n = (s, .error c) ∨ readFn src n = (s, .ok []) ∧ c = 0)) ∨
    ∃ s b, readFn src n = (s, .ok b) ∧ b ≠ [] ∧ b.length ≤ n ∧ s.length ≤ src.length ∧ dataOf src = b ++ dataOf s := by
  match src with
  | [] => exact .inl ⟨rfl, rfl⟩
  | .err k :: s =>
    exact .inr (.inl ⟨s, -(k + 1), by simp, by simp, rfl, by omega, .inl rfl⟩)
  | .data b :: s =>
    unfold readFn
    by_cases h : b.length ≤ n
    · simp only [h, if_true]
      by_cases hb : b = []
      · subst hb; exact .inr (.inl ⟨s, 0, by simp, by simp, rfl, by omega, .inr ⟨rfl, rfl⟩⟩)
      · exact .inr (.inr ⟨s, b, rfl, hb, h, by simp, rfl⟩)
    · simp only [h, if_false]
      refine .inr (.inr ⟨_, _, rfl, ?_, ?_, by simp, ?_⟩)
      · intro h0; have := congrArg List.length h0; rw [List.length_take] at this; simp only [List.length_nil] at this; omega
      · simp
      · rw [dataOf_cons_data, dataOf_cons_data, ← List.append_assoc, List.take_append_drop]

/-! ### the buffer -/

/-- bytes of the frame being read -/
def St.pend (st : St) : Buf := st.buf.take st.index

/-- the buffer, beyond what has been read, is still `B` (but for its first byte) -/
structure Inv (B : Buf) (st : St) : Prop where
  lenB : B.length = 4096
  len : st.buf.length = 4096
  over : st.buf.drop (max 1 st.index) = B.drop (max 1 st.index)
  index : st.index < 4096

/-- between calls -/
structure Good (st : St) : Prop where
  sync : 0 < st.index → st.buf.head? = some 0x7E#8
  part : 16 ≤ st.index → st.index < lenField st.buf

theorem pend_length {B : Buf} {st : St} (h : Inv B st) : st.pend.length = st.index := by
  have := h.len; have := h.index
  unfold St.pend; rw [List.length_take]; omega

theorem buf_len (st : St) : (st.buf.getD 4 0).toNat + ((st.buf.getD 5 0).toNat <<< 8) = lenField st.buf := by
  unfold lenField; rw [Nat.shiftLeft_eq]; omega

theorem lenField_pend {B : Buf} {st : St} (hi : Inv B st) (h : 16 ≤ st.index) : lenField st.pend = lenField st.buf := by
  have : st.buf = st.pend ++ st.buf.drop st.index := (List.take_append_drop _ _).symm
  conv => rhs; rw [this]
  rw [lenField_append _ (by rw [pend_length hi]; omega)]

theorem head_pend {st : St} (h : 0 < st.index) : st.pend.head? = st.buf.head? := by
  unfold St.pend
  cases hb : st.buf with
  | nil => simp
  | cons a l => rw [show st.index = (st.index - 1) + 1 by omega, List.take_succ_cons]; rfl

/-- a read: nothing, or `b` appended to what has been read -/
theorem readBytes_spec {B : Buf} {st : St} (hi : Inv B st) {n : Nat} (hn : 0 < n) (hb : st.index + n < 4096) :
    ∃ st' ret, readBytes st n = some (st', ret) ∧ Inv B st' ∧ st'.sent = st.sent ∧
      ((ret ≤ 0 ∧ st'.index = st.index ∧ st'.buf = st.buf ∧ dataOf st'.src = dataOf st.src ∧
        (st'.src.length < st.src.length ∨ st.src = [] ∧ st'.src = [])) ∨
       ∃ b, 0 < ret ∧ b ≠ [] ∧ st'.index = st.index + b.length ∧ st'.index ≤ st.index + n ∧ st'.pend = st.pend ++ b ∧
        dataOf st.src = b ++ dataOf st'.src ∧ st'.src.length ≤ st.src.length) := by
  unfold readBytes
  rw [if_neg (by omega)]
  have hL := hi.len
  rcases readFn_spec st.src hn with ⟨h1, h2⟩ | ⟨s, c, h1, h2, h3, h4, h5⟩ | ⟨s, b, h1, h2, h3, h4, h5⟩
  · rw [h2]
    refine ⟨_, _, rfl, ?_, rfl, .inl ⟨by simp, by simp, by simp, by simp [h1], .inr ⟨h1, rfl⟩⟩⟩
    exact ⟨hi.lenB, by simp [hL], by simpa using hi.over, by simpa using hi.index⟩
  · rcases h5 with h5 | ⟨h5, rfl⟩
    · rw [h5]
      exact ⟨_, _, rfl, ⟨hi.lenB, hL, hi.over, hi.index⟩, rfl, .inl ⟨h4, rfl, rfl, h3.symm, .inl h2⟩⟩
    · rw [h5]
      refine ⟨_, _, rfl, ?_, rfl, .inl ⟨by simp, by simp, by simp, h3.symm, .inl h2⟩⟩
      exact ⟨hi.lenB, by simp [hL], by simpa using hi.over, by simpa using hi.index⟩
  · rw [h1]
    have hbl : 0 < b.length := List.length_pos_iff.2 h2
    refine ⟨_, _, rfl, ?_, rfl,   .inr ⟨b, by omega, h2, rfl, by simp only; omega, ?_, h5, h4⟩⟩
    · refine ⟨hi.lenB, ?_, ?_, ?_⟩
      · simp only [List.length_append, List.length_take, List.length_drop]; omega
      · simp only
        rw [show max 1 (st.index + b.length) = st.index + b.length by omega]
        rw [List.append_assoc, List.drop_append, List.drop_eq_nil_of_le (by simp), List.nil_append, List.length_take,
          Nat.min_eq_left (by omega), Nat.add_sub_cancel_left, List.drop_left]
        have := congrArg (List.drop (st.index + b.length - max 1 st.index)) hi.over
        rw [List.drop_drop, List.drop_drop] at this
        rwa [show max 1 st.index + (st.index + b.length - max 1 st.index) = st.index + b.length by omega] at this
      · simp only; omega
    · unfold St.pend
      simp only
      rw [List.take_append_of_le_length (by rw [List.length_append, List.length_take]; omega)]
      exact List.take_of_length_le (by rw [List.length_append, List.length_take]; omega)

/-! ### the loop -/

/-- unread: what has been read of a frame, and what the source still has -/
def St.rest (st : St) : Buf := st.pend ++ dataOf st.src

theorem cut_nil {fs : List Buf} {r : Buf} (h : Cut [] fs r) : fs = [] := by
  generalize hx : ([] : Buf) = x at h
  cases h with
  | nil => rfl
  | rest => rfl
  | noise => cases hx
  | frame f s fs _ hf _ =>
    have := congrArg List.length hx
    have := hf.lo
    simp at *; omega

/-- at the end of the source there is no complete frame -/
theorem good_end {B : Buf} {st : St} (hi : Inv B st) (hg : Good st) {fs : List Buf} {r : Buf} (h : Cut st.rest fs r) (hs : st.src = []) :
    fs = [] := by
  unfold St.rest at h
  rw [hs, show dataOf [] = [] from rfl, List.append_nil] at h
  by_cases h0 : st.index = 0
  · have : st.pend = [] := by unfold St.pend; rw [h0]; rfl
    rw [this] at h; exact cut_nil h
  · have hsync : st.pend.head? = some 0x7E#8 := by rw [head_pend (by omega), hg.sync (by omega)]
    rcases cut_sync h hsync with ⟨h, _⟩ | ⟨f, s, fs', he, _, hf, _⟩
    · exact h
    · exfalso
      have hl := congrArg List.length he
      rw [pend_length hi, List.length_append] at hl
      have h1 := hf.lo
      have h2 := hf.len
      have h3 := hg.part (by omega)
      rw [← lenField_pend hi (by omega), he, lenField_append _ (by omega)] at h3
      omega

theorem good_header {B : Buf} {st : St} (hi : Inv B st) {fs : List Buf} {r : Buf} (h : Cut st.rest fs r)
    (hs : st.buf.head? = some 0x7E#8) (h0 : 0 < st.index) (h16 : st.index ≤ 16) : Good st := by
  refine ⟨fun _ => hs, fun h1 => ?_⟩
  have := cut_header h (by rw [head_pend h0, hs]) (by rw [pend_length hi]; exact h1)
  rw [lenField_pend hi h1] at this
  omega

/-- what an iteration, or the end of one, does -/
def Step (B : Buf) (st : St) (fs : List Buf) (r : Buf) (k : Nat) (x : St × Option Int) : Prop :=
  x.1.sent = st.sent ∧
  match x.2 with
  | none => Inv B x.1 ∧ Good x.1 ∧ Cut x.1.rest fs r ∧ (dataOf x.1.src).length + k ≤ (dataOf st.src).length ∧
      x.1.src.length ≤ st.src.length
  | some ret =>
    (ret ≤ 0 ∧ Inv B x.1 ∧ Good x.1 ∧ Cut x.1.rest fs r ∧ (x.1.src.length < st.src.length ∨ x.1.src = [] ∧ fs = [])) ∨
    (0 < ret ∧ ∃ f fs', fs = f :: fs' ∧ ret = f.length ∧ IsFrame f ∧ x.1.buf = f ++ B.drop f.length ∧ Cut (dataOf x.1.src) fs' r ∧
      x.1.src.length ≤ st.src.length)

theorem part3_spec {B : Buf} {st : St} (hi : Inv B st) (hg : Good st) {fs : List Buf} {r : Buf} (h : Cut st.rest fs r)
    (h0 : 0 < st.index) : ∃ x, part3 st = some x ∧ Step B st fs r (if 16 ≤ st.index then 1 else 0) x := by
  unfold part3
  by_cases h16 : 16 ≤ st.index
  · rw [if_pos h16, if_pos h16]
    simp only [buf_len]
    have hp := hg.part h16
    have hc := cut_header h (by rw [head_pend h0, hg.sync h0]) (by rw [pend_length hi]; exact h16)
    rw [lenField_pend hi h16] at hc
    obtain ⟨hc1, hc2, hc3⟩ := hc
    rw [if_neg (by omega)]
    obtain ⟨st', ret, h1, h2, hsent, h3⟩ := readBytes_spec hi (n := lenField st.buf - st.index) (by omega) (by omega)
    rw [h1]
    refine ⟨_, rfl, ?_⟩
    unfold Step
    dsimp only
    refine ⟨hsent, ?_⟩
    rcases h3 with ⟨h3, h4, h5, h6, h7⟩ | ⟨b, h3, h4, h5, h6, h7, h8, h9⟩
    · rw [if_pos h3]
      have hg' : Good st' := ⟨by rw [h4, h5]; exact hg.sync, by rw [h4, h5]; exact hg.part⟩
      have hr : st'.rest = st.rest := by unfold St.rest St.pend; rw [h4, h5, h6]
      refine .inl ⟨h3, h2, hg', by rw [hr]; exact h, ?_⟩
      rcases h7 with h7 | ⟨h7, h8⟩
      · exact .inl h7
      · exact .inr ⟨h8, good_end hi hg h h7⟩
    · rw [if_neg (by omega)]
      have hr : st'.rest = st.rest := by unfold St.rest; rw [h7, h8, List.append_assoc]
      have hbuf : st'.buf.head? = some 0x7E#8 := by
        rw [← head_pend (by omega), h7, head_append _ (by intro h; have := pend_length hi; rw [h] at this; simp at this; omega),
          head_pend h0, hg.sync h0]
      have hlf : lenField st'.buf = lenField st.buf := by
        rw [← lenField_pend h2 (by omega), h7, lenField_append _ (by rw [pend_length hi]; omega), lenField_pend hi h16]
      by_cases hd : lenField st.buf ≤ st'.index
      · rw [if_pos hd]
        have hidx : st'.index = lenField st.buf := by omega
        have htake : st'.pend = st.rest.take (lenField st.buf) := by
          rw [← hr]; unfold St.rest
          rw [List.take_append_of_le_length (by rw [pend_length h2]; omega), List.take_of_length_le (by rw [pend_length h2]; omega)]
        rcases hc3 with ⟨_, hc3⟩ | ⟨fs', hc3, hc4, hc5⟩
        · have : st.rest.length < lenField st.buf := hc3
          rw [← hr] at this
          unfold St.rest at this
          rw [List.length_append, pend_length h2] at this
          omega
        · refine .inr ⟨by omega, st'.pend, fs', ?_, ?_, ?_, ?_, ?_, h9⟩
          · rw [hc3, htake]; rfl
          · rw [pend_length h2, hidx]
          · refine ⟨by rw [head_pend (by omega), hbuf], ?_, ?_, ?_⟩
            · rw [pend_length h2, lenField_pend h2 (by omega), hlf, hidx]
            · rw [pend_length h2]; omega
            · rw [pend_length h2]; omega
          · rw [pend_length h2]
            have := h2.over
            rw [show max 1 st'.index = st'.index by omega] at this
            rw [← this]; exact (List.take_append_drop _ _).symm
          · have e : st.rest.drop (lenField st.buf) = dataOf st'.src := by
              rw [← hr]; unfold St.rest
              rw [List.drop_append, List.drop_eq_nil_of_le (by rw [pend_length h2]; omega), pend_length h2, hidx, Nat.sub_self]
              rfl
            rw [← e]; exact hc5
      · rw [if_neg hd]
        refine ⟨h2, ⟨fun _ => hbuf, fun _ => by omega⟩, by rw [hr]; exact h, ?_, h9⟩
        rw [h8, List.length_append]
        have := List.length_pos_iff.2 h4
        omega
  · rw [if_neg h16, if_neg h16]
    exact ⟨_, rfl, rfl, hi, hg, h, by simp, Nat.le_refl _⟩

theorem Step.mono {B : Buf} {st st2 : St} {fs : List Buf} {r : Buf} {k k' : Nat} {x : St × Option Int} (h : Step B st2 fs r k x)
    (hs : st2.sent = st.sent) (hd : (dataOf st2.src).length + k' ≤ (dataOf st.src).length + k) (hl : st2.src.length ≤ st.src.length) :
    Step B st fs r k' x := by
  obtain ⟨h1, h2⟩ := h
  refine ⟨h1.trans hs, ?_⟩
  match hx : x.2 with
  | none =>
    rw [hx] at h2
    obtain ⟨a, b, c, d, e⟩ := h2
    exact ⟨a, b, c, by omega, by omega⟩
  | some ret =>
    rw [hx] at h2
    rcases h2 with ⟨a, b, c, d, e⟩ | ⟨a, f, fs', b, c, d, e, g, i⟩
    · exact .inl ⟨a, b, c, d, by rcases e with e | e; exacts [.inl (by omega), .inr e]⟩
    · exact .inr ⟨a, f, fs', b, c, d, e, g, by omega⟩

theorem part2_spec {B : Buf} {st : St} (hi : Inv B st) (hg : Good st) {fs : List Buf} {r : Buf} (h : Cut st.rest fs r)
    (h0 : 0 < st.index) : ∃ x, part2 st = some x ∧ Step B st fs r 1 x := by
  unfold part2
  by_cases h16 : st.index < 16
  · rw [if_pos ⟨h0, h16⟩]
    obtain ⟨st', ret, h1, h2, hsent, h3⟩ := readBytes_spec hi (n := 16 - st.index) (by omega) (by omega)
    rw [h1]
    simp only [Option.bind_eq_bind, Option.bind_some]
    rcases h3 with ⟨h3, h4, h5, h6, h7⟩ | ⟨b, h3, h4, h5, h6, h7, h8, h9⟩
    · rw [if_pos h3]
      have hg' : Good st' := ⟨by rw [h4, h5]; exact hg.sync, by rw [h4, h5]; exact hg.part⟩
      have hr : st'.rest = st.rest := by unfold St.rest St.pend; rw [h4, h5, h6]
      refine ⟨_, rfl, hsent, .inl ⟨h3, h2, hg', by rw [hr]; exact h, ?_⟩⟩
      rcases h7 with h7 | ⟨h7, h8⟩
      · exact .inl h7
      · exact .inr ⟨h8, good_end hi hg h h7⟩
    · rw [if_neg (by omega)]
      have hr : st'.rest = st.rest := by unfold St.rest; rw [h7, h8, List.append_assoc]
      have hbuf : st'.buf.head? = some 0x7E#8 := by
        rw [← head_pend (by omega), h7, head_append _ (by intro h; have := pend_length hi; rw [h] at this; simp at this; omega),
          head_pend h0, hg.sync h0]
      have hc : Cut st'.rest fs r := by rw [hr]; exact h
      obtain ⟨x, hx, hs⟩ := part3_spec h2 (good_header h2 hc hbuf (by omega) (by omega)) hc (by omega)
      refine ⟨x, hx, hs.mono hsent ?_ h9⟩
      rw [h8, List.length_append]
      have := List.length_pos_iff.2 h4
      omega
  · rw [if_neg (by omega)]
    obtain ⟨x, hx, hs⟩ := part3_spec hi hg h h0
    rw [if_pos (by omega)] at hs
    exact ⟨x, hx, hs⟩

theorem part1_spec {B : Buf} {st : St} (hi : Inv B st) (hg : Good st) {fs : List Buf} {r : Buf} (h : Cut st.rest fs r) :
    ∃ x, part1 st = some x ∧ Step B st fs r 1 x := by
  unfold part1
  by_cases h0 : st.index = 0
  · rw [if_pos h0]
    obtain ⟨st', ret, h1, h2, hsent, h3⟩ := readBytes_spec hi (n := 1) (by omega) (by omega)
    rw [h1]
    simp only [Option.bind_eq_bind, Option.bind_some]
    rcases h3 with ⟨h3, h4, h5, h6, h7⟩ | ⟨b, h3, h4, h5, h6, h7, h8, h9⟩
    · rw [if_pos h3]
      have hg' : Good st' := ⟨by rw [h4, h5]; exact hg.sync, by rw [h4, h5]; exact hg.part⟩
      have hr : st'.rest = st.rest := by unfold St.rest St.pend; rw [h4, h5, h6]
      refine ⟨_, rfl, hsent, .inl ⟨h3, h2, hg', by rw [hr]; exact h, ?_⟩⟩
      rcases h7 with h7 | ⟨h7, h8⟩
      · exact .inl h7
      · exact .inr ⟨h8, good_end hi hg h h7⟩
    · rw [if_neg (by omega)]
      have hr : st'.rest = st.rest := by unfold St.rest; rw [h7, h8, List.append_assoc]
      have hp0 : st.pend = [] := by unfold St.pend; rw [h0]; rfl
      have hb1 : b.length = 1 := by have := List.length_pos_iff.2 h4; omega
      obtain ⟨c, rfl⟩ := List.length_eq_one_iff.1 hb1
      rw [hp0, List.nil_append] at h7
      have hi1 : st'.index = 1 := by rw [h5, h0]; rfl
      have hhead : st'.buf.head? = some c := by rw [← head_pend (by omega), h7]; rfl
      have hget : st'.buf.getD 0 0 = c := by
        cases hb : st'.buf with
        | nil => rw [hb] at hhead; simp at hhead
        | cons a l => rw [hb] at hhead; simpa using hhead
      rw [hget]
      have hc : Cut st'.rest fs r := by rw [hr]; exact h
      by_cases hcs : c = 0x7E#8
      · subst hcs
        rw [if_neg (by simp)]
        obtain ⟨x, hx, hs⟩ := part2_spec h2 (good_header h2 hc hhead (by omega) (by omega)) hc (by omega)
        refine ⟨x, hx, hs.mono hsent ?_ h9⟩
        rw [h8, List.length_append]
        simp
      · rw [if_pos hcs]
        refine ⟨_, rfl, hsent, ⟨h2.lenB, h2.len, ?_, by simp⟩, ⟨by simp, by simp⟩, ?_, ?_, h9⟩
        · have := h2.over; rw [hi1] at this; exact this
        · unfold St.rest at hc
          rw [h7] at hc
          have := cut_noise hc hcs
          simpa [St.rest, St.pend] using this
        · rw [h8, List.length_append]; simp
  · rw [if_neg h0]
    exact part2_spec hi hg h (by omega)

theorem loop_spec {B : Buf} (fuel : Nat) : ∀ {st : St}, Inv B st → Good st → ∀ {fs : List Buf} {r : Buf}, Cut st.rest fs r →
    (dataOf st.src).length < fuel → ∃ st' ret, readFrameLoop fuel st = some (st', ret) ∧ Step B st fs r 0 (st', some ret) := by
  induction fuel with
  | zero => intro st _ _ fs r _ h; omega
  | succ fuel ih =>
    intro st hi hg fs r hc hf
    obtain ⟨⟨st1, o⟩, hx, hs⟩ := part1_spec hi hg hc
    unfold readFrameLoop
    rw [hx]
    simp only [Option.bind_eq_bind, Option.bind_some]
    cases o with
    | some ret =>
      exact ⟨st1, ret, rfl, hs.1, hs.2⟩
    | none =>
      obtain ⟨h1, h2, h3, h4, h5, h6⟩ := hs
      simp only at h1 h2 h3 h4 h5 h6
      obtain ⟨st', ret, h7, h8⟩ := ih h2 h3 h4 (by omega)
      exact ⟨st', ret, h7, h8.mono h1 (by omega) h6⟩

/-! ### the calls -/

/-- the frames handled one after the other, each laid over the buffer left by the one before -/
def convert (B : Buf) (sent : BitVec 8) : List Buf → Option (List Out)
  | [] => some []
  | f :: fs => do
    let (s, o) ← handle (f ++ B.drop f.length) sent
    let os ← convert (f ++ B.drop f.length) s fs
    some (o ++ os)

theorem calls_spec (n : Nat) : ∀ {B : Buf} {st : St}, Inv B st → Good st → ∀ {fs : List Buf} {r : Buf}, Cut st.rest fs r →
    st.src.length + fs.length ≤ n → (calls n st).map (·.2) = convert B st.sent fs := by
  induction n with
  | zero =>
    intro B st hi hg fs r hc hn
    have : fs = [] := List.eq_nil_of_length_eq_zero (by omega)
    subst this; rfl
  | succ n ih =>
    intro B st hi hg fs r hc hn
    obtain ⟨st', ret, h1, h2, h3⟩ := loop_spec (st.left + 1) hi hg hc (by rw [left_eq]; omega)
    unfold calls process readFrame
    rw [h1]
    simp only [Option.bind_eq_bind, Option.bind_some]
    simp only at h2 h3
    rcases h3 with ⟨h3, h4, h5, h6, h7⟩ | ⟨h3, f, fs', rfl, h5, h6, h7, h8, h9⟩
    · rw [if_pos h3]
      simp only [Option.bind_some, List.nil_append]
      have := ih h4 h5 h6 (by
        rcases h7 with h7 | ⟨h7, h8⟩
        · omega
        · rw [h7, h8]; simp)
      rw [h2] at this
      rw [← this]
      cases calls n st' <;> rfl
    · rw [if_neg (by omega)]
      unfold convert
      rw [h7, h2]
      cases hh : handle (f ++ B.drop f.length) st.sent with
      | none => simp
      | some x =>
        obtain ⟨s, o⟩ := x
        simp only [Option.bind_eq_bind, Option.bind_some]
        have hl : (f ++ B.drop f.length).length = 4096 := by
          rw [List.length_append, List.length_drop, hi.lenB]; have := h6.hi; omega
        have hi' : Inv (f ++ B.drop f.length) { st' with sent := s, index := 0 } :=
          ⟨hl, by simp only; rw [h7]; exact hl, by simp only; rw [h7], by simp⟩
        have := ih hi' ⟨by simp, by simp⟩ (fs := fs') (r := r) (by simpa [St.rest, St.pend] using h8) (by
          simp only [List.length_cons] at hn ⊢; omega)
        simp only at this
        rw [← this]
        cases hcalls : calls n { st' with sent := s, index := 0 } with
        | none => rw [h7] at hcalls; simp [hcalls]
        | some y => rw [h7] at hcalls; simp [hcalls]

theorem start_inv (src : List Rd) : Inv (List.replicate 4096 0) (start src) ∧ Good (start src) :=
  ⟨⟨List.length_replicate, List.length_replicate, rfl, (by decide : 0 < 4096)⟩,
   ⟨fun h => absurd h (Nat.lt_irrefl 0), fun h => absurd h (by decide : ¬ 16 ≤ 0)⟩⟩

theorem start_rest (src : List Rd) : (start src).rest = dataOf src := by
  unfold St.rest St.pend
  show List.take 0 _ ++ _ = _
  rw [List.take_zero]; rfl

end Verif.Ixcom
