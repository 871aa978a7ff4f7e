import Verif.Lemmas.Ubx
import Mathlib.Data.Nat.ModEq
import Mathlib.Data.List.Forall2
/-
C37: the UBX reader delivers exactly the checksum-correct frames of the byte stream, however it is cut into reads.
C38: the UBX checksum detects every corruption of one byte or of two adjacent bytes.
-/
namespace Verif.Ubx
open Verif.Ubx.Spec

theorem checksum_from (b : Buf) (p q : BitVec 8) :
    (b.foldl (fun (c : BitVec 8 × BitVec 8) x => (c.1 + x, c.2 + (c.1 + x))) (p, q)).1.toNat = (p.toNat + sumA b) % 256 ∧
    (b.foldl (fun (c : BitVec 8 × BitVec 8) x => (c.1 + x, c.2 + (c.1 + x))) (p, q)).2.toNat = (q.toNat + b.length * p.toNat + sumB b) % 256 := by
  induction b generalizing p q with
  | nil => simp [sumA, sumB, Nat.mod_eq_of_lt p.isLt, Nat.mod_eq_of_lt q.isLt]
  | cons x b ih =>
    obtain ⟨h1, h2⟩ := ih (p + x) (q + (p + x))
    rw [List.foldl_cons]
    refine ⟨?_, ?_⟩
    · rw [h1, BitVec.toNat_add, Nat.mod_add_mod]
      simp only [sumA, List.map_cons, List.sum_cons]
      congr 1; omega
    · rw [h2, BitVec.toNat_add, BitVec.toNat_add]
      have h : (q.toNat + (p.toNat + x.toNat) % 2 ^ 8) % 2 ^ 8 + b.length * ((p.toNat + x.toNat) % 2 ^ 8) + sumB b ≡
          q.toNat + (p.toNat + x.toNat) + b.length * (p.toNat + x.toNat) + sumB b [MOD 256] := by
        refine Nat.ModEq.add (Nat.ModEq.add ?_ ?_) rfl
        · exact (Nat.mod_modEq _ _).trans (Nat.ModEq.add rfl (Nat.mod_modEq _ _))
        · exact Nat.ModEq.mul_left _ (Nat.mod_modEq _ _)
      rw [h]
      simp only [sumB, List.length_cons]
      congr 1; ring

/-- **C38 (algorithm).**  The checksum is the 8-bit Fletcher checksum. -/
theorem C38_fletcher (b : Buf) : (checksum b).1.toNat = sumA b % 256 ∧ (checksum b).2.toNat = sumB b % 256 := by
  have := checksum_from b 0 0
  simpa [checksum] using this

theorem sumA_append (u v : Buf) : sumA (u ++ v) = sumA u + sumA v := by simp [sumA]
theorem sumB_append (u v : Buf) : sumB (u ++ v) = sumB u + v.length * sumA u + sumB v := by
  induction u with
  | nil => simp [sumB, sumA]
  | cons x u ih =>
    simp only [List.cons_append, sumB, ih, List.length_append, sumA, List.map_cons, List.sum_cons]
    ring

theorem byte_eq {x y : BitVec 8} (h : x.toNat ≡ y.toNat [MOD 256]) : x = y := by
  apply BitVec.eq_of_toNat_eq
  have := x.isLt; have := y.isLt
  unfold Nat.ModEq at h
  omega

/-- two adjacent bytes are determined by the two sums -/
theorem pair_eq (u v : Buf) {x y x' y' : BitVec 8} (hA : sumA (u ++ [x, y] ++ v) % 256 = sumA (u ++ [x', y'] ++ v) % 256)
    (hB : sumB (u ++ [x, y] ++ v) % 256 = sumB (u ++ [x', y'] ++ v) % 256) : x = x' ∧ y = y' := by
  have h1 : x.toNat + y.toNat ≡ x'.toNat + y'.toNat [MOD 256] := by
    have : sumA (u ++ [x, y] ++ v) ≡ sumA (u ++ [x', y'] ++ v) [MOD 256] := hA
    simp only [sumA_append] at this
    have := Nat.ModEq.add_left_cancel' _ (Nat.ModEq.add_right_cancel' _ this)
    simpa [sumA] using this
  have h2 : x.toNat ≡ x'.toNat [MOD 256] := by
    have : sumB (u ++ [x, y] ++ v) ≡ sumB (u ++ [x', y'] ++ v) [MOD 256] := hB
    simp only [sumB_append, sumA_append] at this
    have e : ∀ x y : BitVec 8, sumB u + [x, y].length * sumA u + sumB [x, y] + v.length * (sumA u + sumA [x, y]) + sumB v =
        (sumB u + 2 * sumA u + v.length * sumA u + sumB v) + ((v.length + 1) * (x.toNat + y.toNat) + x.toNat) := by
      intro x y; simp [sumA, sumB]; ring
    rw [e, e] at this
    have := Nat.ModEq.add_left_cancel' _ this
    exact Nat.ModEq.add_left_cancel (Nat.ModEq.mul_left _ h1) this
  have hx := byte_eq h2
  subst hx
  exact ⟨rfl, byte_eq (Nat.ModEq.add_left_cancel' _ h1)⟩

/-- **C38.**  A corruption confined to two adjacent bytes, anywhere in a frame, sync characters and checksum included, never gives another
valid frame.  (A single corrupted byte is the case where one of the two bytes stays.) -/
theorem C38_detects {u v : Buf} {x y x' y' : BitVec 8} {body body' : Buf} (hf : IsFrame (u ++ [x, y] ++ v) body)
    (hf' : IsFrame (u ++ [x', y'] ++ v) body') : x = x' ∧ y = y' := by
  obtain ⟨cls, id, lo, hi, a, b, p, hb, he, -, -, ha, hbb⟩ := hf
  obtain ⟨cls', id', lo', hi', a', b', p', hb', he', -, -, ha', hbb'⟩ := hf'
  have hlb : body ≠ [] := by rw [hb]; simp
  have hlb' : body' ≠ [] := by rw [hb']; simp
  clear hb hb'
  have hlen : body.length = body'.length := by
    have h1 := congrArg List.length he
    have h2 := congrArg List.length he'
    simp at h1 h2; omega
  -- strip the sync characters
  match u, he, he' with
  | [], he, he' =>
    simp only [List.nil_append, List.cons_append, List.cons.injEq] at he he'
    exact ⟨by rw [he.1, he'.1], by rw [he.2.1, he'.2.1]⟩
  | [c], he, he' =>
    simp only [List.nil_append, List.cons_append, List.cons.injEq] at he he'
    have hx : x = x' := by rw [he.2.1, he'.2.1]
    refine ⟨hx, ?_⟩
    obtain ⟨z, bs, rfl⟩ := List.exists_cons_of_ne_nil hlb
    obtain ⟨z', bs', rfl⟩ := List.exists_cons_of_ne_nil hlb'
    simp only [List.cons_append, List.cons.injEq] at he he'
    obtain ⟨-, -, rfl, h1⟩ := he
    obtain ⟨-, -, rfl, h2⟩ := he'
    rw [h1] at h2
    obtain ⟨rfl, h4⟩ := List.append_inj' h2 (by simp)
    simp only [List.cons.injEq, and_true] at h4
    rw [h4.1, ha'] at ha
    simp only [sumA, List.map_cons, List.sum_cons] at ha
    have h5 : y'.toNat + (bs.map BitVec.toNat).sum ≡ y.toNat + (bs.map BitVec.toNat).sum [MOD 256] := ha
    exact byte_eq (Nat.ModEq.add_right_cancel' _ h5).symm
  | c :: d :: u, he, he' =>
    simp only [List.nil_append, List.cons_append, List.cons.injEq] at he he'
    obtain ⟨-, -, he⟩ := he
    obtain ⟨-, -, he'⟩ := he'
    rcases List.eq_nil_or_concat v with rfl | ⟨v1, w, rfl⟩
    · -- the two checksum bytes
      rw [List.append_nil] at he he'
      obtain ⟨rfl, h1⟩ := List.append_inj' he rfl
      obtain ⟨h2, h3⟩ := List.append_inj' he' rfl
      subst h2
      simp only [List.cons.injEq, and_true] at h1 h3
      rw [h1.1, h1.2, h3.1, h3.2]
      exact ⟨BitVec.eq_of_toNat_eq (by rw [ha, ha']), BitVec.eq_of_toNat_eq (by rw [hbb, hbb'])⟩
    · rw [List.concat_eq_append] at he he'
      rcases List.eq_nil_or_concat v1 with rfl | ⟨v2, w2, rfl⟩
      · -- the last byte of the body and the first of the checksum
        have e1 : u ++ [x, y] ++ ([] ++ [w]) = (u ++ [x]) ++ [y, w] := by simp
        have e2 : u ++ [x', y'] ++ ([] ++ [w]) = (u ++ [x']) ++ [y', w] := by simp
        rw [e1] at he
        rw [e2] at he'
        obtain ⟨rfl, h1⟩ := List.append_inj' he rfl
        obtain ⟨rfl, h3⟩ := List.append_inj' he' rfl
        simp only [List.cons.injEq, and_true] at h1 h3
        rw [← h1.2] at hbb
        rw [← h3.2] at hbb'
        rw [← h1.1] at ha
        rw [← h3.1] at ha'
        rw [hbb] at hbb'
        have h4 : sumB (u ++ [x]) ≡ sumB (u ++ [x']) [MOD 256] := hbb'
        simp only [sumB_append, List.length_singleton] at h4
        have h5 := Nat.ModEq.add_left_cancel' _ h4
        have hx : x = x' := byte_eq (by simpa [sumB] using h5)
        subst hx
        exact ⟨rfl, BitVec.eq_of_toNat_eq (by rw [ha, ha'])⟩
      · -- two bytes of the body
        rw [List.concat_eq_append] at he he'
        have e1 : ∀ x y, u ++ [x, y] ++ (v2 ++ [w2] ++ [w]) = (u ++ [x, y] ++ v2) ++ [w2, w] := by intro x y; simp
        rw [e1] at he he'
        obtain ⟨rfl, h1⟩ := List.append_inj' he rfl
        obtain ⟨rfl, h3⟩ := List.append_inj' he' rfl
        simp only [List.cons.injEq, and_true] at h1 h3
        rw [← h1.1] at ha
        rw [← h1.2] at hbb
        rw [← h3.1] at ha'
        rw [← h3.2] at hbb'
        exact pair_eq u v2 (by rw [← ha, ← ha']) (by rw [← hbb, ← hbb'])

/-- a NAV-STATUS-like poll frame -/
def exFrame : Buf := [0xB5, 0x62, 0x01, 0x03, 0x02, 0x00, 0xB5, 0x07, 0xC2, 0x8E]
def exBody : Buf := [0x01, 0x03, 0x02, 0x00, 0xB5, 0x07]
theorem exFrame_ok : IsFrame exFrame exBody := ⟨0x01, 0x03, 0x02, 0x00, 0xC2, 0x8E, [0xB5, 0x07], by decide⟩

/-! ### C37 -/

theorem live_data {cs : List Buf} (h : ∀ c ∈ cs, c ≠ []) : Live (cs.map Rd.data) := by
  intro r hr
  obtain ⟨c, hc, rfl⟩ := List.mem_map.1 hr
  exact ⟨c, rfl, h c hc⟩

theorem dataOf_data (cs : List Buf) : dataOf (cs.map Rd.data) = cs.flatten := by
  unfold dataOf
  rw [List.map_map]
  congr 1
  exact List.map_id'' (fun _ => rfl) cs

theorem calls_spec (n : Nat) : ∀ st, Ok st →
    calls n st = (((scan decision st.rest).1.map Except.ok) ++ List.replicate n (Except.error (-1))).take n := by
  induction n with
  | zero => intro st _; simp [calls]
  | succ n ih =>
    intro st hs
    unfold calls readFrame
    have htake : ∀ (l : List (Except Int Buf)), (l ++ List.replicate (n + 1) (Except.error (-1))).take n = (l ++ List.replicate n (Except.error (-1))).take n := by
      intro l
      rw [show List.replicate (n + 1) (Except.error (-1) : Except Int Buf) = List.replicate n (Except.error (-1)) ++ [Except.error (-1)] from by
        rw [← List.replicate_succ']]
      rw [← List.append_assoc, List.take_append_of_le_length (by simp)]
    rcases readFrameLoop_spec (st.left + 1) st hs (by rw [left_rest]; omega) with ⟨st', f, h1, h2, h3, -⟩ | ⟨st', h1, h2, h3, h4⟩
    · rw [h1, h3, ih st' h2]
      simp only [List.map_cons, List.cons_append, List.take_succ_cons]
      rw [htake]
    · rw [h1, h3, ih st' h2, h4]
      have : (scan decision ([] : Buf)).1 = [] := by rw [scan_none decision _ rfl]
      rw [this]
      simp [List.replicate_succ]

/-- what a valid decision with a frame has seen -/
theorem decision_frame {r : Buf} {n : Nat} {o : List Buf} (h : decision r = some (n, o)) :
    o = [] ∨ ∃ gap f body, o = [body] ∧ r.take n = gap ++ f ∧ IsFrame f body := by
  unfold decision at h
  match r with
  | [] => simp at h
  | b :: r0 =>
    simp only at h
    split_ifs at h with hb
    · simp at h; exact Or.inl h.2
    · match hd : (b :: r0).drop (runLen (b :: r0)) with
      | [] => rw [hd] at h; simp at h
      | x :: r' =>
        rw [hd] at h
        simp only at h
        split_ifs at h with hx
        · simp at h; exact Or.inl h.2
        · unfold afterSync at h
          by_cases h4 : r'.length < 4
          · rw [if_pos h4] at h; simp at h
          rw [if_neg h4] at h
          simp only at h
          match r', h4, hd, h with
          | [], h4, _, _ | [_], h4, _, _ | [_, _], h4, _, _ | [_, _, _], h4, _, _ => simp at h4
          | c0 :: c1 :: c2 :: c3 :: p0, _, hd, h =>
            have g2 : (c0 :: c1 :: c2 :: c3 :: p0).getD 2 0 = c2 := rfl
            have g3 : (c0 :: c1 :: c2 :: c3 :: p0).getD 3 0 = c3 := rfl
            rw [g2, g3] at h
            generalize hlen : c2.toNat + 256 * c3.toNat = len at h
            split_ifs at h with hl h6 hck
            · simp at h; exact Or.inl h.2
            · simp at h; exact Or.inl h.2
            · right
              simp only [Option.some.injEq, Prod.mk.injEq] at h
              obtain ⟨hn, rfl⟩ := h
              simp only [List.length_cons] at h6
              have hk : runLen (b :: r0) ≥ 1 := by
                have hb' : b = 0xB5#8 := by simpa using hb
                subst hb'
                rw [runLen_cons]; omega
              obtain ⟨k, hk⟩ : ∃ k, runLen (b :: r0) = k + 1 := ⟨runLen (b :: r0) - 1, by omega⟩
              have hpre : (b :: r0).take (runLen (b :: r0)) = List.replicate k 0xB5#8 ++ [0xB5#8] := by
                have : (b :: r0).take (runLen (b :: r0)) = (b :: r0).takeWhile (· = 0xB5#8) := by
                  have h0 := List.takeWhile_append_dropWhile (p := (· = 0xB5#8)) (l := b :: r0)
                  conv_lhs => rw [← h0]
                  rw [List.take_append_of_le_length (by rw [h0]; exact Nat.le_refl _), h0]
                  exact List.take_length
                rw [← List.replicate_succ']
                rw [List.eq_replicate_iff]
                refine ⟨by rw [List.length_take, Nat.min_eq_left (runLen_le _), hk], ?_⟩
                intro z hz
                rw [this] at hz
                have hall := List.all_takeWhile (p := (· = 0xB5#8)) (l := b :: r0)
                rw [List.all_eq_true] at hall
                simpa using hall z hz
              have hall : b :: r0 = (List.replicate k 0xB5#8 ++ [0xB5#8]) ++ x :: c0 :: c1 :: c2 :: c3 :: p0 := by
                rw [← hpre, ← hd, List.take_append_drop]
              simp only [ne_eq, Decidable.not_not] at hck hx
              have hck' : [(checksum (c0 :: c1 :: c2 :: c3 :: p0.take len)).1, (checksum (c0 :: c1 :: c2 :: c3 :: p0.take len)).2] =
                  (p0.drop len).take 2 := by
                have e1 : List.take (4 + len) (c0 :: c1 :: c2 :: c3 :: p0) = c0 :: c1 :: c2 :: c3 :: p0.take len := by
                  rw [show 4 + len = len + 4 by omega]; rfl
                have e2 : List.drop (4 + len) (c0 :: c1 :: c2 :: c3 :: p0) = p0.drop len := by
                  rw [show 4 + len = len + 4 by omega]; rfl
                rw [e1, e2] at hck; exact hck
              refine ⟨List.replicate k 0xB5#8, [0xB5#8, 0x62#8] ++ (c0 :: c1 :: c2 :: c3 :: p0.take len) ++ (p0.drop len).take 2,
                c0 :: c1 :: c2 :: c3 :: p0.take len, rfl, ?_, ?_⟩
              · rw [hall, ← hn, hk, hx]
                have e3 : (List.replicate k 0xB5#8 ++ [0xB5#8]) ++ 0x62#8 :: c0 :: c1 :: c2 :: c3 :: p0 =
                    (List.replicate k 0xB5#8 ++ [0xB5#8, 0x62#8, c0, c1, c2, c3]) ++ p0 := by simp
                rw [e3, List.take_append (l₁ := _ ++ [_, _, _, _, _, _]), List.take_of_length_le (by simp; omega)]
                have e4 : k + 1 + 1 + len + 6 - (List.replicate k 0xB5#8 ++ [0xB5#8, 0x62#8, c0, c1, c2, c3]).length = len + 2 := by
                  simp; omega
                rw [e4, List.take_add (i := len) (j := 2)]
                simp
              · obtain ⟨f1, f2⟩ := C38_fletcher (c0 :: c1 :: c2 :: c3 :: p0.take len)
                rw [← hck']
                refine ⟨c0, c1, c2, c3, _, _, p0.take len, rfl, rfl, ?_, ?_, f1, f2⟩
                · rw [List.length_take]; omega
                · rw [List.length_take]; omega

theorem occur_gap {fs : List Buf} {s : Buf} (g : Buf) (h : Verif.Spec.Occur fs s) : Verif.Spec.Occur fs (g ++ s) := by
  cases h with
  | nil => exact .nil _
  | cons gap f fs s h => rw [← List.append_assoc, ← List.append_assoc]; exact .cons (g ++ gap) f fs s h

theorem scan_occur (r : Buf) : ∃ fs, List.Forall₂ IsFrame fs (scan decision r).1 ∧ Occur fs r := by
  induction h : r.length using Nat.strongRecOn generalizing r with
  | _ k ih =>
    cases hd : decision r with
    | none => rw [scan_none decision r hd]; exact ⟨[], .nil, .nil _⟩
    | some x =>
      obtain ⟨n, o⟩ := x
      have hp := decision_stable.pos r n o hd
      rw [scan_some decision decision_stable r n o hd]
      obtain ⟨fs, h1, h2⟩ := ih (r.drop n).length (by simp; omega) (r.drop n) rfl
      have hr : r = r.take n ++ r.drop n := (List.take_append_drop n r).symm
      rcases decision_frame hd with rfl | ⟨gap, f, body, rfl, h3, h4⟩
      · refine ⟨fs, h1, ?_⟩
        rw [hr]; exact occur_gap _ h2
      · refine ⟨f :: fs, .cons h4 h1, ?_⟩
        rw [hr, h3]
        exact .cons gap f fs _ h2

/-- **C37 (soundness).**  Whatever the stream and however it is cut into reads, the calls deliver, one frame per call and then -1 for ever,
valid frames of the stream, in order and without overlap. -/
theorem C37_valid (cs : List Buf) (hcs : ∀ c ∈ cs, c ≠ []) :
    ∃ bodies fs, List.Forall₂ IsFrame fs bodies ∧ Occur fs cs.flatten ∧
      ∀ n, calls n (start (cs.map Rd.data)) = (bodies.map Except.ok ++ List.replicate n (Except.error (-1))).take n := by
  have hok : Ok (start (cs.map Rd.data)) := ⟨live_data hcs, by simp [start]⟩
  have hrest : (start (cs.map Rd.data)).rest = cs.flatten := by simp [start, RSt.rest, dataOf_data]
  obtain ⟨fs, h1, h2⟩ := scan_occur cs.flatten
  refine ⟨_, fs, h1, h2, fun n => ?_⟩
  rw [calls_spec n _ hok, hrest]

/-- **C37 (chunking).**  The results of the calls depend only on the stream, not on how it is cut into reads. -/
theorem C37_chunking (cs cs' : List Buf) (hcs : ∀ c ∈ cs, c ≠ []) (hcs' : ∀ c ∈ cs', c ≠ []) (he : cs.flatten = cs'.flatten) (n : Nat) :
    calls n (start (cs.map Rd.data)) = calls n (start (cs'.map Rd.data)) := by
  have hok : Ok (start (cs.map Rd.data)) := ⟨live_data hcs, by simp [start]⟩
  have hok' : Ok (start (cs'.map Rd.data)) := ⟨live_data hcs', by simp [start]⟩
  rw [calls_spec n _ hok, calls_spec n _ hok']
  simp only [start, RSt.rest, dataOf_data, he]

/-- the scanner takes a valid frame at the head of the stream -/
theorem decision_valid {f body : Buf} (hf : IsFrame f body) (s : Buf) : decision (f ++ s) = some (f.length, [body]) := by
  obtain ⟨cls, id, lo, hi, a, b, p, rfl, rfl, hlen, hle, ha, hb⟩ := hf
  apply decision_stable.mono
  unfold decision
  simp only [List.cons_append, List.nil_append, ne_eq, not_true_eq_false, if_false]
  have hrl : runLen (0xB5#8 :: 0x62#8 :: cls :: id :: lo :: hi :: (p ++ [a, b])) = 1 := by simp [runLen]
  rw [hrl]
  simp only [List.drop_succ_cons, List.drop_zero, not_true_eq_false, if_false]
  unfold afterSync
  rw [if_neg (by simp)]
  have g2 : (cls :: id :: lo :: hi :: (p ++ [a, b])).getD 2 0 = lo := rfl
  have g3 : (cls :: id :: lo :: hi :: (p ++ [a, b])).getD 3 0 = hi := rfl
  simp only [g2, g3, ← hlen]
  rw [if_neg (by omega), if_neg (by simp)]
  have e1 : List.take (4 + p.length) (cls :: id :: lo :: hi :: (p ++ [a, b])) = cls :: id :: lo :: hi :: p := by
    rw [show 4 + p.length = p.length + 4 by omega]; simp
  have e2 : List.drop (4 + p.length) (cls :: id :: lo :: hi :: (p ++ [a, b])) = [a, b] := by
    rw [show 4 + p.length = p.length + 4 by omega]; simp
  have e3 : List.take (p.length + 4) (cls :: id :: lo :: hi :: (p ++ [a, b])) = cls :: id :: lo :: hi :: p := by simp
  rw [e1, e2, e3]
  obtain ⟨f1, f2⟩ := C38_fletcher (cls :: id :: lo :: hi :: p)
  have hck : [(checksum (cls :: id :: lo :: hi :: p)).1, (checksum (cls :: id :: lo :: hi :: p)).2] = List.take 2 [a, b] := by
    simp only [List.take_succ_cons, List.take_zero, List.cons.injEq, and_true]
    exact ⟨BitVec.eq_of_toNat_eq (by rw [f1, ha]; rfl), BitVec.eq_of_toNat_eq (by rw [f2, hb]; rfl)⟩
  rw [if_neg (by simpa using hck)]
  simp only [List.length_cons, List.length_append, List.length_nil]
  congr 2; omega

/-- the scanner takes every frame of a stream of frames -/
theorem scan_complete {fs : List Buf} {s : Buf} (h : Interleaved fs s) : ∀ {bodies}, List.Forall₂ IsFrame fs bodies → (scan decision s).1 = bodies := by
  induction h with
  | nil => intro bodies hb; cases hb; rw [scan_none decision _ rfl]
  | noise b fs s hb h ih =>
    intro bodies hf
    have hd : decision (b :: s) = some (1, []) := by unfold decision; simp [hb]
    rw [scan_some decision decision_stable _ _ _ hd]
    simpa using ih hf
  | frame f fs s h ih =>
    intro bodies hf
    cases hf with
    | cons h1 h2 =>
      rw [scan_some decision decision_stable _ _ _ (decision_valid h1 s)]
      simpa using ih h2

/-- **C37 (completeness).**  Every frame of a stream of frames, possibly separated by noise without the first sync character, is delivered. -/
theorem C37_complete (cs : List Buf) (hcs : ∀ c ∈ cs, c ≠ []) {fs bodies : List Buf} (hf : List.Forall₂ IsFrame fs bodies)
    (hs : Interleaved fs cs.flatten) (n : Nat) :
    calls n (start (cs.map Rd.data)) = (bodies.map Except.ok ++ List.replicate n (Except.error (-1))).take n := by
  have hok : Ok (start (cs.map Rd.data)) := ⟨live_data hcs, by simp [start]⟩
  have hrest : (start (cs.map Rd.data)).rest = cs.flatten := by simp [start, RSt.rest, dataOf_data]
  rw [calls_spec n _ hok, hrest]
  rw [scan_complete hs hf]

theorem readBytes_len (src : List Rd) : ∀ (buf : Buf) (index length : Nat) (got g : Buf) (st' : RSt), index ≤ buf.length →
    readBytes src buf index length got = (st', .ok g) → g.length = got.length + length ∧ st'.index ≤ st'.buf.length := by
  induction src with
  | nil =>
    intro buf index length got g st' hi h
    unfold readBytes at h
    by_cases hc : index + length > buf.length
    · rw [if_pos hc] at h; simp at h
    · rw [if_neg hc] at h
      simp only [Prod.mk.injEq, Except.ok.injEq] at h
      obtain ⟨rfl, rfl⟩ := h
      simp; omega
  | cons r src ih =>
    intro buf index length got g st' hi h
    unfold readBytes at h
    by_cases hc : index + length > buf.length
    · rw [if_pos hc] at h
      cases r with
      | err c => simp at h
      | data b =>
        simp only at h
        by_cases hb : b.length = 0
        · rw [if_pos hb] at h; simp at h
        · rw [if_neg hb] at h
          obtain ⟨h1, h2⟩ := ih _ _ _ _ _ _ (Nat.zero_le _) h
          refine ⟨?_, h2⟩
          rw [h1]
          split
          · rename_i h0; simp
          · simp; omega
    · rw [if_neg hc] at h
      simp only [Prod.mk.injEq, Except.ok.injEq] at h
      obtain ⟨rfl, rfl⟩ := h
      simp; omega

theorem read_inv {st st' : RSt} {n : Nat} {r : Except Int Buf} (hi : st.index ≤ st.buf.length) (h : read st n = (st', r)) :
    st'.index ≤ st'.buf.length ∧ ∀ g, r = .ok g → g.length = n := by
  cases r with
  | ok g =>
    obtain ⟨h1, h2⟩ := readBytes_len _ _ _ _ _ _ _ hi h
    exact ⟨h2, fun g' hg => by cases hg; simpa using h1⟩
  | error c =>
    refine ⟨?_, by simp⟩
    have : ∀ (src : List Rd) (buf : Buf) (index length : Nat) (got : Buf), readBytes src buf index length got = (st', .error c) → st'.index ≤ st'.buf.length := by
      intro src
      induction src with
      | nil =>
        intro buf index length got h
        unfold readBytes at h
        by_cases hc : index + length > buf.length
        · rw [if_pos hc] at h; simp only [Prod.mk.injEq] at h; rw [← h.1]; simp
        · rw [if_neg hc] at h; simp at h
      | cons r src ih =>
        intro buf index length got h
        unfold readBytes at h
        by_cases hc : index + length > buf.length
        · rw [if_pos hc] at h
          cases r with
          | err c => simp only [Prod.mk.injEq] at h; rw [← h.1]; simp
          | data b =>
            simp only at h
            by_cases hb : b.length = 0
            · rw [if_pos hb] at h; simp only [Prod.mk.injEq] at h; rw [← h.1]; simp
            · rw [if_neg hb] at h; exact ih _ _ _ _ h
        · rw [if_neg hc] at h; simp at h
    exact this _ _ _ _ _ h

theorem skipSync_inv : ∀ (fuel : Nat) {st st' : RSt} {r : Except Int (BitVec 8)}, st.index ≤ st.buf.length → skipSync fuel st = (st', r) →
    st'.index ≤ st'.buf.length := by
  intro fuel
  induction fuel with
  | zero => intro st st' r hi h; simp [skipSync] at h; rw [← h.1]; exact hi
  | succ fuel ih =>
    intro st st' r hi h
    unfold skipSync at h
    match hr : read st 1 with
    | (s1, .error c) => rw [hr] at h; simp only [Prod.mk.injEq] at h; rw [← h.1]; exact (read_inv hi hr).1
    | (s1, .ok b) =>
      rw [hr] at h
      simp only at h
      split_ifs at h
      · exact ih (read_inv hi hr).1 h
      · simp only [Prod.mk.injEq] at h; rw [← h.1]; exact (read_inv hi hr).1

theorem frame_bounded : ∀ (fuel : Nat) {st st' : RSt} {r : Except Int Buf}, st.index ≤ st.buf.length → readFrameLoop fuel st = (st', r) →
    st'.index ≤ st'.buf.length ∧ ∀ f, r = .ok f → 4 ≤ f.length ∧ f.length + 2 ≤ 4096 := by
  intro fuel
  induction fuel with
  | zero => intro st st' r hi h; simp [readFrameLoop] at h; rw [← h.1, ← h.2]; exact ⟨hi, by simp⟩
  | succ fuel ih =>
    intro st st' r hi h
    have again : ∀ s : RSt, s.index ≤ s.buf.length → (if s.buf.length ≠ 0 then readFrameLoop fuel s else (s, .error (-1))) = (st', r) →
        st'.index ≤ st'.buf.length ∧ ∀ f, r = .ok f → 4 ≤ f.length ∧ f.length + 2 ≤ 4096 := by
      intro s hs h
      by_cases hc : s.buf.length ≠ 0
      · rw [if_pos hc] at h; exact ih hs h
      · rw [if_neg hc] at h; simp only [Prod.mk.injEq] at h; rw [← h.1, ← h.2]; exact ⟨hs, by simp⟩
    have bad : ∀ (s : RSt) (c : Int), s.index ≤ s.buf.length → (s, Except.error c) = (st', r) →
        st'.index ≤ st'.buf.length ∧ ∀ f, r = .ok f → 4 ≤ f.length ∧ f.length + 2 ≤ 4096 := by
      intro s c hs h
      simp only [Prod.mk.injEq] at h; rw [← h.1, ← h.2]; exact ⟨hs, by simp⟩
    unfold readFrameLoop at h
    simp only at h
    match h1 : read st 1 with
    | (s1, .error c) => rw [h1] at h; exact bad _ _ (read_inv hi h1).1 h
    | (s1, .ok b) =>
      rw [h1] at h
      have i1 := (read_inv hi h1).1
      simp only at h
      by_cases hb : b.getD 0 0 ≠ 0xB5#8
      · rw [if_pos hb] at h; exact again _ i1 h
      · rw [if_neg hb] at h
        match h2 : skipSync fuel s1 with
        | (s2, .error c) => rw [h2] at h; exact bad _ _ (skipSync_inv _ i1 h2) h
        | (s2, .ok x) =>
          rw [h2] at h
          have i2 := skipSync_inv _ i1 h2
          simp only at h
          by_cases hx : x ≠ 0x62#8
          · rw [if_pos hx] at h; exact again _ i2 h
          · rw [if_neg hx] at h
            match h3 : read s2 4 with
            | (s3, .error c) => rw [h3] at h; exact bad _ _ (read_inv i2 h3).1 h
            | (s3, .ok hd) =>
              rw [h3] at h
              have i3 := read_inv i2 h3
              simp only at h
              generalize (hd.getD 2 0).toNat + ((hd.getD 3 0).toNat <<< 8) = len at h
              by_cases hl : len > frameSize - 6
              · rw [if_pos hl] at h; exact again _ i3.1 h
              · rw [if_neg hl] at h
                match h4 : read s3 (len + 2) with
                | (s4, .error c) => rw [h4] at h; exact bad _ _ (read_inv i3.1 h4).1 h
                | (s4, .ok p) =>
                  rw [h4] at h
                  have i4 := read_inv i3.1 h4
                  simp only at h
                  by_cases hck : [(checksum ((hd ++ p).take (4 + len))).1, (checksum ((hd ++ p).take (4 + len))).2] ≠ ((hd ++ p).drop (4 + len)).take 2
                  · rw [if_pos hck] at h; exact again _ i4.1 h
                  · rw [if_neg hck] at h
                    simp only [Prod.mk.injEq] at h
                    rw [← h.1, ← h.2]
                    refine ⟨i4.1, fun f hf => ?_⟩
                    cases hf
                    have e1 := i3.2 _ rfl
                    have e2 := i4.2 _ rfl
                    have e3 : frameSize - 6 = 4090 := rfl
                    rw [List.length_take, List.length_append, e1, e2]
                    omega

/-- **C37 (buffer).**  Whatever the source of bytes does, errors and stalls included, a delivered frame and its checksum fit the 4096-byte frame
buffer. -/
theorem C37_bounded (src : List Rd) (n : Nat) {f : Buf} (hf : Except.ok f ∈ calls n (start src)) : 4 ≤ f.length ∧ f.length + 2 ≤ 4096 := by
  have key : ∀ (n : Nat) (st : RSt), st.index ≤ st.buf.length → Except.ok f ∈ calls n st → 4 ≤ f.length ∧ f.length + 2 ≤ 4096 := by
    intro n
    induction n with
    | zero => intro st _ h; simp [calls] at h
    | succ n ih =>
      intro st hi h
      unfold calls at h
      have hb := frame_bounded (st.left + 1) hi (st' := (readFrame st).1) (r := (readFrame st).2) rfl
      rcases List.mem_cons.1 h with h | h
      · exact hb.2 f h.symm
      · exact ih _ hb.1 h
  exact key n _ (by simp [start]) hf

example : calls 3 (start ([[0x00], exFrame.take 3, exFrame.drop 3 ++ exFrame.take 1, exFrame.drop 1].map Rd.data)) =
    [.ok exBody, .ok exBody, .error (-1)] := by decide +kernel
example : Interleaved [exFrame, exFrame] (0x00 :: (exFrame ++ (exFrame ++ []))) :=
  .noise _ _ _ (by decide) (.frame _ _ _ (.frame _ _ _ .nil))

/-- **C37 (bug).**  When a read returns 0 in the middle of a frame (a device with nothing to deliver yet), the bytes read are lost and with
them the frame, although the rest arrives later. -/
theorem C37_stalled_read_bug :
    calls 3 (start [.data (exFrame.take 6), .data [], .data (exFrame.drop 6)]) = [.error (-1), .error (-1), .error (-1)] ∧
    calls 1 (start [.data exFrame]) = [.ok exBody] := by decide +kernel

/-- **C37 (bug).**  One corrupted length byte swallows the valid frame that follows: the reader does not look for frames inside what it
rejects. -/
theorem C37_resync_bug :
    calls 2 (start [.data (exFrame.set 4 0x0C ++ exFrame)]) = [.error (-1), .error (-1)] ∧
    calls 1 (start [.data exFrame]) = [.ok exBody] := by decide +kernel

end Verif.Ubx
