import Verif.Lemmas.Nov
import Mathlib.Data.List.Forall2
/-! C47: NovAtel logs are found and checked. -/
namespace Verif.Nov
open Verif.Crc Verif.Nov.Spec
open Verif.Ubx.Spec (leAt)
open Verif.Ixcom (Rd u16At u32At)
open Verif.Spec (Occur)

theorem occur_pre {fs : List Buf} {s : Buf} (a : Buf) (h : Occur fs s) : Occur fs (a ++ s) := by
  cases h with
  | nil => exact .nil _
  | cons gap f fs s h =>
    have := Occur.cons (a ++ gap) f fs s h
    simpa using this

theorem read_data {src src' : List Rd} {n : Nat} {b : Buf} (h : readFn src n = (src', .ok b)) : dataOf src = b ++ dataOf src' ∧ b.length ≤ n := by
  unfold readFn at h
  split at h
  · obtain ⟨rfl, h2⟩ := Prod.mk.inj h
    obtain rfl := Except.ok.inj h2
    simp [dataOf]
  · cases (Prod.mk.inj h).2
  · split at h
    · obtain ⟨rfl, h2⟩ := Prod.mk.inj h
      obtain rfl := Except.ok.inj h2
      exact ⟨rfl, by omega⟩
    · obtain ⟨rfl, h2⟩ := Prod.mk.inj h
      obtain rfl := Except.ok.inj h2
      refine ⟨?_, by simp⟩
      simp only [dataOf, ← List.append_assoc, List.take_append_drop]

/-- one turn with a log at the beginning of the buffer -/
theorem run_frame (n : Nat) {buf b f t : Buf} {src src' : List Rd} (h : readFn src (4096 - buf.length) = (src', .ok b)) (he : buf ++ b = f ++ t)
    (hf : IsFrame f) : run (n + 1) buf src = match parseBody (headerOf f).message_id (payload f) with
      | none => ([], .aborted)
      | some m => if t = [] then ([⟨headerOf f, m⟩], .empty) else (⟨headerOf f, m⟩ :: (run n t src').1, (run n t src').2) := by
  conv => lhs; unfold run
  rw [h]
  simp only
  rw [he, parse_frame hf t]
  simp only
  rcases parseBody (headerOf f).message_id (payload f) with _ | m
  · rfl
  · simp only
    unfold dropConsumed
    have e : (f ++ t).length - f.length = t.length := by rw [List.length_append]; omega
    rw [if_neg (by rw [List.length_append]; omega), e, List.drop_left]
    rcases t with _ | ⟨x, t⟩
    · rfl
    · rw [if_neg (by simp), if_neg (by simp)]; rfl

/-- one turn without -/
theorem run_skip (n : Nat) {buf b : Buf} {src src' : List Rd} (h : readFn src (4096 - buf.length) = (src', .ok b))
    (hp : parseAt (buf ++ b) = (1, none)) : run (n + 1) buf src = if buf ++ b = [] then ([], .aborted)
      else if (buf ++ b).drop 1 = [] then ([], .empty) else run n ((buf ++ b).drop 1) src' := by
  conv => lhs; unfold run
  rw [h]
  simp only
  rw [hp]
  simp only
  unfold dropConsumed
  rcases buf ++ b with _ | ⟨x, s⟩
  · rfl
  · rw [if_neg (by simp)]
    simp only [List.length_cons, Nat.add_sub_cancel, List.length_eq_zero_iff, List.drop_succ_cons, List.drop_zero, List.nil_append, reduceCtorEq, if_false]

theorem run_err (n : Nat) {buf : Buf} {src src' : List Rd} {c : Int} (h : readFn src (4096 - buf.length) = (src', .error c)) :
    run (n + 1) buf src = ([], .readError) := by
  conv => lhs; unfold run
  rw [h]

/-- a delivered message -/
def Delivers (f : Buf) (m : Msg) : Prop := IsFrame f ∧ f.length ≤ 4096 ∧ Says f m

theorem run_sound (n : Nat) : ∀ (buf : Buf) (src : List Rd), buf.length ≤ 4096 →
    ∃ fs, List.Forall₂ Delivers fs (run n buf src).1 ∧ Occur fs (buf ++ dataOf src) := by
  induction n with
  | zero => intro buf src _; exact ⟨[], .nil, .nil _⟩
  | succ n ih =>
    intro buf src hb
    rcases h : readFn src (4096 - buf.length) with ⟨src', c | b⟩
    · rw [run_err n h]; exact ⟨[], .nil, .nil _⟩
    obtain ⟨hd, hl⟩ := read_data h
    rw [hd, ← List.append_assoc]
    have hB : (buf ++ b).length ≤ 4096 := by rw [List.length_append]; omega
    rcases parse_cases (buf ++ b) with hp | ⟨f, t, he, hf⟩
    · rw [run_skip n h hp]
      split
      · exact ⟨[], .nil, .nil _⟩
      split
      · exact ⟨[], .nil, .nil _⟩
      · obtain ⟨fs, h1, h2⟩ := ih ((buf ++ b).drop 1) src' (by rw [List.length_drop]; omega)
        refine ⟨fs, h1, ?_⟩
        have := occur_pre ((buf ++ b).take 1) h2
        rwa [← List.append_assoc, List.take_append_drop] at this
    · rw [run_frame n h he hf]
      have hfl : f.length ≤ 4096 := by rw [he, List.length_append] at hB; omega
      rcases hm : parseBody (headerOf f).message_id (payload f) with _ | m
      · exact ⟨[], .nil, .nil _⟩
      · have hs := says_of hf hm
        simp only
        split
        · refine ⟨[f], .cons ⟨hf, hfl, hs⟩ .nil, ?_⟩
          rw [he]
          simpa using Occur.cons [] f [] (t ++ dataOf src') (.nil _)
        · obtain ⟨fs, h1, h2⟩ := ih t src' (by rw [he, List.length_append] at hB; omega)
          refine ⟨f :: fs, .cons ⟨hf, hfl, hs⟩ h1, ?_⟩
          rw [he]
          simpa using Occur.cons [] f fs (t ++ dataOf src') h2

/-- **C47 (soundness).**  Whatever the read function returns, and at any time, every message handed on is that of a log with a correct CRC
that occurs in the bytes read; logs are found in their order and without overlap, each at most once. -/
theorem C47_sound (n : Nat) (src : List Rd) :
    ∃ fs, List.Forall₂ (fun f m => IsFrame f ∧ f.length ≤ 4096 ∧ Says f m) fs (run n [] src).1 ∧ Occur fs (dataOf src) := by
  have := run_sound n [] src (by simp)
  rwa [List.nil_append] at this

/-- **C47 (CRC).**  The table-free CRC of the parser is the remainder modulo x³² + x²⁶ + … + 1. -/
theorem C47_crc (b : List (BitVec 8)) (c : BitVec 32) : getCrc b = c ↔ IsCrc gen32 (byteBitsLsb b) (lsbFirst c) := crc_iff b c

/-- **C47 (corruption).**  Of two different byte strings of the same length that differ only within 32 consecutive bits (bytes from the lowest
bit on) at most one has a correct CRC. -/
theorem C47_detects {f f' : List (BitVec 8)} (hl : f.length = f'.length) {i : Nat}
    (h : ∀ j, j < i ∨ i + 32 ≤ j → (byteBitsLsb f)[j]? = (byteBitsLsb f')[j]?) (h1 : CrcOk f) (h2 : CrcOk f') : f = f' :=
  byteBitsLsb_inj (burst (by rw [byteBitsLsb_length, byteBitsLsb_length, hl]) h h1 h2)

/-! ### files -/

theorem proper_body {f : Buf} (h : Proper f) : ∃ m, parseBody (headerOf f).message_id (payload f) = some m := by
  have := (parseBody_some (headerOf f).message_id (payload f)).2 (by rw [headerOf_id]; exact h)
  exact Option.isSome_iff_exists.1 this

theorem read_full {buf rest : Buf} {tl : List Rd} (h : 4096 ≤ (buf ++ rest).length) (hb : buf.length ≤ 4096) :
    readFn (.data rest :: tl) (4096 - buf.length) = (.data (rest.drop (4096 - buf.length)) :: tl, .ok (rest.take (4096 - buf.length))) ∧
    buf ++ rest.take (4096 - buf.length) = (buf ++ rest).take 4096 := by
  rw [List.length_append] at h
  constructor
  · simp only [readFn]
    rw [if_neg (by omega)]
  · rw [List.take_append, List.take_of_length_le hb]

theorem read_rest {buf rest : Buf} {tl : List Rd} (h : (buf ++ rest).length < 4096) :
    readFn (.data rest :: tl) (4096 - buf.length) = (tl, .ok rest) := by
  rw [List.length_append] at h
  simp only [readFn]
  rw [if_pos (by omega)]

theorem parse_noFrame {s : Buf} (h : NoFrame s) : parseAt (s.take 4096) = (1, none) := by
  rcases parse_cases (s.take 4096) with hp | ⟨f, t, he, hf⟩
  · exact hp
  · refine absurd hf (h f (t ++ s.drop 4096) ?_ ?_)
    · rw [← List.append_assoc, ← he, List.take_append_drop]
    · have := congrArg List.length he
      rw [List.length_take, List.length_append] at this; omega

/-- the last look -/
theorem run_last {buf rest : Buf} {last : List Buf} (hs : (buf ++ rest).length < 4096) (h0 : buf ++ rest ≠ []) (hl : LastLook (buf ++ rest) last)
    (hp : ∀ f ∈ last, Proper f) (n : Nat) (tl : List Rd) : ∃ ms, List.Forall₂ Says last ms ∧ ∃ e, (e = .readError ∨ e = .empty) ∧
      run (n + 2) buf (.data rest :: .err 0 :: tl) = (ms, e) := by
  have hr := read_rest (tl := .err 0 :: tl) hs
  generalize hB : buf ++ rest = B at *
  cases hl with
  | frame f t hf =>
    obtain ⟨m, hm⟩ := proper_body (hp f (by simp))
    refine ⟨[⟨headerOf f, m⟩], .cons (says_of hf hm) .nil, ?_⟩
    rw [run_frame (n + 1) hr hB hf, hm]
    simp only
    split
    · exact ⟨_, Or.inr rfl, rfl⟩
    · exact ⟨_, Or.inl rfl, rfl⟩
  | none _ hn =>
    refine ⟨[], .nil, ?_⟩
    have hp := parse_noFrame hn
    rw [List.take_of_length_le (by omega)] at hp
    rw [run_skip (n + 1) hr (by rw [hB]; exact hp), hB, if_neg h0]
    split
    · exact ⟨_, Or.inr rfl, rfl⟩
    · exact ⟨_, Or.inl rfl, rfl⟩

theorem run_greedy {s : Buf} {fs : List Buf} {r : Buf} (h : Greedy s fs r) : ∀ {buf rest : Buf}, buf ++ rest = s → buf.length < 4096 → s ≠ [] →
    (∀ f ∈ fs, Proper f ∧ f.length < 4096) → ∀ {last : List Buf}, LastLook r last → (∀ f ∈ last, Proper f) → ∀ n, s.length < n →
    ∃ ms, List.Forall₂ Says (fs ++ last) ms ∧ ∃ e, (e = .readError ∨ e = .empty) ∧ run n buf [.data rest, .err 0] = (ms, e) := by
  induction h with
  | stop s hs =>
    intro buf rest he hb h0 _ last hl hp n hn
    subst he
    obtain ⟨n, rfl⟩ : ∃ k, n = k + 2 := ⟨n - 2, by have := List.length_pos_iff.2 h0; omega⟩
    exact run_last hs h0 hl hp n []
  | frame f t fs r hs hf hfl _ ih =>
    intro buf rest he hb h0 hall last hl hp n hn
    obtain ⟨n, rfl⟩ : ∃ k, n = k + 1 := ⟨n - 1, by omega⟩
    obtain ⟨hr1, hr2⟩ := read_full (tl := [.err 0]) (by rw [he]; exact hs) hb.le
    obtain ⟨hpf, hlt⟩ := hall f (by simp)
    obtain ⟨m, hm⟩ := proper_body hpf
    have hB : buf ++ rest.take (4096 - buf.length) = f ++ t.take (4096 - f.length) := by
      rw [hr2, he, List.take_append, List.take_of_length_le hfl]
    have hne : t.take (4096 - f.length) ≠ [] := by
      intro h
      have := congrArg List.length h
      rw [List.length_append] at hs
      simp only [List.length_take, List.length_nil] at this
      omega
    have hrest : t.take (4096 - f.length) ++ rest.drop (4096 - buf.length) = t := by
      have e : f ++ (t.take (4096 - f.length) ++ rest.drop (4096 - buf.length)) = f ++ t := by
        rw [← List.append_assoc, ← hB, List.append_assoc, List.take_append_drop, he]
      exact List.append_cancel_left e
    have hlen := frame_len hf
    have ht0 : t ≠ [] := by rintro rfl; exact hne (by simp)
    obtain ⟨ms, h1, e, h2, h3⟩ := ih hrest (by rw [List.length_take]; omega) ht0 (fun g hg => hall g (by simp [hg])) hl hp n
      (by rw [List.length_append] at hn; omega)
    refine ⟨⟨headerOf f, m⟩ :: ms, .cons (says_of hf hm) h1, e, h2, ?_⟩
    rw [run_frame n hr1 hB hf, hm]
    simp only
    rw [if_neg hne, h3]
  | skip b t fs r hs hno _ ih =>
    intro buf rest he hb h0 hall last hl hp n hn
    obtain ⟨n, rfl⟩ : ∃ k, n = k + 1 := ⟨n - 1, by omega⟩
    obtain ⟨hr1, hr2⟩ := read_full (tl := [.err 0]) (by rw [he]; exact hs) hb.le
    have hB : buf ++ rest.take (4096 - buf.length) = b :: t.take 4095 := by
      rw [hr2, he, List.take_succ_cons]
    have hpn : parseAt (buf ++ rest.take (4096 - buf.length)) = (1, none) := by
      rw [hr2, he]; exact parse_noFrame hno
    simp only [List.length_cons] at hs
    have hne : t.take 4095 ≠ [] := by
      intro h
      have := congrArg List.length h
      simp only [List.length_take, List.length_nil] at this
      omega
    have hrest : t.take 4095 ++ rest.drop (4096 - buf.length) = t := by
      have e : [b] ++ (t.take 4095 ++ rest.drop (4096 - buf.length)) = [b] ++ t := by
        have : [b] ++ t.take 4095 = buf ++ rest.take (4096 - buf.length) := by rw [hB]; rfl
        rw [← List.append_assoc, this, List.append_assoc, List.take_append_drop, he]; rfl
      exact List.append_cancel_left e
    have ht0 : t ≠ [] := by rintro rfl; exact hne (by simp)
    obtain ⟨ms, h1, e, h2, h3⟩ := ih hrest (by rw [List.length_take]; omega) ht0 hall hl hp n (by simp only [List.length_cons] at hn; omega)
    refine ⟨ms, h1, e, h2, ?_⟩
    rw [run_skip n hr1 hpn, hB, if_neg (by simp), List.drop_succ_cons, List.drop_zero, if_neg hne, h3]

/-- **C47 (files).**  For a file on standard input, exactly those logs are handed on that a search from left to right finds at positions
followed by at least 4096 bytes, and the one, if any, that begins at the first position after that; provided the logs found have bodies of the
right length and none is 4096 bytes long.

Missing: what comes after (`C47_tail_bug`); logs with a body of the wrong length (`C47_length_bug`) and of 4096 bytes (`C47_full_bug`) stop the
program; reads that return less than was asked for lose logs (`C47_split_bug`). -/
theorem C47_file_partial {s : List (BitVec 8)} (h0 : s ≠ []) {fs : List (List (BitVec 8))} {r : List (BitVec 8)} (h : Greedy s fs r)
    (hall : ∀ f ∈ fs, Proper f ∧ f.length < 4096) {last : List (List (BitVec 8))} (hl : LastLook r last) (hp : ∀ f ∈ last, Proper f) :
    ∃ ms, List.Forall₂ Says (fs ++ last) ms ∧ ∃ e, (e = .readError ∨ e = .empty) ∧ processFile s = (ms, e) :=
  run_greedy h rfl (by simp) h0 hall hl hp _ (by omega)

/-- the search always has a result, and there is always a last look -/
theorem greedy_total (s : List (BitVec 8)) : ∃ fs r last, Greedy s fs r ∧ LastLook r last := by
  have hl : ∀ r : Buf, ∃ last, LastLook r last := by
    intro r
    rcases parse_cases r with hp | ⟨f, t, rfl, hf⟩
    · refine ⟨[], .none _ ?_⟩
      rintro f t rfl _ hf
      rw [parse_frame hf t] at hp
      cases (Prod.mk.inj hp).2
    · exact ⟨[f], .frame f t hf⟩
  induction hn : s.length using Nat.strongRecOn generalizing s with
  | _ n ih =>
    by_cases hs : s.length < 4096
    · obtain ⟨last, hl⟩ := hl s
      exact ⟨[], s, last, .stop s hs, hl⟩
    · by_cases hf : NoFrame s
      · rcases s with _ | ⟨b, t⟩
        · simp at hs
        · obtain ⟨fs, r, last, h1, h2⟩ := ih t.length (by rw [← hn]; simp) t rfl
          exact ⟨fs, r, last, .skip b t fs r (by omega) hf h1, h2⟩
      · unfold NoFrame at hf
        push Not at hf
        obtain ⟨f, t, rfl, h1, h2⟩ := hf
        obtain ⟨fs, r, last, h3, h4⟩ := ih t.length (by rw [← hn, List.length_append]; have := frame_len h2; omega) t rfl
        exact ⟨f :: fs, r, last, .frame f t fs r (by omega) h2 h1 h3, h4⟩

theorem parse_noise {b : BitVec 8} (h : b ≠ 0xAA#8) (t : Buf) : parseAt (b :: t) = (1, none) := by
  unfold parseAt
  have h1 : ∀ c, ¬ (b :: t).take 3 = [0xAA#8, 0x44#8, c] := by
    intro c e
    rw [List.take_succ_cons] at e
    exact h (List.cons.inj e).1
  rw [if_neg (h1 _), if_neg (h1 _), ite_self]

theorem run_interleaved {x : Buf} {fs : List Buf} (h : Interleaved fs x) (t : Buf) (ht : 4096 ≤ t.length) :
    ∀ {buf rest : Buf}, buf ++ rest = x ++ t → buf.length < 4096 → (∀ f ∈ fs, IsFrame f ∧ Proper f ∧ f.length < 4096) → ∀ n, x.length < n →
    ∃ ms ms' e, List.Forall₂ Says fs ms ∧ run n buf [.data rest, .err 0] = (ms ++ ms', e) := by
  induction h with
  | nil => intro buf rest _ _ _ n _; exact ⟨[], _, _, .nil, rfl⟩
  | noise b fs s hb _ ih =>
    intro buf rest he hbl hall n hn
    obtain ⟨n, rfl⟩ : ∃ k, n = k + 1 := ⟨n - 1, by omega⟩
    have hs : 4096 ≤ (buf ++ rest).length := by rw [he, List.length_append]; omega
    obtain ⟨hr1, hr2⟩ := read_full (tl := [.err 0]) hs hbl.le
    have hB : buf ++ rest.take (4096 - buf.length) = b :: (s ++ t).take 4095 := by
      rw [hr2, he, List.cons_append, List.take_succ_cons]
    have hpn : parseAt (buf ++ rest.take (4096 - buf.length)) = (1, none) := by
      rw [hB]; exact parse_noise hb _
    have hne : (s ++ t).take 4095 ≠ [] := by
      intro h
      have := congrArg List.length h
      simp only [List.length_take, List.length_append, List.length_nil] at this
      omega
    have hrest : (s ++ t).take 4095 ++ rest.drop (4096 - buf.length) = s ++ t := by
      have e : [b] ++ ((s ++ t).take 4095 ++ rest.drop (4096 - buf.length)) = [b] ++ (s ++ t) := by
        have : [b] ++ (s ++ t).take 4095 = buf ++ rest.take (4096 - buf.length) := by rw [hB]; rfl
        rw [← List.append_assoc, this, List.append_assoc, List.take_append_drop, he]; rfl
      exact List.append_cancel_left e
    obtain ⟨ms, ms', e, h1, h2⟩ := ih hrest (by rw [List.length_take]; omega) hall n (by simp only [List.length_cons] at hn; omega)
    refine ⟨ms, ms', e, h1, ?_⟩
    rw [run_skip n hr1 hpn, hB, if_neg (by simp), List.drop_succ_cons, List.drop_zero, if_neg hne, h2]
  | frame f fs s _ ih =>
    intro buf rest he hbl hall n hn
    obtain ⟨n, rfl⟩ : ∃ k, n = k + 1 := ⟨n - 1, by omega⟩
    obtain ⟨hf, hpf, hlt⟩ := hall f (by simp)
    obtain ⟨m, hm⟩ := proper_body hpf
    have hs : 4096 ≤ (buf ++ rest).length := by rw [he, List.length_append]; omega
    obtain ⟨hr1, hr2⟩ := read_full (tl := [.err 0]) hs hbl.le
    have hB : buf ++ rest.take (4096 - buf.length) = f ++ (s ++ t).take (4096 - f.length) := by
      rw [hr2, he, List.append_assoc, List.take_append, List.take_of_length_le hlt.le]
    have hne : (s ++ t).take (4096 - f.length) ≠ [] := by
      intro h
      have := congrArg List.length h
      simp only [List.length_take, List.length_append, List.length_nil] at this
      omega
    have hrest : (s ++ t).take (4096 - f.length) ++ rest.drop (4096 - buf.length) = s ++ t := by
      have e : f ++ ((s ++ t).take (4096 - f.length) ++ rest.drop (4096 - buf.length)) = f ++ (s ++ t) := by
        rw [← List.append_assoc, ← hB, List.append_assoc, List.take_append_drop, he, List.append_assoc]
      exact List.append_cancel_left e
    have hlen := frame_len hf
    obtain ⟨ms, ms', e, h1, h2⟩ := ih hrest (by rw [List.length_take]; omega) (fun g hg => hall g (by simp [hg])) n
      (by rw [List.length_append] at hn; omega)
    refine ⟨⟨headerOf f, m⟩ :: ms, ms', e, .cons (says_of hf hm) h1, ?_⟩
    rw [run_frame n hr1 hB hf, hm]
    simp only
    rw [if_neg hne, h2]
    rfl

/-- **C47 (completeness).**  Of a file that begins with logs, separated by bytes that are not the first sync byte, every log that is followed
by at least 4096 bytes is handed on, in order.  Missing: as for `C47_file_partial`. -/
theorem C47_complete_partial {fs : List (List (BitVec 8))} {x : List (BitVec 8)} (h : Interleaved fs x)
    (hall : ∀ f ∈ fs, IsFrame f ∧ Proper f ∧ f.length < 4096) (t : List (BitVec 8)) (ht : 4096 ≤ t.length) :
    ∃ ms ms', List.Forall₂ Says fs ms ∧ (processFile (x ++ t)).1 = ms ++ ms' := by
  obtain ⟨ms, ms', e, h1, h2⟩ := run_interleaved h t ht (buf := []) (rest := x ++ t) rfl (by simp) hall ((x ++ t).length + 1) (by rw [List.length_append]; omega)
  refine ⟨ms, ms', h1, ?_⟩
  unfold processFile
  rw [h2]

/-! ### defects -/

/-- Of a file of less than 4096 bytes at most one log is converted, the one at its beginning, however many it holds: at the end of the file the
bytes still in the buffer are given up. -/
theorem C47_tail_bug {s : List (BitVec 8)} (h : s.length < 4096) :
    (processFile s).1.length ≤ 1 ∧ ∀ m ∈ (processFile s).1, ∃ f t, s = f ++ t ∧ IsFrame f ∧ Says f m := by
  unfold processFile
  have hr : readFn [Rd.data s, .err 0] (4096 - ([] : Buf).length) = ([.err 0], .ok s) := read_rest (buf := []) (by simpa using h)
  have herr : ∀ n t, (run n t [.err 0]).1 = [] := by
    intro n t
    cases n with
    | zero => rfl
    | succ n => rw [run_err n (src' := []) (c := -(0 + 1)) rfl]
  rcases parse_cases s with hp | ⟨f, t, he, hf⟩
  · rw [run_skip _ hr (by simpa using hp)]
    split
    · simp
    split
    · simp
    · rw [herr]; simp
  · rw [run_frame _ hr (by simpa using he) hf]
    rcases hm : parseBody (headerOf f).message_id (payload f) with _ | m
    · simp
    · have hs := says_of hf hm
      simp only [herr]
      split <;> exact ⟨by simp, fun m' hm' => ⟨f, t, he, hf, by simp only [List.mem_singleton] at hm'; rw [hm']; exact hs⟩⟩

/-- An empty file makes the program abort. -/
theorem C47_empty_bug : processFile [] = ([], .aborted) := by decide

/-- A log with a correct CRC and a body that is not as long as its type says makes the program abort (here: at the beginning of a file). -/
theorem C47_length_bug {f : List (BitVec 8)} (hf : IsFrame f) (hl : f.length ≤ 4096) (hp : ¬ Proper f) (t : List (BitVec 8)) :
    processFile (f ++ t) = ([], .aborted) := by
  have hb : parseBody (headerOf f).message_id (payload f) = none := by
    rw [← Option.not_isSome_iff_eq_none, parseBody_some, headerOf_id]; exact hp
  unfold processFile
  by_cases hs : (f ++ t).length < 4096
  · have hr : readFn [Rd.data (f ++ t), .err 0] (4096 - ([] : Buf).length) = ([.err 0], .ok (f ++ t)) := read_rest (buf := []) (by simpa using hs)
    rw [run_frame _ hr (f := f) (t := t) rfl hf, hb]
  · obtain ⟨hr1, hr2⟩ := read_full (buf := []) (rest := f ++ t) (tl := [.err 0]) (by simpa using hs) (by simp)
    rw [run_frame _ hr1 (f := f) (t := t.take (4096 - f.length)) (by rw [hr2, List.nil_append, List.take_append, List.take_of_length_le hl]) hf, hb]

/-- After a log of 4096 bytes nothing more is read. -/
theorem C47_full_bug {f : List (BitVec 8)} (hf : IsFrame f) (hl : f.length = 4096) (hp : Proper f) (t : List (BitVec 8)) :
    ∃ m, Says f m ∧ processFile (f ++ t) = ([m], .empty) := by
  obtain ⟨m, hm⟩ := proper_body hp
  refine ⟨_, says_of hf hm, ?_⟩
  unfold processFile
  obtain ⟨hr1, hr2⟩ := read_full (buf := []) (rest := f ++ t) (tl := [.err 0]) (by simp; omega) (by simp)
  rw [run_frame _ hr1 (f := f) (t := []) (by rw [hr2, List.nil_append, List.take_append, List.take_of_length_le hl.le]; simp [hl]) hf, hm]
  simp

/-- A log that comes in two reads is not converted: at most logs that occur within its bytes after the first one are. -/
theorem C47_split_bug {a b : List (BitVec 8)} (ha : a ≠ []) (hb : b ≠ []) (hf : IsFrame (a ++ b)) (hl : a.length < 4096) (n : Nat) :
    ∃ fs, List.Forall₂ (fun f m => IsFrame f ∧ f.length ≤ 4096 ∧ Says f m) fs (run n [] [.data a, .data b, .err 0]).1 ∧
      Occur fs ((a ++ b).drop 1) := by
  cases n with
  | zero => exact ⟨[], .nil, .nil _⟩
  | succ n =>
    have hr : readFn [Rd.data a, .data b, .err 0] (4096 - ([] : Buf).length) = ([.data b, .err 0], .ok a) :=
      read_rest (buf := []) (by simpa using hl)
    have hp : parseAt ([] ++ a) = (1, none) := by
      rw [List.nil_append]
      rcases parse_cases a with hp | ⟨f, t, he, hf'⟩
      · exact hp
      · exfalso
        have h1 := parse_frame hf []
        rw [List.append_nil] at h1
        have h2 := parse_frame hf' (t ++ b)
        rw [← List.append_assoc, ← he, h1] at h2
        have := (Prod.mk.inj h2).1
        have hb := List.length_pos_iff.2 hb
        rw [he] at this
        simp only [List.length_append] at this
        omega
    rw [run_skip n hr hp]
    split
    · exact ⟨[], .nil, .nil _⟩
    split
    · exact ⟨[], .nil, .nil _⟩
    · obtain ⟨fs, h1, h2⟩ := run_sound n (([] ++ a).drop 1) [.data b, .err 0] (by simp; omega)
      refine ⟨fs, h1, ?_⟩
      have e : (([] : Buf) ++ a).drop 1 ++ dataOf [.data b, .err 0] = (a ++ b).drop 1 := by
        rcases a with _ | ⟨x, a⟩
        · exact absurd rfl ha
        · simp [dataOf]
      rwa [e] at h2

/-! ### the hypotheses can be met -/

/-- an INSATT log -/
def exAtt : List (BitVec 8) := [0xAA#8, 0x44#8, 0x12#8, 0x1C#8, 0x07#8, 0x01#8, 0x00#8, 0x00#8, 0x28#8, 0x00#8, 0x00#8, 0x00#8, 0x00#8, 0xB4#8,
  0x34#8, 0x08#8, 0x40#8, 0xE2#8, 0x01#8, 0x00#8, 0x00#8, 0x00#8, 0x00#8, 0x00#8, 0x00#8, 0x00#8, 0x01#8, 0x00#8, 0x34#8, 0x08#8, 0x00#8, 0x00#8,
  0x77#8, 0xBE#8, 0x9F#8, 0x1A#8, 0x2F#8, 0xDD#8, 0x5E#8, 0x40#8, 0x00#8, 0x00#8, 0x00#8, 0x00#8, 0x00#8, 0x00#8, 0xF8#8, 0x3F#8, 0x00#8, 0x00#8,
  0x00#8, 0x00#8, 0x00#8, 0x00#8, 0x02#8, 0xC0#8, 0x00#8, 0x00#8, 0x00#8, 0x00#8, 0x00#8, 0x80#8, 0x56#8, 0x40#8, 0x03#8, 0x00#8, 0x00#8, 0x00#8,
  0x47#8, 0xBC#8, 0xA8#8, 0x22#8]

/-- a short log of another type -/
def exOther : List (BitVec 8) := [0xAA#8, 0x44#8, 0x13#8, 0x03#8, 0xE7#8, 0x03#8, 0x34#8, 0x08#8, 0x40#8, 0xE2#8, 0x01#8, 0x00#8, 0x01#8, 0x02#8,
  0x03#8, 0x3E#8, 0xEB#8, 0x10#8, 0x4A#8]

/-- a log that claims to be INSATT, with a body of one byte -/
def exBad : List (BitVec 8) := [0xAA#8, 0x44#8, 0x13#8, 0x01#8, 0x07#8, 0x01#8, 0x34#8, 0x08#8, 0x40#8, 0xE2#8, 0x01#8, 0x00#8, 0x01#8, 0x9F#8,
  0xA8#8, 0x0C#8, 0x88#8]

theorem exAtt_frame : IsFrame exAtt :=
  .inl ⟨by decide, by decide, by decide +kernel, (crcOk_iff (n := 68) (by decide)).1 (by decide +kernel)⟩
theorem exOther_frame : IsFrame exOther :=
  .inr ⟨by decide, by decide, by decide +kernel, (crcOk_iff (n := 15) (by decide)).1 (by decide +kernel)⟩
theorem exBad_frame : IsFrame exBad :=
  .inr ⟨by decide, by decide, by decide +kernel, (crcOk_iff (n := 13) (by decide)).1 (by decide +kernel)⟩
theorem exAtt_proper : Proper exAtt := by unfold Proper ProperBody; decide +kernel
theorem exOther_proper : Proper exOther := by unfold Proper ProperBody; decide +kernel
theorem exBad_improper : ¬ Proper exBad := by unfold Proper ProperBody; decide +kernel

/-- two logs with noise between them are both found, whatever follows -/
example (t : List (BitVec 8)) (ht : 4096 ≤ t.length) : ∃ ms ms', List.Forall₂ Says [exAtt, exOther] ms ∧
    (processFile ((exAtt ++ 7#8 :: (exOther ++ [])) ++ t)).1 = ms ++ ms' :=
  C47_complete_partial (.frame _ _ _ (.noise _ _ _ (by decide) (.frame _ _ _ .nil)))
    (by simp only [List.mem_cons, List.not_mem_nil, or_false]
        rintro f (rfl | rfl)
        · exact ⟨exAtt_frame, exAtt_proper, by decide⟩
        · exact ⟨exOther_frame, exOther_proper, by decide⟩) t ht

/-- the hypotheses of `C47_file_partial` for a log followed by 4096 bytes that are not the first sync byte -/
example : ∃ fs r last, Greedy (exAtt ++ List.replicate 4096 0#8) fs r ∧ LastLook r last ∧ (∀ f ∈ fs, Proper f ∧ f.length < 4096) ∧
    (∀ f ∈ last, Proper f) ∧ exAtt ∈ fs := by
  have hn : ∀ n, NoFrame (List.replicate n 0#8) := by
    intro n f t he _ hf
    rcases n with _ | n
    · have := frame_len hf
      have h2 := congrArg List.length he
      simp only [List.length_replicate, List.length_append] at h2
      omega
    · have h1 := parse_frame hf t
      rw [← he, List.replicate_succ, parse_noise (by decide)] at h1
      cases (Prod.mk.inj h1).2
  have hg : ∀ n, n = 4095 → Greedy (List.replicate (n + 1) 0#8) [] (List.replicate n 0#8) := fun n e =>
    Greedy.skip 0#8 (List.replicate n 0#8) [] _ (by rw [List.length_cons, List.length_replicate]; omega) (hn (n + 1))
      (.stop _ (by rw [List.length_replicate]; omega))
  refine ⟨_, _, _, .frame exAtt _ _ _ (by rw [List.length_append, List.length_replicate]; omega) exAtt_frame (by decide) (hg 4095 rfl),
    .none _ (hn _), ?_, fun _ h => absurd h List.not_mem_nil, List.mem_cons_self⟩
  simp only [List.mem_singleton, forall_eq]
  exact ⟨exAtt_proper, by decide⟩

/-- two logs in a short file: only the first one is converted -/
example : (processFile (exOther ++ exAtt)).1.map (fun m => m.header.message_id) = [999#16] := by decide +kernel
example : (processFile (exAtt ++ exOther)).1.map (fun m => m.header.message_id) = [263#16] := by decide +kernel

example : processFile (exBad ++ exAtt) = ([], .aborted) := C47_length_bug exBad_frame (by decide) exBad_improper _

/-- any bytes can be given a correct CRC -/
theorem crcOk_close (p : Buf) : ∃ c : Buf, c.length = 4 ∧ CrcOk (p ++ c) := by
  let w := getCrc p
  refine ⟨[w.setWidth 8, (w >>> 8).setWidth 8, (w >>> 16).setWidth 8, (w >>> 24).setWidth 8], rfl, ?_⟩
  refine (crcOk_iff (n := p.length) (by simp)).1 ?_
  rw [List.take_left]
  show _ = w
  unfold u32At
  simp only [List.getD_eq_getElem?_getD]
  rw [List.getElem?_append_right (by omega), List.getElem?_append_right (by omega), List.getElem?_append_right (by omega),
    List.getElem?_append_right (by omega)]
  simp only [Nat.sub_self, Nat.add_sub_cancel_left, List.getElem?_cons_zero, List.getElem?_cons_succ, Option.getD_some]
  clear_value w
  apply BitVec.eq_of_getLsbD_eq
  intro i hi
  simp only [BitVec.getLsbD_append, BitVec.getLsbD_setWidth, BitVec.getLsbD_ushiftRight]
  by_cases h1 : i < 8
  · simp [h1, show i < 16 by omega, show i < 24 by omega]
  by_cases h2 : i < 16
  · simp [h1, h2, show i < 24 by omega, show i - 8 < 8 by omega, show 8 + (i - 8) = i by omega]
  by_cases h3 : i < 24
  · simp [h2, h3, show i - 16 < 8 by omega, show 16 + (i - 16) = i by omega]
  · simp [h3, show i - 24 < 8 by omega, show 24 + (i - 24) = i by omega]

/-- there is a log of 4096 bytes -/
example : ∃ f, IsFrame f ∧ f.length = 4096 ∧ Proper f := by
  have key : ∀ z : Buf, z.length = 4082 → ∃ f, IsFrame f ∧ f.length = 4096 ∧ Proper f := by
    intro z hz
    obtain ⟨c, hc, h⟩ := crcOk_close ([0xAA#8, 0x44#8, 0x12#8, 0x1C#8, 0xE7#8, 0x03#8, 0#8, 0#8, 0xE0#8, 0x0F#8] ++ z)
    have hl : ([0xAA#8, 0x44#8, 0x12#8, 0x1C#8, 0xE7#8, 0x03#8, 0#8, 0#8, 0xE0#8, 0x0F#8] ++ z ++ c).length = 4096 := by
      simp only [List.length_append, List.length_cons, List.length_nil]; omega
    refine ⟨_, .inl ⟨rfl, by omega, ?_, h⟩, hl, ?_⟩
    · rw [hl]; exact (by decide : 4096 = 28 + (0xE0 + 256 * (0x0F + 256 * 0)) + 4)
    · have e : msgId ([0xAA#8, 0x44#8, 0x12#8, 0x1C#8, 0xE7#8, 0x03#8, 0#8, 0#8, 0xE0#8, 0x0F#8] ++ z ++ c) = 999 := rfl
      unfold Proper
      rw [e]
      unfold ProperBody
      simp
  exact key (List.replicate 4082 0#8) List.length_replicate

/-- a log that comes in two reads -/
example : ∃ fs, List.Forall₂ (fun f m => IsFrame f ∧ f.length ≤ 4096 ∧ Says f m) fs
    (run 100 [] [.data (exAtt.take 40), .data (exAtt.drop 40), .err 0]).1 ∧ Occur fs (exAtt.drop 1) :=
  C47_split_bug (a := exAtt.take 40) (b := exAtt.drop 40) (by decide) (by decide) exAtt_frame (by decide) 100

end Verif.Nov
