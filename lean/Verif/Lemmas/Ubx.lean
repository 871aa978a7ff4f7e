import Verif.Model.Ubx
import Verif.Spec.Ubx
import Verif.Lemmas.Scanner
import Mathlib.Tactic.Linarith
import Mathlib.Tactic.Ring
/-! The UBX reader as a scanner of the unread bytes. -/
namespace Verif.Ubx
open Verif.Ubx.Spec

/-- the bytes of the coming reads -/
def dataOf (src : List Rd) : Buf := (src.map fun r => match r with | .data b => b | .err _ => []).flatten

/-- unread bytes -/
def RSt.rest (st : RSt) : Buf := st.buf.drop st.index ++ dataOf st.src

/-- only non-empty reads until the end -/
def Live (src : List Rd) : Prop := ∀ r ∈ src, ∃ b, r = .data b ∧ b ≠ []

def Ok (st : RSt) : Prop := Live st.src ∧ st.index ≤ st.buf.length

theorem left_rest (st : RSt) : st.left = st.rest.length := by
  unfold RSt.left RSt.rest dataOf
  simp only [List.length_append, List.length_drop, List.length_flatten, List.map_map]
  congr 2
  apply List.map_congr_left
  intro r _
  cases r <;> rfl

theorem readBytes_ok (src : List Rd) : ∀ (buf : Buf) (index length : Nat) (got : Buf), Live src → index ≤ buf.length →
    length ≤ (buf.drop index ++ dataOf src).length →
      ∃ st', readBytes src buf index length got = (st', .ok (got ++ (buf.drop index ++ dataOf src).take length)) ∧ Ok st' ∧
        st'.rest = (buf.drop index ++ dataOf src).drop length ∧ (0 < length → st'.buf ≠ []) := by
  have stop : ∀ (src : List Rd) (buf : Buf) (index length : Nat) (got : Buf), Live src → index ≤ buf.length → ¬ index + length > buf.length →
      ∃ st', readBytes src buf index length got = (st', .ok (got ++ (buf.drop index ++ dataOf src).take length)) ∧ Ok st' ∧
        st'.rest = (buf.drop index ++ dataOf src).drop length ∧ (0 < length → st'.buf ≠ []) := by
    intro src buf index length got hl hi h
    unfold readBytes
    rw [if_neg h]
    refine ⟨_, by rw [List.take_append_of_le_length (by simp; omega)], ⟨hl, by simp only; omega⟩, ?_, fun h0 hbu => ?_⟩
    · simp only [RSt.rest]
      rw [List.drop_append_of_le_length (by simp; omega), List.drop_drop]
    · simp only at hbu; rw [hbu] at h; simp at h; omega
  induction src with
  | nil =>
    intro buf index length got hl hi hlen
    refine stop _ _ _ _ _ hl hi ?_
    simp [dataOf] at hlen; omega
  | cons r src ih =>
    intro buf index length got hl hi hlen
    by_cases h : index + length > buf.length
    · obtain ⟨b, rfl, hb⟩ := hl r (by simp)
      have hl' : Live src := fun x hx => hl x (by simp [hx])
      have hd : dataOf (.data b :: src) = b ++ dataOf src := by simp [dataOf]
      unfold readBytes
      have hrem : (if buf.length = 0 then [] else (buf.drop index).take (buf.length - index)) = buf.drop index := by
        split
        · rename_i h0; rw [List.length_eq_zero_iff] at h0; subst h0; simp
        · rw [List.take_of_length_le (by simp)]
      rw [if_pos h, hrem]
      simp only
      rw [if_neg (by simpa using hb)]
      rw [hd] at hlen ⊢
      simp only [List.length_append, List.length_drop] at hlen
      have := ih b 0 (length - (buf.drop index).length) (got ++ buf.drop index) hl' (Nat.zero_le _) (by simp; omega)
      rw [List.drop_zero] at this
      obtain ⟨st', h1, h2, h3, h4⟩ := this
      refine ⟨st', ?_, h2, ?_, ?_⟩
      · rw [h1, List.append_assoc, List.take_append (l₁ := List.drop index buf), List.take_of_length_le (l := List.drop index buf) (by simp; omega)]
      · rw [h3, List.drop_append (l₁ := List.drop index buf), List.drop_eq_nil_of_le (as := List.drop index buf) (by simp; omega)]
        simp
      · intro h0
        apply h4
        simp; omega
    · exact stop _ _ _ _ _ hl hi h

theorem readBytes_end (src : List Rd) : ∀ (buf : Buf) (index length : Nat) (got : Buf), Live src → index ≤ buf.length →
    (buf.drop index ++ dataOf src).length < length →
      ∃ st', readBytes src buf index length got = (st', .error 0) ∧ Ok st' ∧ st'.rest = [] := by
  induction src with
  | nil =>
    intro buf index length got hl hi hlen
    simp [dataOf] at hlen
    unfold readBytes
    rw [if_pos (by omega)]
    exact ⟨_, rfl, ⟨by simp [Live], by simp⟩, by simp [RSt.rest, dataOf]⟩
  | cons r src ih =>
    intro buf index length got hl hi hlen
    obtain ⟨b, rfl, hb⟩ := hl r (by simp)
    have hl' : Live src := fun x hx => hl x (by simp [hx])
    have hd : dataOf (.data b :: src) = b ++ dataOf src := by simp [dataOf]
    rw [hd] at hlen
    simp only [List.length_append, List.length_drop] at hlen
    unfold readBytes
    have hrem : (if buf.length = 0 then [] else (buf.drop index).take (buf.length - index)) = buf.drop index := by
      split
      · rename_i h0; rw [List.length_eq_zero_iff] at h0; subst h0; simp
      · rw [List.take_of_length_le (by simp)]
    rw [if_pos (by omega), hrem]
    simp only
    rw [if_neg (by simpa using hb)]
    exact ih b 0 _ _ hl' (Nat.zero_le _) (by simp; omega)

theorem read_ok {st : RSt} {n : Nat} (hs : Ok st) (h : n ≤ st.rest.length) :
    ∃ st', read st n = (st', .ok (st.rest.take n)) ∧ Ok st' ∧ st'.rest = st.rest.drop n ∧ (0 < n → st'.buf ≠ []) := by
  have := readBytes_ok st.src st.buf st.index n [] hs.1 hs.2 h
  rw [List.nil_append] at this; exact this

theorem read_end {st : RSt} {n : Nat} (hs : Ok st) (h : st.rest.length < n) :
    ∃ st', read st n = (st', .error 0) ∧ Ok st' ∧ st'.rest = [] := by
  have := readBytes_end st.src st.buf st.index n [] hs.1 hs.2 h
  simpa [read] using this

/-- length of the run of first sync characters -/
def runLen (r : Buf) : Nat := (r.takeWhile (· = 0xB5#8)).length

/-- the scanner's decision on the bytes after the sync characters: `k` are already used -/
def afterSync (k : Nat) (r : Buf) : Option (Nat × List Buf) :=
  if r.length < 4 then none
  else
    let len := (r.getD 2 0).toNat + 256 * (r.getD 3 0).toNat
    if len > 4090 then some (k + 4, [])
    else if r.length < len + 6 then none
    else
      let ck := checksum (r.take (4 + len))
      if [ck.1, ck.2] ≠ (r.drop (4 + len)).take 2 then some (k + len + 6, []) else some (k + len + 6, [r.take (len + 4)])

/-- the scanner's decision -/
def decision : Decision Buf := fun r =>
  match r with
  | [] => none
  | b :: _ =>
    if b ≠ 0xB5#8 then some (1, [])
    else
      match r.drop (runLen r) with
      | [] => none
      | x :: r' => if x ≠ 0x62#8 then some (runLen r + 1, []) else afterSync (runLen r + 1) r'

theorem afterSync_mono {k : Nat} {r : Buf} {x : Nat × List Buf} (s : Buf) (h : afterSync k r = some x) : afterSync k (r ++ s) = some x := by
  unfold afterSync at *
  by_cases h4 : r.length < 4
  · rw [if_pos h4] at h; simp at h
  rw [if_neg h4] at h
  rw [if_neg (by simp; omega)]
  have hg : ∀ i, i < 4 → (r ++ s).getD i 0 = r.getD i 0 := by
    intro i hi
    simp only [List.getD_eq_getElem?_getD]; rw [List.getElem?_append_left (by omega)]
  simp only [hg 2 (by omega), hg 3 (by omega)] at *
  generalize (r.getD 2 0).toNat + 256 * (r.getD 3 0).toNat = len at *
  by_cases hl : len > 4090
  · rw [if_pos hl] at h ⊢; exact h
  rw [if_neg hl] at h ⊢
  by_cases h6 : r.length < len + 6
  · rw [if_pos h6] at h; simp at h
  rw [if_neg h6] at h
  rw [if_neg (by simp; omega), List.take_append_of_le_length (by omega), List.drop_append_of_le_length (by omega),
    List.take_append_of_le_length (l₁ := List.drop _ _) (by simp; omega), List.take_append_of_le_length (by omega)]
  exact h

theorem afterSync_pos {k : Nat} {r : Buf} {n : Nat} {o : List Buf} (h : afterSync k r = some (n, o)) : k + 4 ≤ n ∧ n ≤ k + r.length := by
  unfold afterSync at h
  simp only at h
  split_ifs at h <;> simp only [Option.some.injEq, Prod.mk.injEq] at h <;> omega

theorem runLen_le (r : Buf) : runLen r ≤ r.length := by
  unfold runLen; exact (List.takeWhile_sublist _).length_le

theorem runLen_cons (r : Buf) : runLen (0xB5#8 :: r) = runLen r + 1 := by simp [runLen]

theorem drop_runLen (r : Buf) : r.drop (runLen r) = r.dropWhile (· = 0xB5#8) := by
  induction r with
  | nil => rfl
  | cons b r ih =>
    by_cases hb : b = 0xB5#8
    · subst hb; rw [runLen_cons, List.drop_succ_cons, ih]; simp
    · simp [runLen, hb]

theorem runLen_append {r : Buf} (s : Buf) (h : r.drop (runLen r) ≠ []) : runLen (r ++ s) = runLen r := by
  induction r with
  | nil => simp at h
  | cons b r ih =>
    by_cases hb : b = 0xB5#8
    · subst hb
      rw [runLen_cons, List.drop_succ_cons] at h
      rw [List.cons_append, runLen_cons, runLen_cons, ih h]
    · simp [runLen, hb]

theorem decision_stable : decision.Stable where
  pos := by
    intro r n o h
    unfold decision at h
    split at h
    · simp at h
    · rename_i b r0
      split_ifs at h with hb
      · simp at h; simp; omega
      · have hle := runLen_le (b :: r0)
        split at h
        · simp at h
        · rename_i x r' hx
          have hlen : runLen (b :: r0) + (r'.length + 1) = (b :: r0).length := by
            have := congrArg List.length hx
            rw [List.length_drop] at this
            simp only [List.length_cons] at *; omega
          split_ifs at h with hx2
          · simp only [Option.some.injEq, Prod.mk.injEq] at h; omega
          · have := afterSync_pos h; omega
  mono := by
    intro r s x h
    unfold decision at *
    match r with
    | [] => simp at h
    | b :: r0 =>
      simp only [List.cons_append] at *
      split_ifs at h ⊢ with hb
      · exact h
      · have hne : (b :: r0).drop (runLen (b :: r0)) ≠ [] := by intro h0; rw [h0] at h; simp at h
        have e := runLen_append s hne
        rw [List.cons_append] at e
        rw [e, ← List.cons_append, List.drop_append_of_le_length (runLen_le _)]
        match hd : (b :: r0).drop (runLen (b :: r0)) with
        | [] => exact absurd hd hne
        | y :: r' =>
          rw [hd] at h
          simp only [List.cons_append] at *
          split_ifs at h ⊢
          · exact h
          · exact afterSync_mono s h

theorem skipSync_ok : ∀ (fuel : Nat) (st : RSt), Ok st → st.rest.length < fuel →
    match st.rest.drop (runLen st.rest) with
    | [] => ∃ st', skipSync fuel st = (st', .error (-1)) ∧ Ok st' ∧ st'.rest = []
    | x :: r => ∃ st', skipSync fuel st = (st', .ok x) ∧ Ok st' ∧ st'.rest = r ∧ st'.buf ≠ [] := by
  intro fuel
  induction fuel with
  | zero => intro st _ h; omega
  | succ fuel ih =>
    intro st hs hf
    match hr : st.rest with
    | [] =>
      simp only [runLen, List.takeWhile_nil, List.length_nil, List.drop_nil]
      obtain ⟨st', h1, h2, h3⟩ := read_end (n := 1) hs (by rw [hr]; simp)
      unfold skipSync
      rw [h1]
      exact ⟨st', rfl, h2, h3⟩
    | b :: r =>
      obtain ⟨st', h1, h2, h3, h4⟩ := read_ok (n := 1) hs (by rw [hr]; simp)
      rw [hr] at h1 h3 hf
      simp only [List.take_succ_cons, List.take_zero, List.drop_succ_cons, List.drop_zero] at h1 h3
      by_cases hb : b = 0xB5#8
      · subst hb
        rw [runLen_cons, List.drop_succ_cons]
        unfold skipSync
        rw [h1]
        have := ih st' h2 (by rw [h3]; simp at hf; omega)
        rw [h3] at this
        simpa using this
      · have : runLen (b :: r) = 0 := by simp [runLen, hb]
        rw [this, List.drop_zero]
        unfold skipSync
        rw [h1]
        simp only [List.getD_cons_zero, if_neg hb]
        exact ⟨st', rfl, h2, h3, h4 (by omega)⟩

/-- the reader returns the next frame of the scanner, or reaches the end -/
theorem readFrameLoop_spec : ∀ (fuel : Nat) (st : RSt), Ok st → st.rest.length < fuel →
    (∃ st' f, readFrameLoop fuel st = (st', .ok f) ∧ Ok st' ∧ (scan decision st.rest).1 = f :: (scan decision st'.rest).1 ∧
      st'.rest.length < st.rest.length) ∨
    (∃ st', readFrameLoop fuel st = (st', .error (-1)) ∧ Ok st' ∧ (scan decision st.rest).1 = [] ∧ st'.rest = []) := by
  intro fuel
  induction fuel with
  | zero => intro st _ h; omega
  | succ fuel ih =>
    intro st hs hf
    -- going on with the loop after `n` bytes without a frame
    have next : ∀ (st' : RSt) (n : Nat), Ok st' → st'.buf ≠ [] → decision st.rest = some (n, []) → st'.rest = st.rest.drop n →
        (∃ st1 f, (if st'.buf.length ≠ 0 then readFrameLoop fuel st' else (st', .error (-1))) = (st1, .ok f) ∧ Ok st1 ∧
          (scan decision st.rest).1 = f :: (scan decision st1.rest).1 ∧ st1.rest.length < st.rest.length) ∨
        (∃ st1, (if st'.buf.length ≠ 0 then readFrameLoop fuel st' else (st', .error (-1))) = (st1, .error (-1)) ∧ Ok st1 ∧
          (scan decision st.rest).1 = [] ∧ st1.rest = []) := by
      intro st' n h2 hb hd hr
      have hp := decision_stable.pos _ _ _ hd
      rw [scan_some decision decision_stable _ _ _ hd, if_pos (by simpa using hb)]
      have hlen : st'.rest.length < st.rest.length := by rw [hr, List.length_drop]; omega
      rcases ih st' h2 (by omega) with ⟨st1, f, h3, h4, h5, h6⟩ | ⟨st1, h3, h4, h5, h6⟩
      · exact Or.inl ⟨st1, f, h3, h4, by simp only [List.nil_append]; rw [← hr]; exact h5, by omega⟩
      · exact Or.inr ⟨st1, h3, h4, by simp only [List.nil_append]; rw [← hr]; exact h5, h6⟩
    have stop : decision st.rest = none → (scan decision st.rest).1 = [] := by
      intro hd; rw [scan_none decision _ hd]
    match hr : st.rest with
    | [] =>
      right
      obtain ⟨st', h1, h2, h3⟩ := read_end (n := 1) hs (by rw [hr]; simp)
      refine ⟨st', ?_, h2, ?_, h3⟩
      · unfold readFrameLoop; rw [h1]; rfl
      · rw [scan_none decision _ rfl]
    | b :: r =>
      rw [← hr]
      obtain ⟨st1, h1, h2, h3, h4⟩ := read_ok (n := 1) hs (by rw [hr]; simp)
      have h4 := h4 (by omega)
      have h3' : st1.rest = r := by rw [h3, hr]; rfl
      have h1' : read st 1 = (st1, .ok [b]) := by rw [h1, hr]; rfl
      unfold readFrameLoop
      simp only [h1', List.getD_cons_zero]
      by_cases hb : b = 0xB5#8
      · rw [if_neg (by simpa using hb)]
        have hrl : runLen st.rest = runLen r + 1 := by rw [hr, hb, runLen_cons]
        have hdrop : st.rest.drop (runLen st.rest) = r.drop (runLen r) := by rw [hrl, hr, List.drop_succ_cons]
        have hdec : decision st.rest = match r.drop (runLen r) with
            | [] => none
            | x :: r' => if x ≠ 0x62#8 then some (runLen r + 2, []) else afterSync (runLen r + 2) r' := by
          have h0 : decision st.rest = match st.rest.drop (runLen st.rest) with
            | [] => none
            | x :: r' => if x ≠ 0x62#8 then some (runLen st.rest + 1, []) else afterSync (runLen st.rest + 1) r' := by
            rw [hr]; unfold decision; simp only [hb, ne_eq, not_true_eq_false, if_false]
          rw [h0, hdrop, hrl]
        have hsk := skipSync_ok fuel st1 h2 (by rw [h3']; rw [hr] at hf; simp at hf; omega)
        rw [h3'] at hsk
        match hd : r.drop (runLen r) with
        | [] =>
          rw [hd] at hsk hdec
          obtain ⟨st2, e1, e2, e3⟩ := hsk
          rw [e1]
          exact Or.inr ⟨st2, rfl, e2, stop hdec, e3⟩
        | x :: r' =>
          rw [hd] at hsk hdec
          obtain ⟨st2, e1, e2, e3, e4⟩ := hsk
          rw [e1]
          simp only at hdec ⊢
          have hr' : r' = st.rest.drop (runLen r + 2) := by
            have : st.rest.drop (runLen r + 1) = x :: r' := by rw [hr, List.drop_succ_cons, hd]
            rw [← List.drop_drop (i := 1) (j := runLen r + 1), this]; rfl
          by_cases hx : x = 0x62#8
          · rw [if_neg (by simpa using hx)]
            rw [if_neg (by simpa using hx)] at hdec
            unfold afterSync at hdec
            by_cases h4b : r'.length < 4
            · rw [if_pos h4b] at hdec
              obtain ⟨st3, g1, g2, g3⟩ := read_end (n := 4) e2 (by rw [e3]; exact h4b)
              rw [g1]
              exact Or.inr ⟨st3, rfl, g2, stop hdec, g3⟩
            · rw [if_neg h4b] at hdec
              obtain ⟨st3, g1, g2, g3, g4⟩ := read_ok (n := 4) e2 (by rw [e3]; omega)
              rw [g1, e3]
              rw [e3] at g3
              simp only at hdec ⊢
              have hget : ∀ i, i < 4 → (r'.take 4).getD i 0 = r'.getD i 0 := by
                intro i hi
                simp only [List.getD_eq_getElem?_getD]; rw [List.getElem?_take_of_lt hi]
              rw [hget 2 (by omega), hget 3 (by omega), show (r'.getD 3 0).toNat <<< 8 = 256 * (r'.getD 3 0).toNat by rw [Nat.shiftLeft_eq]; ring,
                show frameSize - 6 = 4090 from rfl]
              generalize (r'.getD 2 0).toNat + 256 * (r'.getD 3 0).toNat = len at *
              by_cases hl : len > 4090
              · rw [if_pos hl] at hdec
                rw [if_pos hl]
                exact next st3 _ g2 (g4 (by omega)) hdec (by rw [g3, hr', List.drop_drop])
              · rw [if_neg hl] at hdec
                rw [if_neg hl]
                by_cases h6 : r'.length < len + 6
                · rw [if_pos h6] at hdec
                  obtain ⟨st4, k1, k2, k3⟩ := read_end (n := len + 2) g2 (by rw [g3]; simp; omega)
                  rw [k1]
                  exact Or.inr ⟨st4, rfl, k2, stop hdec, k3⟩
                · rw [if_neg h6] at hdec
                  obtain ⟨st4, k1, k2, k3, k4⟩ := read_ok (n := len + 2) g2 (by rw [g3]; simp; omega)
                  rw [k1, g3]
                  rw [g3, List.drop_drop] at k3
                  have hframe : r'.take 4 ++ (r'.drop 4).take (len + 2) = r'.take (len + 6) := by
                    rw [show len + 6 = 4 + (len + 2) by omega, List.take_add (i := 4) (j := len + 2)]
                  simp only
                  rw [hframe, List.take_take, List.take_take, List.drop_take, List.take_take, show min (4 + len) (len + 6) = 4 + len by omega,
                    show min (len + 4) (len + 6) = len + 4 by omega, show min 2 (len + 6 - (4 + len)) = 2 by omega]
                  by_cases hck : [(checksum (r'.take (4 + len))).1, (checksum (r'.take (4 + len))).2] ≠ (r'.drop (4 + len)).take 2
                  · rw [if_pos hck] at hdec
                    rw [if_pos hck]
                    exact next st4 _ k2 (k4 (by omega)) hdec (by rw [k3, hr', List.drop_drop]; congr 1; omega)
                  · rw [if_neg hck] at hdec
                    rw [if_neg hck]
                    left
                    have hrest : st4.rest = st.rest.drop (runLen r + 2 + len + 6) := by rw [k3, hr', List.drop_drop]; congr 1; omega
                    have hp := decision_stable.pos _ _ _ hdec
                    refine ⟨st4, _, rfl, k2, ?_, ?_⟩
                    · rw [scan_some decision decision_stable _ _ _ hdec, hrest]; rfl
                    · rw [hrest, List.length_drop]; omega
          · rw [if_pos (by simpa using hx)]
            rw [if_pos (by simpa using hx)] at hdec
            exact next st2 _ e2 e4 hdec (by rw [e3, hr'])
      · rw [if_pos (by simpa using hb)]
        refine next st1 1 h2 h4 ?_ h3
        rw [hr]; unfold decision; simp [hb]

end Verif.Ubx
