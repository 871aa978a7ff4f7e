import Verif.Model.RtcmFraming
import Verif.Spec.RtcmFraming
import Verif.Lemmas.Scanner
import Verif.Lemmas.Bits
namespace Verif.RtcmFraming
open Verif.Spec

theorem getD_append_left {α} (a b : List α) (i : Nat) (d : α) (h : i < a.length) : (a ++ b).getD i d = a.getD i d := by
  simp [List.getD, List.getElem?_append_left h]

/-- the decision taken by one iteration, on the unread bytes -/
def dec (crc : Buf → BitVec 24) : Decision Buf := fun r =>
  if r.length ≤ 6 then none
  else if r.getD 0 0 ≠ 0xD3#8 then some (1, [])
  else if extractMsgLen r = 0 then some (1, [])
  else if 6 + extractMsgLen r > r.length then none
  else if verifyCrc crc r 4096 = false then some (1, [])
  else some (extractMsgLen r + 6, [r.take (extractMsgLen r + 6)])

theorem extractMsgLen_le (r : Buf) : extractMsgLen r ≤ 1023 := by
  unfold extractMsgLen maxMsgLen; exact Nat.and_le_right

theorem extractMsgLen_append (r s : Buf) (h : 3 ≤ r.length) : extractMsgLen (r ++ s) = extractMsgLen r := by
  unfold extractMsgLen
  rw [getD_append_left _ _ _ _ (by omega), getD_append_left _ _ _ _ (by omega)]

theorem verifyCrc_of_le (crc) (r : Buf) (n : Nat) (h : extractMsgLen r + 6 ≤ n) :
    verifyCrc crc r n = verifyCrc crc r 4096 := by
  have := extractMsgLen_le r
  unfold verifyCrc overhead
  simp only []
  rw [if_neg (by omega), if_neg (by omega)]

theorem verifyCrc_append (crc) (r s : Buf) (n : Nat) (h3 : 3 ≤ r.length) (h : extractMsgLen r + 6 ≤ r.length) :
    verifyCrc crc (r ++ s) n = verifyCrc crc r n := by
  unfold verifyCrc overhead
  simp only []
  rw [extractMsgLen_append _ _ h3]
  rw [getD_append_left _ _ _ _ (by omega), getD_append_left _ _ _ _ (by omega), getD_append_left _ _ _ _ (by omega)]
  rw [List.take_append_of_le_length (by omega)]

theorem dec_stable (crc) : (dec crc).Stable where
  pos := by
    intro r n o h
    unfold dec at h
    split at h; · simp at h
    split at h; · simp at h; omega
    split at h; · simp at h; omega
    split at h; · simp at h
    split at h; · simp at h; omega
    simp at h; omega
  mono := by
    intro r s x h
    unfold dec at h ⊢
    split at h; · simp at h
    rename_i h6
    have e0 : (r ++ s).getD 0 0 = r.getD 0 0 := getD_append_left _ _ _ _ (by omega)
    rw [if_neg (by simp; omega), e0, extractMsgLen_append r s (by omega)]
    split at h
    · rename_i hh; rw [if_pos hh]; exact h
    rename_i hh; rw [if_neg hh]
    split at h
    · rename_i hh; rw [if_pos hh]; exact h
    rename_i hh; rw [if_neg hh]
    split at h; · simp at h
    rw [if_neg (by simp; omega), verifyCrc_append _ _ _ _ (by omega) (by omega)]
    split at h
    · rename_i hh; rw [if_pos hh]; exact h
    rename_i hh; rw [if_neg hh, List.take_append_of_le_length (by omega)]; exact h

theorem dec_none_length (crc) (r : Buf) (h : dec crc r = none) : r.length ≤ 1028 := by
  unfold dec at h
  have := extractMsgLen_le r
  split at h; · omega
  split at h; · simp at h
  split at h; · simp at h
  split at h; · omega
  split at h <;> simp at h

theorem scanLoop_eq (crc) (buf : Buf) (index : Nat) (hi : index ≤ buf.length) (hl : buf.length ≤ 4096) :
    (scanLoop crc buf index).1 = (scan (dec crc) (buf.drop index)).1 ∧
    buf.drop (scanLoop crc buf index).2 = (scan (dec crc) (buf.drop index)).2 ∧
    (scanLoop crc buf index).2 ≤ buf.length := by
  induction h : buf.length - index using Nat.strongRecOn generalizing index with
  | _ k ih =>
    rw [scanLoop]
    simp only []
    have hle := extractMsgLen_le (buf.drop index)
    have hlen : (buf.drop index).length = buf.length - index := by simp
    by_cases h6 : index + 6 < buf.length
    · rw [dif_pos h6]
      by_cases h1 : (buf.drop index).getD 0 0 ≠ 0xD3#8
      · rw [if_pos h1]
        have hd : dec crc (buf.drop index) = some (1, []) := by
          unfold dec; rw [if_neg (by omega), if_pos h1]
        rw [scan_some _ (dec_stable crc) _ _ _ hd, List.drop_drop]
        simpa using ih (buf.length - (index + 1)) (by omega) (index + 1) (by omega) rfl
      · rw [if_neg h1]
        by_cases h2 : extractMsgLen (buf.drop index) = 0
        · rw [if_pos (Or.inl h2)]
          have hd : dec crc (buf.drop index) = some (1, []) := by
            unfold dec; rw [if_neg (by omega), if_neg h1, if_pos h2]
          rw [scan_some _ (dec_stable crc) _ _ _ hd, List.drop_drop]
          simpa using ih (buf.length - (index + 1)) (by omega) (index + 1) (by omega) rfl
        · rw [if_neg (by simp only [maxMsgLen]; omega)]
          by_cases h3 : index + 6 + extractMsgLen (buf.drop index) > buf.length
          · rw [if_pos h3]
            have hd : dec crc (buf.drop index) = none := by
              unfold dec; rw [if_neg (by omega), if_neg h1, if_neg h2, if_pos (by omega)]
            rw [scan_none _ _ hd]
            exact ⟨rfl, rfl, hi⟩
          · rw [if_neg h3, verifyCrc_of_le _ _ (4096 - index) (by omega)]
            by_cases h4 : verifyCrc crc (buf.drop index) 4096 = false
            · rw [if_pos h4]
              have hd : dec crc (buf.drop index) = some (1, []) := by
                unfold dec; rw [if_neg (by omega), if_neg h1, if_neg h2, if_neg (by omega), if_pos h4]
              rw [scan_some _ (dec_stable crc) _ _ _ hd, List.drop_drop]
              simpa using ih (buf.length - (index + 1)) (by omega) (index + 1) (by omega) rfl
            · rw [if_neg h4]
              have hd : dec crc (buf.drop index) = some (extractMsgLen (buf.drop index) + 6,
                  [(buf.drop index).take (extractMsgLen (buf.drop index) + 6)]) := by
                unfold dec; rw [if_neg (by omega), if_neg h1, if_neg h2, if_neg (by omega), if_neg h4]
              rw [scan_some _ (dec_stable crc) _ _ _ hd, List.drop_drop]
              generalize hm : extractMsgLen (buf.drop index) = m at *
              have := ih (buf.length - (index + m + 6)) (by omega) (index + m + 6) (by omega) rfl
              rw [show index + (m + 6) = index + m + 6 by omega]
              simp only [List.cons_append, List.nil_append]
              exact ⟨by rw [this.1], this.2.1, this.2.2⟩
    · rw [dif_neg h6]
      have hd : dec crc (buf.drop index) = none := by
        unfold dec; rw [if_pos (by omega)]
      rw [scan_none _ _ hd]
      exact ⟨rfl, rfl, hi⟩

theorem process_eq (crc) (r data : Buf) (hd : dec crc r = none) (hl : data.length ≤ bufferSize) :
    process crc ⟨r⟩ data = (⟨(scan (dec crc) (r ++ data)).2⟩, (scan (dec crc) (r ++ data)).1) := by
  have hr := dec_none_length crc r hd
  simp only [bufferSize, fifoSize, overhead, maxMsgLen] at hl
  unfold process
  simp only [fifoSize]
  by_cases h0 : data.length < 1
  · rw [if_pos h0]
    have : data = [] := List.length_eq_zero_iff.mp (by omega)
    subst this
    simp [scan_none _ _ hd]
  · have hw : ¬ (min data.length (4096 - r.length) ≠ data.length) := by omega
    rw [if_neg h0]
    simp only [if_neg hw]
    have h := scanLoop_eq crc (r ++ data) 0 (by omega) (by simp; omega)
    simp only [List.drop_zero] at h
    rw [if_neg (by have := h.2.2; omega), h.2.1, h.1]

theorem run_eq (crc) (r : Buf) (chunks : List Buf) (hd : dec crc r = none)
    (hl : ∀ c ∈ chunks, c.length ≤ bufferSize) :
    run crc ⟨r⟩ chunks = (⟨(scan (dec crc) (r ++ chunks.flatten)).2⟩, (scan (dec crc) (r ++ chunks.flatten)).1) := by
  induction chunks generalizing r with
  | nil => simp [run, scan_none _ _ hd]
  | cons c cs ih =>
    rw [run, process_eq crc r c hd (hl c (by simp))]
    simp only []
    rw [ih _ (scan_rest_none _ (dec_stable crc) _) (fun x hx => hl x (by simp [hx]))]
    simp only [List.flatten_cons]
    rw [← List.append_assoc, scan_append (dec crc) (dec_stable crc) (r ++ c) cs.flatten]

theorem dec_nil (crc) : dec crc [] = none := by unfold dec; simp

theorem run_init (crc) (chunks : List Buf) (hl : ∀ c ∈ chunks, c.length ≤ bufferSize) :
    run crc Reader.init chunks = (⟨(scan (dec crc) chunks.flatten).2⟩, (scan (dec crc) chunks.flatten).1) := by
  have := run_eq crc [] chunks (dec_nil crc) hl
  simpa [Reader.init] using this

/-! ### frames -/

theorem shl8_or (a b : Nat) (hb : b < 256) : (a <<< 8) ||| b = a * 256 + b := by
  rw [Nat.shiftLeft_eq, Nat.mul_comm a, ← Nat.two_pow_add_eq_or_of_lt (i := 8) hb]

theorem crc_or (a b c : Nat) (hb : b < 256) (hc : c < 256) :
    (a <<< 16) ||| (b <<< 8) ||| c = a * 65536 + b * 256 + c := by
  have h1 : (a <<< 16) ||| (b <<< 8) = a * 65536 + b * 256 := by
    rw [Nat.shiftLeft_eq a, Nat.mul_comm a, ← Nat.two_pow_add_eq_or_of_lt (i := 16) (by rw [Nat.shiftLeft_eq]; omega),
      Nat.shiftLeft_eq]
  rw [h1]
  have := shl8_or (a * 256 + b) c hc
  rw [Nat.shiftLeft_eq] at this
  rw [show a * 65536 + b * 256 = (a * 256 + b) * 2 ^ 8 by omega, this]

theorem extractMsgLen_eq (b : Buf) :
    extractMsgLen b = (b.getD 1 0).toNat % 4 * 256 + (b.getD 2 0).toNat := by
  unfold extractMsgLen maxMsgLen
  have h1 := (b.getD 1 0).isLt
  have h2 := (b.getD 2 0).isLt
  rw [shl8_or _ _ h2, show (1023:Nat) = 2 ^ 10 - 1 by rfl, Nat.and_two_pow_sub_one_eq_mod]
  omega

theorem isFrame_of_dec (crc) (r : Buf) (n : Nat) (f : Buf) (h : dec crc r = some (n, [f])) :
    ∃ p, IsFrame crc f p ∧ f = r.take n ∧ framePayload f = .payload p := by
  unfold dec at h
  split at h; · simp at h
  rename_i h6
  split at h; · simp at h
  rename_i h1
  split at h; · simp at h
  rename_i h2
  split at h; · simp at h
  rename_i h3
  split at h; · simp at h
  rename_i h4
  simp only [Option.some.injEq, Prod.mk.injEq, List.cons.injEq, and_true] at h
  obtain ⟨hn, hf⟩ := h
  match r, h6 with
  | x :: hi :: lo :: t, h6 =>
    have hx : x = 0xD3#8 := by simpa using h1
    subst hx
    have hlen : extractMsgLen (0xD3#8 :: hi :: lo :: t) = hi.toNat % 4 * 256 + lo.toNat := by
      rw [extractMsgLen_eq]; rfl
    generalize hL : extractMsgLen (0xD3#8 :: hi :: lo :: t) = L at *
    have h3' : 3 + L ≤ t.length := by simp at h3; omega
    have hc : crc ((0xD3#8 :: hi :: lo :: t).take (3 + L)) |>.toNat |> fun c => c =
        (t.getD L 0).toNat * 65536 + (t.getD (L + 1) 0).toNat * 256 + (t.getD (L + 2) 0).toNat := by
      have h4' : verifyCrc crc (0xD3#8 :: hi :: lo :: t) 4096 = true := by simpa using h4
      unfold verifyCrc overhead at h4'
      simp only [hL] at h4'
      have := extractMsgLen_le (0xD3#8 :: hi :: lo :: t)
      rw [if_neg (by omega), crc_or _ _ _ (BitVec.isLt _) (BitVec.isLt _)] at h4'
      simp only [beq_iff_eq] at h4'
      rw [← h4']
      simp
    refine ⟨t.take L, ⟨hi, lo, t.getD L 0, t.getD (L + 1) 0, t.getD (L + 2) 0, ?_, ?_, ?_, ?_⟩, ?_, ?_⟩
    · rw [← hf]
      have ht : t.take (L + 3) = t.take L ++ [t.getD L 0, t.getD (L + 1) 0, t.getD (L + 2) 0] := by
        rw [getD_eq_getElem _ _ (by omega), getD_eq_getElem _ _ (by omega), getD_eq_getElem _ _ (by omega)]
        have e2 := List.take_succ_eq_append_getElem (by omega : L + 2 < t.length)
        have e1 : t.take (L + 2) = t.take (L + 1) ++ [t[L + 1]] :=
          List.take_succ_eq_append_getElem (by omega : L + 1 < t.length)
        have e0 := List.take_succ_eq_append_getElem (by omega : L < t.length)
        rw [show L + 3 = L + 2 + 1 from rfl, e2, e1, e0, List.append_assoc,
          List.append_assoc]
        rfl
      rw [show L + 6 = (L + 3) + 3 by omega]
      simp only [List.take_succ_cons, ht]
      simp
    · simp; omega
    · rw [List.length_take, Nat.min_eq_left (by omega)]; exact hlen
    · rw [← hc, show 3 + L = L + 3 by omega]
      simp
    · rw [← hf, ← hn]
    · rw [← hf, framePayload]
      have hl6 : ((0xD3#8 :: hi :: lo :: t).take (L + 6)).length = L + 6 := by
        rw [List.length_take, Nat.min_eq_left (by omega)]
      rw [hl6, if_neg (by omega), if_neg (by omega)]
      rw [show L + 6 = (L + 3) + 3 by omega]
      simp only [List.take_succ_cons]
      have hm : ((hi.toNat &&& 3) <<< 8 ||| lo.toNat) = L := by
        rw [shl8_or _ _ lo.isLt, show (3:Nat) = 2 ^ 2 - 1 by rfl, Nat.and_two_pow_sub_one_eq_mod]
        exact hlen.symm
      simp only [List.getD_cons_succ, List.getD_cons_zero, hm]
      rw [if_neg (by omega), if_neg (by omega)]
      simp [List.take_take]
  | [], h6 => simp at h6
  | [_], h6 => simp at h6
  | [_, _], h6 => simp at h6

theorem dec_of_isFrame (crc) (f p s : Buf) (h : IsFrame crc f p) : dec crc (f ++ s) = some (f.length, [f]) := by
  obtain ⟨hi, lo, c2, c1, c0, hf, h1, hlen, hcrc⟩ := h
  have hflen : f.length = p.length + 6 := by rw [hf]; simp
  have hL : extractMsgLen f = p.length := by
    rw [extractMsgLen_eq, hf, hlen]; rfl
  have hpl : p.length ≤ 1023 := by rw [← hL]; exact extractMsgLen_le f
  have hd : dec crc f = some (f.length, [f]) := by
    unfold dec
    rw [if_neg (by omega), if_neg (by rw [hf]; simp), hL, if_neg (by omega), if_neg (by omega)]
    have hv : verifyCrc crc f 4096 = true := by
      unfold verifyCrc overhead
      simp only [hL]
      rw [if_neg (by omega), crc_or _ _ _ (BitVec.isLt _) (BitVec.isLt _)]
      have e : f = ([0xD3#8, hi, lo] ++ p) ++ [c2, c1, c0] := hf
      have t : f.take (3 + p.length) = [0xD3#8, hi, lo] ++ p := by
        rw [e]; apply List.take_left'; simp; omega
      rw [t, hcrc]
      have hg : ∀ k, k < 3 → f.getD (p.length + (3 + k)) 0 = [c2, c1, c0].getD k 0 := by
        intro k hk
        rw [e, List.getD_eq_getElem?_getD, List.getElem?_append_right (by simp; omega), List.getD_eq_getElem?_getD]
        congr 2; simp; omega
      have g0 := hg 0 (by omega)
      have g1 := hg 1 (by omega)
      have g2 := hg 2 (by omega)
      simp only [Nat.add_zero, Nat.reduceAdd] at g0 g1 g2
      rw [g0, g1, g2]
      simp
    rw [if_neg (by rw [hv]; simp), ← hflen, List.take_length]
  exact (dec_stable crc).mono f s _ hd

theorem dec_output (crc) (r : Buf) (n : Nat) (o : List Buf) (h : dec crc r = some (n, o)) :
    o = [] ∨ ∃ f, o = [f] := by
  unfold dec at h
  split at h; · simp at h
  split at h; · simp at h; exact Or.inl h.2
  split at h; · simp at h; exact Or.inl h.2
  split at h; · simp at h
  split at h; · simp at h; exact Or.inl h.2
  simp at h; exact Or.inr ⟨_, h.2.symm⟩

end Verif.RtcmFraming
