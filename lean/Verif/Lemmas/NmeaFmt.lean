import Verif.Spec.NmeaFmt
namespace Verif.Nmea
open Verif.Nmea.Spec

/-- state of the buffer after printing texts whose concatenation is `T` -/
structure BufInv (n maxLen : Nat) (T : Str) (printed : Bool) (st : Str × Nat) : Prop where
  len : st.1.length = n
  pos : st.2 = min T.length maxLen
  mem : ∃ rest, st.1 = T.take (maxLen - 1) ++ rest ∧ (printed = true → rest.head? = some '\x00')
  empty : printed = false → T = []

theorem sentencePrintf_inv {n maxLen : Nat} {T t : Str} {b : Bool} {st : Str × Nat} (hn : maxLen ≤ n) (hm : 0 < maxLen)
    (h : BufInv n maxLen T b st) : ∃ st', sentencePrintf maxLen st t = some st' ∧ BufInv n maxLen (T ++ t) true st' := by
  obtain ⟨rest, hmem, hnul⟩ := h.mem
  unfold sentencePrintf snprintf
  by_cases hT : maxLen ≤ T.length
  · have hp : st.2 = maxLen := by rw [h.pos]; omega
    have hs : maxLen - st.2 = 0 := by omega
    rw [if_pos hs]
    refine ⟨_, rfl, ?_, ?_, ⟨rest, ?_, ?_⟩, by simp⟩
    · exact h.len
    · simp only [List.length_append]; omega
    · simp only; rw [List.take_append_of_le_length (by omega)]; exact hmem
    · intro _; apply hnul
      cases b
      · have := h.empty rfl; subst this; simp at hT; omega
      · rfl
  · have hp : st.2 = T.length := by rw [h.pos]; omega
    have hs : ¬ (maxLen - st.2 = 0) := by omega
    have hTt : T.take (maxLen - 1) = T := List.take_of_length_le (by omega)
    rw [if_neg hs]
    unfold poke
    have hb : st.2 + (List.take (maxLen - st.2 - 1) t ++ ['\x00']).length ≤ st.1.length := by
      rw [h.len]; simp only [List.length_append, List.length_take, List.length_singleton]; omega
    rw [if_pos hb]
    refine ⟨_, rfl, ?_, ?_, ⟨'\x00' :: st.1.drop (st.2 + (List.take (maxLen - st.2 - 1) t ++ ['\x00']).length), ?_, by simp⟩, by simp⟩
    · simp only [List.length_append, List.length_take, List.length_drop, List.length_singleton]
      rw [h.len]
      simp only [List.length_append, List.length_take, List.length_singleton] at hb
      rw [h.len] at hb
      omega
    · simp only [List.length_append]; omega
    · have h1 : st.1.take st.2 = T := by
        rw [hp, hmem, hTt, List.take_append_of_le_length (by omega)]; simp
      simp only
      rw [h1, List.take_append, hTt]
      have : maxLen - st.2 - 1 = maxLen - 1 - T.length := by omega
      rw [this]; simp [List.append_assoc]

theorem foldlM_inv {n maxLen : Nat} (hn : maxLen ≤ n) (hm : 0 < maxLen) (ts : List Str) : ∀ {T : Str} {b : Bool} {st : Str × Nat},
    BufInv n maxLen T b st → ∃ st', ts.foldlM (sentencePrintf maxLen) st = some st' ∧
      BufInv n maxLen (T ++ ts.flatten) (b || !ts.isEmpty) st' := by
  induction ts with
  | nil => intro T b st h; exact ⟨st, rfl, by simpa using h⟩
  | cons t ts ih =>
    intro T b st h
    obtain ⟨s1, h1, i1⟩ := sentencePrintf_inv (t := t) hn hm h
    obtain ⟨s2, h2, i2⟩ := ih i1
    refine ⟨s2, ?_, ?_⟩
    · simp only [List.foldlM_cons, h1]; exact h2
    · simpa [List.append_assoc] using i2

/-- the scan passes exactly the characters before the NUL -/
theorem checksumScan_spec (size : Nat) (pre body rest : Str) (hnul : rest.head? = some '\x00') :
    ∀ (fuel sum : Nat), '*' ∉ body → '\x00' ∉ body → body.length < fuel → pre.length + body.length + suffixLen ≤ size →
      checksumScan (pre ++ body ++ rest) size fuel pre.length sum =
        (body.foldl (fun a c => a ^^^ c.toNat) sum, pre.length + body.length) := by
  induction body generalizing pre with
  | nil =>
    intro fuel sum _ _ hf hs
    cases fuel with
    | zero => simp at hf
    | succ f =>
      have : (pre ++ [] ++ rest)[pre.length]? = some '\x00' := by
        rw [List.append_nil, List.getElem?_append_right (le_refl _)]
        simp only [Nat.sub_self]
        rw [← List.head?_eq_getElem?]; exact hnul
      simp only [checksumScan]
      rw [this]; simp
  | cons c body ih =>
    intro fuel sum hstar hnul' hf hs
    cases fuel with
    | zero => simp at hf
    | succ f =>
      have hc : (pre ++ c :: body ++ rest)[pre.length]? = some c := by
        rw [List.append_assoc, List.getElem?_append_right (le_refl _)]; simp
      simp only [checksumScan]
      rw [hc]
      simp only [List.mem_cons, not_or] at hstar hnul'
      simp only [List.length_cons] at hs hf
      have hcond : c ≠ '*' ∧ c ≠ '\x00' ∧ pre.length + suffixLen < size := ⟨Ne.symm hstar.1, Ne.symm hnul'.1, by omega⟩
      simp only
      rw [if_pos hcond]
      have := ih (pre ++ [c]) f (sum ^^^ c.toNat) hstar.2 hnul'.2 (by omega) (by simp; omega)
      simp only [List.length_append, List.length_singleton, List.append_assoc, List.cons_append, List.nil_append] at this
      simp only [List.append_assoc, List.cons_append]
      rw [this]
      simp only [List.foldl_cons, List.length_cons, Prod.mk.injEq, true_and]
      omega

theorem xor_lt_256 (s : Str) (h : ∀ c ∈ s, c.toNat < 256) : ∀ a, a < 256 → s.foldl (fun a c => a ^^^ c.toNat) a < 256 := by
  induction s with
  | nil => intro a ha; simpa using ha
  | cons c s ih =>
    intro a ha
    simp only [List.foldl_cons]
    apply ih (fun x hx => h x (List.mem_cons_of_mem _ hx))
    exact Nat.xor_lt_two_pow (n := 8) ha (h c List.mem_cons_self)

theorem hexVal_hexDigit : ∀ n : Fin 16, hexVal (hexDigit n) = some n.val := by decide +kernel

theorem hexDigit_ne_nul : ∀ n : Fin 16, hexDigit n ≠ '\x00' := by decide +kernel

theorem takeWhile_nul {s rest : Str} (h : '\x00' ∉ s) : (s ++ '\x00' :: rest).takeWhile (· ≠ '\x00') = s := by
  rw [List.takeWhile_append_of_pos]
  · simp
  · intro c hc; simp only [decide_eq_true_eq, ne_eq]; intro e; exact h (e ▸ hc)

/-- what comes out of the sentence buffer -/
theorem printSentence_spec (mem : Str) (s : Sentence) (T : Str) (hmem : mem.length = s.maxLen + suffixLen) (hm : 2 ≤ s.maxLen)
    (hT : s.texts.flatten = '$' :: T) (hstar : '*' ∉ T) (hnul : '\x00' ∉ T) (hbyte : ∀ c ∈ T, c.toNat < 256) :
    ∃ out, printSentence mem s = some out ∧ WellFormed out (T.take (s.maxLen - 2)) := by
  have hsl : suffixLen = 6 := rfl
  have hne : s.texts.isEmpty = false := by
    cases h : s.texts with
    | nil => simp [h] at hT
    | cons _ _ => rfl
  obtain ⟨st, hst, inv⟩ := foldlM_inv (n := s.maxLen + suffixLen) (maxLen := s.maxLen) (by omega) (by omega) s.texts
    (T := []) (b := false) (st := (mem, 0)) ⟨hmem, by simp, ⟨mem, by simp, by simp⟩, by simp⟩
  rw [List.nil_append, hT, hne] at inv
  obtain ⟨rest, hm1, hr⟩ := inv.mem
  have hr := hr (by rfl)
  obtain ⟨k, hk⟩ : ∃ k, s.maxLen = k + 2 := ⟨s.maxLen - 2, by omega⟩
  have htk : List.take (s.maxLen - 1) ('$' :: T) = '$' :: T.take k := by
    rw [hk]; rfl
  rw [htk] at hm1
  set B := T.take k with hB
  have hBstar : '*' ∉ B := fun h => hstar (List.mem_of_mem_take h)
  have hBnul : '\x00' ∉ B := fun h => hnul (List.mem_of_mem_take h)
  have hBlen : B.length ≤ k := by rw [hB, List.length_take]; omega
  have hscan : checksumScan st.1 (s.maxLen + suffixLen) (s.maxLen + suffixLen) 1 0 = (xorAll B, 1 + B.length) := by
    have := checksumScan_spec (s.maxLen + suffixLen) ['$'] B rest hr (s.maxLen + suffixLen) 0 hBstar hBnul (by omega)
      (by simp only [List.length_singleton]; omega)
    simp only [List.length_singleton, List.singleton_append] at this
    rw [hm1]; exact this
  have hx : xorAll B < 256 := xor_lt_256 B (fun c hc => hbyte c (List.mem_of_mem_take hc)) 0 (by omega)
  set x := xorAll B with hxd
  have hlen1 : (1 + B.length) + rest.length = s.maxLen + suffixLen := by
    have := inv.len; rw [hm1] at this
    simp only [List.length_append, List.length_cons] at this; omega
  refine ⟨'$' :: B ++ ['*', hexDigit (x / 16), hexDigit (x % 16), '\x0d', '\x0a'], ?_, hexDigit (x / 16), hexDigit (x % 16),
    x / 16, x % 16, ?_, ?_, ?_, ?_, ?_, ?_⟩
  · unfold printSentence
    rw [hst]
    simp only [Option.bind_eq_bind, Option.bind_some]
    unfold appendChecksum
    have h0 : st.1[0]? = some '$' := by rw [hm1]; rfl
    rw [if_pos h0]
    simp only
    rw [hscan]
    simp only
    have hpos : s.maxLen + suffixLen - (1 + B.length) > 0 := by omega
    rw [if_pos hpos]
    unfold snprintf
    rw [if_neg (by omega : ¬ (s.maxLen + suffixLen - (1 + B.length) = 0))]
    have htake : List.take (s.maxLen + suffixLen - (1 + B.length) - 1) ('*' :: fmtX2 x ++ ['\x0d', '\x0a'])
        = ['*', hexDigit (x / 16), hexDigit (x % 16), '\x0d', '\x0a'] := by
      rw [List.take_of_length_le]
      · rfl
      · simp only [fmtX2, List.length_append, List.length_cons, List.length_nil]; omega
    rw [htake]
    unfold poke
    rw [if_pos (by rw [inv.len]; simp only [List.length_append, List.length_cons, List.length_nil]; omega)]
    simp only [Option.bind_some, pure, Option.some.injEq]
    have ht : st.1.take (1 + B.length) = '$' :: B := by
      rw [hm1, List.take_append_of_le_length (by simp; omega), List.take_of_length_le (by simp; omega)]
    rw [ht]
    unfold cstring
    rw [List.append_assoc, List.append_assoc]
    have := takeWhile_nul (s := ('$' :: B) ++ ['*', hexDigit (x / 16), hexDigit (x % 16), '\x0d', '\x0a'])
      (rest := List.drop (1 + B.length + (['*', hexDigit (x / 16), hexDigit (x % 16), '\x0d', '\x0a'] ++ ['\x00']).length) st.1) ?_
    · rw [List.append_assoc] at this
      exact this
    · simp only [List.mem_append, List.mem_cons, not_or, List.not_mem_nil, not_false_eq_true, and_true]
      refine ⟨⟨by decide, hBnul⟩, by decide, ?_, ?_, by decide, by decide⟩
      · exact Ne.symm (hexDigit_ne_nul ⟨x / 16, by omega⟩)
      · exact Ne.symm (hexDigit_ne_nul ⟨x % 16, by omega⟩)
  · rw [hk]; rfl
  · exact hexVal_hexDigit ⟨x / 16, by omega⟩
  · exact hexVal_hexDigit ⟨x % 16, by omega⟩
  · rw [hk]; show 16 * (x / 16) + x % 16 = x; omega
  · rw [hk]; exact hBstar
  · rw [hk]; exact hBnul

end Verif.Nmea
