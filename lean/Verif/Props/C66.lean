import Verif.Props.C64
import Verif.Lemmas.RtcmKeep
/-!
C66: text messages (RTCM 1029, SBP log) and the MSM1-3 warning.
-/
namespace Verif.Misc
open Verif.Misc.Spec Verif.Spec Verif.RtcmFraming Verif.Time Dec
open Verif.RtcmSbp (State Env Input no1230 messageType crint whitelist msm13)

variable {W E : Type}

theorem isLead_iff : ∀ b : BitVec 8, isLead b = true ↔ 192 ≤ b.toNat := by decide

theorem text_eq (u : Buf) : text1029 u =
    if (preamble ++ u).length < 254 then preamble ++ u
    else if 192 ≤ ((preamble ++ u).getD 253 0).toNat then (preamble ++ u).take 253 else (preamble ++ u).take 254 := by
  have hm : (preamble ++ u).take (min textMax (preamble.length + u.length)) = (preamble ++ u).take 254 := by
    rw [← List.length_append]
    by_cases h : (preamble ++ u).length ≤ 254
    · rw [List.take_of_length_le h, List.take_of_length_le (by simp only [textMax]; omega)]
    · rw [Nat.min_eq_left (by simp only [textMax]; omega)]
  have k2 : ∀ b : BitVec 8, (b &&& 0xF8 = 0xF0 ∨ b &&& 0xE0 = 0xE0) → isLead b = true := by decide
  have k3 : ∀ b : BitVec 8, (b &&& 0xF8 = 0xF0) → isLead b = true := by decide
  unfold text1029
  simp only [hm]
  by_cases h : (preamble ++ u).length < 254
  · rw [if_pos h, List.take_of_length_le (by omega), if_neg (by simp only [textMax]; omega)]
  · rw [if_neg h, if_pos (by rw [List.length_take]; simp only [textMax]; omega)]
    have hg : ((preamble ++ u).take 254).getD (textMax - 1) 0 = (preamble ++ u).getD 253 0 := by
      simp only [textMax, List.getD_eq_getElem?_getD]
      rw [List.getElem?_take_of_lt (by omega)]
    rw [hg]
    by_cases hl : isLead ((preamble ++ u).getD 253 0) = true
    · rw [if_pos hl, if_pos ((isLead_iff _).1 hl), List.take_take]; rfl
    · rw [if_neg hl, if_neg (fun h => hl ((isLead_iff _).2 h)), if_neg (fun h => hl (k2 _ h)), if_neg (fun h => hl (k3 _ h))]

theorem text_length (u : Buf) : (text1029 u).length ≤ 254 := by
  rw [text_eq]
  split
  · omega
  · split <;> rw [List.length_take] <;> omega

theorem text_prefix (u : Buf) : text1029 u <+: preamble ++ u := by
  rw [text_eq]
  split
  · exact List.prefix_rfl
  · split <;> exact List.take_prefix _ _

/-! ### UTF-8 -/

theorem conts_zero {b : BitVec 8} (h : conts b = some 0) : b.toNat < 128 := by
  unfold conts at h
  by_contra hc
  rw [if_neg hc] at h
  split at h
  · simp at h
  · split at h
    · simp at h
    · split at h
      · simp at h
      · split at h <;> simp at h

theorem conts_pos {b : BitVec 8} {k : Nat} (h : conts b = some k) (h1 : b.toNat < 192) : k = 0 := by
  unfold conts at h
  split at h
  · simpa using h.symm
  · simp at h

theorem conts_small {b : BitVec 8} {k : Nat} (h : conts b = some k) (h1 : b.toNat < 224) : k ≤ 1 := by
  unfold conts at h
  split at h
  · simp at h; omega
  · split at h
    · simp at h
    · simp at h; omega

theorem utf8_last {l : Buf} (h : Utf8 l) : ∀ b, l.getLast? = some b → b.toNat < 192 := by
  induction h with
  | nil => intro b hb; simp at hb
  | char lead cs rest hc hcs _ ih =>
    intro b hb
    by_cases hr : rest = []
    · subst hr
      rw [List.append_nil] at hb
      by_cases hz : cs = []
      · subst hz
        simp at hb
        subst hb
        have := conts_zero hc
        omega
      · have : b ∈ cs := by
          rw [List.getLast?_cons] at hb
          have h2 : cs.getLast? = some (cs.getLast hz) := List.getLast?_eq_some_getLast hz
          rw [h2] at hb
          simp at hb
          rw [← hb]; exact List.getLast_mem hz
        have := hcs b this
        unfold IsCont at this; omega
    · apply ih
      rw [List.getLast?_cons, List.getLast?_append] at hb
      have h2 : rest.getLast? = some (rest.getLast hr) := List.getLast?_eq_some_getLast hr
      rw [h2] at hb ⊢
      simpa using hb

theorem utf8_append {a b : Buf} (ha : Utf8 a) (hb : Utf8 b) : Utf8 (a ++ b) := by
  induction ha with
  | nil => exact hb
  | char lead cs rest hc hcs _ ih =>
    rw [List.cons_append, List.append_assoc]
    exact .char lead cs _ hc hcs ih

theorem utf8_ascii (l : Buf) (h : ∀ b ∈ l, b.toNat < 128) : Utf8 l := by
  induction l with
  | nil => exact .nil
  | cons a l ih =>
    have := Utf8.char a [] l (by unfold conts; rw [if_pos (h a List.mem_cons_self)]; rfl) (by simp)
      (ih (fun b hb => h b (List.mem_cons_of_mem _ hb)))
    simpa using this

theorem utf8_take {t : Buf} (h : Utf8 t) : (∀ b ∈ t, b.toNat < 224) → ∀ k, 0 < k → k ≤ t.length →
    ((t.getD (k - 1) 0).toNat < 192 → Utf8 (t.take k)) ∧ (192 ≤ (t.getD (k - 1) 0).toNat → Utf8 (t.take (k - 1))) := by
  induction h with
  | nil => intro _ k hk hl; simp at hl; omega
  | char lead cs rest hc hcs hrest ih =>
    intro hb k hk hl
    have hlead := hb lead List.mem_cons_self
    have hcl := conts_small hc hlead
    simp only [List.length_cons, List.length_append] at hl
    by_cases hk1 : k ≤ 1 + cs.length
    · by_cases k1 : k = 1
      · subst k1
        simp only [Nat.sub_self, List.getD_cons_zero, List.take_zero]
        refine ⟨fun hlt => ?_, fun _ => .nil⟩
        have hz := conts_pos hc hlt
        have := Utf8.char lead [] [] (by rw [hc, hz]; rfl) (by simp) .nil
        simpa using this
      · have hk2 : k = 2 := by omega
        have h1 : cs.length = 1 := by omega
        obtain ⟨c, rfl⟩ := List.length_eq_one_iff.1 h1
        subst hk2
        have hcc := hcs c List.mem_cons_self
        constructor
        · intro _
          have := Utf8.char lead [c] [] hc hcs .nil
          simpa using this
        · intro h
          unfold IsCont at hcc
          simp at h
          omega
    · have hk' : 0 < k - (1 + cs.length) := by omega
      have := ih (fun b hbm => hb b (List.mem_cons_of_mem _ (List.mem_append_right _ hbm))) (k - (1 + cs.length)) hk' (by omega)
      have eg : (lead :: (cs ++ rest)).getD (k - 1) 0 = rest.getD (k - (1 + cs.length) - 1) 0 := by
        rw [show k - 1 = (k - 2) + 1 by omega, List.getD_cons_succ]
        simp only [List.getD_eq_getElem?_getD]
        rw [List.getElem?_append_right (by omega)]
        congr 2; omega
      have et : ∀ j, 1 + cs.length ≤ j → (lead :: (cs ++ rest)).take j = lead :: (cs ++ rest.take (j - (1 + cs.length))) := by
        intro j hj
        rw [show j = (j - 1) + 1 by omega, List.take_succ_cons, List.take_append, List.take_of_length_le (by omega)]
        congr 3; omega
      rw [eg, et k (by omega), et (k - 1) (by omega)]
      rw [show k - 1 - (1 + cs.length) = k - (1 + cs.length) - 1 by omega]
      exact ⟨fun h => .char lead cs _ hc hcs (this.1 h), fun h => .char lead cs _ hc hcs (this.2 h)⟩

theorem preamble_utf8 : Utf8 preamble := utf8_ascii _ (by decide +kernel)
theorem preamble_length : preamble.length = 6 := by decide +kernel

/-- text that fits is not touched -/
theorem text_whole (u : Buf) (hu : Utf8 u) (hl : u.length ≤ 248) : text1029 u = asc "RTCM: " ++ u := by
  have hp := preamble_length
  rw [text_eq]
  by_cases h : (preamble ++ u).length < 254
  · rw [if_pos h]; rfl
  · rw [if_neg h]
    have hlen : (preamble ++ u).length = 254 := by rw [List.length_append] at h ⊢; omega
    have hlast := utf8_last (utf8_append preamble_utf8 hu)
    have hne : (preamble ++ u).getLast? = some ((preamble ++ u).getD 253 0) := by
      rw [List.getLast?_eq_getElem?, hlen, List.getD_eq_getElem?_getD]
      rw [List.getElem?_eq_getElem (by omega)]
      rfl
    have := hlast _ hne
    rw [if_neg (by omega), List.take_of_length_le (by omega)]
    rfl

theorem text_best (u : Buf) (hu : Utf8 u) (hb : ∀ b ∈ u, b.toNat < 224) : BestPrefix 254 (asc "RTCM: " ++ u) (text1029 u) := by
  have hp := preamble_length
  have hU := utf8_append preamble_utf8 hu
  have hB : ∀ b ∈ preamble ++ u, b.toNat < 224 := by
    intro b hbm
    rcases List.mem_append.1 hbm with h | h
    · have : ∀ b ∈ preamble, b.toNat < 224 := by decide +kernel
      exact this b h
    · exact hb b h
  refine ⟨text_prefix u, text_length u, ?_, ?_⟩
  · rw [text_eq]
    split
    · exact hU
    · have h := utf8_take hU hB 254 (by omega) (by omega)
      rw [show 254 - 1 = 253 from rfl] at h
      split
      · rename_i h1; exact h.2 h1
      · rename_i h1; exact h.1 (by omega)
  · intro r hr hrl hru
    rw [text_eq]
    split
    · exact hr.length_le
    · split
      · rename_i hlen hlead
        rw [List.length_take, Nat.min_eq_left (by omega)]
        by_contra hc
        have h254 : r.length = 254 := by omega
        obtain ⟨tl, ht⟩ := hr
        have hne : r.getLast? = some ((preamble ++ u).getD 253 0) := by
          rw [show preamble ++ u = r ++ tl from ht.symm, List.getLast?_eq_getElem?, h254, List.getD_eq_getElem?_getD,
            List.getElem?_append_left (by omega), List.getElem?_eq_getElem (by omega)]
          rfl
        have := utf8_last hru _ hne
        omega
      · rw [List.length_take]; omega

/-! ### C66 -/

def logOfSent : Sent → Option (Nat × LogText)
  | .m1029 m => some (stnToSender (m.stnId % 4096), ⟨6, text1029 m.utf8⟩)
  | _ => none

theorem sendLog_text (level : Nat) (u : Buf) (stn : Nat) (h : stn < 65536) :
    (sendLog level (text1029 u) stn : List (Nat × Msg W E)) = [(stnToSender stn, .log ⟨level, text1029 u⟩)] := by
  have := text_length u
  unfold sendLog
  rw [if_neg (by simp only [textMax]; omega), Nat.mod_eq_of_lt h]

theorem part_log (L : Lib W E) (free : Bool) (m : Sent) (x : MInput) :
    (part L free m x).filterMap gotLog = (logOfSent m).toList := by
  unfold part
  cases m with
  | m1006 m => simp [Sent.needsTime, Sent.back, logOfSent, gotLog]
  | m1008 m => simp [Sent.back, logOfSent]
  | m1033 m =>
    split
    · rfl
    · simp only [Sent.back]; split <;> simp [logOfSent, gotLog]
  | m1230 m => split <;> simp [Sent.back, logOfSent, gotLog]
  | m4062 m => cases hL : L.sbpDecode m.msgType m.data <;> simp [Sent.needsTime, Sent.back, logOfSent, gotLog, hL]
  | m1029 m =>
    rw [if_neg (by simp [Sent.needsTime])]
    simp only [Sent.back]
    rw [sendLog_text _ _ _ (by omega)]
    rfl

theorem sent_log (es : List SbpIn) : ∀ st, List.Forall₂ TextBack (es.filterMap sentLog) ((sent st es).filterMap logOfSent) := by
  induction es with
  | nil => intro st; exact .nil
  | cons e es ih =>
    intro st
    simp only [sent, List.filterMap_append]
    have h := ih (outStep st e).1
    cases e with
    | basePos s p =>
      have e1 : (sentStep st (.basePos s p)).filterMap logOfSent = [] := by
        simp only [sentStep]
        split <;> rfl
      rw [e1]; exact h
    | log s p =>
      match p with
      | [] => exact h
      | [_] => exact h
      | l :: c :: t =>
        have e1 : (sentStep st (.log s (l :: c :: t))).filterMap logOfSent = [(stnToSender (s % 4096), ⟨6, text1029 (c :: t)⟩)] := by
          simp only [sentStep]
          rw [if_neg (by simp)]
          rfl
        rw [e1]
        exact .cons ⟨rfl, rfl, text_prefix _, text_length _, text_whole _, text_best _⟩ h
    | _ => exact h

/-- **C66** (partial: see `C66_cut_bug`)  Over any history, chunking and receiver state: the texts that come out are those that went in, one
for one and in order, behind "RTCM: ".  A UTF-8 text of up to 248 bytes comes out whole; a longer one is cut to at most 254 bytes, and
for characters of one or two bytes the cut is the best possible: as many whole characters as fit. -/
theorem C66_text_partial (crc : Buf → BitVec 24) (env : Env) (L : Lib W E) (a : Nat) (es : List SbpIn) (hf : ∀ e ∈ es, Fits e)
    (chunks : List Buf) (xs : List MInput) (hc : Carried crc (.init a) es chunks xs) (s : State) :
    ∃ outs, miscRun env L s xs = some outs ∧ List.Forall₂ TextBack (es.filterMap sentLog) (outs.filterMap gotLog) := by
  obtain ⟨parts, h1, h2, h3⟩ := carried_back crc env L (.init a) (init_ok a) es hf chunks xs hc s
  refine ⟨_, h1, ?_⟩
  rw [parts_filter L gotLog logOfSent h2 (fun mx _ free => part_log L free mx.1 mx.2), h3]
  exact sent_log es _

/-- 246 letters and a euro sign (three bytes) -/
def exEuro : Buf := List.replicate 246 0x61 ++ [0xE2, 0x82, 0xAC]

theorem utf8_tail {l : Buf} (h : Utf8 l) : ∀ pre lead cs, l = pre ++ lead :: cs → (∀ c ∈ cs, IsCont c) → 192 ≤ lead.toNat →
    ∃ k, conts lead = some k ∧ k = cs.length := by
  induction h with
  | nil => intro pre lead cs h; simp at h
  | char l0 c0 rest hc hcs hr ih =>
    intro pre lead cs he hcc hl
    match pre with
    | [] =>
      simp only [List.nil_append, List.cons.injEq] at he
      obtain ⟨rfl, rfl⟩ := he
      have hrest : rest = [] := by
        cases hr with
        | nil => rfl
        | char l1 c1 r1 h1 _ _ =>
          exfalso
          have hc1 := hcc l1 (by simp)
          have := conts_pos h1 (by unfold IsCont at hc1; omega)
          rw [this] at h1
          have := conts_zero h1
          unfold IsCont at hc1; omega
      subst hrest
      exact ⟨_, hc, by simp⟩
    | p :: pre =>
      simp only [List.cons_append, List.cons.injEq] at he
      obtain ⟨rfl, he⟩ := he
      -- the lead byte is not among the continuation bytes of the first character
      have hlen : c0.length ≤ pre.length := by
        by_contra hlt
        have hm : lead ∈ c0 := by
          have h1 : (pre ++ lead :: cs)[pre.length]? = some lead := by simp
          rw [← he, List.getElem?_append_left (by omega)] at h1
          exact List.mem_of_getElem? h1
        have := hcs lead hm
        unfold IsCont at this; omega
      have h2 : rest = pre.drop c0.length ++ lead :: cs := by
        have := congrArg (List.drop c0.length) he
        rw [List.drop_left, List.drop_append_of_le_length hlen] at this
        exact this
      exact ih _ _ _ h2 hcc hl

/-- **C66** Defect: when the limit falls inside a character of three bytes, the text is cut inside the character: the log message carries
invalid UTF-8 although two of the three bytes could have been dropped. -/
theorem C66_cut_bug : Utf8 exEuro ∧ exEuro.length = 249 ∧ (text1029 exEuro).length = 254 ∧ ¬ Utf8 (text1029 exEuro) := by
  have e : text1029 exEuro = (preamble ++ List.replicate 246 0x61) ++ 0xE2 :: [0x82] := by decide +kernel
  refine ⟨?_, by decide +kernel, by rw [e]; decide +kernel, ?_⟩
  · refine utf8_append (utf8_ascii _ ?_) ?_
    · intro b hb; rw [(List.mem_replicate.1 hb).2]; decide
    · have := Utf8.char 0xE2 [0x82, 0xAC] [] (by decide) (by intro c hc; revert c; decide) .nil
      simpa using this
  · intro h
    obtain ⟨k, h1, h2⟩ := utf8_tail h _ _ _ e (by intro c hc; revert c; decide) (by decide)
    have : conts 0xE2 = some 2 := by decide
    rw [this] at h1
    simp at h1 h2
    omega

/- the hypotheses of the best cut are met by a text of 200 two-byte characters -/
example : ∃ u : Buf, Utf8 u ∧ (∀ b ∈ u, b.toNat < 224) ∧ 248 < u.length := by
  have h : ∀ n, Utf8 (List.flatten (List.replicate n [0xC3, 0xA9])) := by
    intro n
    induction n with
    | zero => exact .nil
    | succ n ih =>
      rw [List.replicate_succ, List.flatten_cons]
      exact utf8_append (by simpa using Utf8.char 0xC3 [0xA9] [] (by decide) (by intro c hc; revert c; decide) .nil) ih
  refine ⟨_, h 125, ?_, by rw [List.length_flatten, List.map_replicate, List.sum_replicate]; decide⟩
  intro b hb
  obtain ⟨l, hl, hbl⟩ := List.mem_flatten.1 hb
  rw [(List.mem_replicate.1 hl).2] at hbl
  revert b; decide

/-! ### the MSM1-3 warning -/

/-- a message of the unsupported types MSM1, MSM2, MSM3: 1071-1073, 1081-1083, ..., 1121-1123 -/
def IsMsm13 (p : Buf) : Prop := 2 ≤ p.length ∧ 1071 ≤ messageType p ∧ messageType p ≤ 1123 ∧ 1 ≤ messageType p % 10 ∧ messageType p % 10 ≤ 3
instance (p) : Decidable (IsMsm13 p) := inferInstanceAs (Decidable (_ ∧ _ ∧ _ ∧ _ ∧ _))

theorem msm13_iff (n : Nat) : n ∈ msm13 ↔ 1071 ≤ n ∧ n ≤ 1123 ∧ 1 ≤ n % 10 ∧ n % 10 ≤ 3 := by
  constructor
  · intro h
    have : ∀ n ∈ msm13, 1071 ≤ n ∧ n ≤ 1123 ∧ 1 ≤ n % 10 ∧ n % 10 ≤ 3 := by decide
    exact this n h
  · rintro ⟨h1, h2, h3, h4⟩
    interval_cases n <;> first | (exfalso; omega) | decide

theorem warn_flag (env : Env) (pre : List MInput) :
    (RtcmSbp.run env .init (pre.map MInput.inp)).1.sentMsmWarning = pre.any fun x => decide (IsMsm13 x.inp.payload) := by
  have hrun : ∀ (l : List Input) (s : State) (i : Input), (RtcmSbp.run env s (l ++ [i])).1 = (RtcmSbp.step env (RtcmSbp.run env s l).1 i).1 := by
    intro l
    induction l with
    | nil => intro s i; rfl
    | cons a l ih => intro s i; simp only [List.cons_append, RtcmSbp.run]; exact ih _ _
  induction pre using List.reverseRecOn with
  | nil => rfl
  | append_singleton pre x ih =>
    rw [List.map_append, List.map_singleton, hrun, List.any_append]
    obtain ⟨h1, h2⟩ := RtcmSbp.step_warning env (RtcmSbp.run env .init (pre.map MInput.inp)).1 x.inp
    have hi : (messageType x.inp.payload ∈ msm13 ∧ 2 ≤ x.inp.payload.length) ↔ IsMsm13 x.inp.payload := by
      unfold IsMsm13; rw [msm13_iff]; tauto
    by_cases hx : IsMsm13 x.inp.payload
    · rw [h1 (hi.2 hx)]; simp [hx]
    · rw [h2 (fun h => hx (hi.1 h)), ih]; simp [hx]

theorem warn_out (env : Env) (L : Lib W E) (r : State) (x : MInput) (hm : IsMsm13 x.inp.payload) :
    miscOut env L r x = if r.sentMsmWarning = true ∨ ¬ 36 ≤ 8 * x.inp.payload.length then some []
      else some [(stnToSender (getbitu x.inp.payload 12 24 % 65536), .log ⟨4, asc "MSM1-3 Messages currently not supported"⟩)] := by
  have hmem : messageType x.inp.payload ∈ msm13 := (msm13_iff _).2 hm.2
  have hne : ∀ n ∈ msm13, n ≠ 1005 ∧ n ≠ 1006 ∧ n ≠ 1029 ∧ n ≠ 1033 ∧ n ≠ 1230 ∧ n ≠ 4062 ∧ n ≠ 4075 ∧ n ∈ whitelist := by decide
  obtain ⟨a1, a2, a3, a4, a5, a6, a7, a8⟩ := hne _ hmem
  have hlen : (msmText.length : Nat) = 39 := by decide +kernel
  have hc : miscOut env L r x = if r.sentMsmWarning = true ∨ ¬ 36 ≤ 8 * x.inp.payload.length then some []
      else some (sendLog 4 msmText (getbitu x.inp.payload 12 24)) := by
    unfold miscOut
    rw [if_neg (by have := hm.1; omega)]
    simp only
    rw [if_neg (fun h => h.1 a8)]
    unfold content
    simp only
    rw [if_neg a1, if_neg a2, if_neg a3, if_neg a4, if_neg a5, if_neg a6, if_neg a7, if_pos hmem]
    have e : (if x.inp.solved = true then { ({ r with timeInput := x.inp.time } : State) with leap := some (env.utcOffset x.inp.time) }
        else { r with timeInput := x.inp.time }).sentMsmWarning = r.sentMsmWarning := by split <;> rfl
    rw [e]
  have hs : (sendLog 4 msmText (getbitu x.inp.payload 12 24) : List (Nat × Msg W E)) =
      [(stnToSender (getbitu x.inp.payload 12 24 % 65536), .log ⟨4, asc "MSM1-3 Messages currently not supported"⟩)] := by
    unfold sendLog
    rw [if_neg (by rw [hlen]; simp only [textMax]; omega)]
    rfl
  rw [hc, hs]

/-- **C66** (partial: see `C66_warning_sender_bug`)  The warning about unsupported MSM1-3 messages: after any history, such a message gives
the warning (level 4) when it is the first of its kind and at least 36 bits long, and nothing when there was one before, with or without
a known time. -/
theorem C66_warning_partial (env : Env) (L : Lib W E) (pre : List MInput) (x : MInput) (hm : IsMsm13 x.inp.payload) :
    ((∃ y ∈ pre, IsMsm13 y.inp.payload) → miscOut env L (RtcmSbp.run env .init (pre.map MInput.inp)).1 x = some []) ∧
    ((∀ y ∈ pre, ¬ IsMsm13 y.inp.payload) → 36 ≤ 8 * x.inp.payload.length → ∃ sender,
      miscOut env L (RtcmSbp.run env .init (pre.map MInput.inp)).1 x =
        some [(sender, .log ⟨4, asc "MSM1-3 Messages currently not supported"⟩)]) ∧
    ((∀ y ∈ pre, ¬ IsMsm13 y.inp.payload) → 8 * x.inp.payload.length < 36 →
      miscOut env L (RtcmSbp.run env .init (pre.map MInput.inp)).1 x = some []) := by
  have hf := warn_flag env pre
  generalize RtcmSbp.run env .init (pre.map MInput.inp) = r at hf
  rw [warn_out env L r.1 x hm, hf]
  refine ⟨?_, ?_, ?_⟩
  · rintro ⟨y, hy, hy2⟩
    rw [if_pos (Or.inl (List.any_eq_true.2 ⟨y, hy, by simpa using hy2⟩))]
  · intro hn hl
    have hany : (pre.any fun x => decide (IsMsm13 x.inp.payload)) = false := by
      rw [List.any_eq_false]; intro y hy; simpa using hn y hy
    rw [hany, if_neg (by simp; omega)]
    exact ⟨_, rfl⟩
  · intro hn hl
    rw [if_pos (Or.inr (by omega))]

/-- a 1071 message from station 5, epoch 123456000 ms -/
def ex1071 : Buf := [0x42, 0xF0, 0x05, 0x1D, 0x6F, 0x34, 0x00, 0, 0, 0]

/-- **C66** Defect: the sender of the warning is not made from the 12-bit station id but from the 16 bits behind its upper half: this
message of station 5 (sender 0xF085) is reported with sender 0xF1D6. -/
theorem C66_warning_sender_bug (env : Env) (L : Lib W E) (t : GpsTime) (b : Bool) :
    fieldU ex1071 0 12 = 1071 ∧ fieldU ex1071 12 12 = 5 ∧
    miscOut env L .init ⟨{ solved := b, time := t, payload := ex1071 }, [], []⟩ =
      some [(0xF1D6, .log ⟨4, asc "MSM1-3 Messages currently not supported"⟩)] ∧ (0xF1D6 : Nat) ≠ (5 ||| 0xF080) := by
  refine ⟨by decide +kernel, by decide +kernel, ?_, by decide⟩
  have e0 : IsMsm13 ex1071 := by unfold IsMsm13; decide +kernel
  rw [warn_out env L .init _ e0]
  have e1 : ¬ ((State.init).sentMsmWarning = true ∨ ¬ 36 ≤ 8 * ex1071.length) := by decide +kernel
  have e2 : stnToSender (getbitu ex1071 12 24 % 65536) = 0xF1D6 := by decide +kernel
  rw [if_neg e1, e2]

end Verif.Misc
