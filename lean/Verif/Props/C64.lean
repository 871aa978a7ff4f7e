import Verif.Lemmas.RtcmMisc
/-!
C64: base positions, from SBP to RTCM and back.
-/
namespace Verif.Misc
open Verif.Misc.Spec Verif.Spec Verif.RtcmFraming Verif.Time Dec
open Verif.RtcmSbp (State Env Input no1230 messageType crint whitelist msm13)

variable {W E : Type}

theorem init_ok (a : Nat) : StOk (OutSt.init a) := ⟨Nat.zero_le _, Nat.zero_le _⟩

/-! ### C64 -/

/-- **C64** Every history of well-formed calls can be written (no frame overruns its buffer), and for every chunking the receiver's
converter is called for each RTCM message sent: the hypothesis of the theorems below can be met with any time and any surroundings. -/
theorem C64_carried (crc : Buf → BitVec 24) (a : Nat) (es : List SbpIn) (hf : ∀ e ∈ es, Fits e) :
    ∃ bytes, outBytes crc (.init a) es = some bytes ∧
      ∀ chunks : List Buf, chunks.flatten = bytes → (∀ c ∈ chunks, c.length ≤ bufferSize) → ∀ (solved : Bool) (t : GpsTime) (junk : Buf),
        ∃ xs, Carried crc (.init a) es chunks xs ∧ ∀ x ∈ xs, x.inp.solved = solved ∧ x.inp.time = t ∧ x.junk = junk := by
  obtain ⟨fs, h1, h2⟩ := outBytes_some crc (.init a) (init_ok a) es hf
  refine ⟨fs.flatten, h1, ?_⟩
  intro chunks hc hl solved t junk
  refine ⟨((sent (.init a) es).map Sent.bytes).map fun p => ⟨{ solved := solved, time := t, payload := p }, [], junk⟩, ⟨?_, hl, ?_⟩, ?_⟩
  · rw [h1, hc]
  · have := C04_stream_roundtrip crc ((sent (.init a) es).map Sent.bytes) (by
      intro p hp
      obtain ⟨m, hm, rfl⟩ := List.mem_map.1 hp
      exact bytes_length m (sent_wf es _ (init_ok a) hf m hm)) fs h2 chunks hl hc
    rw [this]
    simp only [List.map_map]
    rfl
  · intro x hx
    obtain ⟨p, -, rfl⟩ := List.mem_map.1 hx
    exact ⟨rfl, rfl, rfl⟩

def posOfSent : Sent → Option (Nat × BasePos)
  | .m1006 m => some (stnToSender m.base.stnId, posOf (q1005 m.base))
  | _ => none

theorem sendLog_cases (level : Nat) (text : Buf) (stn : Nat) :
    (sendLog level text stn : List (Nat × Msg W E)) = [] ∨
    (sendLog level text stn : List (Nat × Msg W E)) = [(stnToSender (stn % 65536), .log ⟨level, text⟩)] := by
  unfold sendLog; split <;> simp

theorem part_pos (L : Lib W E) (free : Bool) (m : Sent) (x : MInput) :
    (part L free m x).filterMap gotPos = (posOfSent m).toList := by
  unfold part
  cases m with
  | m1006 m => simp [Sent.needsTime, Sent.back, posOfSent, gotPos]
  | m1008 m => simp [Sent.back, posOfSent]
  | m1033 m =>
    split
    · rfl
    · simp only [Sent.back]; split <;> simp [posOfSent, gotPos]
  | m1230 m => split <;> simp [Sent.back, posOfSent, gotPos]
  | m4062 m => cases hL : L.sbpDecode m.msgType m.data <;> simp [Sent.needsTime, Sent.back, posOfSent, gotPos, hL]
  | m1029 m =>
    rw [if_neg (by simp [Sent.needsTime])]
    simp only [Sent.back]
    rcases sendLog_cases (W := W) (E := E) 6 (text1029 m.utf8) (m.stnId % 4096) with h | h <;> rw [h] <;> rfl

theorem sent_pos (es : List SbpIn) : ∀ st, List.Forall₂ PosBack (es.filterMap sentPos) ((sent st es).filterMap posOfSent) := by
  induction es with
  | nil => intro st; exact .nil
  | cons e es ih =>
    intro st
    simp only [sent, List.filterMap_append]
    have h := ih (outStep st e).1
    cases e with
    | basePos s p =>
      have e1 : (sentStep st (.basePos s p)).filterMap posOfSent = [(stnToSender (senderToStn s), posOf (q1005 (msg1005 { st with sender := s } p)))] := by
        simp only [sentStep]
        split <;> rfl
      rw [e1]
      refine .cons ⟨?_, ?_, ?_, ?_⟩ h
      · show stnToSender (senderToStn s) = _
        rw [senderToStn_eq]; rfl
      · exact (same_q1005 (msg1005 { st with sender := s } p)).x
      · exact (same_q1005 (msg1005 { st with sender := s } p)).y
      · exact (same_q1005 (msg1005 { st with sender := s } p)).z
    | log s p =>
      have e1 : (sentStep st (.log s p)).filterMap posOfSent = [] := by
        simp only [sentStep]
        split <;> rfl
      rw [e1]; exact h
    | _ => exact h

/-- **C64** Over any history of calls (positions, biases, text, wrapped messages and settings in any order), any way the byte stream is cut
and any state of the receiving converter, with or without a known time: the base positions that come out are those that went in, one
for one and in order, each coordinate rounded to 0.1 mm, the sender made from the low 12 bits of the original sender. -/
theorem C64_roundtrip (crc : Buf → BitVec 24) (env : Env) (L : Lib W E) (a : Nat) (es : List SbpIn) (hf : ∀ e ∈ es, Fits e)
    (chunks : List Buf) (xs : List MInput) (hc : Carried crc (.init a) es chunks xs) (s : State) :
    ∃ outs, miscRun env L s xs = some outs ∧ List.Forall₂ PosBack (es.filterMap sentPos) (outs.filterMap gotPos) := by
  obtain ⟨parts, h1, h2, h3⟩ := carried_back crc env L (.init a) (init_ok a) es hf chunks xs hc s
  refine ⟨_, h1, ?_⟩
  rw [parts_filter L gotPos posOfSent h2 (fun mx _ free => part_pos L free mx.1 mx.2), h3]
  exact sent_pos es _

/-- **C64** A sender that already has the bits the converters set (0xF080) comes back unchanged. -/
theorem C64_sender_kept (s : Nat) (h : s < 65536) (hb : s &&& 0xF080 = 0xF080) : s % 4096 ||| 0xF080 = s := by
  have e : s % 4096 = s &&& 0xFFF := (Nat.and_two_pow_sub_one_eq_mod s 12).symm
  rw [e]
  apply Nat.eq_of_testBit_eq
  intro i
  have hi : (s &&& 0xF080).testBit i = (0xF080 : Nat).testBit i := by rw [hb]
  rw [Nat.testBit_and] at hi
  rw [Nat.testBit_or, Nat.testBit_and]
  by_cases h16 : i < 16
  · interval_cases i <;> (revert hi; generalize s.testBit _ = b; revert b; decide)
  · have h1 : s.testBit i = false := Nat.testBit_lt_two_pow (lt_of_lt_of_le h (Nat.pow_le_pow_right (n := 2) (i := 16) (by decide) (by omega)))
    have h2 : (0xF080 : Nat).testBit i = false :=
      Nat.testBit_lt_two_pow (lt_of_lt_of_le (b := 2 ^ 16) (by decide) (Nat.pow_le_pow_right (n := 2) (i := 16) (by decide) (by omega)))
    rw [h1, h2]; rfl

/-- **C64** Defect: other senders are not kept apart: two positions from stations 0x0012 and 0x0092 come out with one and the same sender. -/
theorem C64_sender_collision_bug (crc : Buf → BitVec 24) (env : Env) (L : Lib W E) (a : Nat) (p q : BasePos)
    (hp : Fits (.basePos 0x0012 p)) (hq : Fits (.basePos 0x0092 q)) (chunks : List Buf) (xs : List MInput)
    (hc : Carried crc (.init a) [.basePos 0x0012 p, .basePos 0x0092 q] chunks xs) (s : State) :
    ∃ outs p' q', miscRun env L s xs = some outs ∧ outs.filterMap gotPos = [(0xF092, p'), (0xF092, q')] := by
  obtain ⟨outs, h1, h2⟩ := C64_roundtrip crc env L a _ (by
    intro e he
    rcases List.mem_cons.1 he with h | h
    · rw [h]; exact hp
    · rw [List.mem_singleton.1 h]; exact hq) chunks xs hc s
  have e : ([.basePos 0x0012 p, .basePos 0x0092 q] : List SbpIn).filterMap sentPos = [(0x0012, p), (0x0092, q)] := rfl
  rw [e] at h2
  generalize hg : outs.filterMap gotPos = l at h2
  match l, h2 with
  | [(s1, p'), (s2, q')], .cons a1 (.cons a2 .nil) =>
    have e1 : s1 = 0xF092 := by rw [show s1 = 0x0012 % 4096 ||| 0xF080 from a1.sender]; decide
    have e2 : s2 = 0xF092 := by rw [show s2 = 0x0092 % 4096 ||| 0xF080 from a2.sender]; decide
    exact ⟨outs, p', q', h1, by rw [hg, e1, e2]⟩

/-! the antenna messages -/

/-- the state after a history -/
def after (st : OutSt) (es : List SbpIn) : OutSt := es.foldl (fun st e => (outStep st e).1) st

theorem outRun_append (es : List SbpIn) : ∀ (st : OutSt) (fs : List SbpIn), outRun st (es ++ fs) = outRun st es ++ outRun (after st es) fs := by
  induction es with
  | nil => intro st fs; rfl
  | cons e es ih => intro st fs; simp only [List.cons_append, outRun, ih, List.append_assoc]; rfl

theorem after_state (es : List SbpIn) (a : Nat) :
    (after (.init a) es).antDesc = ((lastDescriptors es).map fun d => (cstr d.1).take 31).getD [] ∧
    (after (.init a) es).rcvDesc = ((lastDescriptors es).map fun d => (cstr d.2).take 31).getD [] ∧
    (after (.init a) es).antHeight = (lastHeight es).getD 0 ∧
    ((after (.init a) es).antKnown = true ↔ (lastDescriptors es).isSome ∨ (lastHeight es).isSome) := by
  induction es using List.reverseRecOn with
  | nil => simp [after, OutSt.init, lastDescriptors, lastHeight]
  | append_singleton es e ih =>
    have ha : after (.init a) (es ++ [e]) = (outStep (after (.init a) es) e).1 := by simp [after]
    rw [ha]
    obtain ⟨i1, i2, i3, i4⟩ := ih
    have hd : lastDescriptors (es ++ [e]) = (descriptorsOf e).or (lastDescriptors es) := by
      unfold lastDescriptors
      rw [List.filterMap_append, List.getLast?_append]
      cases h : descriptorsOf e <;> simp [h]
    have hh : lastHeight (es ++ [e]) = (heightOf e).or (lastHeight es) := by
      unfold lastHeight
      rw [List.filterMap_append, List.getLast?_append]
      cases h : heightOf e <;> simp [h]
    rw [hd, hh]
    cases e with
    | basePos s p => exact ⟨i1, i2, i3, i4⟩
    | gloBias s b => exact ⟨i1, i2, i3, i4⟩
    | wrapped t s d => exact ⟨i1, i2, i3, i4⟩
    | log s p => simp only [outStep]; split <;> exact ⟨i1, i2, i3, i4⟩
    | descriptors x r => refine ⟨rfl, rfl, i3, ?_⟩; simp [outStep, descriptorsOf]
    | antHeight h =>
      simp only [outStep, descriptorsOf, heightOf]
      by_cases hc : h < 0 ∨ h > maxHeight
      · rw [if_pos hc, if_neg (by rcases hc with hc | hc <;> [exact fun x => absurd x.1 (not_le.2 hc); exact fun x => absurd x.2 (not_le.2 hc)])]
        exact ⟨i1, i2, i3, i4⟩
      · rw [if_neg hc]
        push Not at hc
        rw [if_pos (show 0 ≤ h ∧ h ≤ Fp.f64 (65535 / 10000) from hc)]
        exact ⟨i1, i2, rfl, by simp⟩

theorem stOk_after (es : List SbpIn) : ∀ st, StOk st → StOk (after st es) := by
  induction es with
  | nil => intro st h; exact h
  | cons e es ih => intro st h; exact ih _ (stOk_step st e h)

/-- **C64** A position is sent as 1006 with the last antenna height accepted before; when an antenna height or descriptors were set before,
1008 with the antenna descriptor and 1033 with antenna and receiver descriptors follow.  An RTCM decoder reads exactly that. -/
theorem C64_antenna (a : Nat) (es : List SbpIn) (s : Nat) (p : BasePos) (hf : Fits (.basePos s p)) :
    ∃ p6 rest, outRun (.init a) (es ++ [.basePos s p]) = outRun (.init a) es ++ p6 :: rest ∧
      (∃ base ht, decode1006.run p6 = .ok (some base, ht) ∧ base.stnId = s % 4096 ∧ Quant (1 / 10000) p.x base.arpX ∧
        Quant (1 / 10000) p.y base.arpY ∧ Quant (1 / 10000) p.z base.arpZ ∧ Quant (1 / 10000) ((lastHeight es).getD 0) ht) ∧
      (lastDescriptors es = none ∧ lastHeight es = none → rest = []) ∧
      ((lastDescriptors es).isSome ∨ (lastHeight es).isSome → ∃ p8 p33 m8 m33, rest = [p8, p33] ∧
        decode1008.run p8 = .ok m8 ∧ decode1033.run p33 = .ok m33 ∧
        m8.base.stnId = s % 4096 ∧ m33.stnId = s % 4096 ∧
        m8.base.antDescriptor = ((lastDescriptors es).map fun d => (cstr d.1).take 31).getD [] ∧
        m33.antDescriptor = ((lastDescriptors es).map fun d => (cstr d.1).take 31).getD [] ∧
        m33.rcvDescriptor = ((lastDescriptors es).map fun d => (cstr d.2).take 31).getD []) := by
  obtain ⟨i1, i2, i3, i4⟩ := after_state es a
  have hok := stOk_after es (.init a) (init_ok a)
  generalize hst : after (.init a) es = st at *
  have hw := sentStep_wf st (.basePos s p) hok hf
  have hr : outRun (.init a) (es ++ [.basePos s p]) = outRun (.init a) es ++ (outStep st (.basePos s p)).2 := by
    rw [outRun_append, hst]; simp [outRun]
  rw [hr]
  refine ⟨_, _, rfl, ?_, ?_, ?_⟩
  · obtain ⟨base, ht, h1, h2, h3, -, -⟩ := C06_1006_roundtrip (msg1006 { st with sender := s } p)
      (hw (.m1006 (msg1006 { st with sender := s } p)) (by simp [sentStep])) blank (by rw [blank_length]; omega)
    refine ⟨base, ht, h1, by rw [h2.stnId]; exact senderToStn_eq s, h2.x, h2.y, h2.z, ?_⟩
    have hh : 0 ≤ st.antHeight ∧ st.antHeight ≤ 65535 / 10000 := by
      rw [i3]
      cases hl : lastHeight es with
      | none => norm_num
      | some h =>
        have hm := List.mem_of_getLast? hl
        obtain ⟨e, -, he⟩ := List.mem_filterMap.1 hm
        cases e <;> simp [heightOf] at he
        refine ⟨by rw [← he.2]; exact he.1.1, ?_⟩
        have := he.1.2
        rw [he.2] at this
        have e : Fp.f64 (65535 / 10000) = 65535 / 10000 - 3 / 8796093022208000 := maxHeight_eq
        rw [e] at this
        have : h ≤ 65535 / 10000 := by linarith
        exact this
    rw [← i3]
    exact h3 hh.1 hh.2
  · rintro ⟨h1, h2⟩
    have : st.antKnown = false := by
      by_contra hc
      have := i4.1 (by simpa using hc)
      rw [h1, h2] at this
      simp at this
    simp only [this]
    rfl
  · intro h
    have hk := i4.2 h
    have m8 := hw (.m1008 (msg1008 (msg1033 { st with sender := s }))) (by simp [sentStep, hk])
    have m33 := hw (.m1033 (msg1033 { st with sender := s })) (by simp [sentStep, hk])
    refine ⟨_, _, msg1008 (msg1033 { st with sender := s }), msg1033 { st with sender := s }, by simp only [hk]; rfl, ?_, ?_,
      senderToStn_eq s, senderToStn_eq s, i1, i1, i2⟩
    · exact C07_1008_roundtrip _ m8.1 m8.2.1 m8.2.2.1 m8.2.2.2 blank (by rw [blank_length]; omega)
    · exact C07_1033_roundtrip _ m33.1 m33.2.1 m33.2.2.1 m33.2.2.2.1 m33.2.2.2.2.1 m33.2.2.2.2.2.1 m33.2.2.2.2.2.2 blank
        (by rw [blank_length]; omega)

/- a history that meets the hypotheses: settings, a position, a bias, text, a wrapped message -/
example : ∀ e ∈ [SbpIn.descriptors (asc "TRM59800.00     SCIS") (asc "PIKSI"), .antHeight (3 / 2),
    .basePos 0x42 ⟨-27063345121 / 10000, -42612 , 38825873 / 10⟩, .gloBias 0x42 ⟨9, -735, 0, 0, -32768⟩,
    .log 7 (6 :: asc "hello"), .wrapped 1502 0x42 [1, 2, 3]], Fits e := by
  intro e he
  simp only [List.mem_cons, List.not_mem_nil, or_false] at he
  rcases he with rfl | rfl | rfl | rfl | rfl | rfl
  · trivial
  · trivial
  · exact ⟨by decide, by unfold CoordFits; norm_num [abs_le], by unfold CoordFits; norm_num [abs_le], by unfold CoordFits; norm_num [abs_le]⟩
  · exact ⟨by decide, by decide, by unfold S16; decide, by unfold S16; decide, by unfold S16; decide, by unfold S16; decide⟩
  · exact ⟨by decide, by decide⟩
  · exact ⟨by decide, by decide, by decide⟩

end Verif.Misc
