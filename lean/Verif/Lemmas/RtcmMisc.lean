import Verif.Spec.RtcmMisc
import Verif.Spec.Station
import Verif.Props.C01_C04
import Verif.Props.C06_C09
import Verif.Lemmas.RtcmSbp
import Mathlib.Tactic.NormNum
namespace Verif.Misc
open Verif.Misc.Spec Verif.Spec Verif.RtcmFraming Verif.Time Dec
open Verif.RtcmSbp (State Env Input no1230 messageType crint whitelist msm13)

variable {W E : Type}

theorem bits2 (a b : BitVec 8) (r : Buf) : (bitsOf (a :: b :: r)).take 12 = toBits 8 a.toNat ++ (toBits 8 b.toNat).take 4 := by
  have e : bitsOf (a :: b :: r) = toBits 8 a.toNat ++ (toBits 8 b.toNat ++ bitsOf r) := by simp [bitsOf]
  rw [e, List.take_append, List.take_of_length_le (by simp), List.take_append]
  simp

theorem type_of_getU {p : Buf} {n : Nat} {r} (h : getU 12 (bitsOf p) = (.ok n, r)) : 2 ≤ p.length ∧ messageType p = n := by
  have hl := (getU_ok h).2
  rw [bitsOf_length] at hl
  refine ⟨by omega, ?_⟩
  match p, hl with
  | [], hl => simp at hl
  | [_], hl => simp at hl
  | a :: b :: t, _ =>
    unfold getU at h
    rw [if_neg (by simp [bitsOf_length]; omega), bits2] at h
    have h' := (Except.ok.inj (Prod.mk.inj h).1)
    rw [← h', ofBits_append, ofBits_toBits_of_lt (by have := a.isLt; omega)]
    have e4 : (toBits 8 b.toNat).take 4 = toBits 4 (b.toNat / 16) := by
      clear h h'; have : ∀ b : BitVec 8, (toBits 8 b.toNat).take 4 = toBits 4 (b.toNat / 16) := by decide
      exact this b
    rw [e4, ofBits_toBits_of_lt (by have := b.isLt; omega)]
    unfold messageType
    simp only [List.getD_cons_zero, List.getD_cons_succ, toBits_length]
    rw [show (15 : Nat) = 2 ^ 4 - 1 from rfl, Nat.and_two_pow_sub_one_eq_mod, Nat.shiftRight_eq_div_pow,
      ← Nat.shiftLeft_add_eq_or_of_lt (by omega), Nat.shiftLeft_eq]
    have := b.isLt
    omega

/-- the type of a payload is the one its decoder insists on -/
theorem type_of_run {α} {k : Nat} {e : RC} {d : Nat → Unit → Dec α} {p : Buf} {m : α}
    (h : Dec.run (do let n ← getU 12; let u ← guard (n = k) e; d n u) p = .ok m) : 2 ≤ p.length ∧ messageType p = k := by
  obtain ⟨r, hr⟩ := run_ok h
  obtain ⟨n, r1, h1, h2⟩ := bind_ok hr
  obtain ⟨hk, -⟩ := guard_ok h2
  rw [← hk]
  exact type_of_getU h1

/-! ### the RTCM messages behind a call -/

/-- a message written by the SBP-to-RTCM converter -/
inductive Sent
  | m1006 (m : Msg1006) | m1008 (m : Msg1008) | m1033 (m : Msg1033) | m1230 (m : Msg1230) | m4062 (m : Msg4062) | m1029 (m : Msg1029)

def Sent.bytes : Sent → Buf
  | .m1006 m => payloadOf (encode1006 m blank)
  | .m1008 m => payloadOf (encode1008 m blank)
  | .m1033 m => payloadOf (encode1033 m blank)
  | .m1230 m => payloadOf (encode1230 m blank)
  | .m4062 m => payloadOf (encode4062 m blank)
  | .m1029 m => payloadOf (encode1029 m blank)

def Sent.WF : Sent → Prop
  | .m1006 m => WF1005 m.base
  | .m1008 m => m.base.stnId < 4096 ∧ m.base.antSetupId < 256 ∧ m.base.antDescriptor.length ≤ 32 ∧ m.antSerialNum.length ≤ 32
  | .m1033 m => m.stnId < 4096 ∧ m.antSetupId < 256 ∧ m.antDescriptor.length ≤ 32 ∧ m.antSerialNum.length ≤ 32 ∧
      m.rcvDescriptor.length ≤ 32 ∧ m.rcvFwVersion.length ≤ 32 ∧ m.rcvSerialNum.length ≤ 32
  | .m1230 m => WF1230 m ∧ m.biasIndicator = 0
  | .m4062 m => m.msgType < 2 ^ 16 ∧ m.senderId < 2 ^ 16 ∧ m.data.length ≤ 255
  | .m1029 m => m.mjdNum < 2 ^ 16 ∧ m.utcSecOfDay < 2 ^ 17 ∧ m.unicodeChars < 128 ∧ m.utf8.length ≤ 254

def Sent.needsTime : Sent → Bool
  | .m1008 _ | .m1033 _ | .m1230 _ => true
  | _ => false

/-- what comes out for it; `free` = no recent 1230 -/
def Sent.back (L : Lib W E) (free : Bool) (junk : Buf) : Sent → List (Nat × Msg W E)
  | .m1006 m => [(stnToSender m.base.stnId, .basePos (posOf (q1005 m.base)))]
  | .m1008 _ => []
  | .m1033 m => if free then [(stnToSender m.stnId, .gloBias (biasOf1033 m junk))] else []
  | .m1230 m => [(stnToSender m.stnId, .gloBias ⟨m.mask, biasUnits (qBias m.mask 3 m.l1ca), biasUnits (qBias m.mask 2 m.l1p),
      biasUnits (qBias m.mask 1 m.l2ca), biasUnits (qBias m.mask 0 m.l2p)⟩)]
  | .m4062 m => (L.sbpDecode m.msgType m.data).toList.map fun w => (m.senderId, .wrapped m.msgType w)
  | .m1029 m => sendLog 6 (text1029 m.utf8) (m.stnId % 4096)

theorem blank_length : blank.length = 1020 := List.length_replicate

theorem dec1006 (m : Msg1006) (h : WF1005 m.base) :
    ∃ ht, decode1006.run (payloadOf (encode1006 m blank)) = .ok (some (q1005 m.base), ht) := by
  refine ⟨_, run_encode blank ?_ ?_ (reads1006 m h)⟩
  · intro w hw
    simp [wr1005Base] at hw
    rcases hw with h | h | h | h | h | h | h | h | h | h | h | h | h | h <;> subst h <;> simp
  · simp [wr1005Base, blank_length]

theorem dec1230 (m : Msg1230) (h : WF1230 m) :
    decode1230.run (payloadOf (encode1230 m blank)) = .ok { stnId := m.stnId, biasIndicator := 0, mask := m.mask, l1ca := qBias m.mask 3 m.l1ca, l1p := qBias m.mask 2 m.l1p, l2ca := qBias m.mask 1 m.l2ca, l2p := qBias m.mask 0 m.l2p } := by
  obtain ⟨e1, e2, e3⟩ := encode1230_splice m blank (by rw [blank_length]; decide)
  exact run_of_splice e1 e2 (by rw [blank_length]; omega) (reads1230 m h)

theorem dec1029 (m : Msg1029) (h2 : m.mjdNum < 2 ^ 16) (h3 : m.utcSecOfDay < 2 ^ 17)
    (h4 : m.unicodeChars < 128) (h5 : m.utf8.length ≤ 254) :
    decode1029.run (payloadOf (encode1029 m blank)) = .ok { m with stnId := m.stnId % 4096 } := by
  refine run_encode blank ?_ ?_ ?_
  · intro w hw
    simp only [List.mem_cons, List.mem_append, List.not_mem_nil, or_false] at hw
    rcases hw with (h | h | h | h | h) | h
    any_goals exact ok_wrString _ _ h
    all_goals subst h; simp
  · simp [wlen_wrString, blank_length]; omega
  · simp only [wbits_cons, wbits_append, wbits_nil, Wr.bits_u, List.append_assoc, List.nil_append, wbits_wrString]
    refine Reads.bind (Reads.getU (by decide)) ?_
    refine Reads.nil_bind (Reads.guard _ rfl) ?_
    refine Reads.bind (Reads.getU' 12 _) ?_
    rdU; rdU; rdU
    refine Reads.bind (Reads.getU (by norm_num; omega)) ?_
    exact Reads.bind_nil (Reads.bytes _) (Reads.pure _)

/-- one message carried over -/
theorem sent_back (env : Env) (L : Lib W E) (s : State) (x : MInput) (m : Sent) (hw : m.WF) (hp : x.inp.payload = m.bytes)
    (ht : m.needsTime = true → x.inp.solved = true) :
    miscOut env L s x = some (m.back L (decide (no1230 { s with timeInput := x.inp.time })) x.junk) := by
  have hno : ∀ o, no1230 { ({ s with timeInput := x.inp.time } : State) with leap := o } ↔ no1230 { s with timeInput := x.inp.time } :=
    fun _ => Iff.rfl
  cases m with
  | m1006 m =>
    obtain ⟨h, hd⟩ := dec1006 m hw
    obtain ⟨hl, hty⟩ := type_of_run (k := 1006) hd
    unfold miscOut
    rw [hp]
    rw [if_neg (by show ¬ (payloadOf (encode1006 m blank)).length < 2; omega)]
    simp only [Sent.bytes, hty]
    rw [if_neg (by simp [whitelist])]
    unfold content
    simp only [hp, Sent.bytes]
    rw [if_neg (by decide), if_pos (by trivial), hd]
    rfl
  | m1008 m =>
    obtain ⟨h1, h2, h3, h4⟩ := hw
    have hd := C07_1008_roundtrip m h1 h2 h3 h4 blank (by rw [blank_length]; omega)
    obtain ⟨hl, hty⟩ := type_of_run (k := 1008) hd
    unfold miscOut
    rw [hp]
    rw [if_neg (by show ¬ (payloadOf (encode1008 m blank)).length < 2; omega)]
    simp only [Sent.bytes, hty]
    rw [if_neg (by rw [ht rfl]; simp)]
    unfold content
    simp only [hp, Sent.bytes]
    simp [msm13, Sent.back]
  | m1033 m =>
    obtain ⟨h1, h2, h3, h4, h5, h6, h7⟩ := hw
    have hd := C07_1033_roundtrip m h1 h2 h3 h4 h5 h6 h7 blank (by rw [blank_length]; omega)
    obtain ⟨hl, hty⟩ := type_of_run (k := 1033) hd
    unfold miscOut
    rw [hp]
    rw [if_neg (by show ¬ (payloadOf (encode1033 m blank)).length < 2; omega)]
    simp only [Sent.bytes, hty]
    rw [if_neg (by rw [ht rfl]; simp)]
    unfold content
    simp only [hp, Sent.bytes]
    rw [if_neg (by decide), if_neg (by decide), if_neg (by decide), if_pos (by trivial), hd, ht rfl]
    simp only [if_true, Sent.back]
    by_cases hf : no1230 { s with timeInput := x.inp.time }
    · rw [if_pos ((hno _).2 hf), if_pos (by simpa using hf)]
    · rw [if_neg (fun h => hf ((hno _).1 h)), if_neg (by simpa using hf)]
  | m1230 m =>
    obtain ⟨hw, hi⟩ := hw
    have hd := dec1230 m hw
    obtain ⟨hl, hty⟩ := type_of_run (k := 1230) hd
    unfold miscOut
    rw [hp]
    rw [if_neg (by show ¬ (payloadOf (encode1230 m blank)).length < 2; omega)]
    simp only [Sent.bytes, hty]
    rw [if_neg (by rw [ht rfl]; simp)]
    unfold content
    simp only [hp, Sent.bytes]
    rw [if_neg (by decide), if_neg (by decide), if_neg (by decide), if_neg (by decide), if_pos (by trivial), hd]
    rfl
  | m4062 m =>
    obtain ⟨h1, h2, h3⟩ := hw
    have hd := C08_4062_roundtrip m h1 h2 h3 blank (by rw [blank_length]; omega)
    obtain ⟨hl, hty⟩ := type_of_run (k := 4062) hd
    unfold miscOut
    rw [hp]
    rw [if_neg (by show ¬ (payloadOf (encode4062 m blank)).length < 2; omega)]
    simp only [Sent.bytes, hty]
    rw [if_neg (by simp [whitelist])]
    unfold content
    simp only [hp, Sent.bytes]
    rw [if_neg (by decide), if_neg (by decide), if_neg (by decide), if_neg (by decide), if_neg (by decide), if_pos (by trivial), hd]
    rfl
  | m1029 m =>
    obtain ⟨h1, h2, h3, h4⟩ := hw
    have hd := dec1029 m h1 h2 h3 h4
    obtain ⟨hl, hty⟩ := type_of_run (k := 1029) hd
    unfold miscOut
    rw [hp]
    rw [if_neg (by show ¬ (payloadOf (encode1029 m blank)).length < 2; omega)]
    simp only [Sent.bytes, hty]
    rw [if_neg (by simp [whitelist])]
    unfold content
    simp only [hp, Sent.bytes]
    rw [if_neg (by decide), if_neg (by decide), if_pos (by trivial), hd]
    rfl

theorem sent_skip (env : Env) (L : Lib W E) (s : State) (x : MInput) (m : Sent) (hw : m.WF) (hp : x.inp.payload = m.bytes)
    (ht : m.needsTime = true) (hs : x.inp.solved = false) : miscOut env L s x = some [] := by
  have key : ∀ k, k ∉ whitelist → messageType m.bytes = k → miscOut env L s x = some [] := by
    intro k hk hty
    unfold miscOut
    split
    · rfl
    · simp only
      rw [hp, if_pos ⟨by rw [hty]; exact hk, hs⟩]
  cases m with
  | m1008 m =>
    obtain ⟨h1, h2, h3, h4⟩ := hw
    have hd := C07_1008_roundtrip m h1 h2 h3 h4 blank (by rw [blank_length]; omega)
    exact key 1008 (by decide) (type_of_run (k := 1008) hd).2
  | m1033 m =>
    obtain ⟨h1, h2, h3, h4, h5, h6, h7⟩ := hw
    have hd := C07_1033_roundtrip m h1 h2 h3 h4 h5 h6 h7 blank (by rw [blank_length]; omega)
    exact key 1033 (by decide) (type_of_run (k := 1033) hd).2
  | m1230 m => exact key 1230 (by decide) (type_of_run (k := 1230) (dec1230 m hw.1)).2
  | m1006 m => cases ht
  | m4062 m => cases ht
  | m1029 m => cases ht

/-- what one call gives -/
def part (L : Lib W E) (free : Bool) (m : Sent) (x : MInput) : List (Nat × Msg W E) :=
  if m.needsTime = true ∧ x.inp.solved = false then [] else m.back L free x.junk

theorem run_back (env : Env) (L : Lib W E) (ms : List Sent) (hw : ∀ m ∈ ms, m.WF) :
    ∀ (xs : List MInput) (s : State), xs.map (·.inp.payload) = ms.map Sent.bytes →
    ∃ parts, miscRun env L s xs = some parts.flatten ∧
      List.Forall₂ (fun mx p => ∃ free, p = part L free mx.1 mx.2) (ms.zip xs) parts := by
  induction ms with
  | nil =>
    intro xs s h
    have : xs = [] := by simpa using h
    subst this
    exact ⟨[], rfl, .nil⟩
  | cons m ms ih =>
    intro xs s h
    match xs, h with
    | x :: xs, h =>
      simp only [List.map_cons, List.cons.injEq] at h
      obtain ⟨parts, h1, h2⟩ := ih (fun a ha => hw a (List.mem_cons_of_mem _ ha)) xs (RtcmSbp.step env s x.inp).1 h.2
      have hm : ∃ free, miscOut env L s x = some (part L free m x) := by
        unfold part
        by_cases hc : m.needsTime = true ∧ x.inp.solved = false
        · exact ⟨true, by rw [if_pos hc]; exact sent_skip env L s x m (hw m List.mem_cons_self) h.1 hc.1 hc.2⟩
        · have hn : m.needsTime = true → x.inp.solved = true := by
            intro hn
            by_contra hs
            exact hc ⟨hn, by simpa using hs⟩
          exact ⟨_, by rw [if_neg hc]; exact sent_back env L s x m (hw m List.mem_cons_self) h.1 hn⟩
      obtain ⟨free, hm⟩ := hm
      refine ⟨part L free m x :: parts, ?_, .cons ⟨free, rfl⟩ h2⟩
      simp only [miscRun, hm, h1, List.flatten_cons]

theorem parts_filter {β} (L : Lib W E) (g : Nat × Msg W E → Option β) (h : Sent → Option β) {l : List (Sent × MInput)}
    {parts : List (List (Nat × Msg W E))}
    (hf : List.Forall₂ (fun mx p => ∃ free, p = part L free mx.1 mx.2) l parts)
    (hg : ∀ mx ∈ l, ∀ free, (part L free mx.1 mx.2).filterMap g = (h mx.1).toList) :
    parts.flatten.filterMap g = (l.map Prod.fst).filterMap h := by
  induction hf with
  | nil => rfl
  | @cons a p l parts hp _ ih =>
    obtain ⟨free, rfl⟩ := hp
    rw [List.flatten_cons, List.filterMap_append, hg a List.mem_cons_self free, ih (fun m hm => hg m (List.mem_cons_of_mem _ hm)),
      List.map_cons, List.filterMap_cons]
    cases h a.1 <;> rfl

theorem parts_sub {β} (L : Lib W E) (g : Nat × Msg W E → Option β) (h : Sent → Option β) {l : List (Sent × MInput)}
    {parts : List (List (Nat × Msg W E))}
    (hf : List.Forall₂ (fun mx p => ∃ free, p = part L free mx.1 mx.2) l parts)
    (hg : ∀ mx ∈ l, ∀ free, ((h mx.1).toList).Sublist ((part L free mx.1 mx.2).filterMap g)) :
    ((l.map Prod.fst).filterMap h).Sublist (parts.flatten.filterMap g) := by
  induction hf with
  | nil => exact .slnil
  | @cons a p l parts hp _ ih =>
    obtain ⟨free, rfl⟩ := hp
    have h1 := hg a List.mem_cons_self free
    have h2 := ih (fun m hm => hg m (List.mem_cons_of_mem _ hm))
    have e : List.filterMap h (List.map Prod.fst (a :: l)) = (h a.1).toList ++ List.filterMap h (List.map Prod.fst l) := by
      rw [List.map_cons, List.filterMap_cons]; cases h a.1 <;> rfl
    rw [List.flatten_cons, List.filterMap_append, e]
    exact h1.append h2

/-! ### the messages sent in a history -/

def sentStep (st : OutSt) : SbpIn → List Sent
  | .basePos sender p =>
    .m1006 (msg1006 { st with sender := sender } p) ::
      if st.antKnown then [.m1008 (msg1008 (msg1033 { st with sender := sender })), .m1033 (msg1033 { st with sender := sender })] else []
  | .gloBias sender b => [.m1230 (msg1230 { st with sender := sender } b)]
  | .wrapped type sender data => [.m4062 ⟨type, sender, data⟩]
  | .log sender payload => if payload.length < 2 then [] else [.m1029 ⟨sender, 0, 0, 0, payload.drop 1⟩]
  | .antHeight _ => []
  | .descriptors _ _ => []

def sent : OutSt → List SbpIn → List Sent
  | _, [] => []
  | st, e :: es => sentStep st e ++ sent (outStep st e).1 es

theorem sentStep_bytes (st : OutSt) (e : SbpIn) : (outStep st e).2 = (sentStep st e).map Sent.bytes := by
  cases e with
  | basePos s p => simp only [outStep, sentStep]; split <;> rfl
  | gloBias s b => rfl
  | wrapped t s d => rfl
  | log s p => simp only [outStep, sentStep]; split <;> rfl
  | antHeight h => rfl
  | descriptors a r => rfl

theorem sent_bytes (es : List SbpIn) : ∀ st, outRun st es = (sent st es).map Sent.bytes := by
  induction es with
  | nil => intro st; rfl
  | cons e es ih => intro st; simp only [outRun, sent, List.map_append, sentStep_bytes, ih]

def StOk (st : OutSt) : Prop := st.antDesc.length ≤ 32 ∧ st.rcvDesc.length ≤ 32

theorem strncpy32_length (s : Buf) : (strncpy32 s).length ≤ 32 := by
  unfold strncpy32
  rw [List.length_take]; omega

theorem stOk_step (st : OutSt) (e : SbpIn) (h : StOk st) : StOk (outStep st e).1 := by
  cases e with
  | log s p => simp only [outStep]; split <;> exact h
  | antHeight x => simp only [outStep]; split <;> exact h
  | descriptors a r => exact ⟨strncpy32_length a, strncpy32_length r⟩
  | _ => exact h

theorem senderToStn_eq (s : Nat) : senderToStn s = s % 4096 := Nat.and_two_pow_sub_one_eq_mod s 12
theorem senderToStn_lt (s : Nat) : senderToStn s < 4096 := by rw [senderToStn_eq]; exact Nat.mod_lt _ (by decide)

theorem bias_range {x : Int} (h : S16 x) :
    -32768 / 50 - 1 / 1000 ≤ Fp.f64 ((x : ℚ) / 50) ∧ Fp.f64 ((x : ℚ) / 50) ≤ 32767 / 50 + 1 / 1000 := by
  have h1 : (-32768 : ℚ) ≤ x := by exact_mod_cast h.1
  have h2 : (x : ℚ) ≤ 32767 := by exact_mod_cast h.2
  have e := Fp.f64_err ((x : ℚ) / 50)
  have h3 : (1 / 2 ^ 200 : ℚ) ≤ 1 / 2000 := by norm_num
  have h4 : |(x : ℚ) / 50| ≤ 1000 := by rw [abs_le]; constructor <;> linarith
  generalize (1 / 2 ^ 200 : ℚ) = a at *
  have e' : |Fp.f64 ((x : ℚ) / 50) - (x : ℚ) / 50| ≤ 1 / 1000 := by linarith
  rw [abs_le] at e'
  constructor <;> linarith [e'.1, e'.2]

theorem sentStep_wf (st : OutSt) (e : SbpIn) (hs : StOk st) (hf : Fits e) : ∀ m ∈ sentStep st e, m.WF := by
  intro m hm
  cases e with
  | basePos s p =>
    simp only [sentStep] at hm
    rcases List.mem_cons.1 hm with h | h
    · subst h
      exact ⟨senderToStn_lt s, by simp [msg1006, msg1005], by simp [msg1006, msg1005], by simp [msg1006, msg1005], by simp [msg1006, msg1005],
        by simp [msg1006, msg1005], by simp [msg1006, msg1005], by simp [msg1006, msg1005], hf.2.1, hf.2.2.1, hf.2.2.2⟩
    · split at h
      · rcases List.mem_cons.1 h with h | h
        · subst h; exact ⟨senderToStn_lt s, by simp [msg1008, msg1033], hs.1, by simp [msg1008]⟩
        · rw [List.mem_singleton] at h
          subst h
          exact ⟨senderToStn_lt s, by simp [msg1033], hs.1, by simp [msg1033], hs.2, by simp [msg1033], by simp [msg1033]⟩
      · simp at h
  | gloBias s b =>
    simp only [sentStep, List.mem_singleton] at hm
    subst hm
    exact ⟨⟨senderToStn_lt s, by simp [msg1230], hf.2.1, bias_range hf.2.2.1, bias_range hf.2.2.2.1, bias_range hf.2.2.2.2.1,
      bias_range hf.2.2.2.2.2⟩, rfl⟩
  | wrapped t s d =>
    simp only [sentStep, List.mem_singleton] at hm
    subst hm
    exact ⟨by have := hf.1; omega, by have := hf.2.1; omega, hf.2.2⟩
  | log s p =>
    simp only [sentStep] at hm
    split at hm
    · simp at hm
    · rw [List.mem_singleton] at hm
      subst hm
      refine ⟨Nat.two_pow_pos _, Nat.two_pow_pos _, Nat.two_pow_pos 7, ?_⟩
      have := hf.2
      simp only [List.length_drop]; omega
  | antHeight h => simp [sentStep] at hm
  | descriptors a r => simp [sentStep] at hm

theorem sent_wf (es : List SbpIn) : ∀ st, StOk st → (∀ e ∈ es, Fits e) → ∀ m ∈ sent st es, m.WF := by
  induction es with
  | nil => intro st _ _ m hm; simp [sent] at hm
  | cons e es ih =>
    intro st hs hf m hm
    simp only [sent, List.mem_append] at hm
    rcases hm with h | h
    · exact sentStep_wf st e hs (hf e List.mem_cons_self) m h
    · exact ih _ (stOk_step st e hs) (fun a ha => hf a (List.mem_cons_of_mem _ ha)) m h

theorem bytes_length (m : Sent) (h : m.WF) : 1 ≤ m.bytes.length ∧ m.bytes.length ≤ 1017 := by
  have bl := blank_length
  cases m with
  | m1006 m =>
    have := payload_length (.u 12 1006 :: (wr1005Base m.base ++ [.u 16 (toTenthMm (clampHeight m.antHeight)).toNat])) blank
      (by simp [wr1005Base, bl])
    simp only [Sent.bytes, encode1006]
    rw [this]
    simp [wr1005Base]
  | m1008 m =>
    obtain ⟨h1, h2, h3, h4⟩ := h
    have := payload_length (.u 12 1008 :: (wr1007Base m.base ++ wrString m.antSerialNum)) blank
      (by simp [wr1007Base, wlen_wrString, bl]; omega)
    simp only [Sent.bytes, encode1008]
    rw [this]
    simp [wr1007Base, wlen_wrString]; omega
  | m1033 m =>
    obtain ⟨h1, h2, h3, h4, h5, h6, h7⟩ := h
    have := payload_length (wr1033 m) blank (by simp [wr1033, wlen_wrString, bl]; omega)
    simp only [Sent.bytes, encode1033]
    rw [this]
    simp [wr1033, wlen_wrString]; omega
  | m1230 m =>
    obtain ⟨e1, e2, e3⟩ := encode1230_splice m blank (by rw [bl]; decide)
    have := (payload_of_splice e1 e2 (by omega)).2
    simp only [Sent.bytes]
    rw [this]
    refine ⟨?_, by omega⟩
    rw [wbits_length]
    simp only [wr1230, wlen_append, wlen_cons, wlen_nil, Wr.len_u]; omega
  | m4062 m =>
    obtain ⟨h1, h2, h3⟩ := h
    have := payload_length ([.u 12 4062, .u 4 0, .u 16 m.msgType, .u 16 m.senderId] ++ wrString m.data) blank
      (by simp [wlen_wrString, bl]; omega)
    simp only [Sent.bytes, encode4062]
    rw [this]
    simp [wlen_wrString]; omega
  | m1029 m =>
    obtain ⟨h1, h2, h3, h4⟩ := h
    have := payload_length ([.u 12 1029, .u 12 m.stnId, .u 16 m.mjdNum, .u 17 m.utcSecOfDay, .u 7 m.unicodeChars]
      ++ wrString m.utf8) blank (by simp [wlen_wrString, bl]; omega)
    simp only [Sent.bytes, encode1029]
    rw [this]
    simp [wlen_wrString]; omega

/-- the frames written are found again, whatever the chunks -/
theorem frames_exist (crc : Buf → BitVec 24) (ps : List Buf) (h : ∀ p ∈ ps, 1 ≤ p.length ∧ p.length ≤ 1017) :
    ∃ fs : List Buf, ps.mapM (encodeFrame crc 1023) = some fs ∧ ps.map (encodeFrame crc frameCap) = fs.map some := by
  induction ps with
  | nil => exact ⟨[], rfl, rfl⟩
  | cons p ps ih =>
    obtain ⟨fs, h1, h2⟩ := ih (fun q hq => h q (List.mem_cons_of_mem _ hq))
    have hp := h p List.mem_cons_self
    obtain ⟨f, he, -⟩ := C04_frame_roundtrip crc p hp.1 hp.2
    refine ⟨f :: fs, ?_, ?_⟩
    · rw [List.mapM_cons, show encodeFrame crc 1023 p = some f from he, h1]; rfl
    · rw [List.map_cons, List.map_cons, he, h2]

theorem outBytes_some (crc : Buf → BitVec 24) (st : OutSt) (hs : StOk st) (es : List SbpIn) (hf : ∀ e ∈ es, Fits e) :
    ∃ fs : List Buf, outBytes crc st es = some fs.flatten ∧ ((sent st es).map Sent.bytes).map (encodeFrame crc frameCap) = fs.map some := by
  have hw := sent_wf es st hs hf
  obtain ⟨fs, h1, h2⟩ := frames_exist crc ((sent st es).map Sent.bytes) (by
    intro p hp
    obtain ⟨m, hm, rfl⟩ := List.mem_map.1 hp
    exact bytes_length m (hw m hm))
  exact ⟨fs, by unfold outBytes; rw [sent_bytes, h1]; rfl, h2⟩

theorem carried_payloads {crc : Buf → BitVec 24} {st : OutSt} {es : List SbpIn} {chunks : List Buf} {xs : List MInput} (hs : StOk st)
    (hf : ∀ e ∈ es, Fits e) (hc : Carried crc st es chunks xs) : xs.map (·.inp.payload) = (sent st es).map Sent.bytes := by
  obtain ⟨h1, h2, h3⟩ := hc
  obtain ⟨fs, h4, h5⟩ := outBytes_some crc st hs es hf
  rw [h4] at h1
  have hw := sent_wf es st hs hf
  have := C04_stream_roundtrip crc ((sent st es).map Sent.bytes) (by
    intro p hp
    obtain ⟨m, hm, rfl⟩ := List.mem_map.1 hp
    exact bytes_length m (hw m hm)) fs h5 chunks h2 (Option.some.inj h1).symm
  rw [h3] at this
  have inj : Function.Injective FrameCall.payload := fun a b h => by cases h; rfl
  apply List.map_injective_iff.2 inj
  rw [← this, List.map_map]
  rfl

/-- the main lemma -/
theorem carried_back (crc : Buf → BitVec 24) (env : Env) (L : Lib W E) (st : OutSt) (hs : StOk st) (es : List SbpIn)
    (hf : ∀ e ∈ es, Fits e) (chunks : List Buf) (xs : List MInput) (hc : Carried crc st es chunks xs) (s : State) :
    ∃ parts, miscRun env L s xs = some parts.flatten ∧
      List.Forall₂ (fun mx p => ∃ free, p = part L free mx.1 mx.2) ((sent st es).zip xs) parts ∧
      ((sent st es).zip xs).map Prod.fst = sent st es := by
  have hp := carried_payloads hs hf hc
  obtain ⟨parts, h1, h2⟩ := run_back env L (sent st es) (sent_wf es st hs hf) xs s hp
  refine ⟨parts, h1, h2, ?_⟩
  have hl := congrArg List.length hp
  simp only [List.length_map] at hl
  rw [List.map_fst_zip]
  omega

end Verif.Misc
