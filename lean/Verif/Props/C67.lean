import Verif.Props.C65
/-!
C67: Swift-proprietary SBP messages carried inside RTCM 4062.
-/
namespace Verif.Misc
open Verif.Misc.Spec Verif.Spec Verif.RtcmFraming Verif.Time Dec
open Verif.RtcmSbp (State Env Input no1230 messageType crint whitelist msm13)

variable {W E : Type}

def wrappedOfSent (L : Lib W E) : Sent → Option (Nat × Nat × W)
  | .m4062 m => (L.sbpDecode m.msgType m.data).map fun w => (m.msgType, m.senderId, w)
  | _ => none

theorem part_wrapped (L : Lib W E) (free : Bool) (m : Sent) (x : MInput) :
    (part L free m x).filterMap gotWrapped = (wrappedOfSent L m).toList := by
  unfold part
  cases m with
  | m4062 m =>
    rw [if_neg (by simp [Sent.needsTime])]
    simp only [Sent.back, wrappedOfSent]
    cases L.sbpDecode m.msgType m.data <;> rfl
  | m1006 m => rw [if_neg (by simp [Sent.needsTime])]; rfl
  | m1008 m => split <;> rfl
  | m1033 m =>
    split
    · rfl
    · simp only [Sent.back]; split <;> rfl
  | m1230 m => split <;> rfl
  | m1029 m =>
    rw [if_neg (by simp [Sent.needsTime])]
    simp only [Sent.back]
    rcases sendLog_cases (W := W) (E := E) 6 (text1029 m.utf8) (m.stnId % 4096) with h | h <;> rw [h] <;> rfl

theorem sent_wrapped (L : Lib W E) (es : List SbpIn) : ∀ st, (sent st es).filterMap (wrappedOfSent L) =
    (es.filterMap sentWrapped).filterMap fun i => (L.sbpDecode i.1 i.2.2).map fun w => (i.1, i.2.1, w) := by
  induction es with
  | nil => intro st; rfl
  | cons e es ih =>
    intro st
    simp only [sent, List.filterMap_append]
    rw [ih]
    cases e with
    | wrapped t s d =>
      simp only [sentStep, List.filterMap_cons, List.filterMap_nil, wrappedOfSent, sentWrapped]
      cases L.sbpDecode t d <;> rfl
    | basePos s p =>
      have e1 : (sentStep st (.basePos s p)).filterMap (wrappedOfSent L) = [] := by
        simp only [sentStep]
        split <;> rfl
      rw [e1]; rfl
    | log s p =>
      have e1 : (sentStep st (.log s p)).filterMap (wrappedOfSent L) = [] := by
        simp only [sentStep]
        split <;> rfl
      rw [e1]; rfl
    | gloBias s b => rfl
    | antHeight x => rfl
    | descriptors x y => rfl

/-- **C67** Every message passed on in an RTCM 4062 comes out at the other end with its type, its sender (all 16 bits) and the very message
that libsbp decodes from the bytes sent, in order, and nothing else of the kind comes out — whatever else is sent in between and whether or
not either side knows the time.  (A message that libsbp refuses is dropped alone.) -/
theorem C67_roundtrip (crc : Buf → BitVec 24) (env : Env) (L : Lib W E) (a : Nat) (es : List SbpIn) (hf : ∀ e ∈ es, Fits e)
    (chunks : List Buf) (xs : List MInput) (hc : Carried crc (.init a) es chunks xs) (s : State) :
    ∃ outs, miscRun env L s xs = some outs ∧
      outs.filterMap gotWrapped =
        (es.filterMap sentWrapped).filterMap fun i => (L.sbpDecode i.1 i.2.2).map fun w => (i.1, i.2.1, w) := by
  obtain ⟨parts, h1, h2, h3⟩ := carried_back crc env L (.init a) (init_ok a) es hf chunks xs hc s
  refine ⟨_, h1, ?_⟩
  rw [parts_filter L gotWrapped (wrappedOfSent L) h2 (fun mx _ free => part_wrapped L free mx.1 mx.2), h3, sent_wrapped]

/-! ### any 4062 message -/

/-- the bytes of a field of whole bytes at bit `off` -/
def bytesAt (p : Buf) (off n : Nat) : Buf := (List.range n).map fun k => BitVec.ofNat 8 (fieldU p (off + 8 * k) 8)

theorem many_at (p : Buf) : ∀ (n off : Nat), off + 8 * n ≤ 8 * p.length →
    many getByte n ((bitsOf p).drop off) = (.ok (bytesAt p off n), (bitsOf p).drop (off + 8 * n)) := by
  intro n
  induction n with
  | zero => intro off _; rfl
  | succ n ih =>
    intro off h
    have e0 : getByte ((bitsOf p).drop off) = (.ok (BitVec.ofNat 8 (fieldU p off 8)), (bitsOf p).drop (off + 8)) := by
      rw [getByte, Dec.bind_def, getU_at p off 8 (by omega)]
      rfl
    rw [many, Dec.bind_def, e0]
    simp only
    rw [Dec.bind_def, ih (off + 8) (by omega)]
    simp only [Dec.pure_def]
    rw [show off + 8 + 8 * n = off + 8 * (n + 1) by omega]
    have e : bytesAt p off (n + 1) = BitVec.ofNat 8 (fieldU p off 8) :: bytesAt p (off + 8) n := by
      unfold bytesAt
      rw [List.range_succ_eq_map, List.map_cons, List.map_map]
      refine List.cons_eq_cons.2 ⟨by simp, ?_⟩
      apply List.map_congr_left
      intro k _
      simp only [Function.comp_apply]
      rw [show off + 8 * k.succ = off + 8 + 8 * k by omega]
    rw [e]

theorem many_len (p : Buf) : ∀ (n off : Nat) {l r}, off ≤ 8 * p.length → many getByte n ((bitsOf p).drop off) = (.ok l, r) → off + 8 * n ≤ 8 * p.length := by
  intro n
  induction n with
  | zero => intro off l r h _; omega
  | succ n ih =>
    intro off l r h hm
    rw [many] at hm
    obtain ⟨x, r1, h1, hm⟩ := bind_ok hm
    rw [getByte] at h1
    obtain ⟨v, r2, h2, h3⟩ := bind_ok h1
    have hl := (getU_ok h2).2
    rw [List.length_drop, bitsOf_length] at hl
    rw [getU_at p off 8 (by omega)] at h2
    obtain ⟨-, rfl⟩ := Prod.mk.inj h2
    rw [Dec.pure_def] at h3
    obtain ⟨-, rfl⟩ := Prod.mk.inj h3
    obtain ⟨y, r3, h4, -⟩ := bind_ok hm
    have := ih (off + 8) (by omega) h4
    omega

/-- the 4062 message that follows the format this code knows: reserved bits zero and as many bytes as announced -/
def Whole4062 (p : Buf) : Prop := fieldU p 12 4 = 0 ∧ 7 + fieldU p 48 8 ≤ p.length
instance (p) : Decidable (Whole4062 p) := inferInstanceAs (Decidable (_ ∧ _))

theorem decode4062_at (p : Buf) (h1 : fieldU p 0 12 = 4062) (h : Whole4062 p) :
    decode4062.run p = .ok ⟨fieldU p 16 16, fieldU p 32 16, bytesAt p 56 (fieldU p 48 8)⟩ := by
  obtain ⟨h2, h3⟩ := h
  unfold Dec.run decode4062
  rw [Dec.bind_def, show bitsOf p = (bitsOf p).drop 0 from rfl, getU_at p 0 12 (by omega)]
  simp only
  rw [Dec.bind_def, Dec.guard, if_pos h1]
  simp only [Dec.pure_def]
  rw [Dec.bind_def, getU_at p _ 4 (by omega)]
  simp only
  rw [Dec.bind_def, Dec.guard, if_pos (not_not.2 h2)]
  simp only [Dec.pure_def]
  rw [Dec.bind_def, getU_at p _ 16 (by omega)]
  simp only
  rw [Dec.bind_def, getU_at p _ 16 (by omega)]
  simp only
  rw [Dec.bind_def, getU_at p _ 8 (by omega)]
  simp only
  rw [Dec.bind_def, many_at p _ _ (by simp only [Nat.reduceAdd]; omega)]
  rfl

theorem decode4062_whole (p : Buf) {m} (h : decode4062.run p = .ok m) : Whole4062 p := by
  obtain ⟨r, hr⟩ := run_ok h
  unfold decode4062 at hr
  have rest : ∀ {n v off : Nat} {r : List Bool}, off ≤ 8 * p.length → getU n ((bitsOf p).drop off) = (.ok v, r) →
      r = (bitsOf p).drop (off + n) ∧ v = fieldU p off n ∧ off + n ≤ 8 * p.length := by
    intro n v off r ho h
    have hn := (getU_ok h).2
    rw [List.length_drop, bitsOf_length] at hn
    rw [getU_at p off n (by omega)] at h
    obtain ⟨q1, q2⟩ := Prod.mk.inj h
    exact ⟨q2.symm, (Except.ok.inj q1).symm, by omega⟩
  obtain ⟨n, r1, a1, hr⟩ := bind_ok hr
  obtain ⟨rfl, -, b1⟩ := rest (off := 0) (by omega) a1
  obtain ⟨-, hr⟩ := guard_ok hr
  obtain ⟨v2, r2, a2, hr⟩ := bind_ok hr
  obtain ⟨rfl, e2, b2⟩ := rest b1 a2
  obtain ⟨g2, hr⟩ := guard_ok hr
  obtain ⟨v3, r3, a3, hr⟩ := bind_ok hr
  obtain ⟨rfl, -, b3⟩ := rest b2 a3
  obtain ⟨v4, r4, a4, hr⟩ := bind_ok hr
  obtain ⟨rfl, -, b4⟩ := rest b3 a4
  obtain ⟨v5, r5, a5, hr⟩ := bind_ok hr
  obtain ⟨rfl, e5, b5⟩ := rest b4 a5
  obtain ⟨v6, r6, a6, hr⟩ := bind_ok hr
  have := many_len p _ _ b5 a6
  simp only [Nat.zero_add, Nat.reduceAdd] at e2 e5 this
  exact ⟨by rw [← e2]; exact not_not.1 g2, by rw [← e5]; omega⟩

/-- **C67** Any 4062 message: type, sender and bytes are read from their places in the message and the message that libsbp decodes from
them is handed on; a message with reserved bits set, or shorter than it announces, or that libsbp refuses, gives nothing.  The
time is not needed. -/
theorem C67_any (env : Env) (L : Lib W E) (s : State) (x : MInput) (h1 : fieldU x.inp.payload 0 12 = 4062) :
    miscOut env L s x =
      if Whole4062 x.inp.payload then
        match L.sbpDecode (fieldU x.inp.payload 16 16) (bytesAt x.inp.payload 56 (fieldU x.inp.payload 48 8)) with
        | some w => some [(fieldU x.inp.payload 32 16, .wrapped (fieldU x.inp.payload 16 16) w)]
        | none => some []
      else some [] := by
  unfold miscOut
  by_cases h2 : x.inp.payload.length < 2
  · rw [if_pos h2, if_neg (fun h => by have := h.2; omega)]
  rw [if_neg h2]
  have hty : messageType x.inp.payload = 4062 := by rw [type_field _ (by omega), h1]
  simp only [hty]
  rw [if_neg (by simp [whitelist])]
  unfold content
  simp only
  rw [if_neg (by decide), if_neg (by decide), if_neg (by decide), if_neg (by decide), if_neg (by decide), if_pos (by trivial)]
  by_cases hw : Whole4062 x.inp.payload
  · rw [decode4062_at _ h1 hw, if_pos hw]
    simp only
    cases L.sbpDecode (fieldU x.inp.payload 16 16) (bytesAt x.inp.payload 56 (fieldU x.inp.payload 48 8)) <;> rfl
  · rw [if_neg hw]
    cases hd : decode4062.run x.inp.payload with
    | error e => rfl
    | ok m => exact absurd (decode4062_whole _ hd) hw

/-- type 74, sender 0xABCD, three bytes -/
def ex4062 : Buf := [0xFD, 0xE0, 0x00, 0x4A, 0xAB, 0xCD, 3, 1, 2, 3]
example : fieldU ex4062 0 12 = 4062 ∧ Whole4062 ex4062 ∧ fieldU ex4062 16 16 = 74 ∧ fieldU ex4062 32 16 = 0xABCD ∧
    bytesAt ex4062 56 (fieldU ex4062 48 8) = [1, 2, 3] := by decide +kernel

end Verif.Misc
