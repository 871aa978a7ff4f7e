import Verif.Model.Eph
import Verif.Spec.Eph
import Verif.Lemmas.Codec
/-!
C10: ephemeris messages survive encode/decode, for every value of every field within its width and any previous
contents of the output buffer.
-/
namespace Verif
open Dec Spec

/-- read all remaining fields of a `Reads` goal from hypotheses in context -/
macro "rdall" : tactic => `(tactic| (repeat (first
  | refine Reads.bind (Reads.getU (by assumption)) ?_
  | refine Reads.bind (Reads.getS32' (by omega) (by omega) (by assumption)) ?_
  | refine Reads.nil_bind (Reads.guard _ (by first | rfl | exact Nat.not_le_of_lt (by assumption))) ?_
  | refine Reads.bind (Reads.getU (by decide)) ?_
  | refine Reads.bind (Reads.skip (by simp)) ?_)))

macro "okall" : tactic => `(tactic| (intro w hw; simp at hw; revert hw; simp only [or_imp, forall_eq]; simp))

theorem reads1019 (m : KepEph) (h : WF1019 m) : Reads decode1019 (wbits (wr1019 m)) { m with toe := m.toc, toc := m.toe } := by
  obtain ⟨_, _, _, _, _, _, _, _, _, _, _, _, _, _, _, _, _, _, _, _, _, _, _, _, _, _, _, _, _, _, h0⟩ := h
  simp only [wr1019, wbits_cons, wbits_nil, Wr.bits_u, Wr.bits_s, decode1019]
  rdall
  cases m
  simp only at h0
  subst h0
  exact Reads.pure _

/-- **C10** GPS 1019, exactly: every field comes back, except that toe and toc come back exchanged. -/
theorem C10_1019_partial (m : KepEph) (h : WF1019 m) (buf : Buf) (hb : 61 ≤ buf.length) :
    decode1019.run (payloadOf (encode1019 m buf)) = .ok { m with toe := m.toc, toc := m.toe } := by
  refine run_encode buf ?_ ?_ (reads1019 m h)
  · simp [wr1019]
  · simp [wr1019]; omega

/-- **C10** GPS 1019 (partial: only when toe = toc): the message comes back unchanged. -/
theorem C10_1019_roundtrip_partial (m : KepEph) (h : WF1019 m) (he : m.toe = m.toc) (buf : Buf) (hb : 61 ≤ buf.length) :
    decode1019.run (payloadOf (encode1019 m buf)) = .ok m := by
  rw [C10_1019_partial m h buf hb]
  cases m; simp only at he; subst he; rfl

/-- **C10** Defect: a GPS ephemeris with toe ≠ toc never comes back. -/
theorem C10_1019_toe_toc_bug (m : KepEph) (h : WF1019 m) (he : m.toe ≠ m.toc) (buf : Buf) (hb : 61 ≤ buf.length) :
    decode1019.run (payloadOf (encode1019 m buf)) ≠ .ok m := by
  rw [C10_1019_partial m h buf hb]
  intro hc
  injection hc with hc
  exact he (congrArg KepEph.toc hc)

/- a message with extreme field values -/
example : WF1019 { satId := 32, wn := 1023, toe := 37800, ura := 15, fitInterval := 1, healthBits := 63, tgd0 := -128,
                   crc := -32768, dn := 32767, m0 := -2147483648, ecc := 4294967295, af0 := -2097152, toc := 37799,
                   iodc := 1023, iode := 255, codeL2 := 3, l2DataBit := 1 } := by
  constructor <;> decide

theorem reads1042 (m : KepEph) (h : WF1042 m) : Reads decode1042 (wbits (wr1042 m)) m := by
  obtain ⟨_, _, _, _, _, _, _, _, _, _, _, _, _, _, _, _, _, _, _, _, _, _, _, _, _, _, _, _, _, h0, h1, h2⟩ := h
  simp only [wr1042, wbits_cons, wbits_nil, Wr.bits_u, Wr.bits_s, decode1042]
  rdall
  cases m
  simp only at h0 h1 h2
  subst h0 h1 h2
  exact Reads.pure _

/-- **C10** Beidou 1042 -/
theorem C10_1042_roundtrip (m : KepEph) (h : WF1042 m) (buf : Buf) (hb : 64 ≤ buf.length) :
    decode1042.run (payloadOf (encode1042 m buf)) = .ok m := by
  refine run_encode buf ?_ ?_ (reads1042 m h)
  · simp [wr1042]
  · simp [wr1042]; omega

/-- **C10** Beidou GEO satellites are refused by the decoder, whatever the rest of the message. -/
theorem C10_1042_geo_rejected (p : Buf) (m : KepEph) (h : decode1042.run p = .ok m) : 5 < m.satId := by
  obtain ⟨r, hx⟩ : ∃ r, decode1042 (bitsOf p) = (.ok m, r) := ⟨_, Prod.ext h rfl⟩
  have key : ∀ (c : Prop) [Decidable c] (e : RC) (f : Unit → Dec KepEph) (s : List Bool) (x : KepEph × List Bool),
      (Dec.guard c e >>= f) s = (.ok x.1, x.2) → c ∧ f () s = (.ok x.1, x.2) := by
    intro c _ e f s x h
    rw [Dec.bind_def] at h
    unfold Dec.guard at h
    by_cases hc : c
    · rw [if_pos hc] at h; exact ⟨hc, h⟩
    · rw [if_neg hc] at h; simp [Dec.fail] at h
  have kb : ∀ {γ : Type} (d : Dec γ) (f : γ → Dec KepEph) (s : List Bool) (x : KepEph × List Bool),
      (d >>= f) s = (.ok x.1, x.2) → ∃ a r, f a r = (.ok x.1, x.2) := by
    intro γ d f s x h
    rw [Dec.bind_def] at h
    split at h
    · exact ⟨_, _, h⟩
    · simp at h
  unfold decode1042 at hx
  obtain ⟨_, _, hx⟩ := kb _ _ _ (m, r) hx
  obtain ⟨_, hx⟩ := key _ _ _ _ (m, r) hx
  obtain ⟨sat, _, hx⟩ := kb _ _ _ (m, r) hx
  obtain ⟨hg, hx⟩ := key _ _ _ _ (m, r) hx
  iterate 27 obtain ⟨_, _, hx⟩ := kb _ _ _ (m, r) hx
  rw [Dec.pure_def] at hx
  simp at hx
  rw [← hx.1]
  simp [beidouGeosMaxPrn] at hg
  exact hg

example : WF1042 { satId := 63, wn := 8191, toe := 131071, ura := 15, healthBits := 1, tgd0 := -512, tgd1 := 511, crc := -131072,
                   toc := 1, iodc := 31, iode := 30, af1 := -2097152 } := by
  constructor <;> decide

theorem readsGalCommon (m : KepEph) (h : WFGal m) :
    Reads decodeGalCommon (wbits (wrGalCommon m)) { m with tgd0 := 0, tgd1 := 0, healthBits := 0 } := by
  obtain ⟨_, _, _, _, _, _, _, _, _, _, _, _, _, _, _, _, _, _, _, _, _, _, _, _, _, _, h0, h1, h2, h3⟩ := h
  simp only [wrGalCommon, wbits_cons, wbits_nil, Wr.bits_u, Wr.bits_s, decodeGalCommon]
  rdall
  cases m
  simp only at h0 h1 h2 h3
  subst h0 h1 h2 h3
  exact Reads.pure _

theorem reads1046 (m : KepEph) (h : WFGal m) (hh : m.healthBits < 64) :
    Reads decode1046 (wbits (wr1046 m)) { m with healthBits := u8 (toSigned 6 m.healthBits) } := by
  simp only [wr1046, wbits_append, wbits_cons, wbits_nil, Wr.bits_u, Wr.bits_s, decode1046, List.append_assoc, List.nil_append]
  have h1 := h.tgd0
  have h2 := h.tgd1
  have e : u32 (m.healthBits : Int) = m.healthBits := by unfold u32; omega
  rw [e]
  refine Reads.bind (Reads.getU (by decide)) ?_
  refine Reads.nil_bind (Reads.guard _ rfl) ?_
  refine Reads.bind (Reads.mapErr (readsGalCommon m h)) ?_
  refine Reads.bind (Reads.getS32' (by omega) (by omega) h1) ?_
  refine Reads.bind (Reads.getS32' (by omega) (by omega) h2) ?_
  refine Reads.bind (Reads.getS (by rw [Nat.mod_eq_of_lt hh])) ?_
  refine Reads.bind (Reads.skip (by simp)) ?_
  exact Reads.pure _

theorem reads1045 (m : KepEph) (h : WFGal m) (hh : m.healthBits < 8) :
    Reads decode1045 (wbits (wr1045 m)) { m with healthBits := u8 (toSigned 3 m.healthBits), tgd1 := 0 } := by
  simp only [wr1045, wbits_append, wbits_cons, wbits_nil, Wr.bits_u, Wr.bits_s, decode1045, List.append_assoc, List.nil_append]
  have h1 := h.tgd0
  have e : u32 (m.healthBits : Int) = m.healthBits := by unfold u32; omega
  rw [e]
  refine Reads.bind (Reads.getU (by decide)) ?_
  refine Reads.nil_bind (Reads.guard _ rfl) ?_
  refine Reads.bind (Reads.mapErr (readsGalCommon m h)) ?_
  refine Reads.bind (Reads.getS32' (by omega) (by omega) h1) ?_
  refine Reads.bind (Reads.getS (by rw [Nat.mod_eq_of_lt hh])) ?_
  refine Reads.bind (Reads.skip (by simp)) ?_
  exact Reads.pure _

theorem run1046 (m : KepEph) (h : WFGal m) (hh : m.healthBits < 64) (buf : Buf) (hb : 63 ≤ buf.length) :
    decode1046.run (payloadOf (encode1046 m buf)) = .ok { m with healthBits := u8 (toSigned 6 m.healthBits) } := by
  refine run_encode buf ?_ ?_ (reads1046 m h hh)
  · simp [wr1046, wrGalCommon]
  · simp [wr1046, wrGalCommon]; omega
theorem run1045 (m : KepEph) (h : WFGal m) (hh : m.healthBits < 8) (buf : Buf) (hb : 62 ≤ buf.length) :
    decode1045.run (payloadOf (encode1045 m buf)) = .ok { m with healthBits := u8 (toSigned 3 m.healthBits), tgd1 := 0 } := by
  refine run_encode buf ?_ ?_ (reads1045 m h hh)
  · simp [wr1045, wrGalCommon]
  · simp [wr1045, wrGalCommon]; omega

/-- **C10** Galileo I/NAV 1046 (partial: top health bit clear): the message comes back unchanged. -/
theorem C10_1046_roundtrip_partial (m : KepEph) (h : WFGal m) (hh : m.healthBits < 32) (buf : Buf) (hb : 63 ≤ buf.length) :
    decode1046.run (payloadOf (encode1046 m buf)) = .ok m := by
  rw [run1046 m h (by omega) buf hb]
  have : u8 (toSigned 6 m.healthBits) = m.healthBits := by
    unfold u8 toSigned; rw [if_pos (by omega)]; omega
  rw [this]

/-- **C10** Defect: Galileo I/NAV health bits with the top bit set (any 32..63, e.g. E5b "signal will be out of service")
come back sign-extended, 192 too large. -/
theorem C10_1046_health_bug (m : KepEph) (h : WFGal m) (h1 : 32 ≤ m.healthBits) (h2 : m.healthBits < 64) (buf : Buf)
    (hb : 63 ≤ buf.length) :
    decode1046.run (payloadOf (encode1046 m buf)) = .ok { m with healthBits := m.healthBits + 192 } := by
  rw [run1046 m h h2 buf hb]
  have : u8 (toSigned 6 m.healthBits) = m.healthBits + 192 := by
    unfold u8 toSigned; rw [if_neg (by omega)]; omega
  rw [this]

/-- **C10** Galileo F/NAV 1045 (partial: top health bit clear; F/NAV carries only one group delay). -/
theorem C10_1045_roundtrip_partial (m : KepEph) (h : WFGal m) (hh : m.healthBits < 4) (h1 : m.tgd1 = 0) (buf : Buf)
    (hb : 62 ≤ buf.length) :
    decode1045.run (payloadOf (encode1045 m buf)) = .ok m := by
  rw [run1045 m h (by omega) buf hb]
  have : u8 (toSigned 3 m.healthBits) = m.healthBits := by
    unfold u8 toSigned; rw [if_pos (by omega)]; omega
  rw [this]
  cases m; simp only at h1; subst h1; rfl

/-- **C10** Defect: Galileo F/NAV health bits 4..7 come back 248 too large. -/
theorem C10_1045_health_bug (m : KepEph) (h : WFGal m) (h1 : 4 ≤ m.healthBits) (h2 : m.healthBits < 8) (buf : Buf)
    (hb : 62 ≤ buf.length) :
    ∃ m', decode1045.run (payloadOf (encode1045 m buf)) = .ok m' ∧ m'.healthBits = m.healthBits + 248 := by
  refine ⟨_, run1045 m h h2 buf hb, ?_⟩
  show u8 (toSigned 3 m.healthBits) = _
  unfold u8 toSigned; rw [if_neg (by omega)]; omega

example : WFGal { satId := 36, wn := 4095, toe := 10079, ura := 255, healthBits := 31, tgd0 := -512, tgd1 := 511,
                  af0 := -1073741824, af2 := -32, iode := 1023, toc := 10079 } := by
  constructor <;> decide

/-- **C10** QZSS 1044 (decode only; the code has no encoder): a message laid out as the RTCM table prescribes decodes
to its fields. -/
theorem C10_1044_decodes_layout (m : KepEph) (code : Nat) (h : WF1044 m) (buf : Buf) (hb : 61 ≤ buf.length) :
    decode1044.run (payloadOf (encodeWr (layout1044 m code) buf)) = .ok m := by
  refine run_encode buf (by simp [layout1044]) (by simp [layout1044]; omega) ?_
  obtain ⟨_, _, _, _, _, _, _, _, _, _, _, _, _, _, _, _, _, _, _, _, _, _, _, _, _, _, _, _, h0, h1, h2⟩ := h
  simp only [layout1044, wbits_cons, wbits_nil, Wr.bits_u, Wr.bits_s, decode1044]
  rdall
  cases m
  simp only at h0 h1 h2
  subst h0 h1 h2
  exact Reads.pure _

theorem reads1020 (m : GloEph) (h : WF1020 m) :
    ∃ tail : List Bool × List Bool, wbits (wr1020 m) = tail.1 ++ tail.2 ∧ Reads decode1020 tail.1 m ∧ tail.2.length = 78 := by
  obtain ⟨_, _, _, hh, _, _, ⟨_, _, _⟩, ⟨_, _, _⟩, ⟨_, _, _⟩, _, _, _⟩ := h
  have hh' : m.healthBits < 2 ^ 1 := hh
  have hor : m.healthBits ||| m.healthBits ||| 0 = m.healthBits := by simp
  refine ⟨(wbits ([.u 12 1020, .u 6 m.satId, .u 5 m.fcn, .u 1 1, .u 1 0, .u 2 m.fitInterval, .u 12 0, .u 1 m.healthBits,
    .u 1 0, .u 7 m.tB]
  ++ Wr.sm 24 m.vel0 ++ Wr.sm 27 m.pos0 ++ Wr.sm 5 m.acc0
  ++ Wr.sm 24 m.vel1 ++ Wr.sm 27 m.pos1 ++ Wr.sm 5 m.acc1
  ++ Wr.sm 24 m.vel2 ++ Wr.sm 27 m.pos2 ++ Wr.sm 5 m.acc2
  ++ [.u 1 0] ++ Wr.sm 11 m.gamma ++ [.u 2 0, .u 1 m.healthBits] ++ Wr.sm 22 m.tau ++ Wr.sm 5 m.dTau
  ++ [.u 5 0, .u 1 0, .u 4 m.ura, .u 11 0, .u 2 0, .u 1 0]), wbits [.u 31 0, .u 32 0, .u 15 0]), ?_, ?_, by simp⟩
  · simp only [wr1020, wbits_append, wbits_cons, wbits_nil, List.append_assoc, List.nil_append, Wr.bits_u]
    rfl
  · simp only [wbits_append, wbits_cons, wbits_nil, List.append_assoc, List.nil_append, Wr.bits_u]
    have sm : ∀ n i, wbits (Wr.sm n i) = (Wr.sm n i).flatMap Wr.bits := fun _ _ => rfl
    simp only [sm, decode1020]
    repeat (first
      | refine Reads.bind (Reads.getU (by assumption)) ?_
      | refine Reads.bind (Reads.getSM (by omega) (by assumption)) ?_
      | refine Reads.nil_bind (Reads.guard _ rfl) ?_
      | refine Reads.bind (Reads.getU (by decide)) ?_
      | refine Reads.bind (Reads.skip (by simp)) ?_)
    refine Reads.nil_bind (a := 0) ?_ ?_
    · exact Reads.pure _
    · simp only [hor]
      exact Reads.pure _

/-- **C10** GLONASS 1020 -/
theorem C10_1020_roundtrip (m : GloEph) (h : WF1020 m) (buf : Buf) (hb : 45 ≤ buf.length) :
    decode1020.run (payloadOf (encode1020 m buf)) = .ok m := by
  obtain ⟨⟨x, y⟩, hxy, hr, _⟩ := reads1020 m h
  obtain ⟨pad, hp, _⟩ := payload_bits (wr1020 m) buf (by simp [wr1020, Wr.sm]) (by simp [wr1020, Wr.sm]; omega)
  unfold Dec.run encode1020
  rw [hp, hxy, List.append_assoc, hr]

example : WF1020 { satId := 24, fcn := 20, fitInterval := 3, healthBits := 1, tB := 95, ura := 15, vel0 := -8388607, pos0 := 67108863,
                   acc0 := -15, vel1 := 0, pos1 := -1, acc1 := 15, vel2 := 1, pos2 := -67108863, acc2 := -1,
                   gamma := -1023, tau := 2097151, dTau := -15 } := by
  constructor <;> decide

end Verif
