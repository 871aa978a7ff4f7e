import Verif.Lemmas.Relay
import Verif.Lemmas.FloatMono
import Verif.Props.C10
import Verif.Props.C06_C09
/-!
C82: relaying.  A payload received from anywhere — not necessarily produced by this library's encoders — that a decoder accepts,
re-encoded from the decoded message (into any buffer large enough) and decoded again at the next hop, gives the same message; where
every bit of the layout carries information, the very same bits go out again.
-/
namespace Verif
open Dec Spec

/-- go through all the fields of a successful decoder -/
macro "inv_all " h:ident : tactic => `(tactic| (repeat (first
  | (replace $h := kG $h; obtain ⟨e, $h:ident⟩ := $h; subst e)
  | (replace $h := kG $h; obtain ⟨_, $h:ident⟩ := $h)
  | (replace $h := kU $h; obtain ⟨_, _, _, e, $h:ident⟩ := $h; subst e)
  | (replace $h := kS $h (by decide) (by decide); obtain ⟨_, _, _, e, $h:ident⟩ := $h; subst e))))

/-! ### Ephemerides -/

theorem inv1042 {s r : List Bool} {m : KepEph} (h : decode1042 s = (.ok m, r)) : WF1042 m ∧ s = wbits (wr1042 m) ++ r := by
  unfold decode1042 at h
  inv_all h
  replace h := kP h
  obtain ⟨rfl, rfl⟩ := h
  constructor
  · constructor
    all_goals first | assumption | exact ⟨rfl, rfl, rfl⟩ | exact Nat.lt_of_not_le ‹_›
  · simp only [wr1042, wbits_cons, wbits_nil, Wr.bits_u, Wr.bits_s, List.append_assoc, List.nil_append]

/-- **C82** Beidou 1042: every accepted payload is relayed with all its 511 bits unchanged, and decodes to the same message. -/
theorem C82_beidou_ephemeris (p : Buf) (m : KepEph) (h : decode1042.run p = .ok m) (buf : Buf) (hb : 64 ≤ buf.length) :
    decode1042.run (payloadOf (encode1042 m buf)) = .ok m ∧
      (bitsOf (payloadOf (encode1042 m buf))).take 511 = (bitsOf p).take 511 := by
  obtain ⟨r, hr⟩ := run_ok h
  obtain ⟨hw, hs⟩ := inv1042 hr
  refine ⟨C10_1042_roundtrip m hw buf hb, payload_same_bits ?_ ?_ hs ?_⟩
  · simp [wr1042]
  · simp [wr1042]; omega
  · simp [wr1042]

theorem inv1019 {s r : List Bool} {m : KepEph} (h : decode1019 s = (.ok m, r)) :
    WF1019 m ∧ s = wbits (wr1019 { m with toe := m.toc, toc := m.toe }) ++ r := by
  unfold decode1019 at h
  inv_all h
  replace h := kP h
  obtain ⟨rfl, rfl⟩ := h
  constructor
  · constructor
    all_goals first | assumption | rfl
  · simp only [wr1019, wbits_cons, wbits_nil, Wr.bits_u, Wr.bits_s, List.append_assoc, List.nil_append]

/-- **C82** (partial: the times of ephemeris and of clock are exchanged, see `C82_gps_ephemeris_bug`) GPS 1019: everything else in an
accepted payload is relayed, and after two hops the message is the received one again. -/
theorem C82_gps_ephemeris_partial (p : Buf) (m : KepEph) (h : decode1019.run p = .ok m) (buf : Buf) (hb : 61 ≤ buf.length) :
    ∃ m1, decode1019.run (payloadOf (encode1019 m buf)) = .ok m1 ∧ m1 = { m with toe := m.toc, toc := m.toe } ∧
      ∀ buf2 : Buf, 61 ≤ buf2.length → decode1019.run (payloadOf (encode1019 m1 buf2)) = .ok m ∧
        (bitsOf (payloadOf (encode1019 m1 buf2))).take 488 = (bitsOf p).take 488 := by
  obtain ⟨r, hr⟩ := run_ok h
  obtain ⟨hw, hs⟩ := inv1019 hr
  have hw1 : WF1019 { m with toe := m.toc, toc := m.toe } := by
    obtain ⟨_, _, _, _, _, _, _, _, _, _, _, _, _, _, _, _, _, _, _, _, _, _, _, _, _, _, _, _, _, _, _⟩ := hw
    constructor <;> assumption
  refine ⟨_, C10_1019_partial m hw buf hb, rfl, fun buf2 hb2 => ⟨?_, payload_same_bits ?_ ?_ hs ?_⟩⟩
  · rw [C10_1019_partial _ hw1 buf2 hb2]
  · simp [wr1019]
  · simp [wr1019]; omega
  · simp [wr1019]

/-- **C82** Defect: a received GPS ephemeris whose time of ephemeris is not its time of clock is not relayed unchanged. -/
theorem C82_gps_ephemeris_bug (p : Buf) (m : KepEph) (h : decode1019.run p = .ok m) (hne : m.toe ≠ m.toc) (buf : Buf)
    (hb : 61 ≤ buf.length) : decode1019.run (payloadOf (encode1019 m buf)) ≠ .ok m := by
  obtain ⟨r, hr⟩ := run_ok h
  exact C10_1019_toe_toc_bug m (inv1019 hr).1 hne buf hb

theorem invGal {s r : List Bool} {m : KepEph} (h : decodeGalCommon s = (.ok m, r)) :
    WFGal m ∧ m.tgd0 = 0 ∧ m.tgd1 = 0 ∧ m.healthBits = 0 := by
  unfold decodeGalCommon at h
  inv_all h
  replace h := kP h
  obtain ⟨rfl, rfl⟩ := h
  constructor
  · constructor
    all_goals first | assumption | exact ⟨rfl, rfl, rfl, rfl⟩ | (dsimp only; norm_num)
  · exact ⟨rfl, rfl, rfl⟩

theorem mapErr_ok {α} {f : RC → RC} {d : Dec α} {s r : List Bool} {a : α} (h : Dec.mapErr f d s = (.ok a, r)) :
    d s = (.ok a, r) := by
  unfold Dec.mapErr at h
  split at h
  · rename_i h1; simp only [Prod.mk.injEq, Except.ok.injEq] at h; rw [h1, h.1, h.2]
  · simp at h

theorem health6 : ∀ v < 64, u8 (toSigned 6 (u32 (u8 (toSigned 6 v) : Int) % 2 ^ 6)) = u8 (toSigned 6 v) := by decide
theorem health3 : ∀ v < 8, u8 (toSigned 3 (u32 (u8 (toSigned 3 v) : Int) % 2 ^ 3)) = u8 (toSigned 3 v) := by decide

/-- **C82** Galileo I/NAV 1046: every accepted payload is relayed to the same message (in particular the sign extension of the health
bits, `C10_1046_health_bug`, does not accumulate). -/
theorem C82_galileo_inav_ephemeris (p : Buf) (m : KepEph) (h : decode1046.run p = .ok m) (buf : Buf) (hb : 63 ≤ buf.length) :
    decode1046.run (payloadOf (encode1046 m buf)) = .ok m := by
  obtain ⟨r, hr⟩ := run_ok h
  generalize bitsOf p = s at hr
  unfold decode1046 at hr
  replace hr := kU hr
  obtain ⟨_, _, _, rfl, hr⟩ := hr
  replace hr := kG hr
  obtain ⟨_, hr⟩ := hr
  obtain ⟨c, _, hc, hr⟩ := bind_ok hr
  replace hr := kS hr (by decide) (by decide)
  obtain ⟨g0, _, h0, rfl, hr⟩ := hr
  replace hr := kS hr (by decide) (by decide)
  obtain ⟨g1, _, h1, rfl, hr⟩ := hr
  replace hr := kSv hr
  obtain ⟨v, _, hv, rfl, hr⟩ := hr
  replace hr := kK hr
  obtain ⟨_, hr⟩ := hr
  replace hr := kP hr
  obtain ⟨rfl, -⟩ := hr
  obtain ⟨hw, -, -, -⟩ := invGal (mapErr_ok hc)
  have hw' : WFGal { c with tgd0 := g0, tgd1 := g1, healthBits := u8 (toSigned 6 v) } := by
    obtain ⟨_, _, _, _, _, _, _, _, _, _, _, _, _, _, _, _, _, _, _, _, _, _, _, _, _, _, _⟩ := hw
    constructor <;> assumption
  refine run_encode buf (by simp [wr1046, wrGalCommon]) (by simp [wr1046, wrGalCommon]; omega) ?_
  simp only [wr1046, wbits_append, wbits_cons, wbits_nil, Wr.bits_u, Wr.bits_s, decode1046, List.append_assoc, List.nil_append]
  refine Reads.bind (Reads.getU (by decide)) ?_
  refine Reads.nil_bind (Reads.guard _ rfl) ?_
  refine Reads.bind (Reads.mapErr (readsGalCommon _ hw')) ?_
  refine Reads.bind (Reads.getS32' (by omega) (by omega) h0) ?_
  refine Reads.bind (Reads.getS32' (by omega) (by omega) h1) ?_
  refine Reads.bind (Reads.getS rfl) ?_
  refine Reads.bind (Reads.skip (by simp)) ?_
  rw [health6 v hv]
  exact Reads.pure _

/-- **C82** Galileo F/NAV 1045, likewise. -/
theorem C82_galileo_fnav_ephemeris (p : Buf) (m : KepEph) (h : decode1045.run p = .ok m) (buf : Buf) (hb : 62 ≤ buf.length) :
    decode1045.run (payloadOf (encode1045 m buf)) = .ok m := by
  obtain ⟨r, hr⟩ := run_ok h
  generalize bitsOf p = s at hr
  unfold decode1045 at hr
  replace hr := kU hr
  obtain ⟨_, _, _, rfl, hr⟩ := hr
  replace hr := kG hr
  obtain ⟨_, hr⟩ := hr
  obtain ⟨c, _, hc, hr⟩ := bind_ok hr
  replace hr := kS hr (by decide) (by decide)
  obtain ⟨g0, _, h0, rfl, hr⟩ := hr
  replace hr := kSv hr
  obtain ⟨v, _, hv, rfl, hr⟩ := hr
  replace hr := kK hr
  obtain ⟨_, hr⟩ := hr
  replace hr := kP hr
  obtain ⟨rfl, -⟩ := hr
  obtain ⟨hw, -, -, -⟩ := invGal (mapErr_ok hc)
  have hw' : WFGal { c with tgd0 := g0, tgd1 := 0, healthBits := u8 (toSigned 3 v) } := by
    obtain ⟨_, _, _, _, _, _, _, _, _, _, _, _, _, _, _, _, _, _, _, _, _, _, _, _, _, _, _⟩ := hw
    constructor
    all_goals first | assumption | (dsimp only; norm_num)
  refine run_encode buf (by simp [wr1045, wrGalCommon]) (by simp [wr1045, wrGalCommon]; omega) ?_
  simp only [wr1045, wbits_append, wbits_cons, wbits_nil, Wr.bits_u, Wr.bits_s, decode1045, List.append_assoc, List.nil_append]
  refine Reads.bind (Reads.getU (by decide)) ?_
  refine Reads.nil_bind (Reads.guard _ rfl) ?_
  refine Reads.bind (Reads.mapErr (readsGalCommon _ hw')) ?_
  refine Reads.bind (Reads.getS32' (by omega) (by omega) h0) ?_
  refine Reads.bind (Reads.getS rfl) ?_
  refine Reads.bind (Reads.skip (by simp)) ?_
  rw [health3 v hv]
  exact Reads.pure _

theorem inv1020 {s r : List Bool} {m : GloEph} (h : decode1020 s = (.ok m, r)) : WF1020 m := by
  unfold decode1020 at h
  repeat (first
    | (replace h := kG h; obtain ⟨_, h⟩ := h)
    | (replace h := kU h; obtain ⟨_, _, _, rfl, h⟩ := h)
    | (replace h := kM h; obtain ⟨_, _, _, h⟩ := h)
    | (replace h := kK h; obtain ⟨_, h⟩ := h))
  obtain ⟨m5, _, h5, h⟩ := bind_ok h
  replace h := kP h
  obtain ⟨rfl, rfl⟩ := h
  have h5 : m5 < 2 ^ 1 := by
    unfold decodeGloAdditional at h5
    split at h5
    · obtain ⟨_, h5⟩ := kK h5
      replace h5 := kK h5
      obtain ⟨_, h5⟩ := h5
      replace h5 := kK h5
      obtain ⟨_, h5⟩ := h5
      replace h5 := kK h5
      obtain ⟨_, h5⟩ := h5
      replace h5 := kU h5
      obtain ⟨v, _, hv, rfl, h5⟩ := h5
      replace h5 := kK h5
      obtain ⟨_, h5⟩ := h5
      replace h5 := kP h5
      obtain ⟨rfl, -⟩ := h5
      exact hv
    · obtain ⟨rfl, -⟩ := kP h5
      decide
  constructor
  all_goals first
    | assumption
    | exact ⟨by assumption, by assumption, by assumption⟩
    | exact Nat.or_lt_two_pow (n := 1) (Nat.or_lt_two_pow (by assumption) (by assumption)) h5

/-- **C82** GLONASS 1020: every accepted payload is relayed to the same message (the bits the decoder skips go out as zero, and a
health flag set only in the additional data goes out in the ordinary place). -/
theorem C82_glonass_ephemeris (p : Buf) (m : GloEph) (h : decode1020.run p = .ok m) (buf : Buf) (hb : 45 ≤ buf.length) :
    decode1020.run (payloadOf (encode1020 m buf)) = .ok m := by
  obtain ⟨r, hr⟩ := run_ok h
  exact C10_1020_roundtrip m (inv1020 hr) buf hb

/-! ### Station and antenna -/

theorem readsBaseExact {s r : List Bool} {m : Msg1005} (h : decode1005Base s = (.ok m, r)) :
    Reads decode1005Base (wbits (wr1005Base m)) m := by
  unfold decode1005Base at h
  replace h := kU h
  obtain ⟨_, _, h1, rfl, h⟩ := h
  replace h := kU h
  obtain ⟨_, _, h2, rfl, h⟩ := h
  replace h := kU h
  obtain ⟨_, _, h3, rfl, h⟩ := h
  replace h := kU h
  obtain ⟨_, _, h4, rfl, h⟩ := h
  replace h := kU h
  obtain ⟨_, _, h5, rfl, h⟩ := h
  replace h := kU h
  obtain ⟨_, _, h6, rfl, h⟩ := h
  replace h := kS64 h (by decide)
  obtain ⟨x, _, hx, h⟩ := h
  replace h := kU h
  obtain ⟨_, _, h7, rfl, h⟩ := h
  replace h := kK h
  obtain ⟨_, h⟩ := h
  replace h := kS64 h (by decide)
  obtain ⟨y, _, hy, h⟩ := h
  replace h := kU h
  obtain ⟨_, _, h8, rfl, h⟩ := h
  replace h := kS64 h (by decide)
  obtain ⟨z, _, hz, h⟩ := h
  replace h := kP h
  obtain ⟨rfl, -⟩ := h
  have e : ∀ k : ℤ, (-(2 ^ (38 - 1)) ≤ k ∧ k < 2 ^ (38 - 1)) → toTenthMm (ofTenthMm k) = k := by
    intro k hk
    refine tenthMm_exact (abs_le.mpr ?_)
    norm_num at *
    omega
  simp only [wr1005Base, wbits_cons, wbits_nil, Wr.bits_u, Wr.bits_sl, decode1005Base, e x hx, e y hy, e z hz]
  refine Reads.bind (Reads.getU h1) ?_
  refine Reads.bind (Reads.getU h2) ?_
  refine Reads.bind (Reads.getU h3) ?_
  refine Reads.bind (Reads.getU h4) ?_
  refine Reads.bind (Reads.getU h5) ?_
  refine Reads.bind (Reads.getU h6) ?_
  refine Reads.bind (Reads.getS64 (by omega) (by omega) hx.1 hx.2) ?_
  refine Reads.bind (Reads.getU h7) ?_
  refine Reads.bind (Reads.skip (by simp)) ?_
  refine Reads.bind (Reads.getS64 (by omega) (by omega) hy.1 hy.2) ?_
  refine Reads.bind (Reads.getU h8) ?_
  refine Reads.bind (Reads.getS64 (by omega) (by omega) hz.1 hz.2) ?_
  exact Reads.pure _

theorem ok_wr1005Base (m : Msg1005) : ∀ w ∈ wr1005Base m, w.ok := by
  intro w hw
  simp [wr1005Base] at hw
  rcases hw with h | h | h | h | h | h | h | h | h | h | h | h <;> subst h <;> simp

/-- **C82** Station 1005: every accepted payload is relayed to the same message, coordinates included to the last bit of the doubles. -/
theorem C82_station_1005 (p : Buf) (m : Msg1005) (h : decode1005.run p = .ok m) (buf : Buf) (hb : 19 ≤ buf.length) :
    decode1005.run (payloadOf (encode1005 m buf)) = .ok m := by
  obtain ⟨r, hr⟩ := run_ok h
  unfold decode1005 at hr
  replace hr := kU hr
  obtain ⟨_, _, _, -, hr⟩ := hr
  replace hr := kG hr
  obtain ⟨_, hr⟩ := hr
  refine run_encode buf ?_ ?_ ?_
  · intro w hw
    rcases List.mem_cons.mp hw with h | h
    · subst h; simp
    · exact ok_wr1005Base m w h
  · simp [wr1005Base]; omega
  · rw [wbits_cons]
    refine Reads.bind (Reads.getU (by decide)) ?_
    refine Reads.nil_bind (Reads.guard _ rfl) ?_
    exact readsBaseExact hr

/-- **C82** Station 1006: every accepted (complete) payload is relayed to the same message, the antenna height included. -/
theorem C82_station_1006 (p : Buf) (b : Msg1005) (ht : ℚ) (h : decode1006.run p = .ok (some b, ht)) (buf : Buf)
    (hb : 21 ≤ buf.length) :
    decode1006.run (payloadOf (encode1006 { base := b, antHeight := ht } buf)) = .ok (some b, ht) := by
  obtain ⟨r, hr⟩ := run_ok h
  unfold decode1006 at hr
  replace hr := kU hr
  obtain ⟨_, _, _, -, hr⟩ := hr
  replace hr := kG hr
  obtain ⟨_, hr⟩ := hr
  obtain ⟨o, _, ho, hr⟩ := bind_ok hr
  replace hr := kU hr
  obtain ⟨k, _, hk, -, hr⟩ := hr
  replace hr := kP hr
  obtain ⟨he, -⟩ := hr
  obtain ⟨rfl, rfl⟩ := Prod.mk.inj he
  obtain ⟨r1, hbase⟩ : ∃ r1, decode1005Base _ = (.ok b, r1) := by
    unfold Dec.attempt at ho
    split at ho
    · rename_i h1
      simp only [Prod.mk.injEq, Except.ok.injEq, Option.some.injEq] at ho
      rw [← ho.1]
      exact ⟨_, h1⟩
    · simp at ho
  have hk' : (k : ℤ) ≤ 65535 := by norm_num at hk; omega
  have e : (toTenthMm (clampHeight (ofTenthMm k))).toNat = k := by
    have h0 : (0 : ℚ) ≤ (((k : ℕ) : ℤ) : ℚ) / 10000 := by positivity
    have h1 : ¬ ofTenthMm k < 0 := not_lt.mpr (Fp.f64_nonneg h0)
    have h2 : ¬ ofTenthMm k > maxHeight := by
      refine not_lt.mpr (Fp.f64_mono h0 ?_)
      have : (((k : ℕ) : ℤ) : ℚ) ≤ 65535 := by exact_mod_cast hk'
      linarith
    unfold clampHeight
    rw [if_neg h1, if_neg h2, tenthMm_exact (abs_le.mpr (by norm_num; omega))]
    omega
  refine run_encode buf ?_ ?_ ?_
  · intro w hw
    rcases List.mem_cons.mp hw with h | h
    · subst h; simp
    · rcases List.mem_append.mp h with h | h
      · exact ok_wr1005Base b w h
      · simp at h; subst h; simp
  · simp [wr1005Base]; omega
  · rw [wbits_cons, wbits_append]
    refine Reads.bind (Reads.getU (by decide)) ?_
    refine Reads.nil_bind (Reads.guard _ rfl) ?_
    refine Reads.bind (Reads.attempt (readsBaseExact hbase)) ?_
    simp only [e, wbits_cons, wbits_nil, Wr.bits_u]
    refine Reads.bind (Reads.getU hk) ?_
    exact Reads.pure _

/-! ### Descriptors, text, proprietary payloads: whole bytes, so the bytes themselves are relayed -/

theorem kStr {β} {f : List Byte → Dec β} {s : List Bool} {b : β} {r : List Bool} (h : (decodeString >>= f) s = (.ok b, r)) :
    ∃ l s', l.length ≤ 32 ∧ s = wbits (wrString l) ++ s' ∧ f l s' = (.ok b, r) := by
  obtain ⟨l, s', h1, h2⟩ := bind_ok h
  unfold decodeString at h1
  replace h1 := kU h1
  obtain ⟨n, _, hn, rfl, h1⟩ := h1
  replace h1 := kG h1
  obtain ⟨hg, h1⟩ := h1
  obtain ⟨rfl, rfl⟩ := many_bytes_ok h1
  exact ⟨l, s', by simpa [maxStringLen] using hg, by rw [wbits_wrString, List.append_assoc], h2⟩

theorem inv1007Base {s r : List Bool} {m : Msg1007} (h : decode1007Base s = (.ok m, r)) :
    (m.stnId < 4096 ∧ m.antSetupId < 256 ∧ m.antDescriptor.length ≤ 32) ∧ s = wbits (wr1007Base m) ++ r := by
  unfold decode1007Base at h
  replace h := kU h
  obtain ⟨_, _, h1, rfl, h⟩ := h
  replace h := kStr h
  obtain ⟨_, _, h2, rfl, h⟩ := h
  replace h := kU h
  obtain ⟨_, _, h3, rfl, h⟩ := h
  replace h := kP h
  obtain ⟨rfl, rfl⟩ := h
  exact ⟨⟨h1, h3, h2⟩, by simp only [wr1007Base, wbits_cons, wbits_append, wbits_nil, Wr.bits_u, List.append_assoc, List.nil_append]⟩

theorem ok_wr1007Base (m : Msg1007) : ∀ w ∈ wr1007Base m, w.ok := by
  intro w hw
  unfold wr1007Base at hw
  rcases List.mem_cons.mp hw with h | h
  · subst h; simp
  · rcases List.mem_append.mp h with h | h
    · exact ok_wrString _ w h
    · simp at h; subst h; simp

theorem relayed_bytes {ws : List Wr} {b p : Buf} {s r : List Bool} (hok : ∀ w ∈ ws, w.ok) (h : (wlen ws + 7) / 8 ≤ b.length)
    (hp : bitsOf p = s) (hs : s = wbits ws ++ r) (h8 : wlen ws % 8 = 0) : payloadOf (encodeWr ws b) <+: p :=
  payload_prefix hok h (hp.trans hs) h8

/-- **C82** Antenna descriptor 1007: every accepted payload goes out again byte for byte (without whatever follows the message). -/
theorem C82_antenna_1007 (p : Buf) (m : Msg1007) (h : decode1007.run p = .ok m) (buf : Buf) (hb : 37 ≤ buf.length) :
    payloadOf (encode1007 m buf) <+: p ∧ decode1007.run (payloadOf (encode1007 m buf)) = .ok m := by
  obtain ⟨r, hr⟩ := run_ok h
  generalize hp : bitsOf p = s at hr
  unfold decode1007 at hr
  replace hr := kU hr
  obtain ⟨_, _, _, rfl, hr⟩ := hr
  replace hr := kG hr
  obtain ⟨rfl, hr⟩ := hr
  obtain ⟨⟨h1, h2, h3⟩, rfl⟩ := inv1007Base hr
  refine ⟨relayed_bytes (r := r) ?_ ?_ hp ?_ ?_, C07_1007_roundtrip m h1 h2 h3 buf hb⟩
  · intro w hw
    rcases List.mem_cons.mp hw with h | h
    · subst h; simp
    · exact ok_wr1007Base m w h
  · simp [wr1007Base, wlen_wrString]; omega
  · rw [wbits_cons, List.append_assoc]; rfl
  · simp [wr1007Base, wlen_wrString]; omega

/-- **C82** Antenna descriptor and serial number 1008, likewise. -/
theorem C82_antenna_1008 (p : Buf) (m : Msg1008) (h : decode1008.run p = .ok m) (buf : Buf) (hb : 70 ≤ buf.length) :
    payloadOf (encode1008 m buf) <+: p ∧ decode1008.run (payloadOf (encode1008 m buf)) = .ok m := by
  obtain ⟨r, hr⟩ := run_ok h
  generalize hp : bitsOf p = s at hr
  unfold decode1008 at hr
  replace hr := kU hr
  obtain ⟨_, _, _, rfl, hr⟩ := hr
  replace hr := kG hr
  obtain ⟨rfl, hr⟩ := hr
  replace hr := bind_ok hr
  obtain ⟨c, _, hc, hr⟩ := hr
  replace hc := inv1007Base hc
  obtain ⟨⟨h1, h2, h3⟩, rfl⟩ := hc
  replace hr := kStr hr
  obtain ⟨l, _, h4, rfl, hr⟩ := hr
  replace hr := kP hr
  obtain ⟨rfl, rfl⟩ := hr
  refine ⟨relayed_bytes (r := r) ?_ ?_ hp ?_ ?_, C07_1008_roundtrip _ h1 h2 h3 h4 buf hb⟩
  · intro w hw
    rcases List.mem_cons.mp hw with h | h
    · subst h; simp
    · rcases List.mem_append.mp h with h | h
      · exact ok_wr1007Base _ w h
      · exact ok_wrString _ w h
  · simp [wr1007Base, wlen_wrString]; omega
  · rw [wbits_cons, wbits_append, List.append_assoc, List.append_assoc]; rfl
  · simp [wr1007Base, wlen_wrString]; omega

/-- **C82** Receiver and antenna descriptors 1033, likewise. -/
theorem C82_receiver_1033 (p : Buf) (m : Msg1033) (h : decode1033.run p = .ok m) (buf : Buf) (hb : 169 ≤ buf.length) :
    payloadOf (encode1033 m buf) <+: p ∧ decode1033.run (payloadOf (encode1033 m buf)) = .ok m := by
  obtain ⟨r, hr⟩ := run_ok h
  generalize hp : bitsOf p = s at hr
  unfold decode1033 at hr
  replace hr := kU hr
  obtain ⟨_, _, _, rfl, hr⟩ := hr
  replace hr := kG hr
  obtain ⟨rfl, hr⟩ := hr
  replace hr := kU hr
  obtain ⟨_, _, h1, rfl, hr⟩ := hr
  replace hr := kStr hr
  obtain ⟨_, _, h3, rfl, hr⟩ := hr
  replace hr := kU hr
  obtain ⟨i, _, h2, rfl, hr⟩ := hr
  replace hr := kStr hr
  obtain ⟨_, _, h4, rfl, hr⟩ := hr
  replace hr := kStr hr
  obtain ⟨_, _, h5, rfl, hr⟩ := hr
  replace hr := kStr hr
  obtain ⟨_, _, h6, rfl, hr⟩ := hr
  replace hr := kStr hr
  obtain ⟨_, _, h7, rfl, hr⟩ := hr
  replace hr := kP hr
  obtain ⟨rfl, rfl⟩ := hr
  have e8 : u32 (i : Int) = i := by unfold u32; norm_num at h2; omega
  refine ⟨relayed_bytes (r := r) (ok_wr1033 _) ?_ hp ?_ ?_, C07_1033_roundtrip _ h1 h2 h3 h4 h5 h6 h7 buf hb⟩
  · simp [wr1033, wlen_wrString]; omega
  · simp only [wr1033, wbits_cons, wbits_append, wbits_nil, Wr.bits_u, Wr.bits_s, List.append_assoc, List.nil_append, e8]
  · simp [wr1033, wlen_wrString]; omega

/-- **C82** Text 1029, likewise (any bytes, valid UTF-8 or not). -/
theorem C82_text_1029 (p : Buf) (m : Msg1029) (h : decode1029.run p = .ok m) (buf : Buf) (hb : 264 ≤ buf.length) :
    payloadOf (encode1029 m buf) <+: p ∧ decode1029.run (payloadOf (encode1029 m buf)) = .ok m := by
  obtain ⟨r, hr⟩ := run_ok h
  generalize hp : bitsOf p = s at hr
  unfold decode1029 at hr
  replace hr := kU hr
  obtain ⟨_, _, _, rfl, hr⟩ := hr
  replace hr := kG hr
  obtain ⟨rfl, hr⟩ := hr
  replace hr := kU hr
  obtain ⟨_, _, h1, rfl, hr⟩ := hr
  replace hr := kU hr
  obtain ⟨_, _, h2, rfl, hr⟩ := hr
  replace hr := kU hr
  obtain ⟨_, _, h3, rfl, hr⟩ := hr
  replace hr := kU hr
  obtain ⟨_, _, h4, rfl, hr⟩ := hr
  replace hr := kU hr
  obtain ⟨_, _, h5, rfl, hr⟩ := hr
  replace hr := kB hr
  obtain ⟨l, _, rfl, rfl, hr⟩ := hr
  replace hr := kP hr
  obtain ⟨rfl, rfl⟩ := hr
  have h5' : l.length ≤ 255 := by norm_num at h5; omega
  refine ⟨relayed_bytes (r := r) ?_ ?_ hp ?_ ?_, C08_1029_roundtrip _ h1 h2 h3 h4 h5' buf (by dsimp only; omega)⟩
  · intro w hw
    rcases List.mem_append.mp hw with h | h
    · simp at h; rcases h with h | h | h | h | h <;> subst h <;> simp
    · exact ok_wrString _ w h
  · simp [wlen_wrString]; omega
  · simp only [wbits_cons, wbits_append, wbits_nil, Wr.bits_u, List.append_assoc, List.nil_append, wbits_wrString]
  · simp [wlen_wrString]; omega

/-- **C82** Swift proprietary 4062, likewise. -/
theorem C82_proprietary_4062 (p : Buf) (m : Msg4062) (h : decode4062.run p = .ok m) (buf : Buf) (hb : 262 ≤ buf.length) :
    payloadOf (encode4062 m buf) <+: p ∧ decode4062.run (payloadOf (encode4062 m buf)) = .ok m := by
  obtain ⟨r, hr⟩ := run_ok h
  generalize hp : bitsOf p = s at hr
  unfold decode4062 at hr
  replace hr := kU hr
  obtain ⟨_, _, _, rfl, hr⟩ := hr
  replace hr := kG hr
  obtain ⟨rfl, hr⟩ := hr
  replace hr := kU hr
  obtain ⟨z, _, h0, rfl, hr⟩ := hr
  replace hr := kG hr
  obtain ⟨hz, hr⟩ := hr
  obtain rfl : z = 0 := not_not.mp hz
  replace hr := kU hr
  obtain ⟨_, _, h1, rfl, hr⟩ := hr
  replace hr := kU hr
  obtain ⟨_, _, h2, rfl, hr⟩ := hr
  replace hr := kU hr
  obtain ⟨_, _, h5, rfl, hr⟩ := hr
  replace hr := kB hr
  obtain ⟨l, _, rfl, rfl, hr⟩ := hr
  replace hr := kP hr
  obtain ⟨rfl, rfl⟩ := hr
  have h5' : l.length ≤ 255 := by norm_num at h5; omega
  refine ⟨relayed_bytes (r := r) ?_ ?_ hp ?_ ?_, C08_4062_roundtrip _ h1 h2 h5' buf (by dsimp only; omega)⟩
  · intro w hw
    rcases List.mem_append.mp hw with h | h
    · simp at h; rcases h with h | h | h | h <;> subst h <;> simp
    · exact ok_wrString _ w h
  · simp [wlen_wrString]; omega
  · simp only [wbits_cons, wbits_append, wbits_nil, Wr.bits_u, List.append_assoc, List.nil_append, wbits_wrString]
  · simp [wlen_wrString]; omega

/-! ### GLONASS code-phase biases -/

theorem twoCm_exact {t : ℤ} (h : -(2 ^ 15) ≤ t ∧ t < 2 ^ 15) : cround (Fp.f64 (ofTwoCm t * 50)) = t := by
  have h1 := ofTwoCm_rounded t
  have h2 := Fp.f64_err (ofTwoCm t * 50)
  have ht : |(t : ℚ)| ≤ 32768 := by
    have : |t| ≤ 32768 := abs_le.mpr (by norm_num at h; omega)
    exact_mod_cast this
  unfold Rounded at h1
  rw [abs_mul, abs_of_pos (show (0 : ℚ) < 1 / 50 by norm_num)] at h1
  have h3 : (1 / 2 ^ 150 : ℚ) ≤ 1 / 100000 := by norm_num
  have h4 : (1 / 2 ^ 200 : ℚ) ≤ 1 / 100000 := by norm_num
  generalize (1 / 2 ^ 150 : ℚ) = a at *
  generalize (1 / 2 ^ 200 : ℚ) = b at *
  have h5 : |ofTwoCm t - t * (1 / 50)| ≤ 1 / 1000 := by
    refine h1.trans ?_
    norm_num at *
    linarith
  have h6 : |ofTwoCm t * 50| ≤ 40000 := by
    rw [abs_le] at h5 ht ⊢
    constructor <;> linarith [h5.1, h5.2, ht.1, ht.2]
  apply cround_near
  rw [abs_lt]
  have h7 : |Fp.f64 (ofTwoCm t * 50) - ofTwoCm t * 50| ≤ 1 / 1000 := by linarith
  rw [abs_le] at h5 h7
  constructor <;> linarith [h5.1, h5.2, h7.1, h7.2]

theorem kBias {β} {mask i : Nat} {f : ℚ → Dec β} {s : List Bool} {b : β} {r : List Bool}
    (h : (decodeBias mask i >>= f) s = (.ok b, r)) :
    ∃ x s', Reads (decodeBias mask i) (wbits (wrBias mask i x)) x ∧ f x s' = (.ok b, r) := by
  obtain ⟨x, s', h1, h2⟩ := bind_ok h
  refine ⟨x, s', ?_, h2⟩
  unfold decodeBias at h1 ⊢
  unfold wrBias
  split at h1
  · rename_i hm
    replace h1 := kS h1 (by decide) (by decide)
    obtain ⟨t, _, ht, rfl, h1⟩ := h1
    replace h1 := kP h1
    obtain ⟨rfl, -⟩ := h1
    rw [if_pos hm, if_pos hm, twoCm_exact ht, wbits_cons]
    exact Reads.bind (Reads.getS32' (by omega) (by omega) ht) (Reads.pure _)
  · rename_i hm
    replace h1 := kP h1
    obtain ⟨rfl, -⟩ := h1
    rw [if_neg hm, if_neg hm]
    exact Reads.pure _

/-- **C82** (partial: the bias indicator is lost, see `C09_bias_indicator_bug`) GLONASS biases 1230: station, mask and biases of every
accepted payload are relayed exactly. -/
theorem C82_glonass_biases_partial (p : Buf) (m : Msg1230) (h : decode1230.run p = .ok m) (buf : Buf) (hb : 12 ≤ buf.length) :
    decode1230.run (payloadOf (encode1230 m buf)) = .ok { m with biasIndicator := 0 } := by
  obtain ⟨r, hr⟩ := run_ok h
  generalize bitsOf p = s at hr
  unfold decode1230 at hr
  replace hr := kU hr
  obtain ⟨_, _, _, rfl, hr⟩ := hr
  replace hr := kG hr
  obtain ⟨_, hr⟩ := hr
  replace hr := kU hr
  obtain ⟨_, _, h1, rfl, hr⟩ := hr
  replace hr := kU hr
  obtain ⟨ind, _, h2, rfl, hr⟩ := hr
  replace hr := kK hr
  obtain ⟨_, hr⟩ := hr
  replace hr := kU hr
  obtain ⟨mask, _, h3, rfl, hr⟩ := hr
  replace hr := kBias hr
  obtain ⟨_, _, b3, hr⟩ := hr
  replace hr := kBias hr
  obtain ⟨_, _, b2, hr⟩ := hr
  replace hr := kBias hr
  obtain ⟨_, _, b1, hr⟩ := hr
  replace hr := kBias hr
  obtain ⟨_, _, b0, hr⟩ := hr
  replace hr := kP hr
  obtain ⟨rfl, -⟩ := hr
  obtain ⟨e1, e2, e3⟩ := encode1230_splice _ buf hb
  refine run_of_splice e1 e2 (by omega) ?_
  have e : ind.testBit 7 = false := Nat.testBit_lt_two_pow (by norm_num at h2 ⊢; omega)
  simp only [wr1230, wbits_cons, wbits_append, wbits_nil, Wr.bits_u, List.append_assoc, List.nil_append, e]
  refine Reads.bind (Reads.getU (by decide)) ?_
  refine Reads.nil_bind (Reads.guard _ rfl) ?_
  refine Reads.bind (Reads.getU h1) ?_
  refine Reads.bind (Reads.getU (by decide)) ?_
  refine Reads.bind (Reads.skip (by simp)) ?_
  refine Reads.bind (Reads.getU h3) ?_
  refine Reads.bind b3 ?_
  refine Reads.bind b2 ?_
  refine Reads.bind b1 ?_
  refine Reads.bind_nil b0 ?_
  exact Reads.pure _

/-! ### Received payloads with reserved bits set and bytes after the message, which no encoder of this library produces, are accepted -/

theorem accepted {α} {d : Dec α} {p : Buf} (h : (d.run p).toBool = true) : ∃ m, d.run p = .ok m := by
  cases e : d.run p with
  | ok m => exact ⟨m, rfl⟩
  | error _ => rw [e] at h; cases h

example : ∃ m, decode1042.run (0x41 :: 0x2F :: List.replicate 70 0xA5) = .ok m := accepted (by decide +kernel)
example : ∃ m, decode1019.run (0x3F :: 0xBF :: (List.replicate 30 0xA5 ++ List.replicate 33 0x5A)) = .ok m ∧ m.toe ≠ m.toc := by
  refine (accepted (by decide +kernel)).imp fun m h => ⟨h, ?_⟩
  have : (decode1019.run (0x3F :: 0xBF :: (List.replicate 30 0xA5 ++ List.replicate 33 0x5A))).toOption.map (fun m => decide (m.toe ≠ m.toc)) = some true := by
    decide +kernel
  rw [h] at this
  simpa [Except.toOption] using this
example : ∃ m, decode1046.run (0x41 :: 0x6F :: List.replicate 62 0xA5) = .ok m := accepted (by decide +kernel)
example : ∃ m, decode1045.run (0x41 :: 0x5F :: List.replicate 62 0xA5) = .ok m := accepted (by decide +kernel)
example : ∃ m, decode1020.run (0x3F :: 0xC5 :: List.replicate 44 0xA5) = .ok m := accepted (by decide +kernel)
example : ∃ m, decode1005.run (0x3E :: 0xDF :: List.replicate 18 0xA5) = .ok m := accepted (by decide +kernel)
example : ∃ b h, decode1006.run (0x3E :: 0xEF :: List.replicate 19 0xA5) = .ok (some b, h) := by
  obtain ⟨m, h⟩ := accepted (d := decode1006) (p := 0x3E :: 0xEF :: List.replicate 19 0xA5) (by decide +kernel)
  have : (decode1006.run (0x3E :: 0xEF :: List.replicate 19 0xA5)).toOption.map (fun m => m.1.isSome) = some true := by
    decide +kernel
  rw [h] at this
  obtain ⟨_ | b, t⟩ := m
  · simp [Except.toOption] at this
  · exact ⟨b, t, h⟩
example : ∃ m, decode1007.run [0x3E, 0xF1, 0x23, 2, 0x41, 0x42, 7, 0xFF, 0xFF] = .ok m := accepted (by decide +kernel)
example : ∃ m, decode1008.run [0x3F, 0x01, 0x23, 2, 0x41, 0x42, 7, 1, 0x43, 0xFF] = .ok m := accepted (by decide +kernel)
example : ∃ m, decode1033.run [0x40, 0x91, 0x23, 2, 0x41, 0x42, 7, 1, 0x43, 0, 1, 0x44, 0, 0xFF] = .ok m :=
  accepted (by decide +kernel)
example : ∃ m, decode1029.run [0x40, 0x51, 0x23, 0xE0, 0x00, 0x12, 0x34, 0x02, 2, 0xC3, 0x28, 0xFF] = .ok m :=
  accepted (by decide +kernel)
example : ∃ m, decode4062.run [0xFD, 0xE0, 0x00, 0x4A, 0x12, 0x34, 3, 1, 2, 3, 0xFF] = .ok m := accepted (by decide +kernel)
example : ∃ m, decode1230.run (0x4C :: 0xE1 :: 0x23 :: 0xFB :: List.replicate 6 0xA5) = .ok m := accepted (by decide +kernel)

end Verif
