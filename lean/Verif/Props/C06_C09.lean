import Verif.Model.Station
import Verif.Spec.Station
import Verif.Lemmas.Codec
import Verif.Lemmas.StationNum
import Mathlib.Tactic.IntervalCases
/-!
C06-C09: station, descriptor, text, Swift-proprietary and code-phase-bias messages survive encode/decode.
`buf` is the caller's buffer with arbitrary previous contents.
-/
namespace Verif
open Dec Spec

/-- one field of a `Reads` goal -/
macro "rdU" : tactic => `(tactic| refine Reads.bind (Reads.getU (by first | assumption | omega | decide)) ?_)

theorem coord_range {x : ℚ} (h : |x| ≤ (2 ^ 37 - 1) / 10000) :
    -(2 ^ (38 - 1)) ≤ toTenthMm x ∧ toTenthMm x < 2 ^ (38 - 1) := by
  have := abs_le.mp (tenthMm_range (n := 2 ^ 37 - 1) (by push_cast; linarith) (by norm_num))
  norm_num at *
  omega

/-- what the decoder returns for `m` -/
def q1005 (m : Msg1005) : Msg1005 :=
  { m with arpX := ofTenthMm (toTenthMm m.arpX), arpY := ofTenthMm (toTenthMm m.arpY), arpZ := ofTenthMm (toTenthMm m.arpZ) }

theorem reads1005Base (m : Msg1005) (h : WF1005 m) : Reads decode1005Base (wbits (wr1005Base m)) (q1005 m) := by
  obtain ⟨h1, h2, h3, h4, h5, h6, h7, h8, hx, hy, hz⟩ := h
  have hx := coord_range hx
  have hy := coord_range hy
  have hz := coord_range hz
  simp only [wr1005Base, wbits_cons, wbits_nil, Wr.bits_u, Wr.bits_sl, decode1005Base]
  rdU; rdU; rdU; rdU; rdU; rdU
  refine Reads.bind (Reads.getS64 (by omega) (by omega) hx.1 hx.2) ?_
  rdU
  refine Reads.bind (Reads.skip (by simp)) ?_
  refine Reads.bind (Reads.getS64 (by omega) (by omega) hy.1 hy.2) ?_
  rdU
  refine Reads.bind (Reads.getS64 (by omega) (by omega) hz.1 hz.2) ?_
  exact Reads.pure _

theorem same_q1005 (m : Msg1005) : Same1005 m (q1005 m) :=
  ⟨rfl, rfl, rfl, rfl, rfl, rfl, rfl, rfl, quant_mm _, quant_mm _, quant_mm _⟩

theorem reads1005 (m : Msg1005) (h : WF1005 m) :
    Reads decode1005 (wbits (.u 12 1005 :: wr1005Base m)) (q1005 m) := by
  rw [wbits_cons]
  refine Reads.bind (Reads.getU (by decide)) ?_
  refine Reads.nil_bind (Reads.guard _ rfl) ?_
  exact reads1005Base m h

/-- **C06** 1005 survives encode/decode: flags and identifiers exactly, coordinates rounded to 0.1 mm. -/
theorem C06_1005_roundtrip (m : Msg1005) (h : WF1005 m) (buf : Buf) (hb : 19 ≤ buf.length) :
    ∃ m', decode1005.run (payloadOf (encode1005 m buf)) = .ok m' ∧ Same1005 m m' := by
  refine ⟨q1005 m, run_encode buf ?_ ?_ (reads1005 m h), same_q1005 m⟩
  · intro w hw
    simp [wr1005Base] at hw
    rcases hw with h | h | h | h | h | h | h | h | h | h | h | h | h <;> subst h <;> simp
  · simp [wr1005Base]; omega

/-- **C06** A message whose coordinates are the `double`s nearest to multiples of 0.1 mm comes back exactly. -/
theorem C06_1005_exact (m : Msg1005) (h : WF1005 m) (buf : Buf) (hb : 19 ≤ buf.length)
    (hx : ∃ k : ℤ, m.arpX = Fp.f64 (k / 10000)) (hy : ∃ k : ℤ, m.arpY = Fp.f64 (k / 10000))
    (hz : ∃ k : ℤ, m.arpZ = Fp.f64 (k / 10000)) :
    decode1005.run (payloadOf (encode1005 m buf)) = .ok m := by
  have key : ∀ x : ℚ, |x| ≤ (2 ^ 37 - 1) / 10000 → (∃ k : ℤ, x = Fp.f64 (k / 10000)) → ofTenthMm (toTenthMm x) = x := by
    rintro x hx ⟨k, rfl⟩
    have hk : |k| ≤ 2 ^ 40 := by
      have e := Fp.f64_err ((k : ℚ) / 10000)
      have e2 : |(k : ℚ) / 10000| = |(k : ℚ)| / 10000 := by rw [abs_div]; norm_num
      rw [e2] at e
      have e3 : |(k : ℚ) / 10000| ≤ |Fp.f64 ((k : ℚ) / 10000) - (k : ℚ) / 10000| + |Fp.f64 ((k : ℚ) / 10000)| := by
        have := abs_sub_abs_le_abs_sub ((k : ℚ) / 10000) (Fp.f64 ((k : ℚ) / 10000))
        rw [abs_sub_comm] at this
        linarith
      rw [e2] at e3
      have h3 : (1 / 2 ^ 200 : ℚ) ≤ 1 := by norm_num
      have : |(k : ℚ)| ≤ 2 ^ 40 := by
        generalize (1 / 2 ^ 200 : ℚ) = a at *
        norm_num at *
        linarith
      exact_mod_cast this
    show ofTenthMm (toTenthMm (ofTenthMm k)) = ofTenthMm k
    rw [tenthMm_exact hk]
  obtain ⟨m', hr, hs⟩ := C06_1005_roundtrip m h buf hb
  have hq : decode1005.run (payloadOf (encode1005 m buf)) = .ok (q1005 m) := by
    refine run_encode buf ?_ ?_ (reads1005 m h)
    · intro w hw
      simp [wr1005Base] at hw
      rcases hw with h | h | h | h | h | h | h | h | h | h | h | h | h <;> subst h <;> simp
    · simp [wr1005Base]; omega
  rw [hq]
  unfold q1005
  rw [key _ h.x hx, key _ h.y hy, key _ h.z hz]

theorem maxHeight_eq : maxHeight = 65535 / 10000 - 3 / 8796093022208000 := by decide +kernel

theorem clamp_range (h : ℚ) : 0 ≤ toTenthMm (clampHeight h) ∧ toTenthMm (clampHeight h) ≤ 65535 := by
  have h1 : 0 ≤ clampHeight h ∧ clampHeight h ≤ 65535 / 10000 := by
    unfold clampHeight; rw [maxHeight_eq]; split
    · norm_num
    · split
      · norm_num
      · constructor <;> linarith
  refine ⟨?_, (abs_le.mp (tenthMm_range (n := 65535) ?_ (by norm_num))).2⟩
  · exact cround_nonneg (nonneg_f64 (by linarith [h1.1]))
  · rw [abs_of_nonneg h1.1]; push_cast; linarith [h1.2]

theorem reads1006 (m : Msg1006) (h : WF1005 m.base) :
    Reads decode1006 (wbits (.u 12 1006 :: (wr1005Base m.base ++ [.u 16 (toTenthMm (clampHeight m.antHeight)).toNat])))
      (some (q1005 m.base), ofTenthMm (toTenthMm (clampHeight m.antHeight))) := by
  have hc := clamp_range m.antHeight
  rw [wbits_cons, wbits_append]
  refine Reads.bind (Reads.getU (by decide)) ?_
  refine Reads.nil_bind (Reads.guard _ rfl) ?_
  refine Reads.bind (Reads.attempt (reads1005Base m.base h)) ?_
  refine Reads.bind (Reads.getU (by norm_num; omega)) ?_
  rw [Int.toNat_of_nonneg hc.1]
  exact Reads.pure _

/-- **C06** 1006 survives encode/decode: the 1005 part as above, the antenna height rounded to 0.1 mm for every
height in the field range 0 .. 6.5535 m, saturated outside it. -/
theorem C06_1006_roundtrip (m : Msg1006) (h : WF1005 m.base) (buf : Buf) (hb : 21 ≤ buf.length) :
    ∃ base ht, decode1006.run (payloadOf (encode1006 m buf)) = .ok (some base, ht) ∧ Same1005 m.base base ∧
      (0 ≤ m.antHeight → m.antHeight ≤ 65535 / 10000 → Quant (1 / 10000) m.antHeight ht) ∧
      (m.antHeight < 0 → ht = 0) ∧ (m.antHeight > 65535 / 10000 → ht = Fp.f64 (65535 / 10000)) := by
  refine ⟨q1005 m.base, _, run_encode buf ?_ ?_ (reads1006 m h), same_q1005 _, ?_, ?_, ?_⟩
  · intro w hw
    simp [wr1005Base] at hw
    rcases hw with h | h | h | h | h | h | h | h | h | h | h | h | h | h <;> subst h <;> simp
  · simp [wr1005Base]; omega
  · intro h0 h1
    by_cases hm : m.antHeight > maxHeight
    · have : clampHeight m.antHeight = maxHeight := by unfold clampHeight; rw [if_neg (by linarith), if_pos hm]
      rw [this, show toTenthMm maxHeight = 65535 from by decide +kernel]
      refine ⟨65535, ?_, ?_⟩
      · show Rounded (Fp.f64 _) _
        rw [mul_one_div]; exact rounded_f64 _
      · rw [maxHeight_eq] at hm
        have h2 : (0 : ℚ) ≤ |m.antHeight| / 2 ^ 50 := by positivity
        have h3 : (0 : ℚ) ≤ 1 / 2 ^ 150 := by positivity
        have h4 : |((65535 : ℤ) : ℚ) * (1 / 10000) - m.antHeight| ≤ 1 / 10000 / 2 := by
          rw [abs_le]; push_cast; constructor <;> linarith
        generalize (1 / 2 ^ 150 : ℚ) = a at *
        linarith
    · have : clampHeight m.antHeight = m.antHeight := by
        unfold clampHeight; rw [if_neg (by linarith), if_neg hm]
      rw [this]; exact quant_mm _
  · intro h0
    have : clampHeight m.antHeight = 0 := by unfold clampHeight; rw [if_pos h0]
    rw [this]; decide +kernel
  · intro h0
    have : clampHeight m.antHeight = maxHeight := by
      unfold clampHeight; rw [if_neg (by linarith), if_pos (by rw [maxHeight_eq]; linarith)]
    rw [this]
    decide +kernel

/- a concrete well-formed message, negative Y -/
example : WF1005
    { stnId := 4095, itrf := 33, gpsInd := 1, gloInd := 1, galInd := 0, refStnInd := 1,
      arpX := 28818071234 / 10000, oscInd := 1, arpY := -134221345 / 100000, quartCycleInd := 3,
      arpZ := 16531750 / 3 } := by
  constructor <;> norm_num

/-! ### C07 -/

theorem wbits_chars (l : List Byte) : wbits (l.map (fun c => Wr.u 8 c.toNat)) = bitsOf l := by
  induction l with
  | nil => rfl
  | cons x l ih => simp [ih]
theorem wlen_chars (l : List Byte) : wlen (l.map (fun c => Wr.u 8 c.toNat)) = 8 * l.length := by
  rw [← wbits_length, wbits_chars, bitsOf_length]
theorem wbits_wrString (s : List Byte) : wbits (wrString s) = toBits 8 s.length ++ bitsOf s := by
  rw [wrString, wbits_cons, wbits_chars]; rfl
theorem wlen_wrString (s : List Byte) : wlen (wrString s) = 8 + 8 * s.length := by
  rw [wrString, wlen_cons, wlen_chars]; rfl
theorem ok_wrString (s : List Byte) : ∀ w ∈ wrString s, w.ok := by
  intro w hw
  simp [wrString] at hw
  rcases hw with h | ⟨a, _, h⟩ <;> subst h <;> simp

theorem readsString (s : List Byte) (h : s.length ≤ 32) : Reads decodeString (wbits (wrString s)) s := by
  rw [wbits_wrString]
  refine Reads.bind (Reads.getU (by norm_num; omega)) ?_
  refine Reads.nil_bind (Reads.guard _ (by simp [maxStringLen]; omega)) ?_
  exact Reads.bytes s

theorem reads1007Base (m : Msg1007) (h1 : m.stnId < 4096) (h2 : m.antSetupId < 256) (h3 : m.antDescriptor.length ≤ 32) :
    Reads decode1007Base (wbits (wr1007Base m)) m := by
  simp only [wr1007Base, wbits_cons, wbits_append, wbits_nil, Wr.bits_u]
  rdU
  refine Reads.bind (readsString _ h3) ?_
  rdU
  exact Reads.pure _

/-- **C07** 1007: station id, setup id and descriptor come back unchanged, for every descriptor of at most 32
characters and any previous buffer contents. -/
theorem C07_1007_roundtrip (m : Msg1007) (h1 : m.stnId < 4096) (h2 : m.antSetupId < 256)
    (h3 : m.antDescriptor.length ≤ 32) (buf : Buf) (hb : 37 ≤ buf.length) :
    decode1007.run (payloadOf (encode1007 m buf)) = .ok m := by
  refine run_encode buf ?_ ?_ ?_
  · intro w hw
    simp only [wr1007Base, List.mem_cons, List.mem_append, List.not_mem_nil, or_false] at hw
    rcases hw with h | h | h | h
    · subst h; simp
    · subst h; simp
    · exact ok_wrString _ _ h
    · subst h; simp
  · simp [wr1007Base, wlen_wrString]; omega
  · rw [wbits_cons]
    refine Reads.bind (Reads.getU (by decide)) ?_
    refine Reads.nil_bind (Reads.guard _ rfl) ?_
    exact reads1007Base m h1 h2 h3

/-- **C07** 1008 -/
theorem C07_1008_roundtrip (m : Msg1008) (h1 : m.base.stnId < 4096) (h2 : m.base.antSetupId < 256)
    (h3 : m.base.antDescriptor.length ≤ 32) (h4 : m.antSerialNum.length ≤ 32) (buf : Buf) (hb : 70 ≤ buf.length) :
    decode1008.run (payloadOf (encode1008 m buf)) = .ok m := by
  refine run_encode buf ?_ ?_ ?_
  · intro w hw
    simp only [wr1007Base, List.mem_cons, List.mem_append, List.not_mem_nil, or_false] at hw
    rcases hw with h | (h | h | h) | h
    · subst h; simp
    · subst h; simp
    · exact ok_wrString _ _ h
    · subst h; simp
    · exact ok_wrString _ _ h
  · simp [wr1007Base, wlen_wrString]; omega
  · rw [wbits_cons, wbits_append]
    refine Reads.bind (Reads.getU (by decide)) ?_
    refine Reads.nil_bind (Reads.guard _ rfl) ?_
    refine Reads.bind (reads1007Base _ h1 h2 h3) ?_
    refine Reads.bind_nil (readsString _ h4) ?_
    exact Reads.pure _

theorem ok_wr1033 (m : Msg1033) : ∀ w ∈ wr1033 m, w.ok := by
  intro w hw
  simp only [wr1033, List.mem_cons, List.mem_append, List.not_mem_nil, or_false] at hw
  rcases hw with ((((((h | h) | h) | h) | h) | h) | h) | h
  any_goals exact ok_wrString _ _ h
  all_goals subst h; simp

theorem reads1033 (m : Msg1033) (h1 : m.stnId < 4096) (h2 : m.antSetupId < 256)
    (h3 : m.antDescriptor.length ≤ 32) (h4 : m.antSerialNum.length ≤ 32) (h5 : m.rcvDescriptor.length ≤ 32)
    (h6 : m.rcvFwVersion.length ≤ 32) (h7 : m.rcvSerialNum.length ≤ 32) :
    Reads decode1033 (wbits (wr1033 m)) m := by
  have e8 : u32 (m.antSetupId : Int) = m.antSetupId := by unfold u32; omega
  simp only [wr1033, wbits_cons, wbits_append, wbits_nil, Wr.bits_u, Wr.bits_s, List.append_assoc, List.nil_append, e8]
  refine Reads.bind (Reads.getU (by decide)) ?_
  refine Reads.nil_bind (Reads.guard _ rfl) ?_
  rdU
  refine Reads.bind (readsString _ h3) ?_
  rdU
  refine Reads.bind (readsString _ h4) ?_
  refine Reads.bind (readsString _ h5) ?_
  refine Reads.bind (readsString _ h6) ?_
  refine Reads.bind_nil (readsString _ h7) ?_
  exact Reads.pure _

/-- **C07** 1033: all five strings and both ids come back unchanged. -/
theorem C07_1033_roundtrip (m : Msg1033) (h1 : m.stnId < 4096) (h2 : m.antSetupId < 256)
    (h3 : m.antDescriptor.length ≤ 32) (h4 : m.antSerialNum.length ≤ 32) (h5 : m.rcvDescriptor.length ≤ 32)
    (h6 : m.rcvFwVersion.length ≤ 32) (h7 : m.rcvSerialNum.length ≤ 32) (buf : Buf) (hb : 169 ≤ buf.length) :
    decode1033.run (payloadOf (encode1033 m buf)) = .ok m := by
  refine run_encode buf (ok_wr1033 m) ?_ (reads1033 m h1 h2 h3 h4 h5 h6 h7)
  simp [wr1033, wlen_wrString]; omega

theorem decodeString_len {s : List Bool} {l : List Byte} {r : List Bool} (h : decodeString s = (.ok l, r)) :
    l.length ≤ 32 := by
  have hm : ∀ (k : Nat) (s : List Bool) (l : List Byte) (r : List Bool), many getByte k s = (.ok l, r) → l.length = k := by
    intro k
    induction k with
    | zero => intro s l r h; simp [many, Dec.pure_def] at h; simp [← h.1]
    | succ k ih =>
      intro s l r h
      simp only [many, Dec.bind_def] at h
      split at h
      · split at h
        · rename_i h2
          rw [Dec.pure_def] at h
          simp at h
          rw [← h.1]; simp [ih _ _ _ h2]
        · simp at h
      · simp at h
  simp only [decodeString, Dec.bind_def] at h
  split at h
  · rename_i h1
    rename_i n _
    split at h
    · rename_i h2
      have := hm _ _ _ _ h
      unfold Dec.guard at h2
      split at h2
      · simp [maxStringLen] at *; omega
      · simp [fail] at h2
    · simp at h
  · simp at h

/-- **C07** Whatever bytes arrive, an accepted descriptor message never contains a string longer than the 33-byte
string buffers of the message struct can hold with their terminator: longer announced lengths are rejected. -/
theorem C07_strings_bounded (p : Buf) :
    (∀ m, decode1007.run p = .ok m → m.antDescriptor.length ≤ 32) ∧
    (∀ m, decode1008.run p = .ok m → m.base.antDescriptor.length ≤ 32 ∧ m.antSerialNum.length ≤ 32) ∧
    (∀ m, decode1033.run p = .ok m → m.antDescriptor.length ≤ 32 ∧ m.antSerialNum.length ≤ 32 ∧
      m.rcvDescriptor.length ≤ 32 ∧ m.rcvFwVersion.length ≤ 32 ∧ m.rcvSerialNum.length ≤ 32) := by
  have base : ∀ s m r, decode1007Base s = (.ok m, r) → m.antDescriptor.length ≤ 32 := by
    intro s m r h
    obtain ⟨_, _, _, h⟩ := bind_ok h
    obtain ⟨_, _, h1, h⟩ := bind_ok h
    obtain ⟨_, _, _, h⟩ := bind_ok h
    rw [Dec.pure_def] at h; simp at h
    rw [← h.1]; exact decodeString_len h1
  refine ⟨?_, ?_, ?_⟩
  · intro m h
    obtain ⟨x, hx⟩ : ∃ x, decode1007 (bitsOf p) = (.ok m, x) := ⟨_, Prod.ext h rfl⟩
    obtain ⟨_, _, _, h⟩ := bind_ok hx
    obtain ⟨_, _, _, h⟩ := bind_ok h
    exact base _ _ _ h
  · intro m h
    obtain ⟨x, hx⟩ : ∃ x, decode1008 (bitsOf p) = (.ok m, x) := ⟨_, Prod.ext h rfl⟩
    obtain ⟨_, _, _, h⟩ := bind_ok hx
    obtain ⟨_, _, _, h⟩ := bind_ok h
    obtain ⟨_, _, h1, h⟩ := bind_ok h
    obtain ⟨_, _, h2, h⟩ := bind_ok h
    rw [Dec.pure_def] at h; simp at h
    rw [← h.1]; exact ⟨base _ _ _ h1, decodeString_len h2⟩
  · intro m h
    obtain ⟨x, hx⟩ : ∃ x, decode1033 (bitsOf p) = (.ok m, x) := ⟨_, Prod.ext h rfl⟩
    obtain ⟨_, _, _, h⟩ := bind_ok hx
    obtain ⟨_, _, _, h⟩ := bind_ok h
    obtain ⟨_, _, _, h⟩ := bind_ok h
    obtain ⟨_, _, h1, h⟩ := bind_ok h
    obtain ⟨_, _, _, h⟩ := bind_ok h
    obtain ⟨_, _, h2, h⟩ := bind_ok h
    obtain ⟨_, _, h3, h⟩ := bind_ok h
    obtain ⟨_, _, h4, h⟩ := bind_ok h
    obtain ⟨_, _, h5, h⟩ := bind_ok h
    rw [Dec.pure_def] at h; simp at h
    rw [← h.1]
    exact ⟨decodeString_len h1, decodeString_len h2, decodeString_len h3, decodeString_len h4, decodeString_len h5⟩

/-- **C07** Encoding a 33-character (or longer) descriptor yields a message the decoder rejects as invalid. -/
theorem C07_long_string_rejected (m : Msg1007) (h1 : m.stnId < 4096)
    (h3 : 32 < m.antDescriptor.length) (h4 : m.antDescriptor.length < 256) (buf : Buf)
    (hb : 5 + m.antDescriptor.length ≤ buf.length) :
    decode1007.run (payloadOf (encode1007 m buf)) = .error .invalid := by
  have hok : ∀ w ∈ (Wr.u 12 1007 :: wr1007Base m), w.ok := by
    intro w hw
    simp only [wr1007Base, List.mem_cons, List.mem_append, List.not_mem_nil, or_false] at hw
    rcases hw with h | h | h | h
    · subst h; simp
    · subst h; simp
    · exact ok_wrString _ _ h
    · subst h; simp
  obtain ⟨pad, hp, _⟩ := payload_bits (.u 12 1007 :: wr1007Base m) buf hok (by simp [wr1007Base, wlen_wrString]; omega)
  have hf : Fails decode1007 (wbits (.u 12 1007 :: wr1007Base m)) .invalid := by
    simp only [wr1007Base, wbits_cons, wbits_append, wbits_nil, Wr.bits_u, wbits_wrString, List.append_assoc]
    refine Fails.bind (Reads.getU (by decide)) ?_
    refine Fails.nil_bind (Reads.guard _ rfl) ?_
    refine Fails.bind (Reads.getU h1) ?_
    refine Fails.left (Fails.bind (Reads.getU h4) ?_)
    exact Fails.left (Fails.guard (by simp [maxStringLen]; omega) _)
  unfold Dec.run encode1007
  rw [hp]; exact hf _

example : ∃ m : Msg1033, m.stnId < 4096 ∧ m.antSetupId < 256 ∧ m.antDescriptor.length = 31 ∧ m.rcvSerialNum.length = 32 ∧
    m.antSerialNum = [] :=
  ⟨{ stnId := 77, antDescriptor := List.replicate 31 65, antSetupId := 255, antSerialNum := [],
     rcvDescriptor := [72, 105], rcvFwVersion := [], rcvSerialNum := List.replicate 32 255 }, by simp⟩

/-! ### C08 -/

/-- **C08** 1029 text message: everything comes back, for every text of up to 255 code units (any bytes). -/
theorem C08_1029_roundtrip (m : Msg1029) (h1 : m.stnId < 4096) (h2 : m.mjdNum < 2 ^ 16) (h3 : m.utcSecOfDay < 2 ^ 17)
    (h4 : m.unicodeChars < 128) (h5 : m.utf8.length ≤ 255) (buf : Buf) (hb : 9 + m.utf8.length ≤ buf.length) :
    decode1029.run (payloadOf (encode1029 m buf)) = .ok m := by
  refine run_encode buf ?_ ?_ ?_
  · intro w hw
    simp only [List.mem_cons, List.mem_append, List.not_mem_nil, or_false] at hw
    rcases hw with (h | h | h | h | h) | h
    any_goals exact ok_wrString _ _ h
    all_goals subst h; simp
  · simp [wlen_wrString]; omega
  · simp only [wbits_cons, wbits_append, wbits_nil, Wr.bits_u, List.append_assoc, List.nil_append, wbits_wrString]
    refine Reads.bind (Reads.getU (by decide)) ?_
    refine Reads.nil_bind (Reads.guard _ rfl) ?_
    rdU; rdU; rdU; rdU
    refine Reads.bind (Reads.getU (by norm_num; omega)) ?_
    exact Reads.bind_nil (Reads.bytes _) (Reads.pure _)

/-- **C08** 4062 Swift-proprietary message: type, sender and payload come back for every payload of up to 255 bytes. -/
theorem C08_4062_roundtrip (m : Msg4062) (h1 : m.msgType < 2 ^ 16) (h2 : m.senderId < 2 ^ 16)
    (h3 : m.data.length ≤ 255) (buf : Buf) (hb : 7 + m.data.length ≤ buf.length) :
    decode4062.run (payloadOf (encode4062 m buf)) = .ok m := by
  refine run_encode buf ?_ ?_ ?_
  · intro w hw
    simp only [List.mem_cons, List.mem_append, List.not_mem_nil, or_false] at hw
    rcases hw with (h | h | h | h) | h
    any_goals exact ok_wrString _ _ h
    all_goals subst h; simp
  · simp [wlen_wrString]; omega
  · simp only [wbits_cons, wbits_append, wbits_nil, Wr.bits_u, List.append_assoc, List.nil_append, wbits_wrString]
    refine Reads.bind (Reads.getU (by decide)) ?_
    refine Reads.nil_bind (Reads.guard _ rfl) ?_
    refine Reads.bind (Reads.getU (by decide)) ?_
    refine Reads.nil_bind (Reads.guard _ (by simp)) ?_
    rdU; rdU
    refine Reads.bind (Reads.getU (by norm_num; omega)) ?_
    exact Reads.bind_nil (Reads.bytes _) (Reads.pure _)

/-- **C08** The full 255-byte payload is inside the quantification (the announced length is an 8-bit field). -/
example : ∃ m : Msg4062, m.msgType < 2 ^ 16 ∧ m.senderId < 2 ^ 16 ∧ m.data.length = 255 :=
  ⟨{ msgType := 74, senderId := 65535, data := List.replicate 255 0xD3 }, by decide, by decide, List.length_replicate⟩
example : ∃ m : Msg1029, m.stnId < 4096 ∧ m.mjdNum < 2 ^ 16 ∧ m.utcSecOfDay < 2 ^ 17 ∧ m.unicodeChars < 128 ∧
    m.utf8.length = 255 :=
  ⟨{ stnId := 23, mjdNum := 65535, utcSecOfDay := 86400, unicodeChars := 127, utf8 := List.replicate 255 0xE2 },
   by decide, by decide, by decide, by decide, List.length_replicate⟩

/-! ### C09 -/

/-- the bits the 1230 encoder really produces: the indicator position receives bit 7 of the indicator -/
def wr1230 (m : Msg1230) : List Wr :=
  [.u 12 1230, .u 12 m.stnId, .u 1 (m.biasIndicator.testBit 7).toNat, .u 3 0, .u 4 m.mask] ++ wrBias m.mask 3 m.l1ca
    ++ wrBias m.mask 2 m.l1p ++ wrBias m.mask 1 m.l2ca ++ wrBias m.mask 0 m.l2p

theorem ok_wrBias (mask i x) : ∀ w ∈ wrBias mask i x, w.ok := by
  intro w hw; unfold wrBias at hw; split at hw
  · simp at hw; subst hw; simp
  · simp at hw
theorem wlen_wrBias (mask i x) : wlen (wrBias mask i x) ≤ 16 := by
  unfold wrBias; split <;> simp

theorem encode1230_splice (m : Msg1230) (buf : Buf) (hb : 12 ≤ buf.length) :
    bitsOf (encode1230 m buf).1 = splice (bitsOf buf) 0 (wbits (wr1230 m)) ∧
    (encode1230 m buf).2 = ((wbits (wr1230 m)).length + 7) / 8 ∧ (encode1230 m buf).2 ≤ 12 := by
  have l3 := wlen_wrBias m.mask 3 m.l1ca
  have l2 := wlen_wrBias m.mask 2 m.l1p
  have l1 := wlen_wrBias m.mask 1 m.l2ca
  have l0 := wlen_wrBias m.mask 0 m.l2p
  have hn : (encode1230 m buf).2 = ((wbits (wr1230 m)).length + 7) / 8 := by
    rw [wbits_length]
    simp only [encode1230, exec_pos, wr1230, wlen_append, wlen_cons, wlen_nil, Wr.len_u]
    congr 1; omega
  refine ⟨?_, hn, ?_⟩
  · unfold encode1230
    simp only
    rw [bitsOf_exec _ _ _ _ (by
      rw [setbitu_length, exec_length, exec_pos]
      simp only [wlen_append, wlen_cons, wlen_nil, Wr.len_u]; omega)]
    · rw [bitsOf_setbitu _ _ _ _ (by rw [exec_length, exec_pos]; simp; omega) (by omega)]
      rw [show toBits 8 m.biasIndicator = m.biasIndicator.testBit 7 :: toBits 7 m.biasIndicator from rfl]
      rw [splice_overlap]
      · rw [bitsOf_exec _ _ _ (by simp) (by simp; omega), exec_pos]
        have := splice_splice (bitsOf buf) 0 (wbits [.u 12 1230, .u 12 m.stnId])
          (m.biasIndicator.testBit 7 :: wbits ([.u 3 0, .u 4 m.mask] ++ wrBias m.mask 3 m.l1ca ++ wrBias m.mask 2 m.l1p
            ++ wrBias m.mask 1 m.l2ca ++ wrBias m.mask 0 m.l2p)) (by
            rw [wbits_length]; simp [wbits_length]; omega)
        rw [wbits_length] at this
        rw [this]
        have eb : toBits 1 (m.biasIndicator.testBit 7).toNat = [m.biasIndicator.testBit 7] := by
          cases m.biasIndicator.testBit 7 <;> rfl
        simp [wr1230, eb]
      · simp only [bitsOf_length, exec_length, exec_pos, wbits_length, wlen_append, wlen_cons, wlen_nil, Wr.len_u]; omega
      · simp only [wbits_length, wlen_append, wlen_cons, wlen_nil, Wr.len_u, toBits_length]; omega
    · intro w hw
      simp only [List.mem_cons, List.mem_append, List.not_mem_nil, or_false] at hw
      rcases hw with ((((h | h) | h) | h) | h) | h
      any_goals exact ok_wrBias _ _ _ _ h
      all_goals subst h; simp
  · rw [hn, wbits_length]
    simp only [wr1230, wlen_append, wlen_cons, wlen_nil, Wr.len_u]; omega

def qBias (mask i : Nat) (x : ℚ) : ℚ := if mask.testBit i then ofTwoCm (cround (Fp.f64 (x * 50))) else 0

theorem twoCm_range {x : ℚ} (h : -32768 / 50 - 1 / 1000 ≤ x ∧ x ≤ 32767 / 50 + 1 / 1000) :
    -32768 ≤ cround (Fp.f64 (x * 50)) ∧ cround (Fp.f64 (x * 50)) ≤ 32767 := by
  have e := Fp.f64_err (x * 50)
  have hx : |x * 50| ≤ 32769 := by rw [abs_le]; constructor <;> linarith [h.1, h.2]
  have h3 : (1 / 2 ^ 200 : ℚ) ≤ 1 / 16 := by norm_num
  have c := cround_abs (Fp.f64 (x * 50))
  generalize (1 / 2 ^ 200 : ℚ) = a at *
  have e' : |Fp.f64 (x * 50) - x * 50| ≤ 1 / 8 := by linarith
  rw [abs_le] at e' c
  have a1 : (-32769 : ℚ) < cround (Fp.f64 (x * 50)) := by linarith [h.1, e'.1, c.1]
  have a2 : (cround (Fp.f64 (x * 50)) : ℚ) < 32768 := by linarith [h.2, e'.2, c.2]
  have b1 : -32769 < cround (Fp.f64 (x * 50)) := by exact_mod_cast a1
  have b2 : cround (Fp.f64 (x * 50)) < 32768 := by exact_mod_cast a2
  omega

theorem readsBias (mask i : Nat) (x : ℚ) (h : -32768 / 50 - 1 / 1000 ≤ x ∧ x ≤ 32767 / 50 + 1 / 1000) :
    Reads (decodeBias mask i) (wbits (wrBias mask i x)) (qBias mask i x) := by
  unfold decodeBias wrBias qBias
  split
  · obtain ⟨h1, h2⟩ := twoCm_range h
    rw [wbits_cons]
    exact Reads.bind (Reads.getS32 (by omega) (by omega) (by norm_num; omega) (by norm_num; omega)) (Reads.pure _)
  · exact Reads.pure _

theorem biasOk (mask i : Nat) (x : ℚ) : BiasOk (mask.testBit i) x (qBias mask i x) := by
  unfold BiasOk qBias
  split
  · exact ⟨_, ofTwoCm_rounded _, cround_f64 x (by norm_num)⟩
  · rfl

theorem reads1230 (m : Msg1230) (h : WF1230 m) :
    Reads decode1230 (wbits (wr1230 m))
      { stnId := m.stnId, biasIndicator := 0, mask := m.mask, l1ca := qBias m.mask 3 m.l1ca, l1p := qBias m.mask 2 m.l1p,
        l2ca := qBias m.mask 1 m.l2ca, l2p := qBias m.mask 0 m.l2p } := by
  obtain ⟨h1, h2, h3, b3, b2, b1, b0⟩ := h
  have e : m.biasIndicator.testBit 7 = false := Nat.testBit_lt_two_pow (by omega)
  simp only [wr1230, wbits_cons, wbits_append, wbits_nil, Wr.bits_u, List.append_assoc, List.nil_append, e]
  refine Reads.bind (Reads.getU (by decide)) ?_
  refine Reads.nil_bind (Reads.guard _ rfl) ?_
  rdU
  refine Reads.bind (Reads.getU (by decide)) ?_
  refine Reads.bind (Reads.skip (by simp)) ?_
  rdU
  refine Reads.bind (readsBias _ _ _ b3) ?_
  refine Reads.bind (readsBias _ _ _ b2) ?_
  refine Reads.bind (readsBias _ _ _ b1) ?_
  refine Reads.bind_nil (readsBias _ _ _ b0) ?_
  exact Reads.pure _

/-- **C09** (partial: the indicator is missing, see `C09_bias_indicator_bug`)  Station id, signal mask and the biases
selected by the mask come back (rounded to 2 cm), unselected biases come back as zero. -/
theorem C09_1230_roundtrip_partial (m : Msg1230) (h : WF1230 m) (buf : Buf) (hb : 12 ≤ buf.length) :
    ∃ m', decode1230.run (payloadOf (encode1230 m buf)) = .ok m' ∧ m'.stnId = m.stnId ∧ m'.mask = m.mask ∧
      (m.biasIndicator = 0 → m'.biasIndicator = m.biasIndicator) ∧
      BiasOk (m.mask.testBit 3) m.l1ca m'.l1ca ∧ BiasOk (m.mask.testBit 2) m.l1p m'.l1p ∧
      BiasOk (m.mask.testBit 1) m.l2ca m'.l2ca ∧ BiasOk (m.mask.testBit 0) m.l2p m'.l2p := by
  obtain ⟨e1, e2, e3⟩ := encode1230_splice m buf hb
  refine ⟨_, run_of_splice e1 e2 (by omega) (reads1230 m h), rfl, rfl, fun h => h.symm, ?_, ?_, ?_, ?_⟩ <;>
    exact biasOk _ _ _

/-- **C09** Defect: whatever the message, an "aligned" bias indicator (1) is decoded as 0. -/
theorem C09_bias_indicator_bug (m : Msg1230) (h : WF1230 m) (hi : m.biasIndicator = 1) (buf : Buf)
    (hb : 12 ≤ buf.length) :
    ∃ m', decode1230.run (payloadOf (encode1230 m buf)) = .ok m' ∧ m'.biasIndicator ≠ m.biasIndicator := by
  obtain ⟨e1, e2, e3⟩ := encode1230_splice m buf hb
  exact ⟨_, run_of_splice e1 e2 (by omega) (reads1230 m h), by rw [hi]; exact Nat.zero_ne_one⟩

example : WF1230 { stnId := 10, biasIndicator := 1, mask := 13, l1ca := -32768 / 50, l1p := 1 / 3, l2ca := 0, l2p := 655 } := by
  constructor <;> norm_num [abs_le]

end Verif
