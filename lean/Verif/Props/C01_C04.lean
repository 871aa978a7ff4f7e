import Verif.Lemmas.RtcmFraming
import Verif.Props.C05
/-! C01-C04: RTCM stream reading and framing.  `crc` is any 24-bit checksum function (libswiftnav's `crc24q`). -/
namespace Verif.RtcmFraming
open Verif.Spec

variable (crc : Buf → BitVec 24)

/-- C01. Two deliveries of the same bytes in different pieces (each at most the size the reader asks for, possibly
empty reads in between) decode the same frames in the same order and leave the reader in the same state. -/
theorem C01_chunking_independent (chunks₁ chunks₂ : List Buf)
    (h₁ : ∀ c ∈ chunks₁, c.length ≤ bufferSize) (h₂ : ∀ c ∈ chunks₂, c.length ≤ bufferSize)
    (heq : chunks₁.flatten = chunks₂.flatten) :
    run crc Reader.init chunks₁ = run crc Reader.init chunks₂ := by
  rw [run_init crc _ h₁, run_init crc _ h₂, heq]

/-- Byte-by-byte delivery is the extreme case: it decodes the same frames as any other delivery. -/
theorem C01_bytewise (chunks : List Buf) (h : ∀ c ∈ chunks, c.length ≤ bufferSize) :
    (run crc Reader.init chunks).2 = (run crc Reader.init (chunks.flatten.map (fun b => [b]))).2 := by
  rw [C01_chunking_independent crc chunks (chunks.flatten.map (fun b => [b])) h]
  · intro c hc
    simp only [List.mem_map] at hc
    obtain ⟨b, _, rfl⟩ := hc
    exact (by decide : 1 ≤ bufferSize)
  · generalize chunks.flatten = l
    induction l with
    | nil => rfl
    | cons x l ih => simp only [List.map_cons, List.flatten_cons, List.singleton_append, ← ih]

theorem scan_occur (s : Buf) :
    Occur (scan (dec crc) s).1 s ∧ ∀ f ∈ (scan (dec crc) s).1, ∃ p, IsFrame crc f p ∧ framePayload f = .payload p := by
  induction h : s.length using Nat.strongRecOn generalizing s with
  | _ k ih =>
    cases hd : dec crc s with
    | none => rw [scan_none _ _ hd]; exact ⟨Occur.nil _, by simp⟩
    | some x =>
      obtain ⟨n, o⟩ := x
      have hp := (dec_stable crc).pos s n o hd
      rw [scan_some _ (dec_stable crc) _ _ _ hd]
      have ihn := ih (s.drop n).length (by simp; omega) (s.drop n) rfl
      rcases dec_output crc s n o hd with rfl | ⟨f, rfl⟩
      · refine ⟨?_, by simpa using ihn.2⟩
        simp only [List.nil_append]
        have : ∀ fs t g, Occur fs t → Occur fs (g ++ t) := by
          intro fs t g ho
          cases ho with
          | nil => exact Occur.nil _
          | cons gap f fs s ho =>
            have := Occur.cons (g ++ gap) f fs s ho
            simpa [List.append_assoc] using this
        have := this _ _ (s.take n) ihn.1
        rwa [List.take_append_drop] at this
      · obtain ⟨p, hp1, hp2, hp3⟩ := isFrame_of_dec crc s n f hd
        constructor
        · have := Occur.cons [] f _ _ ihn.1
          have e : f ++ s.drop n = s := by rw [hp2]; exact List.take_append_drop _ _
          rw [List.nil_append, e] at this
          exact this
        · intro g hg
          simp only [List.singleton_append, List.mem_cons] at hg
          rcases hg with rfl | hg
          · exact ⟨p, hp1, hp3⟩
          · exact ihn.2 g hg

/-- C02 (soundness). Whatever bytes arrive, in whatever pieces: every frame decoded is a valid frame (preamble,
length, CRC), the message decoder gets exactly its payload, and the frames occur in the stream in that order without
overlapping. -/
theorem C02_only_valid_frames (chunks : List Buf) (h : ∀ c ∈ chunks, c.length ≤ bufferSize) :
    Occur (run crc Reader.init chunks).2 chunks.flatten ∧
    ∀ f ∈ (run crc Reader.init chunks).2, ∃ p, IsFrame crc f p ∧ framePayload f = .payload p := by
  rw [run_init crc _ h]
  exact scan_occur crc _

/-- C02 (completeness). A stream made of valid frames and non-preamble noise bytes between them is decoded to exactly
those frames, however it is delivered. -/
theorem C02_all_frames_decoded (chunks : List Buf) (h : ∀ c ∈ chunks, c.length ≤ bufferSize) (fs : List Buf)
    (hf : ∀ f ∈ fs, ∃ p, IsFrame crc f p) (hs : Interleaved fs chunks.flatten) :
    (run crc Reader.init chunks).2 = fs := by
  rw [run_init crc _ h]
  simp only []
  generalize chunks.flatten = s at hs
  clear h
  induction hs with
  | nil => rw [scan_none _ _ (dec_nil crc)]
  | noise b fs s hb hs ih =>
    by_cases h6 : (b :: s).length ≤ 6
    · have hd : dec crc (b :: s) = none := by unfold dec; rw [if_pos h6]
      rw [scan_none _ _ hd]
      have hd' : dec crc s = none := by unfold dec; rw [if_pos (by simp at h6; omega)]
      have := ih hf
      rw [scan_none _ _ hd'] at this
      exact this
    · have hd : dec crc (b :: s) = some (1, []) := by
        unfold dec; rw [if_neg h6, if_pos (by simpa using hb)]
      rw [scan_some _ (dec_stable crc) _ _ _ hd]
      simpa using ih hf
  | frame f fs s hs ih =>
    obtain ⟨p, hp⟩ := hf f (by simp)
    rw [scan_some _ (dec_stable crc) _ _ _ (dec_of_isFrame crc f p s hp)]
    simp only [List.drop_left', List.singleton_append]
    rw [ih (fun g hg => hf g (by simp [hg]))]

/-- C02: after any noise, a frame that arrives is found: no valid frame is missed unless the reader is at that point
waiting for, or has consumed, bytes of an earlier (real or apparent) frame overlapping it.  Stated at the reader: when
the unread bytes start with a valid frame, the next thing decoded is that frame. -/
theorem C02_frame_at_front (f p rest : Buf) (hf : IsFrame crc f p) (hl : (f ++ rest).length ≤ bufferSize) :
    (process crc Reader.init (f ++ rest)).2.head? = some f := by
  rw [Reader.init, process_eq crc [] _ (dec_nil crc) hl, List.nil_append]
  rw [scan_some _ (dec_stable crc) _ _ _ (dec_of_isFrame crc f p rest hf)]
  rfl

/-- C03. In every reachable state the next full-size read fits in the FIFO, so no byte is ever dropped, and fewer
bytes than one maximum-size frame (1029) are waiting. -/
theorem C03_fifo_never_overflows (chunks : List Buf) (h : ∀ c ∈ chunks, c.length ≤ bufferSize) :
    (run crc Reader.init chunks).1.fifo.length ≤ 1028 ∧
    (run crc Reader.init chunks).1.fifo.length + bufferSize ≤ fifoSize := by
  rw [run_init crc _ h]
  have := dec_none_length crc _ (scan_rest_none _ (dec_stable crc) chunks.flatten)
  refine ⟨this, ?_⟩
  simp only [bufferSize, fifoSize, overhead, maxMsgLen]
  omega

theorem scan_suffix (s : Buf) : (scan (dec crc) s).2 <:+ s := by
  induction h : s.length using Nat.strongRecOn generalizing s with
  | _ k ih =>
    cases hd : dec crc s with
    | none => rw [scan_none _ _ hd]; exact List.suffix_refl _
    | some x =>
      obtain ⟨n, o⟩ := x
      have hp := (dec_stable crc).pos s n o hd
      rw [scan_some _ (dec_stable crc) _ _ _ hd]
      exact (ih (s.drop n).length (by simp; omega) (s.drop n) rfl).trans (List.drop_suffix _ _)

/-- C03. The bytes kept are exactly the unconsumed end of the stream: nothing in the middle is lost. -/
theorem C03_fifo_is_stream_suffix (chunks : List Buf) (h : ∀ c ∈ chunks, c.length ≤ bufferSize) :
    (run crc Reader.init chunks).1.fifo <:+ chunks.flatten := by
  rw [run_init crc _ h]; exact scan_suffix crc _

/-- C03, defence in depth: even if a read delivered more bytes than it was asked for and they do not fit, the reader
drops everything and restarts empty (it does not get stuck with stale bytes) and decodes nothing. -/
theorem C03_overflow_restarts_empty (s : Reader) (data : Buf) (h : fifoSize < s.fifo.length + data.length)
    (hs : s.fifo.length ≤ fifoSize) : process crc s data = (Reader.init, []) := by
  have h1 : ¬ data.length < 1 := by omega
  have h2 : min data.length (fifoSize - s.fifo.length) ≠ data.length := by omega
  have h3 : scanLoop crc [] 0 = ([], 0) := by rw [scanLoop]; simp
  unfold process
  simp only [h1, if_false, if_pos h2, h3]
  simp [Reader.init]

/-! ### C04 : the frame writer -/

theorem toBits8_inj (x y : Byte) (h : toBits 8 x.toNat = toBits 8 y.toNat) : x = y := by
  have := congrArg ofBits h
  rw [ofBits_toBits, ofBits_toBits, Nat.mod_eq_of_lt x.isLt, Nat.mod_eq_of_lt y.isLt] at this
  exact BitVec.eq_of_toNat_eq this

theorem bitsOf_inj (a b : Buf) (h : bitsOf a = bitsOf b) : a = b := by
  have hl : a.length = b.length := by
    have := congrArg List.length h; simp at this; omega
  induction a generalizing b with
  | nil => exact (List.length_eq_zero_iff.mp hl.symm).symm
  | cons x a ih =>
    cases b with
    | nil => simp at hl
    | cons y b =>
      simp only [bitsOf_cons] at h
      have h' := List.append_inj h (by simp)
      rw [toBits8_inj x y h'.1, ih b h'.2 (by simpa using hl)]

theorem toBits_add (m n v : Nat) : toBits (m + n) v = toBits m (v / 2 ^ n) ++ toBits n v := by
  induction m with
  | zero => simp [toBits]
  | succ m ih =>
    rw [show m + 1 + n = (m + n) + 1 by omega, toBits, toBits, ih, List.cons_append, Nat.testBit_div_two_pow]

theorem splice_mid {α} (a b c b' : List α) (h : b'.length = b.length) :
    splice (a ++ b ++ c) a.length b' = a ++ b' ++ c := by
  unfold splice
  have e1 : (a ++ b ++ c).take a.length = a := by rw [List.append_assoc]; exact List.take_left
  have e2 : (a ++ b ++ c).drop (a.length + b'.length) = c := by
    rw [h, ← List.length_append]; exact List.drop_left
  rw [e1, e2]

theorem encodeFrame_isFrame (cap : Nat) (payload : Buf) (h1 : 1 ≤ payload.length) (h2 : payload.length + 6 ≤ cap)
    (h3 : payload.length ≤ 1023) :
    ∃ f, encodeFrame crc cap payload = some f ∧ IsFrame crc f payload := by
  unfold encodeFrame
  simp only []
  rw [if_neg (by omega), if_neg (by omega)]
  have hz : List.replicate (cap - payload.length - 3) 0#8
      = List.replicate 3 0#8 ++ List.replicate (cap - payload.length - 6) 0#8 := by
    rw [List.replicate_append_replicate]; congr 1; omega
  rw [hz]
  generalize List.replicate (cap - payload.length - 6) 0#8 = z
  generalize hn : payload.length = n at *
  let hi : Byte := BitVec.ofNat 8 (n / 256)
  let lo : Byte := BitVec.ofNat 8 n
  have hhi : hi.toNat = n / 256 := by
    show (BitVec.ofNat 8 (n / 256)).toNat = _
    rw [BitVec.toNat_ofNat, Nat.mod_eq_of_lt (by omega)]
  have hlo : lo.toNat = n % 256 := by
    show (BitVec.ofNat 8 n).toNat = _
    rw [BitVec.toNat_ofNat]
  have hfr3 : setbitu (setbitu (setbitu ((List.replicate 3 0#8 ++ payload) ++ (List.replicate 3 0#8 ++ z)) 0 8 0xD3) 8 6 0) 14 10 n
      = [0xD3#8, hi, lo] ++ payload ++ (List.replicate 3 0#8 ++ z) := by
    apply bitsOf_inj
    rw [bitsOf_setbitu _ _ _ _ (by simp [setbitu_length]; omega) (by omega)]
    rw [bitsOf_setbitu _ _ _ _ (by simp [setbitu_length]; omega) (by omega)]
    rw [bitsOf_setbitu _ _ _ _ (by simp; omega) (by omega)]
    have e1 := splice_splice (bitsOf ((List.replicate 3 0#8 ++ payload) ++ (List.replicate 3 0#8 ++ z))) 0 (toBits 8 0xD3)
      (toBits 6 0) (by simp; omega)
    simp only [toBits_length, Nat.zero_add] at e1
    rw [e1]
    have e2 := splice_splice (bitsOf ((List.replicate 3 0#8 ++ payload) ++ (List.replicate 3 0#8 ++ z))) 0
      (toBits 8 0xD3 ++ toBits 6 0) (toBits 10 n) (by simp; omega)
    simp only [List.length_append, toBits_length, Nat.zero_add, Nat.reduceAdd] at e2
    rw [e2]
    have hbits : toBits 6 0 ++ toBits 10 n = toBits 8 hi.toNat ++ toBits 8 lo.toNat := by
      rw [hhi, hlo]
      have a1 := toBits_add 6 10 n
      rw [show n / 2 ^ 10 = 0 by omega] at a1
      have a2 := toBits_add 8 8 n
      rw [← a1, a2, show (256:Nat) = 2 ^ 8 by rfl, toBits_mod (by omega)]
    rw [List.append_assoc (toBits 8 0xD3), hbits]
    have key := splice_mid [] (bitsOf (List.replicate 3 0#8)) (bitsOf (payload ++ (List.replicate 3 0#8 ++ z)))
      (toBits 8 0xD3 ++ (toBits 8 hi.toNat ++ toBits 8 lo.toNat)) (by simp)
    rw [List.length_nil, List.nil_append, ← bitsOf_append, ← List.append_assoc] at key
    rw [key]
    simp [bitsOf_append]
  rw [hfr3]
  have hc : ([0xD3#8, hi, lo] ++ payload ++ (List.replicate 3 0#8 ++ z)).take (n + 3) = [0xD3#8, hi, lo] ++ payload := by
    apply List.take_left'; simp [hn]
  rw [hc]
  generalize hcrc : crc ([0xD3#8, hi, lo] ++ payload) = c
  have hcl := c.isLt
  let c2 : Byte := BitVec.ofNat 8 (c.toNat / 65536)
  let c1 : Byte := BitVec.ofNat 8 (c.toNat / 256)
  let c0 : Byte := BitVec.ofNat 8 c.toNat
  have hc2 : c2.toNat = c.toNat / 65536 := by
    show (BitVec.ofNat 8 (c.toNat / 65536)).toNat = _
    rw [BitVec.toNat_ofNat, Nat.mod_eq_of_lt (by omega)]
  have hc1 : c1.toNat = c.toNat / 256 % 256 := by
    show (BitVec.ofNat 8 (c.toNat / 256)).toNat = _
    rw [BitVec.toNat_ofNat]
  have hc0 : c0.toNat = c.toNat % 256 := by
    show (BitVec.ofNat 8 c.toNat).toNat = _
    rw [BitVec.toNat_ofNat]
  have hfr4 : setbitu ([0xD3#8, hi, lo] ++ payload ++ (List.replicate 3 0#8 ++ z)) (24 + n * 8) 24 c.toNat
      = ([0xD3#8, hi, lo] ++ payload) ++ [c2, c1, c0] ++ z := by
    apply bitsOf_inj
    rw [bitsOf_setbitu _ _ _ _ (by simp [hn]; omega) (by omega)]
    rw [bitsOf_append ([0xD3#8, hi, lo] ++ payload), bitsOf_append (List.replicate 3 0#8), ← List.append_assoc]
    have key := splice_mid (bitsOf ([0xD3#8, hi, lo] ++ payload)) (bitsOf (List.replicate 3 0#8)) (bitsOf z)
      (toBits 24 c.toNat) (by simp)
    rw [show (bitsOf ([0xD3#8, hi, lo] ++ payload)).length = 24 + n * 8 by
      rw [bitsOf_length, List.length_append, hn]; simp; omega] at key
    rw [key, bitsOf_append (([0xD3#8, hi, lo] ++ payload) ++ [c2, c1, c0]) z, bitsOf_append ([0xD3#8, hi, lo] ++ payload)]
    congr 2
    simp only [bitsOf_cons, bitsOf_nil, List.append_nil, hc2, hc1, hc0]
    have a1 := toBits_add 8 16 c.toNat
    have a2 := toBits_add 8 8 c.toNat
    rw [a1, a2, show (256:Nat) = 2 ^ 8 by rfl, toBits_mod (by omega), toBits_mod (by omega)]
  rw [hfr4]
  refine ⟨([0xD3#8, hi, lo] ++ payload) ++ [c2, c1, c0], ?_, hi, lo, c2, c1, c0, rfl, by omega, ?_, ?_⟩
  · congr 1
    apply List.take_left'; simp [hn]
  · rw [hn, hhi, hlo]; omega
  · rw [hcrc, hc2, hc1, hc0]; omega

/-- Size of the frame buffers passed to `encode_rtcm3_frame` by every caller
(gnss_converters_extra/src/sbp_rtcm3.c:413,445,711,803,929,...). -/
abbrev frameCap : Nat := 1023

/-- C04. For every payload of 1..1017 bytes, the frame writer yields a valid frame which the reader, in any delivery,
decodes to exactly one frame carrying the same payload. -/
theorem C04_frame_roundtrip (payload : Buf) (h1 : 1 ≤ payload.length) (h2 : payload.length ≤ 1017) :
    ∃ f, encodeFrame crc frameCap payload = some f ∧ f.length = payload.length + 6 ∧ IsFrame crc f payload ∧
      framePayload f = .payload payload ∧
      ∀ chunks : List Buf, (∀ c ∈ chunks, c.length ≤ bufferSize) → chunks.flatten = f →
        (run crc Reader.init chunks).2 = [f] := by
  obtain ⟨f, he, hf⟩ := encodeFrame_isFrame crc frameCap payload h1 (by simp only [frameCap]; omega) (by omega)
  have hfl : f.length = payload.length + 6 := by
    obtain ⟨hi, lo, c2, c1, c0, rfl, -⟩ := hf; simp
  refine ⟨f, he, hfl, hf, ?_, ?_⟩
  · have hd := dec_of_isFrame crc f payload [] hf
    rw [List.append_nil] at hd
    obtain ⟨p, hp, -, hp2⟩ := isFrame_of_dec crc f f.length f hd
    obtain ⟨hi, lo, c2, c1, c0, e1, -, -, -⟩ := hf
    obtain ⟨hi', lo', c2', c1', c0', e2, -, -, -⟩ := hp
    have : p = payload := by
      rw [e1] at e2
      have hl := congrArg List.length e2
      simp at hl
      simp only [List.cons_append, List.nil_append, List.cons.injEq] at e2
      exact ((List.append_inj e2.2.2.2 hl).1).symm
    rw [hp2, this]
  · intro chunks hch hfl
    apply C02_all_frames_decoded crc chunks hch [f]
    · intro g hg; simp at hg; subst hg; exact ⟨_, hf⟩
    · rw [hfl]
      have := Interleaved.frame f [] [] Interleaved.nil
      simpa using this

/-- C04. A back-to-back sequence of written frames is decoded to the same sequence of payloads. -/
theorem C04_stream_roundtrip (payloads : List Buf) (h : ∀ p ∈ payloads, 1 ≤ p.length ∧ p.length ≤ 1017)
    (fs : List Buf) (hfs : payloads.map (encodeFrame crc frameCap) = fs.map some)
    (chunks : List Buf) (hch : ∀ c ∈ chunks, c.length ≤ bufferSize) (hs : chunks.flatten = fs.flatten) :
    ((run crc Reader.init chunks).2.map framePayload) = payloads.map FrameCall.payload := by
  have hframes : ∀ f ∈ fs, ∃ p, IsFrame crc f p := by
    intro f hf
    have : some f ∈ payloads.map (encodeFrame crc frameCap) := by rw [hfs]; exact List.mem_map_of_mem hf
    obtain ⟨p, hp, he⟩ := List.mem_map.mp this
    obtain ⟨f', he', -, hf', -⟩ := C04_frame_roundtrip crc p (h p hp).1 (h p hp).2
    rw [he] at he'
    cases he'
    exact ⟨p, hf'⟩
  have hint : Interleaved fs fs.flatten := by
    clear hfs hs hframes
    induction fs with
    | nil => exact Interleaved.nil
    | cons f fs ih => exact Interleaved.frame f fs _ ih
  rw [C02_all_frames_decoded crc chunks hch fs hframes (hs ▸ hint)]
  clear hframes hint hs
  induction payloads generalizing fs with
  | nil => cases fs with
    | nil => rfl
    | cons f fs => simp at hfs
  | cons p ps ih => cases fs with
    | nil => simp at hfs
    | cons f fs =>
      simp only [List.map_cons, List.cons.injEq] at hfs ⊢
      obtain ⟨f', he', -, -, hp', -⟩ := C04_frame_roundtrip crc p (h p (by simp)).1 (h p (by simp)).2
      rw [hfs.1] at he'
      cases he'
      exact ⟨hp', ih (fun q hq => h q (by simp [hq])) fs hfs.2⟩

/-- C04 (defect). The length check of the frame writer allows payloads up to 1023 bytes, but with the 1023-byte
frame buffers used by every caller a payload of more than 1017 bytes is written past the end of the buffer. -/
theorem C04_frame_buffer_overflow_bug (payload : Buf) (h : 1017 < payload.length) :
    encodeFrame crc frameCap payload = none := by
  unfold encodeFrame frameCap
  simp only []
  rw [if_neg (by omega), if_pos (by omega)]

/-- C02 (defect, outside the stream reader). Called directly with a frame that is shorter than the three header bytes
plus the length it announces, the frame entry point is guarded only against `length < announced size`; within three
bytes of that it reads past the data it was given. -/
theorem C02_decode_frame_short_bug (n : Nat) (h : n + 1 < 1024) (k : Nat) (hk : k < 3) (body : Buf)
    (hb : 3 + body.length = n + 1 + k) :
    framePayload (0xD3#8 :: BitVec.ofNat 8 ((n + 1) / 256) :: BitVec.ofNat 8 ((n + 1) % 256) :: body) = .outOfBounds := by
  have hm : (((BitVec.ofNat 8 ((n + 1) / 256)).toNat &&& 3) <<< 8 ||| (BitVec.ofNat 8 ((n + 1) % 256)).toNat) = n + 1 := by
    rw [shl8_or _ _ (BitVec.isLt _), show (3:Nat) = 2 ^ 2 - 1 by rfl, Nat.and_two_pow_sub_one_eq_mod,
      BitVec.toNat_ofNat, BitVec.toNat_ofNat]
    omega
  unfold framePayload
  simp only [List.getD_cons_succ, List.getD_cons_zero, List.length_cons, hm]
  rw [if_neg (by omega), if_neg (by omega), if_neg (by omega), if_pos (by omega)]

/-! ### non-vacuity -/

/-- a toy checksum for the examples -/
def toyCrc : Buf → BitVec 24 := fun b => BitVec.ofNat 24 (b.foldl (fun a x => a + x.toNat) 0)

def toyFrame : Buf := [211#8, 0#8, 3#8, 62#8, 208#8, 1#8, 0#8, 1#8, 229#8]

example : encodeFrame toyCrc frameCap [62#8, 208#8, 1#8] = some toyFrame := by decide +kernel
/-- The hypotheses of C01/C02/C03 are met by a frame split over several reads, with an empty read and noise. -/
theorem toyFrame_isFrame : IsFrame toyCrc toyFrame [62#8, 208#8, 1#8] :=
  ⟨0#8, 3#8, 0#8, 1#8, 229#8, by decide, by decide, by decide, by decide⟩
example : (run toyCrc Reader.init [[1#8, 2#8, 211#8, 0#8], [3#8, 62#8, 208#8], [], [1#8, 0#8, 1#8, 229#8, 5#8]]).2
    = [toyFrame] := by
  apply C02_all_frames_decoded
  · decide
  · intro f hf; simp at hf; subst hf; exact ⟨_, toyFrame_isFrame⟩
  · exact .noise 1#8 _ _ (by decide) (.noise 2#8 _ _ (by decide)
      (.frame toyFrame [] [5#8] (.noise 5#8 _ _ (by decide) .nil)))

end Verif.RtcmFraming
