import Verif.Model.Msm
import Verif.Spec.Msm
import Verif.Lemmas.Msm
import Verif.Lemmas.Num
import Verif.Lemmas.Float
import Verif.Props.C16
/-!
C12, C13: an MSM4/MSM5 message survives encode/decode: header and masks exactly, satellite and cell contents up to
the resolution of their fields, every value attributed to the satellite and signal it belongs to.
-/
namespace Verif.Msm
open Verif.Dec Verif.Lock Verif.Msm.Spec
open Verif.Fp (f64)

theorem reads_tow (cons : Cons) (t : Nat) (h : t ≤ maxTowMs) :
    Reads (readMsmTow cons) (wbits (wrMsmTow cons t)) (if cons = .glo then t % 86400000 else t) := by
  simp only [maxTowMs] at h
  unfold readMsmTow wrMsmTow
  by_cases hg : cons = .glo
  · rw [if_pos hg, if_pos hg, if_pos hg]
    simp only [wbits_cons, wbits_nil, Wr.bits_u, List.append_nil]
    refine Reads.bind (Reads.skip (by simp)) ?_
    have e : t - t / 86400000 % 256 * 86400000 = t % 86400000 := by omega
    rw [e]
    exact Reads.getU (by omega)
  · rw [if_neg hg, if_neg hg, if_neg hg]
    simp only [wbits_cons, wbits_nil, Wr.bits_u, List.append_nil]
    by_cases hb : cons = .bds
    · rw [if_pos hb]
      refine Reads.bind_nil (Reads.getU (by omega)) ?_
      have e : normalizeBds2Tow t = t := by unfold normalizeBds2Tow; rw [if_neg (by omega)]
      rw [e]
      exact Reads.pure _
    · rw [if_neg hb]; exact Reads.getU (by omega)

theorem reads_header {ty : MsmType} {cons : Cons} {h : Header} (hw : WFHeader ty cons h) :
    ∀ ws, wbits (wrMsmHeader cons h ++ ws) = toBits 12 h.msgNum ++ (wbits ((wrMsmHeader cons h).drop 1) ++ wbits ws) ∧
    Reads (readMsmHeader h.msgNum cons) (wbits ((wrMsmHeader cons h).drop 1)) (sameHeader cons h) := by
  intro ws
  constructor
  · simp [wrMsmHeader]
  · unfold wrMsmHeader readMsmHeader
    simp only [List.append_assoc, List.drop_succ_cons, List.drop_zero, List.cons_append, List.nil_append,
      wbits_append, wbits_cons, Wr.bits_u]
    have h1 := hw.stnId
    have h2 := hw.multiple
    have h3 := hw.iods
    have h4 := hw.reserved
    have h5 := hw.steering
    have h6 := hw.extClock
    have h7 := hw.divFree
    have h8 := hw.smooth
    refine Reads.bind (Reads.getU h1) ?_
    refine Reads.bind (reads_tow cons h.towMs hw.tow) ?_
    refine Reads.bind (Reads.getU (by omega)) ?_
    refine Reads.bind (Reads.getU h3) ?_
    refine Reads.bind (Reads.getU h4) ?_
    refine Reads.bind (Reads.getU h5) ?_
    refine Reads.bind (Reads.getU h6) ?_
    refine Reads.bind (Reads.getU (by omega)) ?_
    refine Reads.bind (Reads.getU h8) ?_
    refine Reads.bind (reads_mask _ hw.satMask) ?_
    refine Reads.bind (reads_mask _ hw.sigMask) ?_
    have hc := hw.cells
    refine Reads.bind_nil (reads_mask _ ?_) ?_
    · rw [hw.cellMask, Nat.mod_eq_of_lt (by unfold nSats nSigs at hc; omega)]; rfl
    · exact Reads.pure _

/-- the decoded message, exactly -/
def image (ty : MsmType) (cons : Cons) (m : Msg) : Msg :=
  assemble ty cons (sameHeader cons m.header) (rawSat ty (nSats m.header) m.sat) (rawSig ty m)

theorem reads_msm {ty : MsmType} {cons : Cons} {m : Msg} (ht : ty = .msm4 ∨ ty = .msm5) (hw : WFHeader ty cons m.header) :
    Reads (decodeMsm ty) (wbits (wrMsmHeader cons m.header
      ++ (wrSatData ty ((List.range (nSats m.header)).map m.sat) ++ wrSigData ty m))) (image ty cons m) := by
  obtain ⟨e, hr⟩ := reads_header hw (wrSatData ty ((List.range (nSats m.header)).map m.sat) ++ wrSigData ty m)
  rw [e, wbits_append]
  unfold decodeMsm
  refine Reads.nil_bind (Reads.guard _ (by rcases ht with h | h <;> simp [h])) ?_
  refine Reads.bind (Reads.getU hw.num) ?_
  refine Reads.nil_bind (Reads.guard _ hw.type) ?_
  rw [hw.cons]
  refine Reads.bind hr ?_
  have ht := hw.tow
  refine Reads.nil_bind (Reads.guard _ ?_) ?_
  · unfold sameHeader; simp only [gloMaxTowMs, maxTowMs] at ht ⊢
    split <;> omega
  refine Reads.nil_bind (Reads.guard _ ?_) ?_
  · have := hw.cells; unfold nSats nSigs at this; simp only [maxCells, sameHeader]; omega
  refine Reads.bind (reads_satData ‹_› _ _) ?_
  refine Reads.bind_nil (reads_sigData ‹_› m) ?_
  exact Reads.pure _

theorem ok_msm (ty : MsmType) (cons : Cons) (m : Msg) (l : List Sat) :
    ∀ w ∈ wrMsmHeader cons m.header ++ (wrSatData ty l ++ wrSigData ty m), w.ok := by
  intro w hw
  simp only [List.mem_append, wrMsmHeader, wrSatData, wrSigData, wrMask, wrMsmTow] at hw
  rcases hw with hw | hw | hw
  · rcases hw with ((((hw | hw) | hw) | hw) | hw) | hw
    · simp at hw; rcases hw with rfl | rfl <;> simp
    · split at hw <;> simp at hw
      · rcases hw with rfl | rfl <;> simp
      · subst hw; simp
    · simp at hw; rcases hw with rfl | rfl | rfl | rfl | rfl | rfl | rfl <;> simp
    all_goals (obtain ⟨x, _, rfl⟩ := List.mem_map.mp hw; simp)
  · rcases hw with ((hw | hw) | hw) | hw
    · obtain ⟨x, _, rfl⟩ := List.mem_map.mp hw; simp
    · split at hw
      · obtain ⟨x, _, rfl⟩ := List.mem_map.mp hw; simp
      · simp at hw
    · obtain ⟨x, _, rfl⟩ := List.mem_map.mp hw; simp
    · split at hw
      · obtain ⟨x, _, rfl⟩ := List.mem_map.mp hw; simp
      · simp at hw
  · rcases hw with ((((hw | hw) | hw) | hw) | hw) | hw
    · obtain ⟨x, _, rfl⟩ := List.mem_map.mp hw; simp
    · obtain ⟨x, _, rfl⟩ := List.mem_map.mp hw; simp
    · obtain ⟨x, _, rfl⟩ := List.mem_map.mp hw; simp
    · obtain ⟨x, _, rfl⟩ := List.mem_map.mp hw; simp
    · obtain ⟨x, _, rfl⟩ := List.mem_map.mp hw; simp
    · split at hw
      · obtain ⟨x, _, rfl⟩ := List.mem_map.mp hw; simp
      · simp at hw

theorem wlen_msm {ty : MsmType} {cons : Cons} {m : Msg} (hw : WFHeader ty cons m.header) :
    wlen (wrMsmHeader cons m.header ++ (wrSatData ty ((List.range (nSats m.header)).map m.sat) ++ wrSigData ty m)) ≤ 5417 := by
  have hc : m.header.cellMask.count true ≤ m.header.cellMask.length := List.count_le_length
  have h1 := hw.cellMask
  have h2 := hw.cells
  have h3 := hw.sats
  have e1 : wlen (wrMsmTow cons m.header.towMs) = 30 := by unfold wrMsmTow; split <;> rfl
  have e2 : ∀ l, wlen (wrMask l) = l.length := fun l => by unfold wrMask; rw [wlen_map _ _ 1 (fun _ => rfl)]; omega
  have a : wlen (wrMsmHeader cons m.header) ≤ 233 := by
    simp only [wrMsmHeader, wlen_append, wlen_cons, wlen_nil, Wr.len_u, e1, e2, hw.satMask, hw.sigMask]; omega
  have b : wlen (wrSatData ty ((List.range (nSats m.header)).map m.sat)) ≤ 32 * 36 := by
    simp only [wrSatData, wlen_append]
    rw [wlen_map _ _ 8 (fun _ => rfl), wlen_map _ _ 10 (fun _ => rfl)]
    split
    · rw [wlen_map _ _ 4 (fun _ => rfl), wlen_map _ _ 14 (fun _ => rfl)]; simp; omega
    · simp; omega
  have c : wlen (wrSigData ty m) ≤ 64 * 63 := by
    simp only [wrSigData, wlen_append]
    rw [wlen_map _ _ 15 (fun _ => rfl), wlen_map _ _ 22 (fun _ => rfl), wlen_map _ _ 4 (fun _ => rfl),
      wlen_map _ _ 1 (fun _ => rfl), wlen_map _ _ 6 (fun _ => rfl)]
    split
    · rw [wlen_map _ _ 15 (fun _ => rfl)]; simp; omega
    · simp; omega
  rw [wlen_append, wlen_append]; omega

theorem encodeMsm_eq {ty : MsmType} {cons : Cons} {m : Msg} (ht : ty = .msm4 ∨ ty = .msm5) (hw : WFHeader ty cons m.header)
    (buf : Buf) : encodeMsm ty m buf = encodeWr (wrMsmHeader cons m.header
      ++ (wrSatData ty ((List.range (nSats m.header)).map m.sat) ++ wrSigData ty m)) buf := by
  have hc := hw.cells
  unfold nSats nSigs at hc
  unfold encodeMsm wrMsm
  rw [if_neg (by simp [hw.type])]
  simp only [hw.type, hw.cons]
  rw [if_neg (by rcases ht with h | h <;> simp [h]), if_neg (by simp only [maxCells]; omega)]
  simp [nSats]

theorem run_msm {ty : MsmType} {cons : Cons} {m : Msg} (ht : ty = .msm4 ∨ ty = .msm5) (hw : WFHeader ty cons m.header)
    (buf : Buf) (hb : 678 ≤ buf.length) : (decodeMsm ty).run (payloadOf (encodeMsm ty m buf)) = .ok (image ty cons m) := by
  rw [encodeMsm_eq ht hw]
  refine run_encode buf (ok_msm ty cons m _) ?_ (reads_msm ht hw)
  have := wlen_msm (m := m) hw
  omega

/-- **C12** The header, with its masks, comes back unchanged (GLONASS: the epoch as time of day). -/
theorem C12_header_roundtrip (ty : MsmType) (cons : Cons) (m : Msg) (h : WFMsg ty cons m) (buf : Buf) (hb : 678 ≤ buf.length) :
    ∃ m', (decodeMsm ty).run (payloadOf (encodeMsm ty m buf)) = .ok m' ∧ m'.header = sameHeader cons m.header :=
  ⟨_, run_msm h.type h.header buf hb, rfl⟩

/-- **C12** In particular, all masks and all flags. -/
theorem C12_masks_roundtrip (ty : MsmType) (cons : Cons) (m : Msg) (h : WFMsg ty cons m) (buf : Buf) (hb : 678 ≤ buf.length) :
    ∃ m', (decodeMsm ty).run (payloadOf (encodeMsm ty m buf)) = .ok m' ∧ m'.header.satMask = m.header.satMask ∧
      m'.header.sigMask = m.header.sigMask ∧ m'.header.cellMask = m.header.cellMask ∧
      m'.sats.length = m.sats.length ∧ m'.sigs.length = m.sigs.length := by
  refine ⟨_, run_msm h.type h.header buf hb, rfl, rfl, rfl, ?_, ?_⟩
  · simp [image, assemble, sameHeader, h.nsats, nSats]
  · simp [image, assemble, sameHeader, h.nsigs, nCells]

/-! ### Cell contents -/

theorem getD_range_map {α : Type} (n i : Nat) (f : Nat → α) (d : α) (h : i < n) : ((List.range n).map f).getD i d = f i := by
  simp [List.getD_eq_getElem?_getD, List.getElem?_map, List.getElem?_range h]
theorem getD_replicate {α : Type} (n i : Nat) (d : α) : (List.replicate n d).getD i d = d := by
  simp only [List.getD_eq_getElem?_getD, List.getElem?_replicate]
  split <;> rfl

theorem encInt_spec {s : Sat} (h : WFSat s) : (encInt s : ℚ) = ⌊s.roughRangeMs⌋ ∧ encInt s < 255 := by
  have h0 : 0 ≤ ⌊s.roughRangeMs⌋ := Int.floor_nonneg.mpr h.nonneg
  have h1 : ⌊s.roughRangeMs⌋ < 255 := Int.floor_lt.mpr (by exact_mod_cast h.range)
  unfold encInt
  rw [Int.emod_eq_of_lt h0 (by omega)]
  refine ⟨?_, by omega⟩
  have : ((⌊s.roughRangeMs⌋.toNat : ℤ) : ℚ) = ⌊s.roughRangeMs⌋ := by rw [Int.toNat_of_nonneg h0]
  exact_mod_cast this

theorem encMod_spec {s : Sat} (h : WFSat s) : encMod s < 1024 ∧
    |(encMod s : ℚ) / 1024 - (s.roughRangeMs - encInt s)| ≤ 1 / 2048 := by
  have hf0 : (⌊s.roughRangeMs⌋ : ℚ) ≤ s.roughRangeMs := Int.floor_le _
  have hf := h.frac
  rw [← (encInt_spec h).1] at hf0 hf
  set x := s.roughRangeMs - (encInt s : ℚ) with hx
  have hb := cround_bounds (1024 * x)
  have h0 : 0 ≤ cround (1024 * x) := cround_nonneg (by linarith)
  have h1 : cround (1024 * x) < 1024 := by
    have : (cround (1024 * x) : ℚ) < 1024 := by
      have : 1024 * x < 1023.5 := by linarith
      linarith [hb.2]
    exact_mod_cast this
  have e : (encMod s : ℚ) = cround (1024 * x) := by
    unfold encMod
    rw [← hx, Int.emod_eq_of_lt h0 (by omega)]
    have : (((cround (1024 * x)).toNat : ℤ) : ℚ) = cround (1024 * x) := by rw [Int.toNat_of_nonneg h0]
    exact_mod_cast this
  refine ⟨?_, ?_⟩
  · have : (encMod s : ℚ) < 1024 := by rw [e]; exact_mod_cast h1
    exact_mod_cast this
  · rw [e, abs_le]
    constructor <;> linarith [hb.1, hb.2]

theorem ctrunc_near (x : ℚ) : |(ctrunc x : ℚ) - x| < 1 := by
  unfold ctrunc
  split
  · have h1 := Int.floor_le x
    have h2 := Int.lt_floor_add_one x
    rw [abs_lt]; constructor <;> linarith
  · have h1 := Int.floor_le (-x)
    have h2 := Int.lt_floor_add_one (-x)
    push_cast
    rw [abs_lt]; constructor <;> linarith

theorem encRate_range {s : Sat} (h : WFSat s) : -8191 ≤ encRate s ∧ encRate s ≤ 8191 := by
  unfold encRate ctrunc
  have h1 := h.rateLo
  have h2 := h.rateHi
  split
  · have a : 0 ≤ ⌊s.roughRate⌋ := Int.floor_nonneg.mpr ‹_›
    have b : ⌊s.roughRate⌋ < 8192 := Int.floor_lt.mpr (by exact_mod_cast h2)
    omega
  · have a : 0 ≤ ⌊-s.roughRate⌋ := Int.floor_nonneg.mpr (by linarith)
    have b : ⌊-s.roughRate⌋ < 8192 := Int.floor_lt.mpr (by push_cast; linarith)
    omega

theorem wrapS_id {n : Nat} {i : Int} (h0 : 0 < n) (hn : n ≤ 32) (h1 : -(2 ^ (n - 1)) ≤ i) (h2 : i < 2 ^ (n - 1)) : wrapS n i = i := by
  unfold wrapS; rw [u32_mod _ _ hn, toSigned_mod _ _ h0 h1 h2]
theorem wrap15 {i : Int} (h1 : -16384 ≤ i) (h2 : i ≤ 16384) : wrapS 15 i = if i = 16384 then -16384 else i := by
  split
  · subst i; decide
  · exact wrapS_id (by omega) (by omega) (by omega) (by omega)
theorem wrap22 {i : Int} (h1 : -2097152 ≤ i) (h2 : i ≤ 2097152) : wrapS 22 i = if i = 2097152 then -2097152 else i := by
  split
  · subst i; decide
  · exact wrapS_id (by omega) (by omega) (by omega) (by omega)

/-- a fine value `x` in a field of resolution `1/K` whose most negative code `-N` means "invalid", computed as `y` -/
theorem fine_field (flag : Bool) (x y K B ε : ℚ) (N : ℤ) (hK : 0 < K) (he : 0 ≤ ε) (hε : ε ≤ 1 / 8) (hB : |B * K - N| ≤ ε)
    (hy : |x| < B → |y - x * K| ≤ ε) :
    let v : ℤ := if flag ∧ |x| < B then cround y else -N
    let w : ℤ := if v = N then -N else v
    (-N ≤ v ∧ (0 ≤ N → v ≤ N)) ∧ (w ≠ -N → flag = true ∧ |x| < B ∧ |(w : ℚ) / K - x| ≤ (1 / 2 + ε) / K) ∧
    (flag = true → |x| < B - 3 / (4 * K) → w ≠ -N) := by
  intro v w
  have hb := cround_bounds y
  rw [abs_le] at hB
  have hin : |x| < B → -(N : ℚ) - 1 / 4 ≤ y ∧ y ≤ N + 1 / 4 := by
    intro h
    have h1 := (abs_lt.mp h).1
    have h2 := (abs_lt.mp h).2
    have h3 := abs_le.mp (hy h)
    constructor <;> nlinarith [hB.1, hB.2, h3.1, h3.2]
  refine ⟨⟨?_, ?_⟩, ?_, ?_⟩
  · simp only [v]
    split
    · rename_i hc
      have : ((-N - 1 : ℤ) : ℚ) < cround y := by push_cast; linarith [(hin hc.2).1, hb.1]
      have := Int.cast_lt.1 this
      omega
    · exact le_rfl
  · intro hN
    simp only [v]
    split
    · rename_i hc
      have : (cround y : ℚ) < ((N + 1 : ℤ) : ℚ) := by push_cast; linarith [(hin hc.2).2, hb.2]
      have := Int.cast_lt.1 this
      omega
    · omega
  · intro hw
    have hvN : v ≠ N := fun h => hw (by simp only [w]; rw [if_pos h])
    have hwv : w = v := by simp only [w]; rw [if_neg hvN]
    rw [hwv] at hw ⊢
    by_cases hc : flag ∧ |x| < B
    · refine ⟨hc.1, hc.2, ?_⟩
      have e : v = cround y := by simp only [v]; rw [if_pos hc]
      rw [e]
      have e2 : (cround y : ℚ) / K - x = ((cround y : ℚ) - x * K) / K := by field_simp
      rw [e2, abs_div, abs_of_pos hK]
      apply div_le_div_of_nonneg_right _ hK.le
      have h1 := abs_le.mp (cround_abs y)
      have h2 := abs_le.mp (hy hc.2)
      rw [abs_le]
      constructor <;> linarith [h1.1, h1.2, h2.1, h2.2]
    · exact absurd (by simp only [v]; rw [if_neg hc]) hw
  · intro hf hx
    have hpos : 0 < 3 / (4 * K) := by positivity
    have hc : flag ∧ |x| < B := ⟨hf, by linarith⟩
    have e : v = cround y := by simp only [v]; rw [if_pos hc]
    have h1 := (abs_lt.mp hx).1
    have h2 := (abs_lt.mp hx).2
    have hk : 3 / (4 * K) * K = 3 / 4 := by field_simp
    have l1 : -(N : ℚ) - ε + 3 / 4 < x * K := by nlinarith [hB.1, hB.2]
    have l2 : x * K < (N : ℚ) + ε - 3 / 4 := by nlinarith [hB.1, hB.2]
    have h3 := abs_le.mp (hy hc.2)
    have b1 : (-N : ℚ) < v := by rw [e]; linarith [hb.1, h3.1]
    have b2 : (v : ℚ) < N := by rw [e]; linarith [hb.2, h3.2]
    have c1 : -N < v := by exact_mod_cast b1
    have c2 : v < N := by exact_mod_cast b2
    simp only [w]
    rw [if_neg (by omega)]; omega

/-- a small value is rounded to a small value nearby -/
theorem f64_small {d B : ℚ} (hB : B ≤ 2) (h : |f64 d| < B) : |f64 d - d| ≤ 1 / 2 ^ 51 * B + 1 / 2 ^ 199 := by
  have h1 := Fp.f64_err d
  have h2 : |d| ≤ |f64 d| + |f64 d - d| := by
    have := abs_sub_abs_le_abs_sub d (f64 d)
    rw [abs_sub_comm] at this
    linarith
  have h3 : |d| ≤ 2 * B + 1 / 2 ^ 199 := by
    have : |d| * (1 - 1 / 9007199254740992) ≤ B + 1 / 2 ^ 200 := by linarith
    have h4 := abs_nonneg d
    nlinarith
  have h5 : (0:ℚ) < 1 / 2 ^ 200 := by positivity
  have h6 : (1:ℚ) / 2 ^ 199 = 2 * (1 / 2 ^ 200) := by norm_num
  have h7 : (1:ℚ) / 2 ^ 51 = 4 / 9007199254740992 := by norm_num
  rw [h7, h6]
  rw [h6] at h3
  generalize (1:ℚ) / 2 ^ 200 = e at *
  have := abs_nonneg (f64 d)
  linarith

theorem f64_lt {d B : ℚ} (h : |d| < B) : |f64 d| ≤ B + B / 9007199254740992 + 1 / 2 ^ 200 := by
  have h1 := Fp.f64_err d
  have h2 := abs_sub_abs_le_abs_sub (f64 d) d
  have : |d| / 9007199254740992 ≤ B / 9007199254740992 := by apply div_le_div_of_nonneg_right h.le; norm_num
  linarith

/-- 0.0001 as a double -/
theorem rateUnit_near : |rateUnit - 1 / 10000| ≤ 1 / 2 ^ 66 := by
  have := Fp.f64_err (1 / 10000)
  unfold rateUnit
  refine this.trans ?_
  rw [abs_of_pos (by norm_num)]
  norm_num
theorem rateUnit_pos : 0 < rateUnit := by
  have := (abs_le.1 rateUnit_near).1
  have : (1:ℚ) / 2 ^ 66 < 1 / 10000 := by norm_num
  linarith

/-- the range rate field: `y` is the quotient computed, `x` the value -/
theorem dop_near {x : ℚ} (h : |x| < rateUnit * 2 ^ 14) : |f64 (x / rateUnit) - x * 10000| ≤ 1 / 2 ^ 35 := by
  have ht := abs_le.1 rateUnit_near
  have h0 := rateUnit_pos
  have h1 : |x / rateUnit| < 16384 := by
    rw [abs_div, abs_of_pos h0, div_lt_iff₀ h0]; linarith
  have h2 := Fp.f64_err (x / rateUnit)
  have h3 : |x / rateUnit - x * 10000| ≤ 1 / 2 ^ 36 := by
    have e : x / rateUnit - x * 10000 = x / rateUnit * (10000 * (1 / 10000 - rateUnit)) := by field_simp
    rw [e, abs_mul]
    have h4 : |10000 * (1 / 10000 - rateUnit)| ≤ 10000 / 2 ^ 66 := by
      rw [abs_le]; constructor <;> linarith [ht.1, ht.2]
    calc _ ≤ (16384 : ℚ) * (10000 / 2 ^ 66) := mul_le_mul h1.le h4 (abs_nonneg _) (by norm_num)
      _ ≤ _ := by norm_num
  have h4 : |f64 (x / rateUnit) - x * 10000| ≤ |f64 (x / rateUnit) - x / rateUnit| + |x / rateUnit - x * 10000| := abs_sub_le _ _ _
  have h5 : |x / rateUnit| / 9007199254740992 ≤ 16384 / 9007199254740992 := by apply div_le_div_of_nonneg_right h1.le; norm_num
  have h6 : (16384 : ℚ) / 9007199254740992 + 1 / 2 ^ 200 + 1 / 2 ^ 36 ≤ 1 / 2 ^ 35 := by norm_num
  linarith

theorem dop_bound : |rateUnit * 2 ^ 14 * 10000 - ((16384 : ℤ) : ℚ)| ≤ 1 / 2 ^ 35 := by
  have ht := abs_le.1 rateUnit_near
  have k : (1:ℚ) / 2 ^ 66 * 2 ^ 14 * 10000 ≤ 1 / 2 ^ 35 := by norm_num
  rw [abs_le]; push_cast
  constructor <;> linarith [ht.1, ht.2]

/-- the range rate decoded -/
theorem dop_back {r w : ℤ} {x d : ℚ} (hr : -8191 ≤ r ∧ r ≤ 8191) (hw : |(w : ℚ) / 10000 - x| ≤ (1 / 2 + 1 / 2 ^ 35) / 10000) (hx : |x| < 2)
    (hd : |x - (d - r)| ≤ 1 / 2 ^ 51 * 2 + 1 / 2 ^ 199) : |f64 ((r : ℚ) + f64 ((w : ℚ) * rateUnit)) - d| ≤ 1 / 20000 + 1 / 2 ^ 38 := by
  have ht := abs_le.1 rateUnit_near
  have hx := abs_lt.1 hx
  have hw' := abs_le.1 hw
  have hd' := abs_le.1 hd
  have hr1 : (-8191 : ℚ) ≤ r := by exact_mod_cast hr.1
  have hr2 : (r : ℚ) ≤ 8191 := by exact_mod_cast hr.2
  have k1 : ((1:ℚ) / 2 + 1 / 2 ^ 35) / 10000 ≤ 1 / 2 := by norm_num
  have hw1 : |(w : ℚ)| ≤ 30000 := by rw [abs_le]; constructor <;> linarith [hw'.1, hw'.2]
  have a1 : |(w : ℚ) * rateUnit - w / 10000| ≤ 30000 / 2 ^ 66 := by
    rw [show (w : ℚ) * rateUnit - w / 10000 = w * (rateUnit - 1 / 10000) by ring, abs_mul]
    calc _ ≤ (30000 : ℚ) * (1 / 2 ^ 66) := mul_le_mul hw1 rateUnit_near (abs_nonneg _) (by norm_num)
      _ = _ := by norm_num
  have k2 : (30000:ℚ) / 2 ^ 66 ≤ 1 / 2 ^ 51 := by norm_num
  have a1' := abs_le.1 (a1.trans k2)
  have k3 : (1:ℚ) / 2 ^ 51 ≤ 1 / 2 := by norm_num
  have a2 : |(w : ℚ) * rateUnit| ≤ 4 := by rw [abs_le]; constructor <;> linarith [a1'.1, a1'.2, hw'.1, hw'.2]
  have a3 := Fp.f64_err ((w : ℚ) * rateUnit)
  have a4 : |f64 ((w : ℚ) * rateUnit) - w * rateUnit| ≤ 1 / 2 ^ 50 := by
    have : |(w : ℚ) * rateUnit| / 9007199254740992 ≤ 4 / 9007199254740992 := by apply div_le_div_of_nonneg_right a2; norm_num
    have k : (4:ℚ) / 9007199254740992 + 1 / 2 ^ 200 ≤ 1 / 2 ^ 50 := by norm_num
    linarith
  have a4' := abs_le.1 a4
  have k4 : (1:ℚ) / 2 ^ 50 ≤ 1 / 2 := by norm_num
  have a2' := abs_le.1 a2
  have a5 : |(r : ℚ) + f64 ((w : ℚ) * rateUnit)| ≤ 8196 := by rw [abs_le]; constructor <;> linarith [a4'.1, a4'.2, a2'.1, a2'.2]
  have a6 := Fp.f64_err ((r : ℚ) + f64 ((w : ℚ) * rateUnit))
  have a7 : |f64 ((r : ℚ) + f64 ((w : ℚ) * rateUnit)) - (r + f64 ((w : ℚ) * rateUnit))| ≤ 8196 / 9007199254740992 + 1 / 2 ^ 200 := by
    have : |(r : ℚ) + f64 ((w : ℚ) * rateUnit)| / 9007199254740992 ≤ 8196 / 9007199254740992 := by apply div_le_div_of_nonneg_right a5; norm_num
    linarith
  have a7' := abs_le.1 a7
  have k5 : (8196:ℚ) / 9007199254740992 + 1 / 2 ^ 200 + 1 / 2 ^ 50 + 1 / 2 ^ 51 + (1 / 2 ^ 51 * 2 + 1 / 2 ^ 199) + (1 / 2 + 1 / 2 ^ 35) / 10000
    ≤ 1 / 20000 + 1 / 2 ^ 38 := by norm_num
  rw [abs_le]
  constructor <;> linarith [a7'.1, a7'.2, a4'.1, a4'.2, a1'.1, a1'.2, hw'.1, hw'.2, hd'.1, hd'.2]

section
variable {ty : MsmType} {cons : Cons} {m : Msg} (h : WFMsg ty cons m)
include h

theorem wf_sat {i : Nat} (hi : i < nSats m.header) : WFSat (m.sat i) := by
  have hl : i < m.sats.length := by rw [h.nsats]; exact hi
  have : m.sat i = m.sats[i] := by
    unfold Msg.sat; rw [List.getD_eq_getElem?_getD, List.getElem?_eq_getElem hl]; rfl
  rw [this]
  exact h.sats _ (List.getElem_mem hl)
theorem wf_sig {i : Nat} (hi : i < nCells m.header) : WFSig (m.sig i) := by
  have hl : i < m.sigs.length := by rw [h.nsigs]; exact hi
  have : m.sig i = m.sigs[i] := by
    unfold Msg.sig; rw [List.getD_eq_getElem?_getD, List.getElem?_eq_getElem hl]; rfl
  rw [this]
  exact h.sigs _ (List.getElem_mem hl)

theorem raw_range {i : Nat} (hi : i < nSats m.header) :
    (rawSat ty (nSats m.header) m.sat).range i = encRange (m.sat i) ∧
    (rawSat ty (nSats m.header) m.sat).rangeValid i = true := by
  have hs := wf_sat h hi
  have h1 := (encInt_spec hs).2
  have h2 := (encMod_spec hs).1
  have e1 : (rawSat ty (nSats m.header) m.sat).ints.getD i 0 = encInt (m.sat i) := by
    unfold rawSat; simp only; rw [getD_range_map _ _ _ _ hi, Nat.mod_eq_of_lt (by omega)]
  have e2 : (rawSat ty (nSats m.header) m.sat).mods.getD i 0 = encMod (m.sat i) := by
    unfold rawSat; simp only; rw [getD_range_map _ _ _ _ hi, Nat.mod_eq_of_lt (by omega)]
  unfold RawSat.range RawSat.rangeValid
  rw [e1, e2, if_pos (by omega)]
  exact ⟨rfl, by simp; omega⟩

theorem raw_rate {i : Nat} (hi : i < nSats m.header) (ht : ty = .msm5) :
    (rawSat ty (nSats m.header) m.sat).rates.getD i 0 = encRate (m.sat i) ∧
    (rawSat ty (nSats m.header) m.sat).rateValid ty i = true := by
  have hs := encRate_range (wf_sat h hi)
  have e1 : (rawSat ty (nSats m.header) m.sat).rates.getD i 0 = encRate (m.sat i) := by
    unfold rawSat; simp only; rw [if_pos ht, getD_range_map _ _ _ _ hi, wrapS_id (by omega) (by omega) (by omega) (by omega)]
  refine ⟨e1, ?_⟩
  unfold RawSat.rateValid
  rw [e1]; simp [ht, MsmType.hasRates]; omega

omit h in
theorem image_sat {i : Nat} (hi : i < nSats m.header) :
    (image ty cons m).sat i = satOf ty cons (rawSat ty (nSats m.header) m.sat) i := by
  unfold Msg.sat image assemble
  simp only
  exact getD_range_map _ _ _ _ hi

theorem sat_ok {i : Nat} (hi : i < nSats m.header) : SatOk ty cons (m.sat i) ((image ty cons m).sat i) := by
  have hs := wf_sat h hi
  rw [image_sat hi]
  have e0 := (raw_range h hi).1
  refine ⟨?_, ?_, ?_, ?_, ?_⟩
  · show |(rawSat ty (nSats m.header) m.sat).range i - _| ≤ _
    rw [e0]; unfold encRange
    have := (encMod_spec hs).2
    have e : (encInt (m.sat i) : ℚ) + (encMod (m.sat i) : ℚ) / 1024 - (m.sat i).roughRangeMs
      = (encMod (m.sat i) : ℚ) / 1024 - ((m.sat i).roughRangeMs - encInt (m.sat i)) := by ring
    rw [e]; exact this
  · show ∃ k : ℤ, (rawSat ty (nSats m.header) m.sat).range i = k / 1024
    rw [e0]; unfold encRange
    exact ⟨(encInt (m.sat i) : ℤ) * 1024 + encMod (m.sat i), by push_cast; ring⟩
  · intro ht
    show |(((rawSat ty (nSats m.header) m.sat).rates.getD i 0 : ℤ) : ℚ) - _| < 1
    rw [(raw_rate h hi ht).1]
    exact ctrunc_near _
  · intro ht k hk
    show (((rawSat ty (nSats m.header) m.sat).rates.getD i 0 : ℤ) : ℚ) = _
    rw [(raw_rate h hi ht).1]
    unfold encRate ctrunc
    rw [hk]
    split
    · rw [Int.floor_intCast]
    · rw [← Int.cast_neg, Int.floor_intCast, neg_neg]
  · show (if cons = .glo ∧ ty.hasRates = false then 255 else (rawSat ty (nSats m.header) m.sat).infos.getD i 0) = _
    rcases h.type with ht | ht <;> subst ht
    · have : (rawSat .msm4 (nSats m.header) m.sat).infos.getD i 0 = 0 := by
        unfold rawSat; simp only; rw [if_neg (by simp)]; exact getD_replicate _ _ _
      rw [this]; simp [MsmType.hasRates]
    · have : (rawSat .msm5 (nSats m.header) m.sat).infos.getD i 0 = (m.sat i).gloFcn % 16 := by
        unfold rawSat; simp only; rw [if_pos trivial, getD_range_map _ _ _ _ hi]; rfl
      rw [this]; simp [MsmType.hasRates]
omit h in
theorem image_sig {i : Nat} (hi : i < nCells m.header) :
    (image ty cons m).sig i = sigOf ty (rawSat ty (nSats m.header) m.sat) (rawSig ty m) (m.row i) i := by
  unfold Msg.sig image assemble
  simp only
  exact getD_range_map _ _ _ _ hi

theorem sig_ok {i : Nat} (hi : i < nCells m.header) (hns : 0 < nSats m.header) :
    SigOk ty ((image ty cons m).sat (m.row i)) (m.sig i) ((image ty cons m).sig i) := by
  have hrow : m.row i < nSats m.header := cellRows_lt i hns
  have hs := wf_sat h hrow
  have hg := wf_sig h hi
  rw [image_sat hrow, image_sig hi]
  obtain ⟨er, ev⟩ := raw_range h hrow
  have hext : ty.ext = false := by rcases h.type with ht | ht <;> subst ht <;> rfl
  have epr : (rawSig ty m).prs.getD i 0 = wrapS 15 (encPr (encRange (m.sat (m.row i))) (m.sig i)) := getD_range_map _ _ _ _ hi
  have ecp : (rawSig ty m).cps.getD i 0 = wrapS 22 (encCp (encRange (m.sat (m.row i))) (m.sig i)) := getD_range_map _ _ _ _ hi
  have elk : (rawSig ty m).locks.getD i 0 = encLock (m.sig i) % 2 ^ 4 := getD_range_map _ _ _ _ hi
  have ehc : (rawSig ty m).hcas.getD i false = (m.sig i).hca := getD_range_map _ _ _ _ hi
  have ecn : (rawSig ty m).cnrs.getD i 0 = encCnr (m.sig i) % 2 ^ 6 := getD_range_map _ _ _ _ hi
  obtain ⟨⟨p1, p2⟩, p3, p4⟩ := fine_field (m.sig i).vPr (f64 ((m.sig i).pr - encRange (m.sat (m.row i)))) _ (2 ^ 24) (1 / 2 ^ 10) 0 16384
    (by norm_num) le_rfl (by norm_num) (by norm_num) (fun _ => (by rw [sub_self, abs_zero]))
  obtain ⟨⟨c1, c2⟩, c3, c4⟩ := fine_field (m.sig i).vCp (f64 ((m.sig i).cp - encRange (m.sat (m.row i)))) _ (2 ^ 29) (1 / 2 ^ 8) 0 2097152
    (by norm_num) le_rfl (by norm_num) (by norm_num) (fun _ => (by rw [sub_self, abs_zero]))
  have wpr : wrapS 15 (encPr (encRange (m.sat (m.row i))) (m.sig i)) = _ := wrap15 p1 (p2 (by omega))
  have wcp : wrapS 22 (encCp (encRange (m.sat (m.row i))) (m.sig i)) = _ := wrap22 c1 (c2 (by omega))
  have hpr : (sigOf ty (rawSat ty (nSats m.header) m.sat) (rawSig ty m) (m.row i) i).vPr
      = decide (wrapS 15 (encPr (encRange (m.sat (m.row i))) (m.sig i)) ≠ -16384) := by
    simp only [sigOf, ev, epr, hext, Bool.true_and, Bool.false_eq_true, if_false]
  have hcp : (sigOf ty (rawSat ty (nSats m.header) m.sat) (rawSig ty m) (m.row i) i).vCp
      = decide (wrapS 22 (encCp (encRange (m.sat (m.row i))) (m.sig i)) ≠ -2097152) := by
    simp only [sigOf, ev, ecp, hext, Bool.true_and, Bool.false_eq_true, if_false]
  have vpr : (sigOf ty (rawSat ty (nSats m.header) m.sat) (rawSig ty m) (m.row i) i).vPr = true →
      (sigOf ty (rawSat ty (nSats m.header) m.sat) (rawSig ty m) (m.row i) i).pr
        = encRange (m.sat (m.row i)) + (wrapS 15 (encPr (encRange (m.sat (m.row i))) (m.sig i)) : ℚ) / 2 ^ 24 := by
    intro hv
    show (if (sigOf ty (rawSat ty (nSats m.header) m.sat) (rawSig ty m) (m.row i) i).vPr then _ else _) = _
    rw [hv, if_pos rfl, er, epr, hext]
    simp
  have vcp : (sigOf ty (rawSat ty (nSats m.header) m.sat) (rawSig ty m) (m.row i) i).vCp = true →
      (sigOf ty (rawSat ty (nSats m.header) m.sat) (rawSig ty m) (m.row i) i).cp
        = encRange (m.sat (m.row i)) + (wrapS 22 (encCp (encRange (m.sat (m.row i))) (m.sig i)) : ℚ) / 2 ^ 29 := by
    intro hv
    show (if (sigOf ty (rawSat ty (nSats m.header) m.sat) (rawSig ty m) (m.row i) i).vCp then _ else _) = _
    rw [hv, if_pos rfl, er, ecp, hext]
    simp
  have hlock : (sigOf ty (rawSat ty (nSats m.header) m.sat) (rawSig ty m) (m.row i) i).lock = decodeLockTime (encLock (m.sig i)) := by
    simp only [sigOf, elk, hext, Bool.false_eq_true, if_false]
    unfold decodeLockTime; simp
  have hcn : (sigOf ty (rawSat ty (nSats m.header) m.sat) (rawSig ty m) (m.row i) i).vCnr = decide (encCnr (m.sig i) ≠ 0) ∧
      (encCnr (m.sig i) ≠ 0 → (sigOf ty (rawSat ty (nSats m.header) m.sat) (rawSig ty m) (m.row i) i).cnr = encCnr (m.sig i)) ∧
      (encCnr (m.sig i) ≠ 0 → (m.sig i).vCnr = true) ∧
      ((m.sig i).vCnr = true → (encCnr (m.sig i) : ℚ) = cround (m.sig i).cnr) := by
    have hlt : encCnr (m.sig i) < 64 ∧ ((m.sig i).vCnr = true → (encCnr (m.sig i) : ℚ) = cround (m.sig i).cnr) := by
      unfold encCnr
      by_cases hv : (m.sig i).vCnr = true
      · have h0 : 0 ≤ cround (m.sig i).cnr := cround_nonneg (hg.cnrLo hv)
        have h1 : cround (m.sig i).cnr < 64 := by
          have : (cround (m.sig i).cnr : ℚ) < 64 := by
            have := (cround_bounds (m.sig i).cnr).2
            have := hg.cnrHi hv
            linarith
          exact_mod_cast this
        rw [if_pos hv, Int.emod_eq_of_lt h0 (by omega)]
        refine ⟨by omega, fun _ => ?_⟩
        have : (((cround (m.sig i).cnr).toNat : ℤ) : ℚ) = cround (m.sig i).cnr := by rw [Int.toNat_of_nonneg h0]
        exact_mod_cast this
      · rw [if_neg hv]; exact ⟨by omega, fun hc => absurd hc hv⟩
    have e : encCnr (m.sig i) % 2 ^ 6 = encCnr (m.sig i) := Nat.mod_eq_of_lt (by omega)
    refine ⟨by simp only [sigOf, ecn, e], ?_, ?_, hlt.2⟩
    · intro hne
      simp only [sigOf, ecn, e, hext]
      simp [hne]
    · intro hne
      by_contra hc
      apply hne
      unfold encCnr; rw [if_neg hc]
  constructor
  · intro hv
    have hne : wrapS 15 (encPr (encRange (m.sat (m.row i))) (m.sig i)) ≠ -16384 := by simpa [hpr] using hv
    rw [vpr hv]
    have := p3 (by rw [wpr] at hne; exact hne)
    refine ⟨this.1, ?_⟩
    rw [wpr]
    have h2 := this.2.2
    have h3 := f64_small (by norm_num) this.2.1
    have e25 : ((1 : ℚ) / 2 + 0) / 2 ^ 24 = 1 / 2 ^ 25 := by norm_num
    rw [e25] at h2
    have e60 : (1 : ℚ) / 2 ^ 51 * (1 / 2 ^ 10) + 1 / 2 ^ 199 ≤ 1 / 2 ^ 60 := by norm_num
    rw [show ∀ a b c : ℚ, a + b - c = b - (c - a) from fun a b c => by ring]
    exact (abs_sub_le _ _ _).trans (add_le_add h2 (h3.trans e60))
  · intro hv
    have hne : wrapS 22 (encCp (encRange (m.sat (m.row i))) (m.sig i)) ≠ -2097152 := by simpa [hcp] using hv
    rw [vcp hv]
    have := c3 (by rw [wcp] at hne; exact hne)
    refine ⟨this.1, ?_⟩
    rw [wcp]
    have h2 := this.2.2
    have h3 := f64_small (by norm_num) this.2.1
    have e25 : ((1 : ℚ) / 2 + 0) / 2 ^ 29 = 1 / 2 ^ 30 := by norm_num
    rw [e25] at h2
    have e60 : (1 : ℚ) / 2 ^ 51 * (1 / 2 ^ 8) + 1 / 2 ^ 199 ≤ 1 / 2 ^ 58 := by norm_num
    rw [show ∀ a b c : ℚ, a + b - c = b - (c - a) from fun a b c => by ring]
    exact (abs_sub_le _ _ _).trans (add_le_add h2 (h3.trans e60))
  · intro hv
    have hne : encCnr (m.sig i) ≠ 0 := by simpa [hcn.1] using hv
    have hf := hcn.2.2.1 hne
    refine ⟨hf, ?_⟩
    rw [hcn.2.1 hne, hcn.2.2.2 hf]
    exact cround_abs _
  · intro hv
    rcases h.type with ht | ht
    · exfalso; subst ht; simp [sigOf, RawSat.rateValid, MsmType.hasRates] at hv
    · obtain ⟨e1, e2⟩ := raw_rate h hrow ht
      subst ht
      refine ⟨rfl, ?_⟩
      have ed : (rawSig .msm5 m).dops.getD i 0 = wrapS 15 (encDop (encRate (m.sat (m.row i))) (m.sig i)) := by
        unfold rawSig; simp only [if_true]; exact getD_range_map _ _ _ _ hi
      obtain ⟨⟨d1, d2⟩, d3, d4⟩ := fine_field (m.sig i).vDop (f64 ((m.sig i).rate - encRate (m.sat (m.row i)))) _ 10000 (rateUnit * 2 ^ 14) (1 / 2 ^ 35) 16384
        (by norm_num) (by norm_num) (by norm_num) dop_bound dop_near
      have wd : wrapS 15 (encDop (encRate (m.sat (m.row i))) (m.sig i)) = _ := wrap15 d1 (d2 (by omega))
      have hne : wrapS 15 (encDop (encRate (m.sat (m.row i))) (m.sig i)) ≠ -16384 := by
        simp only [sigOf, e2, ed, MsmType.hasRates, Bool.true_and, decide_eq_true_eq] at hv; exact hv
      have hval : (sigOf .msm5 (rawSat .msm5 (nSats m.header) m.sat) (rawSig .msm5 m) (m.row i) i).rate
          = f64 ((encRate (m.sat (m.row i)) : ℚ) + f64 ((wrapS 15 (encDop (encRate (m.sat (m.row i))) (m.sig i)) : ℚ) * rateUnit)) := by
        show (if (sigOf .msm5 (rawSat .msm5 (nSats m.header) m.sat) (rawSig .msm5 m) (m.row i) i).vDop then _ else _) = _
        rw [hv, if_pos rfl, e1, ed]
      rw [hval]
      have := d3 (by rw [wd] at hne; exact hne)
      refine ⟨this.1, ?_⟩
      rw [wd]
      have hx := this.2.1
      have hx2 : |f64 ((m.sig i).rate - encRate (m.sat (m.row i)))| < 2 := by
        have := (abs_le.1 rateUnit_near).2
        have e : (1 / 10000 + 1 / 2 ^ 66 : ℚ) * 2 ^ 14 < 2 := by norm_num
        nlinarith
      exact dop_back (encRate_range hs) this.2.2 hx2 (f64_small le_rfl hx2)
  · intro hv hx
    rw [hpr, wpr, decide_eq_true_iff]
    refine p4 hv ?_
    rw [← er]
    refine lt_of_le_of_lt (f64_lt hx) ?_
    norm_num
  · intro hv hx
    rw [hcp, wcp, decide_eq_true_iff]
    refine c4 hv ?_
    rw [← er]
    refine lt_of_le_of_lt (f64_lt hx) ?_
    norm_num
  · intro hv hx
    rw [hcn.1, decide_eq_true_iff]
    intro h0
    have e := hcn.2.2.2 hv
    rw [h0] at e
    have e' : cround (m.sig i).cnr = 0 := by exact_mod_cast e.symm
    have : 1 ≤ cround (m.sig i).cnr := by
      unfold cround
      rw [if_pos (by linarith)]
      exact Int.le_floor.mpr (by push_cast; linarith)
    omega
  · intro ht hv hx
    obtain ⟨e1, e2⟩ := raw_rate h hrow ht
    subst ht
    have ed : (rawSig .msm5 m).dops.getD i 0 = wrapS 15 (encDop (encRate (m.sat (m.row i))) (m.sig i)) := by
      unfold rawSig; simp only [if_true]; exact getD_range_map _ _ _ _ hi
    obtain ⟨⟨d1, d2⟩, d3, d4⟩ := fine_field (m.sig i).vDop (f64 ((m.sig i).rate - encRate (m.sat (m.row i)))) _ 10000 (rateUnit * 2 ^ 14) (1 / 2 ^ 35) 16384
      (by norm_num) (by norm_num) (by norm_num) dop_bound dop_near
    have wd : wrapS 15 (encDop (encRate (m.sat (m.row i))) (m.sig i)) = _ := wrap15 d1 (d2 (by omega))
    have hd : (sigOf .msm5 (rawSat .msm5 (nSats m.header) m.sat) (rawSig .msm5 m) (m.row i) i).vDop
        = decide (wrapS 15 (encDop (encRate (m.sat (m.row i))) (m.sig i)) ≠ -16384) := by
      simp only [sigOf, e2, ed, MsmType.hasRates, Bool.true_and]
    rw [hd, wd, decide_eq_true_iff]
    refine d4 hv ?_
    rw [← e1]
    refine lt_of_le_of_lt (f64_lt hx) ?_
    have := (abs_le.1 rateUnit_near).1
    have e : (16384 / 10000 - 1 / 10000 + (16384 / 10000 - 1 / 10000) / 9007199254740992 + 1 / 2 ^ 200 : ℚ)
      < (1 / 10000 - 1 / 2 ^ 66) * 2 ^ 14 - 3 / (4 * 10000) := by norm_num
    linarith
  · exact ehc
  · intro hv
    rw [hlock]; unfold encLock; rw [if_pos hv]
    exact (C16_msm_never_overstates _ (hg.lock hv)).2
  · intro hv h1 h2
    rw [hlock]; unfold encLock; rw [if_pos hv]
    exact C16_msm_tight _ h1 h2
  · intro hv j hj he
    rw [hlock]; unfold encLock; rw [if_pos hv, he, C16_msm_indicator_roundtrip j hj]
  · rfl
  · intro hv
    rw [hlock]; unfold encLock; rw [if_neg (by simp [hv])]
    exact decodeLockTime_zero
end

/-- **C13** Every satellite record and every cell comes back: satellite `i` is satellite `i`; the cell at position `p` of
the cell mask (row `p / nSigs` = satellite, column `p % nSigs` = signal) carries the values that were sent for that very
cell, to the resolution of the fields, or is marked invalid. -/
theorem C13_contents_roundtrip (ty : MsmType) (cons : Cons) (m : Msg) (h : WFMsg ty cons m) (buf : Buf) (hb : 678 ≤ buf.length) :
    ∃ m', (decodeMsm ty).run (payloadOf (encodeMsm ty m buf)) = .ok m' ∧
      m'.sats.length = m.sats.length ∧ m'.sigs.length = m.sigs.length ∧ m'.header.cellMask = m.header.cellMask ∧
      (∀ i : Nat, i < nSats m.header → SatOk ty cons (m.sat i) (m'.sat i)) ∧
      (∀ p : Nat, m.header.cellMask[p]? = some true →
        SigOk ty (m'.sat (p / nSigs m.header)) (m.sig ((m.header.cellMask.take p).count true))
          (m'.sig ((m'.header.cellMask.take p).count true))) := by
  refine ⟨image ty cons m, run_msm h.type h.header buf hb, ?_, ?_, rfl, fun i hi => sat_ok h hi, ?_⟩
  · simp [image, assemble, sameHeader, h.nsats, nSats]
  · simp [image, assemble, sameHeader, h.nsigs, nCells]
  · intro p hp
    have hlt : p < m.header.cellMask.length := by
      refine Nat.lt_of_not_le fun hc => ?_
      rw [List.getElem?_eq_none hc] at hp; simp at hp
    have hcell : (m.header.cellMask.take p).count true < nCells m.header := by
      have := countMask_lt hlt hp
      rw [countMask_full rfl] at this
      exact this
    have hns : 0 < nSats m.header := by
      have := h.header.cellMask
      rcases Nat.eq_zero_or_pos (nSats m.header) with h0 | h0
      · rw [h0] at this; omega
      · exact h0
    have hrow : m.row ((m.header.cellMask.take p).count true) = p / nSigs m.header := cellRows_at h.header.cellMask hp
    have := sig_ok h hcell hns
    rw [hrow] at this
    exact this

/-! ### What the decoder accepts -/

theorem header_inv {num : Nat} {cons : Cons} {s r : List Bool} {h : Header} (hx : readMsmHeader num cons s = (.ok h, r)) :
    h.msgNum = num ∧ h.satMask.length = 64 ∧ h.sigMask.length = 32 ∧
    h.cellMask.length = h.satMask.count true * h.sigMask.count true % 256 := by
  unfold readMsmHeader at hx
  iterate 9 obtain ⟨_, _, _, hx⟩ := bind_ok hx
  obtain ⟨a, _, h1, hx⟩ := bind_ok hx
  obtain ⟨b, _, h2, hx⟩ := bind_ok hx
  obtain ⟨c, _, h3, hx⟩ := bind_ok hx
  rw [Dec.pure_def] at hx; simp at hx
  rw [← hx.1]
  exact ⟨rfl, many_ok_length h1, many_ok_length h2, many_ok_length h3⟩

theorem decodeMsm_inv {ty : MsmType} {s r : List Bool} {m : Msg} (hx : decodeMsm ty s = (.ok m, r)) :
    ∃ cons h rs rg, ty ≠ .unknown ∧ toMsmType h.msgNum = ty ∧ toConstellation h.msgNum = some cons ∧ h.msgNum < 2 ^ 12 ∧
      h.towMs ≤ (if cons = .glo then gloMaxTowMs else maxTowMs) ∧ h.satMask.count true * h.sigMask.count true ≤ maxCells ∧
      h.satMask.length = 64 ∧ h.sigMask.length = 32 ∧ h.cellMask.length = h.satMask.count true * h.sigMask.count true ∧
      m = assemble ty cons h rs rg := by
  unfold decodeMsm at hx
  obtain ⟨h0, hx⟩ := guard_ok hx
  obtain ⟨num, _, hn, hx⟩ := bind_ok hx
  obtain ⟨h1, hx⟩ := guard_ok hx
  cases hc : toConstellation num with
  | none => rw [hc] at hx; simp [fail] at hx
  | some cons =>
    rw [hc] at hx
    obtain ⟨h, _, hh, hx⟩ := bind_ok hx
    obtain ⟨h2, hx⟩ := guard_ok hx
    obtain ⟨h3, hx⟩ := guard_ok hx
    obtain ⟨rs, _, _, hx⟩ := bind_ok hx
    obtain ⟨rg, _, _, hx⟩ := bind_ok hx
    rw [Dec.pure_def] at hx; simp at hx
    obtain ⟨e1, e2, e3, e4⟩ := header_inv hh
    refine ⟨cons, h, rs, rg, ?_, by rw [e1]; exact h1, by rw [e1]; exact hc, by rw [e1]; exact (getU_ok hn).1,
      Nat.le_of_not_lt h2, Nat.le_of_not_lt h3, e2, e3, ?_, hx.1.symm⟩
    · rintro rfl; simp at h0
    · rw [e4, Nat.mod_eq_of_lt (by simp only [maxCells] at h3; omega)]

/-- **C12** Whatever bytes arrive, an accepted MSM message has full-size masks, at most 64 cells, one satellite record per
set satellite bit and one signal record per set cell bit. -/
theorem C12_accepted_consistent (ty : MsmType) (p : Buf) (m : Msg) (h : (decodeMsm ty).run p = .ok m) :
    m.header.satMask.length = 64 ∧ m.header.sigMask.length = 32 ∧
    m.header.cellMask.length = nSats m.header * nSigs m.header ∧ nSats m.header * nSigs m.header ≤ 64 ∧
    m.sats.length = nSats m.header ∧ m.sigs.length = nCells m.header := by
  obtain ⟨r, hx⟩ := run_ok h
  obtain ⟨cons, hd, rs, rg, _, _, _, _, _, h1, h2, h3, h4, rfl⟩ := decodeMsm_inv hx
  refine ⟨h2, h3, h4, h1, ?_, ?_⟩
  · simp [assemble, nSats]
  · simp [assemble, nCells]

theorem many_getU_lt {n k : Nat} {s r : List Bool} {l : List Nat} (h : many (getU n) k s = (.ok l, r)) : ∀ x ∈ l, x < 2 ^ n := by
  induction k generalizing s l r with
  | zero => unfold Dec.many at h; rw [Dec.pure_def] at h; simp at h; simp [h.1]
  | succ k ih =>
    unfold Dec.many at h
    obtain ⟨a, s1, h1, h⟩ := bind_ok h
    obtain ⟨as, s2, h2, h⟩ := bind_ok h
    rw [Dec.pure_def] at h; simp at h
    rw [← h.1]
    intro x hx
    rcases List.mem_cons.mp hx with rfl | hx
    · exact (getU_ok h1).1
    · exact ih h2 x hx

theorem getD_lt {l : List Nat} {b : Nat} (h : ∀ x ∈ l, x < b) (hb : 0 < b) (i : Nat) : l.getD i 0 < b := by
  rw [List.getD_eq_getElem?_getD]
  cases he : l[i]? with
  | none => simpa using hb
  | some x => exact h x (List.mem_of_getElem? he)

/-- the rough range part of an accepted message -/
theorem satData_inv {ty : MsmType} {ns : Nat} {s r : List Bool} {rs : RawSat} (hx : decodeSatData ty ns s = (.ok rs, r)) :
    (∀ x ∈ rs.ints, x < 256) ∧ ∀ x ∈ rs.mods, x < 1024 := by
  unfold decodeSatData at hx
  obtain ⟨ints, _, h1, hx⟩ := bind_ok hx
  by_cases hr : ty.hasRates = true
  · simp only [hr, if_true] at hx
    obtain ⟨infos, _, _, hx⟩ := bind_ok hx
    obtain ⟨mods, _, h2, hx⟩ := bind_ok hx
    obtain ⟨rates, _, _, hx⟩ := bind_ok hx
    rw [Dec.pure_def] at hx; simp at hx
    rw [← hx.1]
    exact ⟨many_getU_lt h1, many_getU_lt h2⟩
  · simp only [hr, if_false] at hx
    obtain ⟨infos, _, _, hx⟩ := bind_ok hx
    obtain ⟨mods, _, h2, hx⟩ := bind_ok hx
    obtain ⟨rates, _, _, hx⟩ := bind_ok hx
    rw [Dec.pure_def] at hx; simp at hx
    rw [← hx.1]
    exact ⟨many_getU_lt h1, many_getU_lt h2⟩

theorem decodeMsm_inv_sat {ty : MsmType} {s r : List Bool} {m : Msg} (hx : decodeMsm ty s = (.ok m, r)) :
    ∃ cons h rs rg, m = assemble ty cons h rs rg ∧ (∀ x ∈ rs.ints, x < 256) ∧ ∀ x ∈ rs.mods, x < 1024 := by
  unfold decodeMsm at hx
  obtain ⟨h0, hx⟩ := guard_ok hx
  obtain ⟨num, _, hn, hx⟩ := bind_ok hx
  obtain ⟨h1, hx⟩ := guard_ok hx
  cases hc : toConstellation num with
  | none => rw [hc] at hx; simp [fail] at hx
  | some cons =>
    rw [hc] at hx
    obtain ⟨h, _, hh, hx⟩ := bind_ok hx
    obtain ⟨h2, hx⟩ := guard_ok hx
    obtain ⟨h3, hx⟩ := guard_ok hx
    obtain ⟨rs, _, hs, hx⟩ := bind_ok hx
    obtain ⟨rg, _, _, hx⟩ := bind_ok hx
    rw [Dec.pure_def] at hx; simp at hx
    exact ⟨cons, h, rs, rg, hx.1.symm, satData_inv hs⟩

/-- **C13** Whatever bytes arrive: if the rough range of a satellite is the invalid marker (255 ms), no signal of that
satellite is delivered with a valid pseudorange or phase; if its rough range rate is the invalid marker or the message
type has none, no signal of it is delivered with a valid range rate. -/
theorem C13_invalid_rough (ty : MsmType) (p : Buf) (m : Msg) (h : (decodeMsm ty).run p = .ok m) (i : Nat)
    (hi : i < m.sigs.length) (hrow : m.row i < m.sats.length) :
    ((m.sat (m.row i)).roughRangeMs = 255 → (m.sig i).vPr = false ∧ (m.sig i).vCp = false) ∧
    ((m.sat (m.row i)).roughRate = -8192 ∨ ty = .msm4 ∨ ty = .msm6 → (m.sig i).vDop = false) ∧
    (m.sat (m.row i)).roughRangeMs ≤ 255 ∧ 0 ≤ (m.sat (m.row i)).roughRangeMs := by
  obtain ⟨r, hx⟩ := run_ok h
  obtain ⟨cons, hd, rs, rg, rfl, b1, b2⟩ := decodeMsm_inv_sat hx
  have hi' : i < hd.cellMask.count true := by simpa [assemble] using hi
  obtain ⟨row, hr⟩ : ∃ row, row = (assemble ty cons hd rs rg).row i := ⟨_, rfl⟩
  rw [← hr] at hrow ⊢
  have hrow' : row < hd.satMask.count true := by simpa [assemble] using hrow
  have es : (assemble ty cons hd rs rg).sat row = satOf ty cons rs row := by
    unfold Msg.sat assemble
    simp only
    rw [List.getD_eq_getElem?_getD, List.getElem?_map, List.getElem?_range hrow']
    rfl
  have eg : (assemble ty cons hd rs rg).sig i = sigOf ty rs rg row i := by
    have : row = (cellRows (hd.satMask.count true) (hd.sigMask.count true) hd.cellMask).getD i 0 := hr
    rw [this]
    unfold Msg.sig assemble
    simp only
    rw [List.getD_eq_getElem?_getD, List.getElem?_map, List.getElem?_range hi']
    rfl
  rw [es, eg]
  have c1 := getD_lt b1 (by norm_num) row
  have c2 := getD_lt b2 (by norm_num) row
  have q1 : ((rs.ints.getD row 0 : Nat) : ℚ) ≤ 255 := by
    have : rs.ints.getD row 0 ≤ 255 := by omega
    exact_mod_cast this
  have q2 : ((rs.mods.getD row 0 : Nat) : ℚ) < 1024 := by exact_mod_cast c2
  have q0 : (0 : ℚ) ≤ ((rs.mods.getD row 0 : Nat) : ℚ) := by positivity
  have q3 : (0 : ℚ) ≤ ((rs.ints.getD row 0 : Nat) : ℚ) := by positivity
  have hlt : rs.ints.getD row 0 ≠ 255 → rs.range row < 255 ∧ 0 ≤ rs.range row := by
    intro hne
    have : rs.ints.getD row 0 ≤ 254 := by omega
    have q4 : ((rs.ints.getD row 0 : Nat) : ℚ) ≤ 254 := by exact_mod_cast this
    unfold RawSat.range; rw [if_pos hne]
    have : ((rs.mods.getD row 0 : Nat) : ℚ) / 1024 < 1 := by rw [div_lt_one (by norm_num)]; exact q2
    constructor
    · linarith
    · positivity
  refine ⟨?_, ?_, ?_, ?_⟩
  · intro hr'
    have hv : rs.rangeValid row = false := by
      unfold RawSat.rangeValid
      by_contra hc
      have hne : rs.ints.getD row 0 ≠ 255 := by simpa using hc
      have := (hlt hne).1
      simp only [satOf] at hr'
      linarith
    simp [sigOf, hv]
  · intro hr'
    have hv : rs.rateValid ty row = false := by
      rcases hr' with hr' | rfl | rfl
      · unfold RawSat.rateValid
        simp only [satOf] at hr'
        have : rs.rates.getD row 0 = -8192 := by exact_mod_cast hr'
        rw [this]; simp
      · simp [RawSat.rateValid, MsmType.hasRates]
      · simp [RawSat.rateValid, MsmType.hasRates]
    simp [sigOf, hv]
  · simp only [satOf]
    by_cases hne : rs.ints.getD row 0 = 255
    · unfold RawSat.range; rw [if_neg (by simpa using hne)]; exact q1
    · linarith [(hlt hne).1]
  · simp only [satOf]
    by_cases hne : rs.ints.getD row 0 = 255
    · unfold RawSat.range; rw [if_neg (by simpa using hne)]; exact q3
    · exact (hlt hne).2

/-- **C12** Defect: an accepted message may announce more satellites than the 32 elements of the `sats` array of
`rtcm_msm_message` (here 64 satellites, one signal, no cells). -/
theorem C12_too_many_sats_bug : ∃ (p : Buf) (m : Msg), (decodeMsm .msm4).run p = .ok m ∧ 32 < m.sats.length := by
  let h : Header := ⟨1074, 0, 0, 0, 0, 0, 0, 0, 0, 0, List.replicate 64 true, true :: List.replicate 31 false, List.replicate 64 false⟩
  let m : Msg := ⟨h, List.replicate 64 ⟨0, 0, 0⟩, []⟩
  have hr : Reads (readMsmHeader 1074 .gps) (wbits ((wrMsmHeader .gps h).drop 1)) h := by
    simp only [h, wrMsmHeader, wrMsmTow, List.append_assoc, List.drop_succ_cons, List.drop_zero, List.cons_append, List.nil_append,
      wbits_append, wbits_cons, Wr.bits_u, readMsmHeader, readMsmTow, reduceCtorEq, if_false]
    iterate 9 refine Reads.bind (Reads.getU (by omega)) ?_
    refine Reads.bind (reads_mask _ (by simp)) ?_
    refine Reads.bind (reads_mask _ (by simp)) ?_
    refine Reads.bind_nil (reads_mask _ (by decide)) ?_
    exact Reads.pure _
  have hd : Reads (decodeMsm .msm4) (wbits (wrMsmHeader .gps h ++ (wrSatData .msm4 ((List.range 64).map m.sat) ++ wrSigData .msm4 m)))
      (assemble .msm4 .gps h (rawSat .msm4 64 m.sat) (rawSig .msm4 m)) := by
    have e : wbits (wrMsmHeader .gps h ++ (wrSatData .msm4 ((List.range 64).map m.sat) ++ wrSigData .msm4 m)) =
      toBits 12 1074 ++ (wbits ((wrMsmHeader .gps h).drop 1) ++ (wbits (wrSatData .msm4 ((List.range 64).map m.sat)) ++ wbits (wrSigData .msm4 m))) := by
      simp [wrMsmHeader, h]
    rw [e]
    unfold decodeMsm
    refine Reads.nil_bind (Reads.guard _ (by simp)) ?_
    refine Reads.bind (Reads.getU (by omega)) ?_
    refine Reads.nil_bind (Reads.guard _ (by decide)) ?_
    have ec : toConstellation 1074 = some .gps := by decide
    rw [ec]
    refine Reads.bind hr ?_
    refine Reads.nil_bind (Reads.guard _ (by simp [h])) ?_
    refine Reads.nil_bind (Reads.guard _ (by decide)) ?_
    refine Reads.bind (reads_satData (.inl rfl) _ _) ?_
    refine Reads.bind_nil (reads_sigData (.inl rfl) m) ?_
    exact Reads.pure _
  refine ⟨payloadOf (encodeWr (wrMsmHeader .gps h ++ (wrSatData .msm4 ((List.range 64).map m.sat) ++ wrSigData .msm4 m)) (List.replicate 1000 0)),
    _, run_encode _ (ok_msm .msm4 .gps m _) ?_ hd, ?_⟩
  · rw [List.length_replicate]
    have e1 : wlen (wrSatData .msm4 ((List.range 64).map m.sat)) = 64 * 18 := by
      simp only [wrSatData, wlen_append, reduceCtorEq, if_false]
      rw [wlen_map _ _ 8 (fun _ => rfl), wlen_map _ _ 10 (fun _ => rfl)]; simp
    have e2 : wlen (wrSigData .msm4 m) = 0 := by rfl
    have e3 : wlen (wrMsmHeader .gps h) = 233 := by decide +kernel
    rw [wlen_append, wlen_append, e1, e2, e3]; omega
  · simp [assemble, h]

/-- **C12** Defect: the cell mask is read before its size is checked: a header announcing 64 satellites and 3 signals
makes the reader store 192 flags in the 64-element `cell_mask` array. -/
theorem C12_cell_mask_overflow_bug : ∃ (bits : List Bool) (h : Header) (r : List Bool),
    readMsmHeader 1074 .gps bits = (.ok h, r) ∧ maxCells < h.cellMask.length := by
  let h : Header := ⟨1074, 0, 0, 0, 0, 0, 0, 0, 0, 0, List.replicate 64 true, [true, true, true] ++ List.replicate 29 false, List.replicate 192 false⟩
  have hr : Reads (readMsmHeader 1074 .gps) (wbits ((wrMsmHeader .gps h).drop 1)) h := by
    simp only [h, wrMsmHeader, wrMsmTow, List.append_assoc, List.drop_succ_cons, List.drop_zero, List.cons_append, List.nil_append,
      wbits_append, wbits_cons, Wr.bits_u, readMsmHeader, readMsmTow, reduceCtorEq, if_false]
    iterate 9 refine Reads.bind (Reads.getU (by omega)) ?_
    refine Reads.bind (reads_mask _ (by simp)) ?_
    refine Reads.bind (reads_mask _ (by simp)) ?_
    refine Reads.bind_nil (reads_mask _ (by decide +kernel)) ?_
    exact Reads.pure _
  exact ⟨_, h, _, hr [], by decide +kernel⟩

/-- **C13** Defect: a rough range within half a step (1/2048 ms) below a full millisecond comes back one millisecond
(300 km) short, for every such range in every message. -/
theorem C13_rough_range_bug (ty : MsmType) (cons : Cons) (m : Msg) (ht : ty = .msm4 ∨ ty = .msm5) (h : WFHeader ty cons m.header)
    (i : Nat) (hi : i < nSats m.header) (h0 : 0 ≤ (m.sat i).roughRangeMs) (h1 : (m.sat i).roughRangeMs < 255)
    (hf : 1023.5 / 1024 ≤ (m.sat i).roughRangeMs - ⌊(m.sat i).roughRangeMs⌋) (buf : Buf) (hb : 678 ≤ buf.length) :
    ∃ m', (decodeMsm ty).run (payloadOf (encodeMsm ty m buf)) = .ok m' ∧
      (m'.sat i).roughRangeMs ≤ (m.sat i).roughRangeMs - 1023.5 / 1024 := by
  refine ⟨_, run_msm ht h buf hb, ?_⟩
  rw [image_sat hi]
  have f0 : 0 ≤ ⌊(m.sat i).roughRangeMs⌋ := Int.floor_nonneg.mpr h0
  have f1 : ⌊(m.sat i).roughRangeMs⌋ < 255 := Int.floor_lt.mpr (by exact_mod_cast h1)
  have ei : (encInt (m.sat i) : ℚ) = ⌊(m.sat i).roughRangeMs⌋ ∧ encInt (m.sat i) < 255 := by
    unfold encInt
    rw [Int.emod_eq_of_lt f0 (by omega)]
    refine ⟨?_, by omega⟩
    have : ((⌊(m.sat i).roughRangeMs⌋.toNat : ℤ) : ℚ) = ⌊(m.sat i).roughRangeMs⌋ := by rw [Int.toNat_of_nonneg f0]
    exact_mod_cast this
  have fl := Int.lt_floor_add_one (m.sat i).roughRangeMs
  have em : encMod (m.sat i) = 1024 := by
    unfold encMod
    have : cround (1024 * ((m.sat i).roughRangeMs - encInt (m.sat i))) = 1024 := by
      rw [ei.1]
      set x := (m.sat i).roughRangeMs - ⌊(m.sat i).roughRangeMs⌋ with hx
      unfold cround
      rw [if_pos (by linarith)]
      rw [Int.floor_eq_iff]
      push_cast
      constructor <;> linarith
    rw [this]; rfl
  show (rawSat ty (nSats m.header) m.sat).range i ≤ _
  have e1 : (rawSat ty (nSats m.header) m.sat).ints.getD i 0 = encInt (m.sat i) := by
    unfold rawSat; simp only; rw [getD_range_map _ _ _ _ hi, Nat.mod_eq_of_lt (by omega)]
  have e2 : (rawSat ty (nSats m.header) m.sat).mods.getD i 0 = 0 := by
    unfold rawSat; simp only; rw [getD_range_map _ _ _ _ hi, em]; rfl
  unfold RawSat.range
  rw [e1, e2, if_pos (by omega), ei.1]
  push_cast
  linarith

/- a two-satellite, two-signal GPS MSM5 message with three cells, one of them invalid -/
example : WFMsg .msm5 .gps
    { header := { msgNum := 1075, stnId := 4095, towMs := 604799999, multiple := 1, iods := 7, reserved := 127, steering := 3,
                  extClock := 3, divFree := 1, smooth := 7,
                  satMask := (List.replicate 62 false) ++ [true, true], sigMask := [false, true] ++ List.replicate 29 false ++ [true],
                  cellMask := [true, false, true, true] }
      sats := [⟨3, 70.25, -800.5⟩, ⟨15, 254.9, 8191.9⟩]
      sigs := [⟨70.2504, 70.2501, 12, true, 45.2, -800.1, true, true, true, true, true⟩,
               ⟨254.9, 254.9, 0, false, 0.3, 8192, true, true, true, true, true⟩,
               ⟨0, 0, 0, false, 0, 0, false, false, false, false, false⟩] } := by
  refine ⟨.inr rfl, ?_, by decide, by decide, ?_, ?_⟩
  · constructor <;> decide
  · intro s hs
    simp only [List.mem_cons, List.not_mem_nil, or_false] at hs
    rcases hs with rfl | rfl <;> constructor <;> norm_num
  · intro s hs
    simp only [List.mem_cons, List.not_mem_nil, or_false] at hs
    rcases hs with rfl | rfl | rfl <;> constructor <;> norm_num

/- the hypothesis of `C13_rough_range_bug` -/
example : (1023.5 : ℚ) / 1024 ≤ 70.9999 - ⌊(70.9999 : ℚ)⌋ := by norm_num

/-! ### C15 (MSM part) -/

/-- **C15** An accepted MSM message carries a GLONASS time of day below one day, and any other constellation's time of week
strictly below one week. -/
theorem C15_msm_time_in_range (ty : MsmType) (p : Buf) (m : Msg) (h : (decodeMsm ty).run p = .ok m) :
    ∃ cons, toConstellation m.header.msgNum = some cons ∧
      (cons = .glo → m.header.towMs < 24 * 3600 * 1000) ∧ (cons ≠ .glo → m.header.towMs < 7 * 24 * 3600 * 1000) := by
  obtain ⟨r, hx⟩ := run_ok h
  obtain ⟨cons, hd, rs, rg, _, _, hc, _, ht, _, _, _, _, rfl⟩ := decodeMsm_inv hx
  refine ⟨cons, hc, ?_, ?_⟩
  · intro e; rw [if_pos e] at ht; simp only [gloMaxTowMs] at ht; show hd.towMs < _; omega
  · intro e; rw [if_neg e] at ht; simp only [maxTowMs] at ht; show hd.towMs < _; omega

end Verif.Msm
