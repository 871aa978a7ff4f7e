import Verif.Model.LegacyObs
import Verif.Spec.LegacyObs
import Verif.Lemmas.Msm
import Verif.Lemmas.LegacyNum
import Verif.Props.C16
import Verif.Props.C12_C13
/-!
C11: legacy observation messages survive encode/decode.   (C15: their epoch times.)
-/
namespace Verif.Obs
open Verif.Dec Verif.Lock Verif.Obs.Spec
open Verif.Msm (wrapS wrapS_id)

/-! ### Bits -/

/-- raw fields after transmission -/
def rawOf (k : Kind) (s : Sat) : Raw where
  svId := s.svId % 2 ^ 6
  code1 := 0
  fcn := if k.glo then s.fcn % 2 ^ 5 else 0
  pr1 := (if s.l1.vPr then u32 (modPr k s.l1.pr s.l1.pr) else 0xFFF80000) % 2 ^ k.prBits
  diff1 := wrapS 20 (if s.l1.vCp then encDiff (cpPr k s.l1 (k.f1 s.fcn) s.l1.pr) (k.f1 s.fcn) else -524288)
  lock1 := (if s.l1.vLock then toLockInd s.l1.lock else 0) % 2 ^ 7
  amb := if k.ext then amb k s.l1.pr % 2 ^ k.ambBits else 0
  cnr1 := if k.ext then encCnr s.l1.cnr % 2 ^ 8 else 0
  code2 := 0
  pr2 := if k.l2 then wrapS 14 (if s.l2.vPr then modPr k s.l1.pr s.l2.pr - modPr k s.l1.pr s.l1.pr else -8192) else 0
  diff2 := if k.l2 then wrapS 20 (if s.l2.vCp then encDiff (cpPr k s.l2 (k.f2 s.fcn) s.l1.pr) (k.f2 s.fcn) else -524288)
    else 0
  lock2 := if k.l2 then (if s.l2.vLock then toLockInd s.l2.lock else 0) % 2 ^ 7 else 0
  cnr2 := if k.l2 && k.ext then encCnr s.l2.cnr % 2 ^ 8 else 0

theorem reads_getSw (n : Nat) (i : Int) : Reads (getS n) (toBits n (u32 i)) (wrapS n i) := Reads.getS rfl

theorem reads_raw_aux (k : Kind) (sv fcn pr1 : Nat) (d1 : Int) (l1 am c1 : Nat) (p2 d2 : Int) (l2 c2 : Nat) :
    Reads (decodeRaw k) (wbits ([Wr.u 6 sv] ++ ([Wr.u 1 0] ++ (if k.glo then [Wr.u 5 fcn] else []) ++ [Wr.u k.prBits pr1]
        ++ [Wr.s 20 d1, Wr.u 7 l1])
      ++ (if k.ext then [Wr.u k.ambBits am, Wr.u 8 c1] else [])
      ++ (if k.l2 then ([Wr.u 2 0, Wr.s 14 p2] ++ [Wr.s 20 d2, Wr.u 7 l2]) ++ (if k.ext then [Wr.u 8 c2] else []) else [])))
    { svId := sv % 2 ^ 6, code1 := 0, fcn := if k.glo then fcn % 2 ^ 5 else 0, pr1 := pr1 % 2 ^ k.prBits, diff1 := wrapS 20 d1
      lock1 := l1 % 2 ^ 7, amb := if k.ext then am % 2 ^ k.ambBits else 0, cnr1 := if k.ext then c1 % 2 ^ 8 else 0
      code2 := 0, pr2 := if k.l2 then wrapS 14 p2 else 0, diff2 := if k.l2 then wrapS 20 d2 else 0
      lock2 := if k.l2 then l2 % 2 ^ 7 else 0, cnr2 := if k.l2 && k.ext then c2 % 2 ^ 8 else 0 } := by
  have z1 : Reads (getU 1) (toBits 1 0) 0 := Reads.getU (by decide)
  have z2 : Reads (getU 2) (toBits 2 0) 0 := Reads.getU (by decide)
  unfold decodeRaw
  cases k <;>
  simp only [Kind.glo, Kind.ext, Kind.l2, if_true, if_false, Bool.false_eq_true, List.append_nil, List.cons_append,
      List.nil_append, wbits_cons, wbits_nil, Wr.bits_u, Wr.bits_s, Bool.and_true, Bool.and_false]
  · refine Reads.bind (Reads.getU' _ _) ?_
    refine Reads.bind z1 ?_
    refine Reads.nil_bind (Reads.pure _) ?_
    refine Reads.bind (Reads.getU' _ _) ?_
    refine Reads.bind (reads_getSw _ _) ?_
    refine Reads.bind_nil (Reads.getU' _ _) ?_
    refine Reads.nil_bind (Reads.pure _) ?_
    refine Reads.nil_bind (Reads.pure _) ?_
    refine Reads.nil_bind (Reads.pure _) ?_
    refine Reads.nil_bind (Reads.pure _) ?_
    refine Reads.nil_bind (Reads.pure _) ?_
    refine Reads.nil_bind (Reads.pure _) ?_
    refine Reads.nil_bind (Reads.pure _) ?_
    exact Reads.pure _
  · refine Reads.bind (Reads.getU' _ _) ?_
    refine Reads.bind z1 ?_
    refine Reads.nil_bind (Reads.pure _) ?_
    refine Reads.bind (Reads.getU' _ _) ?_
    refine Reads.bind (reads_getSw _ _) ?_
    refine Reads.bind (Reads.getU' _ _) ?_
    refine Reads.bind (Reads.getU' _ _) ?_
    refine Reads.bind_nil (Reads.getU' _ _) ?_
    refine Reads.nil_bind (Reads.pure _) ?_
    refine Reads.nil_bind (Reads.pure _) ?_
    refine Reads.nil_bind (Reads.pure _) ?_
    refine Reads.nil_bind (Reads.pure _) ?_
    refine Reads.nil_bind (Reads.pure _) ?_
    exact Reads.pure _
  · refine Reads.bind (Reads.getU' _ _) ?_
    refine Reads.bind z1 ?_
    refine Reads.nil_bind (Reads.pure _) ?_
    refine Reads.bind (Reads.getU' _ _) ?_
    refine Reads.bind (reads_getSw _ _) ?_
    refine Reads.bind (Reads.getU' _ _) ?_
    refine Reads.nil_bind (Reads.pure _) ?_
    refine Reads.nil_bind (Reads.pure _) ?_
    refine Reads.bind z2 ?_
    refine Reads.bind (reads_getSw _ _) ?_
    refine Reads.bind (reads_getSw _ _) ?_
    refine Reads.bind_nil (Reads.getU' _ _) ?_
    refine Reads.nil_bind (Reads.pure _) ?_
    exact Reads.pure _
  · refine Reads.bind (Reads.getU' _ _) ?_
    refine Reads.bind z1 ?_
    refine Reads.nil_bind (Reads.pure _) ?_
    refine Reads.bind (Reads.getU' _ _) ?_
    refine Reads.bind (reads_getSw _ _) ?_
    refine Reads.bind (Reads.getU' _ _) ?_
    refine Reads.bind (Reads.getU' _ _) ?_
    refine Reads.bind (Reads.getU' _ _) ?_
    refine Reads.bind z2 ?_
    refine Reads.bind (reads_getSw _ _) ?_
    refine Reads.bind (reads_getSw _ _) ?_
    refine Reads.bind (Reads.getU' _ _) ?_
    refine Reads.bind_nil (Reads.getU' _ _) ?_
    exact Reads.pure _
  · refine Reads.bind (Reads.getU' _ _) ?_
    refine Reads.bind z1 ?_
    refine Reads.bind (Reads.getU' _ _) ?_
    refine Reads.bind (Reads.getU' _ _) ?_
    refine Reads.bind (reads_getSw _ _) ?_
    refine Reads.bind (Reads.getU' _ _) ?_
    refine Reads.bind (Reads.getU' _ _) ?_
    refine Reads.bind_nil (Reads.getU' _ _) ?_
    refine Reads.nil_bind (Reads.pure _) ?_
    refine Reads.nil_bind (Reads.pure _) ?_
    refine Reads.nil_bind (Reads.pure _) ?_
    refine Reads.nil_bind (Reads.pure _) ?_
    refine Reads.nil_bind (Reads.pure _) ?_
    exact Reads.pure _
  · refine Reads.bind (Reads.getU' _ _) ?_
    refine Reads.bind z1 ?_
    refine Reads.bind (Reads.getU' _ _) ?_
    refine Reads.bind (Reads.getU' _ _) ?_
    refine Reads.bind (reads_getSw _ _) ?_
    refine Reads.bind (Reads.getU' _ _) ?_
    refine Reads.bind (Reads.getU' _ _) ?_
    refine Reads.bind (Reads.getU' _ _) ?_
    refine Reads.bind z2 ?_
    refine Reads.bind (reads_getSw _ _) ?_
    refine Reads.bind (reads_getSw _ _) ?_
    refine Reads.bind (Reads.getU' _ _) ?_
    refine Reads.bind_nil (Reads.getU' _ _) ?_
    exact Reads.pure _

theorem reads_raw (k : Kind) (s : Sat) : Reads (decodeRaw k) (wbits (wrSat k s)) (rawOf k s) :=
  reads_raw_aux k s.svId s.fcn _ _ _ _ _ _ _ _ _

theorem reads_sat (k : Kind) (s : Sat) : Reads (decodeSat k) (wbits (wrSat k s)) (mkSat k (rawOf k s)) :=
  Reads.bind_nil (reads_raw k s) (Reads.pure _)

theorem wbits_flatMap {γ : Type} (l : List γ) (f : γ → List Wr) : wbits (l.flatMap f) = l.flatMap fun x => wbits (f x) := by
  simp [wbits, List.flatMap_assoc]

/-- the decoded header: number of satellites as transmitted -/
def sameHeader (k : Kind) (m : Msg) : Header := { m.header with nSat := (sent k m).length }

theorem reads_msg (k : Kind) (m : Msg) (h : WFHeader k m.header) (hn : (sent k m).length < 32) :
    Reads (decode k) (wbits (wrHeader k m.header (sent k m).length ++ (sent k m).flatMap (wrSat k)))
      { header := sameHeader k m, sats := (sent k m).map fun s => mkSat k (rawOf k s) } := by
  rw [wbits_append, wbits_flatMap]
  unfold decode
  obtain ⟨h1, h2, h3, h4, h5, h6⟩ := h
  have e : Reads (readHeader k) (wbits (wrHeader k m.header (sent k m).length)) (sameHeader k m) := by
    unfold readHeader wrHeader
    simp only [wbits_cons, wbits_nil, Wr.bits_u, List.append_nil]
    have hnum : m.header.msgNum < 2 ^ 12 := by rw [h1]; cases k <;> decide
    refine Reads.bind (Reads.getU hnum) ?_
    refine Reads.bind (Reads.getU h2) ?_
    refine Reads.bind (Reads.getU (by unfold Kind.maxTow at h3; split <;> simp_all <;> omega)) ?_
    refine Reads.bind (Reads.getU (by omega)) ?_
    refine Reads.bind (Reads.getU (by omega)) ?_
    refine Reads.bind (Reads.getU (by omega)) ?_
    refine Reads.bind_nil (Reads.getU h6) ?_
    exact Reads.pure _
  refine Reads.bind e ?_
  refine Reads.nil_bind (Reads.guard _ h1) ?_
  refine Reads.nil_bind (Reads.guard _ (Nat.not_lt.mpr h3)) ?_
  refine Reads.bind_nil (Reads.many (d := decodeSat k) (fun s => wbits (wrSat k s)) (fun s => mkSat k (rawOf k s)) (sent k m)
    (fun s _ => reads_sat k s)) ?_
  exact Reads.pure _

theorem ok_sat (k : Kind) (s : Sat) : ∀ w ∈ wrSat k s, w.ok := by
  unfold wrSat wrL1 wrL2 wrPhaseLock
  cases k <;> simp [Kind.glo, Kind.ext, Kind.l2, Kind.prBits, Kind.ambBits]
theorem wlen_sat (k : Kind) (s : Sat) : wlen (wrSat k s) ≤ 130 := by
  unfold wrSat wrL1 wrL2 wrPhaseLock
  cases k <;> simp [Kind.glo, Kind.ext, Kind.l2, Kind.prBits, Kind.ambBits]
theorem ok_header (k : Kind) (h : Header) (n : Nat) : ∀ w ∈ wrHeader k h n, w.ok := by
  unfold wrHeader; cases k <;> simp [Kind.glo]
theorem wlen_header (k : Kind) (h : Header) (n : Nat) : wlen (wrHeader k h n) = k.hdrBits := by
  unfold wrHeader Kind.hdrBits; cases k <;> simp [Kind.glo]

theorem wlen_flatMap_le {γ : Type} (l : List γ) (f : γ → List Wr) (n : Nat) (h : ∀ x, wlen (f x) ≤ n) :
    wlen (l.flatMap f) ≤ l.length * n := by
  induction l with
  | nil => simp
  | cons x l ih => simp only [List.flatMap_cons, wlen_append, List.length_cons, Nat.succ_mul]; have := h x; omega

theorem splice_before {α} (l x y : List α) (h : x.length + y.length ≤ l.length) :
    splice (splice l x.length y) 0 x = splice l 0 (x ++ y) := by
  unfold splice
  simp only [List.take_zero, List.nil_append, Nat.zero_add, List.length_append]
  rw [List.append_assoc (List.take _ _), List.drop_append, List.drop_of_length_le (by simp)]
  simp [Nat.min_eq_left (show x.length ≤ l.length by omega)]

theorem encode_splice (k : Kind) (m : Msg) (buf : Buf) (hb : 528 ≤ buf.length) :
    bitsOf (encode k m buf).1 = splice (bitsOf buf) 0 (wbits (wrHeader k m.header (sent k m).length ++ (sent k m).flatMap (wrSat k))) ∧
    (encode k m buf).2 = ((wbits (wrHeader k m.header (sent k m).length ++ (sent k m).flatMap (wrSat k))).length + 7) / 8 ∧
    (encode k m buf).2 ≤ buf.length := by
  have hsent : (sent k m).length ≤ 32 := by unfold sent; rw [List.length_take]; omega
  have hl := wlen_flatMap_le (sent k m) (wrSat k) 130 (wlen_sat k)
  have hh : k.hdrBits ≤ 64 := by unfold Kind.hdrBits; split <;> omega
  have hw := wlen_header k m.header (sent k m).length
  have okb : ∀ w ∈ (sent k m).flatMap (wrSat k), w.ok := by
    intro w hw
    obtain ⟨s, _, hs⟩ := List.mem_flatMap.mp hw
    exact ok_sat k s w hs
  refine ⟨?_, ?_, ?_⟩
  · unfold encode
    simp only
    rw [bitsOf_exec _ _ _ (ok_header k _ _) (by rw [exec_length]; omega), bitsOf_exec _ _ _ okb (by omega), wbits_append]
    have hx : (wbits (wrHeader k m.header (sent k m).length)).length = k.hdrBits := by rw [wbits_length]; exact hw
    rw [← hx]
    exact splice_before _ _ _ (by rw [wbits_length, wbits_length, bitsOf_length]; omega)
  · unfold encode
    simp only
    rw [exec_pos, wbits_length, wlen_append, hw]
  · unfold encode
    simp only
    rw [exec_pos]; omega

theorem run_msg (k : Kind) (m : Msg) (h : WFHeader k m.header) (hn : (sent k m).length < 32) (buf : Buf) (hb : 528 ≤ buf.length) :
    (decode k).run (payloadOf (encode k m buf)) =
      .ok { header := sameHeader k m, sats := (sent k m).map fun s => mkSat k (rawOf k s) } := by
  obtain ⟨h1, h2, h3⟩ := encode_splice k m buf hb
  exact run_of_splice h1 h2 h3 (reads_msg k m h hn)

/-! ### Values -/

theorem u32_nonneg {i : Int} (h0 : 0 ≤ i) (h1 : i < 2 ^ 32) : (u32 i : Int) = i := by unfold u32; omega

theorem wrap20 {i : Int} (h1 : -524288 ≤ i) (h2 : i ≤ 524288) : wrapS 20 i = if i = 524288 then -524288 else i := by
  split
  · subst i; decide
  · exact wrapS_id (by omega) (by omega) (by omega) (by omega)

/-- one carrier: sent with `encDiff`, rebuilt with `phase` from the decoder's L1 pseudorange `lb`; the encoder used `l1` -/
theorem phase_ok (a b : Freq) (freq C l1 lb off : ℚ) (hf : Carrier freq)
    (hl : |lb - (l1 - off)| ≤ 1 / 4194304) (hlb : |lb| ≤ 78000000)
    (hd : a.vCp = true → |a.cp * (gpsC / freq) - l1| ≤ 1000001)
    (hC : a.vCp = true → |C * (gpsC / freq) - (a.cp * (gpsC / freq) - l1)| ≤ 1 / 10000000)
    (hcp : b.cp = phase lb (wrapS 20 (if a.vCp then encDiff C freq else -524288)) freq)
    (hv : b.vCp = phaseValid (wrapS 20 (if a.vCp then encDiff C freq else -524288))) :
    PhaseOk (lam freq) (lb + off) off a b := by
  rw [show lam freq = gpsC / freq from rfl]
  by_cases hav : a.vCp = true
  · rw [if_pos hav] at hv hcp
    have hC := hC hav
    have hd := hd hav
    rw [close] at hC hl
    rw [within] at hd
    obtain ⟨⟨r1, r2⟩, ⟨n, hn⟩, hz⟩ := encDiff_spec hf (c := C) (by rw [within]; constructor <;> linarith [hC.1, hC.2, hd.1, hd.2])
    set w := gpsC / freq with hw
    set D := encDiff C freq with hD
    have hDq : |(D : ℚ)| ≤ 524288 := by
      rw [within]; constructor
      · exact_mod_cast r1
      · exact_mod_cast r2
    have hp := phase_near hf (l := lb) (d := D) hlb hDq
    rw [← hw, close] at hp
    rw [wrap20 r1 r2] at hv hcp
    constructor
    · intro hb
      rw [hb] at hv
      unfold phaseValid at hv
      have hv' := of_decide_eq_true hv.symm
      by_cases hD2 : D = 524288
      · rw [if_pos hD2] at hv'; exact absurd rfl hv'
      · rw [if_neg hD2] at hcp
        refine ⟨hav, n, ?_⟩
        rw [← hcp] at hp
        rw [add_mul, close] at hn
        rw [within]
        unfold tiny
        constructor <;> linarith [hp.1, hp.2, hn.1, hn.2, hl.1, hl.2, hC.1, hC.2]
    · intro _ hclose
      rw [abs_lt] at hclose
      have hc : |C * w| < 262 + 1 / 100 := by
        rw [abs_lt]; constructor <;> linarith [hclose.1, hclose.2, hl.1, hl.2, hC.1, hC.2]
      obtain ⟨z1, z2, z3⟩ := hz hc
      rw [if_neg (by omega)] at hv hcp
      refine ⟨by rw [hv]; unfold phaseValid; rw [decide_eq_true_iff]; omega, ?_⟩
      rw [← hcp] at hp
      rw [close] at z1
      rw [within]
      unfold tiny
      constructor <;> linarith [hp.1, hp.2, z1.1, z1.2, hl.1, hl.2, hC.1, hC.2]
  · rw [if_neg hav] at hv
    constructor
    · intro hb
      rw [hb] at hv
      exact absurd hv.symm (by decide)
    · intro h; exact absurd h hav

theorem lock_ok (a b : Freq) (h0 : a.vLock → 0 ≤ a.lock) (hflag : b.vLock = b.vCp)
    (hl : b.lock = (fromLockInd ((if a.vLock then toLockInd a.lock else 0) % 2 ^ 7) : ℚ)) : LockOk a b := by
  refine ⟨hflag, ?_, ?_, ?_⟩
  · intro hv
    obtain ⟨c1, c2⟩ := C16_legacy_never_overstates a.lock (h0 hv)
    rw [hl, if_pos hv, Nat.mod_eq_of_lt (by omega)]; exact c2
  · intro hv hlt
    obtain ⟨c1, c2⟩ := C16_legacy_never_overstates a.lock (h0 hv)
    rw [hl, if_pos hv, Nat.mod_eq_of_lt (by omega)]; exact C16_legacy_tight _ (h0 hv) hlt
  · intro hv
    rw [hl, if_neg (by simp [hv])]; norm_num [fromLockInd]

theorem cnr_ok (a b : Freq) (ext : Bool) (h : ext = true → 0 ≤ a.cnr ∧ a.cnr < 63.875) (h0 : a.vCnr = false → a.cnr = 0)
    (hc : b.cnr = ((if ext then encCnr a.cnr % 2 ^ 8 else 0 : Nat) : ℚ) / 4)
    (hv : b.vCnr = decide ((if ext then encCnr a.cnr % 2 ^ 8 else 0) ≠ 0)) : CnrOk ext a b := by
  cases ext with
  | false =>
    constructor
    · intro hb; rw [hb] at hv; simp at hv
    · intro hc; simp at hc
  | true =>
    simp only [if_true] at hc hv
    obtain ⟨l1, l2⟩ := h rfl
    have hb := cround_bounds (a.cnr * 4)
    have n0 : 0 ≤ cround (a.cnr * 4) := cround_nonneg (by linarith)
    have n1 : cround (a.cnr * 4) < 256 := by
      have : (cround (a.cnr * 4) : ℚ) < 256 := by linarith [hb.2]
      exact_mod_cast this
    have em : encCnr a.cnr % 2 ^ 8 = encCnr a.cnr := Nat.mod_eq_of_lt (by unfold encCnr; omega)
    have eq : (encCnr a.cnr : ℚ) = cround (a.cnr * 4) := by
      unfold encCnr
      have : (((cround (a.cnr * 4)).toNat : ℤ) : ℚ) = cround (a.cnr * 4) := by rw [Int.toNat_of_nonneg n0]
      exact_mod_cast this
    rw [em] at hc hv
    constructor
    · intro hbv
      rw [hbv] at hv
      have hne : encCnr a.cnr ≠ 0 := of_decide_eq_true hv.symm
      refine ⟨rfl, ?_, ?_⟩
      · by_contra hc'
        have := h0 (by simpa using hc')
        apply hne
        unfold encCnr; rw [this]
        have : cround (0 * 4) = 0 := by simpa using cround_int 0
        rw [this]; rfl
      · rw [hc, eq, abs_le]; constructor <;> linarith [hb.1, hb.2]
    · intro _ _ hge
      rw [hv, decide_eq_true_iff]
      intro hz
      have : 1 ≤ cround (a.cnr * 4) := by
        unfold cround
        rw [if_pos (by linarith)]
        exact Int.le_floor.mpr (by push_cast; linarith)
      unfold encCnr at hz
      omega

/-- the encoder's and the decoder's L1 pseudorange -/
theorem l1_near (k : Kind) {pr : ℚ} (h0 : 0 ≤ pr) (h1 : pr < 76746869) :
    |l1Prc k pr - pr| ≤ 1 / 100 + 1 / 2000000 ∧
    |l1Prc k pr - ((modPr k pr pr : ℚ) / 50 + (amb k pr : ℚ) * k.unit)| ≤ 1 / 8388608 ∧
    |l1Code (modPr k pr pr).toNat (ambM k (if k.ext then amb k pr else 0)) -
      ((modPr k pr pr : ℚ) / 50 + (if k.ext then (amb k pr : ℚ) * k.unit else 0))| ≤ 1 / 8388608 := by
  obtain ⟨a1, a2, a3⟩ := amb_near k h0 h1
  obtain ⟨u0, u1⟩ := unit_le k
  obtain ⟨R0, R1⟩ := modPr_self k h0 h1
  have hn0 : (0 : ℚ) ≤ (amb k pr : ℚ) * k.unit := mul_nonneg (Nat.cast_nonneg _) (by linarith)
  have hn : (amb k pr : ℚ) ≤ 256 := by
    have : amb k pr < 256 := lt_of_lt_of_le a3 (by cases k <;> decide)
    exact_mod_cast this.le
  have hA := ambM_near k (n := amb k pr) (by linarith) (by linarith)
  have hm : |(modPr k pr pr : ℚ)| ≤ 33554432 := by
    have hp25 : (2 : Int) ^ k.prBits ≤ 33554432 := by cases k <;> decide
    have : modPr k pr pr ≤ 33554432 := by omega
    rw [abs_of_nonneg (by exact_mod_cast R0)]
    exact_mod_cast this
  have hN : |(amb k pr : ℚ) * k.unit| ≤ 77600000 := by rw [within]; constructor <;> linarith
  have e1 := code_near hm hN (by norm_num) hA
  have e3 := modPr_near k h0 h1 (x := pr) (by simp)
  have e2 : |l1Prc k pr - ((modPr k pr pr : ℚ) / 50 + (amb k pr : ℚ) * k.unit)| ≤ 1 / 8388608 := by
    unfold l1Prc
    rw [mul_comm _ c002]
    linarith
  refine ⟨?_, e2, ?_⟩
  · rw [close] at e2 e3 ⊢
    constructor <;> linarith [e2.1, e2.2, e3.1, e3.2]
  · unfold l1Code
    have et : (((modPr k pr pr).toNat : ℕ) : ℚ) = (modPr k pr pr : ℚ) := by
      have : (((modPr k pr pr).toNat : ℤ) : ℚ) = modPr k pr pr := by rw [Int.toNat_of_nonneg R0]
      exact_mod_cast this
    rw [et]
    split
    · linarith
    · have hz : |ambM k 0 - 0| ≤ 1 / 16777216 := by
        have := ambM_near k (n := 0) (by norm_num) (by norm_num)
        simpa using this
      have := code_near hm (N := 0) (by norm_num) (by norm_num) hz
      linarith

theorem sat_ok (k : Kind) (s : Sat) (h : WFSat k s) (hc : Carried k s = true) :
    ∃ c, SatOk k c s (mkSat k (rawOf k s)) := by
  have hv1 : s.l1.vPr = true := by unfold Carried at hc; simp only [Bool.and_eq_true] at hc; exact hc.1.1
  obtain ⟨am1, am2, hamlt⟩ := amb_near k h.pr0 h.pr1
  obtain ⟨u0, u1⟩ := unit_le k
  obtain ⟨R0, R1⟩ := modPr_self k h.pr0 h.pr1
  obtain ⟨L1, L2, L3⟩ := l1_near k h.pr0 h.pr1
  have hpb : k.prBits ≤ 25 := by cases k <;> decide
  have hp25 : (2 : Int) ^ k.prBits ≤ 2 ^ 25 := by cases k <;> decide
  have eu : (u32 (modPr k s.l1.pr s.l1.pr) : Int) = modPr k s.l1.pr s.l1.pr := u32_nonneg R0 (by omega)
  have epr : (rawOf k s).pr1 = (modPr k s.l1.pr s.l1.pr).toNat := by
    have e1 : (rawOf k s).pr1 = u32 (modPr k s.l1.pr s.l1.pr) := by
      unfold rawOf; simp only; rw [if_pos hv1]
      apply Nat.mod_eq_of_lt
      have : ((u32 (modPr k s.l1.pr s.l1.pr) : ℕ) : ℤ) < ((2 ^ k.prBits : ℕ) : ℤ) := by push_cast; rw [eu]; exact R1
      exact_mod_cast this
    rw [e1]; omega
  have efcn : (rawOf k s).fcn = s.fcn := by
    unfold rawOf; simp only
    by_cases hg : k.glo = true
    · rw [if_pos hg, Nat.mod_eq_of_lt (by have := h.fcn; omega)]
    · rw [if_neg hg, h.fcnGps (by simpa using hg)]
  have eamb : (rawOf k s).amb = if k.ext then amb k s.l1.pr else 0 := by
    unfold rawOf; simp only; split
    · exact Nat.mod_eq_of_lt hamlt
    · rfl
  set lb := l1Code (rawOf k s).pr1 (ambM k (rawOf k s).amb) with elb
  have el1pr : (mkSat k (rawOf k s)).l1.pr = lb := rfl
  rw [← epr, ← eamb, ← elb] at L3
  set N := (amb k s.l1.pr : ℚ) * k.unit with hNdef
  set off : ℚ := if k.ext then 0 else N with hoff
  have hN0 : 0 ≤ N := mul_nonneg (Nat.cast_nonneg _) (by linarith)
  have eNo : (if k.ext then N else 0) = N - off := by rw [hoff]; split <;> ring
  have ho0 : 0 ≤ off := by rw [hoff]; split <;> linarith
  have ho1 : off ≤ N := by rw [hoff]; split <;> linarith
  rw [eNo] at L3
  set M := (modPr k s.l1.pr s.l1.pr : ℚ) with hM
  set L := l1Prc k s.l1.pr with hL
  have hnear := modPr_near k h.pr0 h.pr1 (x := s.l1.pr) (by simp)
  rw [← hM, ← hNdef] at hnear
  have hnear' := hnear
  have L3' := L3
  rw [close] at L1 L2 L3 hnear
  have hlbL : |lb - (L - off)| ≤ 1 / 4194304 := by
    rw [close]; constructor <;> linarith [L2.1, L2.2, L3.1, L3.2]
  have hp0 := h.pr0
  have hp1 := h.pr1
  have eN1 : ((amb k s.l1.pr : ℚ) + 1) * k.unit = N + k.unit := by rw [hNdef]; ring
  rw [eN1] at am2
  have hlb : |lb| ≤ 78000000 := by
    rw [within]; constructor <;> linarith [L3.1, L3.2, hnear.1, hnear.2]
  have hLm : |L| ≤ 78000000 := by rw [within]; constructor <;> linarith [L1.1, L1.2]
  have hcut : IsCut k s.l1.pr off := by
    unfold IsCut
    by_cases he : k.ext = true
    · rw [if_pos he, hoff, if_pos he]
    · rw [if_neg he, hoff, if_neg he]
      refine ⟨amb k s.l1.pr, rfl, ?_, ?_⟩ <;> unfold tiny <;> linarith
  have hfcn : (!k.glo || decide ((rawOf k s).fcn ≤ 20)) = true := by rw [efcn]; simp [h.fcn]
  -- the phases
  have hdif : ∀ {f : Freq} {freq : ℚ}, |f.cp * lam freq - s.l1.pr| < 1000000 → |f.cp * (gpsC / freq) - L| ≤ 1000001 := by
    intro f freq hf
    rw [show lam freq = gpsC / freq from rfl, abs_lt] at hf
    rw [within]; constructor <;> linarith [hf.1, hf.2, L1.1, L1.2]
  have hcode2 : (mkSat k (rawOf k s)).l2.code = 0 := by
    show (if k.l2 then mkL2 k (rawOf k s) else {}).code = 0
    split <;> rfl
  refine ⟨off, ?_, efcn, fun _ => rfl, fun _ => hcode2, hcut, ?_, ?_, ?_, ?_, ?_, ?_, ?_, ?_, ?_, ?_, ?_⟩
  · show (rawOf k s).svId = s.svId
    exact Nat.mod_eq_of_lt h.svId
  · show l1CodeValid (rawOf k s).pr1 = true
    unfold l1CodeValid; rw [decide_eq_true_iff]; omega
  · rw [el1pr, within]; unfold tiny
    constructor <;> linarith [L3.1, L3.2, hnear.1, hnear.2]
  · rw [el1pr]
    refine phase_ok _ _ _ (cpPr k s.l1 (k.f1 s.fcn) s.l1.pr) L lb off (f1_ok k h.fcn) hlbL hlb (fun _ => hdif h.cp1)
      (fun _ => diff_near (f1_ok k h.fcn) hLm (hdif h.cp1)) ?_ ?_
    · show (if (!k.glo || decide ((rawOf k s).fcn ≤ 20)) = true then _ else _) = _
      rw [if_pos hfcn, ← elb, efcn]; rfl
    · show ((!k.glo || decide ((rawOf k s).fcn ≤ 20)) && phaseValid (rawOf k s).diff1) = _
      rw [hfcn, Bool.true_and]; rfl
  · exact lock_ok _ _ h.lock1 rfl rfl
  · refine cnr_ok _ _ _ (fun _ => h.cnr1) h.cnr1v rfl rfl
  · show (if k.l2 then mkL2 k (rawOf k s) else {}).vPr = _
    cases hl2 : k.l2 with
    | false => simp
    | true =>
      simp only [if_true, Bool.true_and]
      show decide ((rawOf k s).pr2 ≠ -8192) = _
      unfold rawOf; simp only [hl2, if_true]
      cases hv : s.l2.vPr with
      | false => simp; decide
      | true =>
        simp only [if_true]
        have hd := h.pr2 hl2 hv
        have b1 := modPr_near k h.pr0 h.pr1 (x := s.l2.pr) (by linarith)
        rw [← hNdef, close] at b1
        rw [within] at hd
        have hb1 : (-8192 : ℚ) < ((modPr k s.l1.pr s.l2.pr - modPr k s.l1.pr s.l1.pr : ℤ) : ℚ) := by
          push_cast; linarith [hd.1, hd.2, b1.1, b1.2, hnear.1, hnear.2]
        have hb2 : ((modPr k s.l1.pr s.l2.pr - modPr k s.l1.pr s.l1.pr : ℤ) : ℚ) < 8192 := by
          push_cast; linarith [hd.1, hd.2, b1.1, b1.2, hnear.1, hnear.2]
        have hb1' : (-8192 : ℤ) < modPr k s.l1.pr s.l2.pr - modPr k s.l1.pr s.l1.pr := by exact_mod_cast hb1
        have hb2' : modPr k s.l1.pr s.l2.pr - modPr k s.l1.pr s.l1.pr < (8192 : ℤ) := by exact_mod_cast hb2
        rw [wrapS_id (by omega) (by omega) (by omega) (by omega), decide_eq_true_iff]; omega
  · show (if k.l2 then mkL2 k (rawOf k s) else {}).vPr = true → |(if k.l2 then mkL2 k (rawOf k s) else {}).pr - _| ≤ _
    cases hl2 : k.l2 with
    | false => simp
    | true =>
      simp only [if_true]
      intro hb
      have hb : decide ((rawOf k s).pr2 ≠ -8192) = true := hb
      show |Fp.f64 (Fp.f64 (c002 * ((rawOf k s).pr2 : ℚ)) + lb) - _| ≤ _
      cases hv : s.l2.vPr with
      | false =>
        exfalso
        have : (rawOf k s).pr2 = -8192 := by unfold rawOf; simp only [hl2, hv, if_true, Bool.false_eq_true, if_false]; decide
        rw [this] at hb; simp at hb
      | true =>
        have hd := h.pr2 hl2 hv
        have b1 := modPr_near k h.pr0 h.pr1 (x := s.l2.pr) (by linarith)
        rw [← hNdef, close] at b1
        rw [within] at hd
        have hb1 : (-8192 : ℚ) < ((modPr k s.l1.pr s.l2.pr - modPr k s.l1.pr s.l1.pr : ℤ) : ℚ) := by
          push_cast; linarith [hd.1, hd.2, b1.1, b1.2, hnear.1, hnear.2]
        have hb2 : ((modPr k s.l1.pr s.l2.pr - modPr k s.l1.pr s.l1.pr : ℤ) : ℚ) < 8192 := by
          push_cast; linarith [hd.1, hd.2, b1.1, b1.2, hnear.1, hnear.2]
        have hb1' : (-8192 : ℤ) < modPr k s.l1.pr s.l2.pr - modPr k s.l1.pr s.l1.pr := by exact_mod_cast hb1
        have hb2' : modPr k s.l1.pr s.l2.pr - modPr k s.l1.pr s.l1.pr < (8192 : ℤ) := by exact_mod_cast hb2
        have e2 : (rawOf k s).pr2 = modPr k s.l1.pr s.l2.pr - modPr k s.l1.pr s.l1.pr := by
          unfold rawOf; simp only [hl2, hv, if_true]
          exact wrapS_id (by omega) (by omega) (by omega) (by omega)
        rw [e2]
        have hq : |((modPr k s.l1.pr s.l2.pr - modPr k s.l1.pr s.l1.pr : ℤ) : ℚ)| ≤ 33554432 := by
          rw [within]; constructor <;> linarith
        have e5 := code_near hq (N := M / 50 + (N - off)) (A := lb)
          (by rw [within]; constructor <;> linarith [hnear.1, hnear.2]) (by norm_num) L3'
        rw [close] at e5
        push_cast at e5 ⊢
        rw [within]; unfold tiny
        constructor <;> linarith [e5.1, e5.2, b1.1, b1.2, hnear.1, hnear.2]
  · intro hl2
    have e : (mkSat k (rawOf k s)).l2 = mkL2 k (rawOf k s) := by show (if k.l2 then _ else _) = _; rw [if_pos hl2]
    rw [el1pr, e]
    refine phase_ok _ _ _ (cpPr k s.l2 (k.f2 s.fcn) s.l1.pr) L lb off (f2_ok k h.fcn) hlbL hlb (fun hv => hdif (h.cp2 hl2 hv))
      (fun hv => diff_near (f2_ok k h.fcn) hLm (hdif (h.cp2 hl2 hv))) ?_ ?_
    · show phase lb (rawOf k s).diff2 (k.f2 (rawOf k s).fcn) = _
      rw [efcn]; congr 1; unfold rawOf; simp only [hl2, if_true]
    · show phaseValid (rawOf k s).diff2 = _
      unfold rawOf; simp only [hl2, if_true]
  · intro hl2
    show (if k.l2 then mkL2 k (rawOf k s) else {}).vCp = false
    rw [hl2]; rfl
  · intro hl2
    have e : (mkSat k (rawOf k s)).l2 = mkL2 k (rawOf k s) := by show (if k.l2 then _ else _) = _; rw [if_pos hl2]
    rw [e]
    refine lock_ok _ _ (h.lock2 hl2) rfl ?_
    show (fromLockInd (rawOf k s).lock2 : ℚ) = _
    unfold rawOf; simp only [hl2, if_true]
  · cases hl2 : k.l2 with
    | false =>
      refine ⟨?_, by simp⟩
      intro hb
      have e : (mkSat k (rawOf k s)).l2 = {} := by show (if k.l2 then _ else _) = _; rw [hl2]; rfl
      rw [e] at hb; simp at hb
    | true =>
      have e : (mkSat k (rawOf k s)).l2 = mkL2 k (rawOf k s) := by show (if k.l2 then _ else _) = _; rw [if_pos hl2]
      rw [e, Bool.true_and]
      refine cnr_ok _ _ _ (fun _ => h.cnr2 hl2) h.cnr2v ?_ ?_
      · show ((rawOf k s).cnr2 : ℚ) / 4 = _
        unfold rawOf; simp only [hl2, Bool.true_and]
      · show decide ((rawOf k s).cnr2 ≠ 0) = _
        unfold rawOf; simp only [hl2, Bool.true_and]


/-! ### Main theorems -/

/-- **C11** A legacy observation message whose values fit and of which at most 31 satellites can be carried is accepted by the
decoder: same header (with the number of satellites actually carried), and the carried satellites, in order, each within
the field resolution. -/
theorem C11_obs_roundtrip_partial (k : Kind) (m : Msg) (buf : Buf) (hb : 528 ≤ buf.length)
    (h : WFHeader k m.header) (hn : m.header.nSat = m.sats.length)
    (hs : ∀ s ∈ m.sats, WFSat k s) (h31 : (m.sats.filter (Carried k)).length ≤ 31) :
    ∃ m', (decode k).run (payloadOf (encode k m buf)) = .ok m' ∧
      m'.header = { m.header with nSat := (m.sats.filter (Carried k)).length } ∧
      List.Forall₂ (fun a b => ∃ c, SatOk k c a b) (m.sats.filter (Carried k)) m'.sats := by
  have e : sent k m = m.sats.filter (Carried k) := by
    unfold sent
    rw [hn, List.take_length]
    exact List.take_of_length_le (by show (m.sats.filter (Carried k)).length ≤ 32; omega)
  refine ⟨_, run_msg k m h (by rw [e]; omega) buf hb, ?_, ?_⟩
  · show ({ m.header with nSat := (sent k m).length } : Header) = _
    rw [e]
  · show List.Forall₂ (fun a b => ∃ c, SatOk k c a b) _ ((sent k m).map _)
    rw [e]
    have : ∀ l : List Sat, (∀ s ∈ l, WFSat k s ∧ Carried k s = true) →
        List.Forall₂ (fun a b => ∃ c, SatOk k c a b) l (l.map fun s => mkSat k (rawOf k s)) := by
      intro l hl
      induction l with
      | nil => exact .nil
      | cons a l ih =>
        refine .cons (sat_ok k a (hl a (by simp)).1 (hl a (by simp)).2) (ih fun s hs => hl s (by simp [hs]))
    refine this _ ?_
    intro s hs'
    rw [List.mem_filter] at hs'
    exact ⟨hs s hs'.1, hs'.2⟩

/-- a satellite with a plausible L1 and L2 measurement -/
def exSat : Sat where
  svId := 17
  l1 := { pr := 22000000.5, cp := 22000000.25 / (299792458 / 1575420000), lock := 100, cnr := 45, vPr := true, vCp := true,
          vCnr := true, vLock := true }
  l2 := { pr := 22000003, cp := 22000001 / (299792458 / 1227600000), lock := 50, cnr := 38, vPr := true, vCp := true,
          vCnr := true, vLock := true }
def exMsg : Msg where
  header := { msgNum := 1004, stnId := 7, towMs := 86400000, sync := 0, nSat := 1, divFree := 0, smooth := 0 }
  sats := [exSat]

/-- the hypotheses of `C11_obs_roundtrip_partial` are met -/
example : WFHeader .m1004 exMsg.header ∧ exMsg.header.nSat = exMsg.sats.length ∧ (∀ s ∈ exMsg.sats, WFSat .m1004 s) ∧
    (exMsg.sats.filter (Carried .m1004)).length = 1 := by
  refine ⟨⟨rfl, by decide, by decide, by decide, by decide, by decide⟩, rfl, ?_, by decide⟩
  intro s hs
  simp only [exMsg, List.mem_singleton] at hs
  subst hs
  have hfl : ∀ n : ℕ, (n : ℚ) * 299792.458 ≤ 22000000.5 + tiny → (n : ℚ) * 299792.458 ≤ 22000003 + tiny := fun n h => by linarith
  constructor <;> simp only [exSat, Kind.l2, Kind.glo, Kind.f1, Kind.f2, Kind.unit, lam] <;> first | exact fun _ _ => hfl | norm_num

/-- **C11** (why the restriction to 31 satellites) A message in which at least 32 satellites can be carried goes out with a
satellite count of 0: the decoder reports success and no satellite at all. -/
theorem C11_32_sats_lost_bug (k : Kind) (m : Msg) (buf : Buf) (hb : 528 ≤ buf.length) (h : WFHeader k m.header)
    (hn : m.header.nSat = m.sats.length) (h32 : 32 ≤ (m.sats.filter (Carried k)).length) :
    ∃ m', (decode k).run (payloadOf (encode k m buf)) = .ok m' ∧ m'.header.nSat = 0 ∧ m'.sats = [] := by
  have e : (sent k m).length = 32 := by
    unfold sent
    rw [hn, List.take_length, List.length_take]
    exact min_eq_left h32
  obtain ⟨h1, h2, h3⟩ := encode_splice k m buf hb
  obtain ⟨⟨pad, hp, _⟩, _⟩ := payload_of_splice h1 h2 h3
  rw [wbits_append, List.append_assoc] at hp
  obtain ⟨a1, a2, a3, a4, a5, a6⟩ := h
  have er : Reads (decode k) (wbits (wrHeader k m.header 32)) { header := { m.header with nSat := 0 }, sats := [] } := by
    unfold decode
    have e : Reads (readHeader k) (wbits (wrHeader k m.header 32)) { m.header with nSat := 0 } := by
      unfold readHeader wrHeader
      simp only [wbits_cons, wbits_nil, Wr.bits_u, List.append_nil]
      have hnum : m.header.msgNum < 2 ^ 12 := by rw [a1]; cases k <;> decide
      refine Reads.bind (Reads.getU hnum) ?_
      refine Reads.bind (Reads.getU a2) ?_
      refine Reads.bind (Reads.getU (by unfold Kind.maxTow at a3; split <;> simp_all <;> omega)) ?_
      refine Reads.bind (Reads.getU (by omega)) ?_
      refine Reads.bind (Reads.getU' 5 32) ?_
      refine Reads.bind (Reads.getU (by omega)) ?_
      refine Reads.bind_nil (Reads.getU a6) ?_
      exact Reads.pure _
    refine Reads.bind_nil e ?_
    refine Reads.nil_bind (Reads.guard _ a1) ?_
    refine Reads.nil_bind (Reads.guard _ (Nat.not_lt.mpr a3)) ?_
    exact Reads.nil_bind (Reads.pure _) (Reads.pure _)
  refine ⟨{ header := { m.header with nSat := 0 }, sats := [] }, ?_, rfl, rfl⟩
  unfold Dec.run
  rw [hp, e, er]

/-- a satellite whose carrier phase has drifted 2147 km from its pseudorange -/
def wrapSat : Sat :=
  { svId := 17
    l1 := { pr := 22000000, cp := 126895800, lock := 100, cnr := 45, vPr := true, vCp := true, vCnr := true, vLock := true } }

/-- **C11** (why the phase must be within 1000 km of the pseudorange) Bug: the difference is first stored in an `int32_t` in units
of 0.5 mm, so when it exceeds 1073 km it wraps before the roll-over is computed; the receiver gets a phase flagged valid that is
more than 100 m away from every value the sender's phase can stand for (it plus a multiple of 1500 cycles). -/
theorem C11_phase_wrap_bug (h : Header) (hh : WFHeader .m1002 h) (hn : h.nSat = 1) (buf : Buf) (hb : 528 ≤ buf.length) :
    ∃ m' s', (decode .m1002).run (payloadOf (encode .m1002 { header := h, sats := [wrapSat] } buf)) = .ok m' ∧ m'.sats = [s'] ∧
      s'.l1.vCp = true ∧
      ∀ n : ℤ, 100 < |s'.l1.cp * lam 1575420000 - wrapSat.l1.cp * lam 1575420000 - 1500 * n * lam 1575420000| := by
  have e : sent .m1002 { header := h, sats := [wrapSat] } = [wrapSat] := by
    unfold sent
    simp only
    rw [hn]
    rfl
  refine ⟨_, mkSat .m1002 (rawOf .m1002 wrapSat), run_msg .m1002 _ hh (by rw [e]; simp) buf hb, ?_, by decide +kernel, ?_⟩
  · rw [e]; rfl
  · have hd : |(mkSat .m1002 (rawOf .m1002 wrapSat)).l1.cp - 115610697| ≤ 1 := by decide +kernel
    intro n
    rw [close] at hd
    have ec : wrapSat.l1.cp = 126895800 := rfl
    rw [ec]
    set x := (mkSat .m1002 (rawOf .m1002 wrapSat)).l1.cp
    have el : lam 1575420000 = 299792458 / 1575420000 := rfl
    rw [show x * lam 1575420000 - 126895800 * lam 1575420000 - 1500 * n * lam 1575420000 = (x - 126895800 - 1500 * n) * lam 1575420000 by ring,
      abs_mul, el, abs_of_pos (show (0 : ℚ) < 299792458 / 1575420000 by norm_num)]
    rcases le_or_gt n (-7524) with hlt | hgt
    · have hq : (n : ℚ) ≤ -7524 := by exact_mod_cast hlt
      have := le_abs_self (x - 126895800 - 1500 * n)
      norm_num at this ⊢
      linarith [hd.1]
    · have hq : (-7523 : ℚ) ≤ n := by exact_mod_cast (show -7523 ≤ n by omega)
      have := neg_le_abs (x - 126895800 - 1500 * n)
      norm_num at this ⊢
      linarith [hd.2]

/-! ### Inversion -/

theorem decode_inv {k : Kind} {m : Msg} {bs r : List Bool} (h : decode k bs = (.ok m, r)) :
    ∃ r', m.header.msgNum = k.num ∧ m.header.towMs ≤ k.maxTow ∧ Dec.many (decodeSat k) m.header.nSat r' = (.ok m.sats, r) := by
  unfold decode at h
  obtain ⟨hd, s1, _, h⟩ := bind_ok h
  obtain ⟨hnum, h⟩ := guard_ok h
  obtain ⟨ht, h⟩ := guard_ok h
  obtain ⟨sats, s2, hm, h⟩ := bind_ok h
  rw [Dec.pure_def] at h
  simp only [Prod.mk.injEq, Except.ok.injEq] at h
  obtain ⟨rfl, rfl⟩ := h
  exact ⟨s1, hnum, by simpa using ht, hm⟩

theorem many_ok_mem {α} {d : Dec α} {P : α → Prop} (hd : ∀ s a r, d s = (.ok a, r) → P a) {n : Nat} {s r : List Bool}
    {l : List α} (h : Dec.many d n s = (.ok l, r)) : ∀ a ∈ l, P a := by
  induction n generalizing s l r with
  | zero => unfold Dec.many at h; rw [Dec.pure_def] at h; simp only [Prod.mk.injEq, Except.ok.injEq] at h; simp [← h.1]
  | succ n ih =>
    unfold Dec.many at h
    obtain ⟨a, s1, h1, h⟩ := bind_ok h
    obtain ⟨l', s2, h2, h⟩ := bind_ok h
    rw [Dec.pure_def] at h
    simp only [Prod.mk.injEq, Except.ok.injEq] at h
    obtain ⟨rfl, rfl⟩ := h
    intro x hx
    rcases List.mem_cons.mp hx with rfl | hx
    · exact hd _ _ _ h1
    · exact ih h2 x hx

theorem decodeSat_inv {k : Kind} {s r : List Bool} {a : Sat} (h : decodeSat k s = (.ok a, r)) : ∃ raw, a = mkSat k raw := by
  unfold decodeSat at h
  obtain ⟨raw, s1, _, h⟩ := bind_ok h
  rw [Dec.pure_def] at h
  simp only [Prod.mk.injEq, Except.ok.injEq] at h
  exact ⟨raw, h.1.symm⟩

/-- **C15** An accepted legacy message carries a GPS time of week strictly below one week, or a GLONASS time of day
strictly below one day; it is of the requested type and has as many satellites as its header says. -/
theorem C15_legacy_time_in_range (k : Kind) (p : Buf) (m : Msg) (h : (decode k).run p = .ok m) :
    m.header.msgNum = k.num ∧ m.sats.length = m.header.nSat ∧
    (k ∈ [Kind.m1001, .m1002, .m1003, .m1004] → m.header.towMs < 7 * 24 * 3600 * 1000) ∧
    (k ∈ [Kind.m1010, .m1012] → m.header.towMs < 24 * 3600 * 1000) := by
  obtain ⟨r, hx⟩ := run_ok h
  obtain ⟨r', h1, h2, h3⟩ := decode_inv hx
  refine ⟨h1, many_ok_length h3, ?_, ?_⟩ <;> cases k <;> simp [Kind.maxTow, Kind.glo] at h2 ⊢ <;> omega

/-- **C11** Bug: the "invalid pseudorange" pattern is never recognised: whatever is received, every decoded satellite has
its L1 pseudorange flagged valid. -/
theorem C11_invalid_pr_ignored_bug (k : Kind) (p : Buf) (m : Msg) (h : (decode k).run p = .ok m) :
    ∀ s ∈ m.sats, s.l1.vPr = true := by
  obtain ⟨r, hx⟩ := run_ok h
  obtain ⟨r', _, _, h3⟩ := decode_inv hx
  refine many_ok_mem (P := fun s => s.l1.vPr = true) ?_ h3
  intro s a r ha
  obtain ⟨raw, rfl⟩ := decodeSat_inv ha
  show l1CodeValid raw.pr1 = true
  unfold l1CodeValid; rw [decide_eq_true_iff]; omega

/-- **C11** On a GLONASS satellite whose frequency channel is unknown (> 20) the L1 phase is never flagged valid, … -/
theorem C11_unknown_channel_l1 (k : Kind) (p : Buf) (m : Msg) (h : (decode k).run p = .ok m) (hg : k.glo = true) :
    ∀ s ∈ m.sats, 20 < s.fcn → s.l1.vCp = false ∧ s.l1.vLock = false := by
  obtain ⟨r, hx⟩ := run_ok h
  obtain ⟨r', _, _, h3⟩ := decode_inv hx
  refine many_ok_mem (P := fun s => 20 < s.fcn → s.l1.vCp = false ∧ s.l1.vLock = false) ?_ h3
  intro s a r ha hf
  obtain ⟨raw, rfl⟩ := decodeSat_inv ha
  have hf : 20 < raw.fcn := hf
  refine ⟨?_, ?_⟩ <;>
  · show ((!k.glo || decide (raw.fcn ≤ 20)) && _) = false
    rw [hg, decide_eq_false (by omega)]; rfl

/-- a 1012 payload with one satellite on the undefined frequency channel 31 -/
def badFcnPayload : Buf :=
  payloadOf (encodeWr (wrHeader .m1012 { msgNum := 1012, stnId := 0, towMs := 0, sync := 0, nSat := 1, divFree := 0, smooth := 0 } 1
    ++ [.u 6 1, .u 1 0, .u 5 31, .u 25 0, .s 20 0, .u 7 0, .u 7 0, .u 8 0, .u 2 0, .s 14 0, .s 20 0, .u 7 0, .u 8 0])
    (List.replicate 40 0))

/-- **C11** … but, bug, the L2 phase is: 1012 computes it with the meaningless frequency of channel 31. -/
theorem C11_unknown_channel_l2_bug :
    ∃ p m, (decode .m1012).run p = .ok m ∧ ∃ s ∈ m.sats, 20 < s.fcn ∧ s.l2.vCp = true := by
  have hr : Reads (decode .m1012) (wbits (wrHeader .m1012 { msgNum := 1012, stnId := 0, towMs := 0, sync := 0, nSat := 1, divFree := 0, smooth := 0 } 1
    ++ [.u 6 1, .u 1 0, .u 5 31, .u 25 0, .s 20 0, .u 7 0, .u 7 0, .u 8 0, .u 2 0, .s 14 0, .s 20 0, .u 7 0, .u 8 0]))
    { header := { msgNum := 1012, stnId := 0, towMs := 0, sync := 0, nSat := 1, divFree := 0, smooth := 0 }
      sats := [mkSat .m1012 ⟨1, 0, 31, 0, 0, 0, 0, 0, 0, 0, 0, 0, 0⟩] } := by
    intro rest
    rfl
  refine ⟨badFcnPayload, _, run_encode (List.replicate 40 0) ?_ ?_ hr, _, List.mem_singleton.mpr rfl, by decide, by decide⟩
  · decide
  · decide

/-- **C11** Bug: the encoder transmits the CNR even when it is flagged invalid, so a satellite without a CNR comes back with
a valid one. -/
theorem C11_invalid_cnr_bug (k : Kind) (m : Msg) (buf : Buf) (hb : 528 ≤ buf.length) (h : WFHeader k m.header)
    (hk : k.ext = true) (s : Sat) (hm : m.sats = [s]) (hn : m.header.nSat = 1) (hc : Carried k s = true)
    (hv : s.l1.vCnr = false) (hcnr : s.l1.cnr = 40) :
    ∃ m' s', (decode k).run (payloadOf (encode k m buf)) = .ok m' ∧ m'.sats = [s'] ∧ s'.l1.vCnr = true := by
  have e : sent k m = [s] := by
    unfold sent
    rw [hn, hm]
    show ([s].filter (selected k)).take 32 = [s]
    rw [List.filter_cons, if_pos (show selected k s = true from hc)]
    rfl
  refine ⟨_, mkSat k (rawOf k s), run_msg k m h (by rw [e]; simp) buf hb, ?_, ?_⟩
  · rw [e]; rfl
  · show decide ((rawOf k s).cnr1 ≠ 0) = true
    unfold rawOf
    simp only [hk, if_true, hcnr]
    rw [show encCnr 40 = 160 by unfold encCnr cround; norm_num; rfl]
    decide

/-- **C11** Bug: the code indicators are transmitted as 0 whatever they are, so a satellite tracked on the P codes comes back as one
tracked on C/A code and L2C. -/
theorem C11_code_indicator_bug (k : Kind) (m : Msg) (buf : Buf) (hb : 528 ≤ buf.length) (h : WFHeader k m.header)
    (s : Sat) (hm : m.sats = [s]) (hn : m.header.nSat = 1) (hc : Carried k s = true)
    (_h1 : s.l1.code = 1) (_h2 : s.l2.code = 1) :
    ∃ m' s', (decode k).run (payloadOf (encode k m buf)) = .ok m' ∧ m'.sats = [s'] ∧ s'.l1.code = 0 ∧ s'.l2.code = 0 := by
  have e : sent k m = [s] := by
    unfold sent
    rw [hn, hm]
    show ([s].filter (selected k)).take 32 = [s]
    rw [List.filter_cons, if_pos (show selected k s = true from hc)]
    rfl
  refine ⟨_, mkSat k (rawOf k s), run_msg k m h (by rw [e]; simp) buf hb, ?_, rfl, ?_⟩
  · rw [e]; rfl
  · show (if k.l2 then mkL2 k (rawOf k s) else {}).code = 0
    split <;> rfl

/-- the satellite of `exMsg` tracked on the P codes meets the hypotheses -/
example : Carried .m1004 { exSat with l1 := { exSat.l1 with code := 1 }, l2 := { exSat.l2 with code := 1 } } = true := rfl

end Verif.Obs
