import Verif.Props.C11
import Verif.Props.C13_ranges
/-! C11: the values an accepted legacy message can have. -/
namespace Verif.Obs
open Verif.Dec Verif.Lock Verif.Obs.Spec
open Verif.Msm (getS_range)

/-- the raw fields of a satellite are in the range of their fields -/
structure RawIn (k : Kind) (r : Raw) : Prop where
  fcn : r.fcn < 32
  fcnGps : k.glo = false → r.fcn = 0
  pr1 : r.pr1 < 2 ^ k.prBits
  diff1 : -524288 ≤ r.diff1 ∧ r.diff1 < 524288
  amb : r.amb < 2 ^ k.ambBits
  cnr1 : r.cnr1 < 256
  pr2 : -8192 ≤ r.pr2 ∧ r.pr2 < 8192
  diff2 : -524288 ≤ r.diff2 ∧ r.diff2 < 524288
  cnr2 : r.cnr2 < 256

/-- an optional field -/
theorem opt_ok {α} {b : Bool} {d : Dec α} {z x : α} {P : α → Prop} {s r : List Bool} (h : (if b = true then d else pure z) s = (.ok x, r))
    (hd : ∀ r, d s = (.ok x, r) → P x) (hz : P z) : P x := by
  cases b with
  | true => exact hd _ h
  | false =>
    simp only [Bool.false_eq_true, if_false, Dec.pure_def, Prod.mk.injEq, Except.ok.injEq] at h
    rw [← h.1]; exact hz

theorem opt_bind {α β} {b : Bool} {d e : Dec α} {f : α → Dec β} {s r : List Bool} {y : β}
    (h : (if b = true then d >>= f else e >>= f) s = (.ok y, r)) : ∃ x s', (if b = true then d else e) s = (.ok x, s') ∧ f x s' = (.ok y, r) := by
  cases b <;> exact bind_ok h

theorem raw_in {k : Kind} {s r : List Bool} {raw : Raw} (h : decodeRaw k s = (.ok raw, r)) : RawIn k raw := by
  unfold decodeRaw at h
  dsimp only at h
  obtain ⟨svId, s1, h1, h⟩ := bind_ok h
  obtain ⟨code1, s2, h2, h⟩ := bind_ok h
  obtain ⟨fcn, s3, h3, h⟩ := opt_bind h
  obtain ⟨pr1, s4, h4, h⟩ := bind_ok h
  obtain ⟨diff1, s5, h5, h⟩ := bind_ok h
  obtain ⟨lock1, s6, h6, h⟩ := bind_ok h
  obtain ⟨amb, s7, h7, h⟩ := opt_bind h
  obtain ⟨cnr1, s8, h8, h⟩ := opt_bind h
  obtain ⟨code2, s9, h9, h⟩ := opt_bind h
  obtain ⟨pr2, s10, h10, h⟩ := opt_bind h
  obtain ⟨diff2, s11, h11, h⟩ := opt_bind h
  obtain ⟨lock2, s12, h12, h⟩ := opt_bind h
  obtain ⟨cnr2, s13, h13, h⟩ := opt_bind h
  rw [Dec.pure_def] at h
  simp only [Prod.mk.injEq, Except.ok.injEq] at h
  obtain ⟨rfl, rfl⟩ := h
  refine ⟨?_, ?_, (getU_ok h4).1, getS_range (by decide) h5, ?_, ?_, ?_, ?_, ?_⟩
  · exact opt_ok (P := fun x => x < 32) h3 (fun _ h => (getU_ok h).1) (by decide)
  · intro hg
    rw [hg] at h3
    simp only [Bool.false_eq_true, if_false, Dec.pure_def, Prod.mk.injEq, Except.ok.injEq] at h3
    exact h3.1.symm
  · exact opt_ok (P := fun x => x < 2 ^ k.ambBits) h7 (fun _ h => (getU_ok h).1) (by positivity)
  · exact opt_ok (P := fun x => x < 256) h8 (fun _ h => (getU_ok h).1) (by decide)
  · exact opt_ok (P := fun x => -8192 ≤ x ∧ x < 8192) h10 (fun _ h => getS_range (by decide) h) (by decide)
  · exact opt_ok (P := fun x => -524288 ≤ x ∧ x < 524288) h11 (fun _ h => getS_range (by decide) h) (by decide)
  · exact opt_ok (P := fun x => x < 256) h13 (fun _ h => (getU_ok h).1) (by decide)

theorem f2_any (k : Kind) {fcn : Nat} (hf : fcn < 32) : Carrier (k.f2 fcn) := by
  have hn : (0 : ℚ) ≤ fcn := Nat.cast_nonneg _
  have hn2 : (fcn : ℚ) ≤ 31 := by exact_mod_cast (show fcn ≤ 31 by omega)
  unfold Kind.f2 Carrier; split <;> constructor <;> linarith

/-- the L1 pseudorange -/
theorem l1_range {k : Kind} {r : Raw} (h : RawIn k r) :
    0 ≤ l1Code r.pr1 (ambM k r.amb) ∧ l1Code r.pr1 (ambM k r.amb) ≤ 76819000 := by
  have ha0 : (0 : ℚ) ≤ r.amb := Nat.cast_nonneg _
  have hp0 : (0 : ℚ) ≤ r.pr1 := Nat.cast_nonneg _
  have hu := unit_le k
  have ha : (r.amb : ℚ) ≤ 2 ^ k.ambBits - 1 := by
    have : r.amb + 1 ≤ 2 ^ k.ambBits := h.amb
    have : ((r.amb + 1 : ℕ) : ℚ) ≤ ((2 ^ k.ambBits : ℕ) : ℚ) := by exact_mod_cast this
    push_cast at this; linarith
  have hp : (r.pr1 : ℚ) ≤ 2 ^ k.prBits := by
    have : ((r.pr1 : ℕ) : ℚ) ≤ ((2 ^ k.prBits : ℕ) : ℚ) := by exact_mod_cast h.pr1.le
    push_cast at this; linarith
  have hnu : 0 ≤ (r.amb : ℚ) * k.unit := mul_nonneg ha0 (by linarith)
  have hsum : (r.amb : ℚ) ≤ 255 ∧ (r.amb : ℚ) * k.unit ≤ 77000000 ∧ (r.pr1 : ℚ) ≤ 33554432 ∧
      (r.pr1 : ℚ) / 50 + (r.amb : ℚ) * k.unit ≤ 76818400 := by
    generalize (r.amb : ℚ) = A at ha ⊢
    generalize (r.pr1 : ℚ) = P at hp ⊢
    cases k <;> norm_num [Kind.unit, Kind.ambBits, Kind.prBits] at ha hp ⊢ <;> refine ⟨?_, ?_, ?_, ?_⟩ <;> linarith
  obtain ⟨q1, q2, q3, q4⟩ := hsum
  have hA := ambM_near k (n := r.amb) (by linarith) q2
  have e := code_near (m := (r.pr1 : ℚ)) (by rw [abs_of_nonneg hp0]; exact q3) (by rw [abs_of_nonneg hnu]; linarith) (by norm_num) hA
  refine ⟨?_, ?_⟩
  · unfold l1Code
    refine nonneg_f64 (add_nonneg (nonneg_f64 (mul_nonneg (by rw [c002_eq]; norm_num) hp0)) ?_)
    exact nonneg_f64 (mul_nonneg ha0 (nonneg_f64 (by linarith)))
  · unfold l1Code
    rw [close] at e
    linarith [e.2]

theorem phase_range {freq l : ℚ} {d : ℤ} (hf : Carrier freq) (hl : 0 ≤ l ∧ l ≤ 76819000) (hd : -524288 ≤ d ∧ d < 524288) :
    |phase l d freq| ≤ 500000000 := by
  have hdq : |(d : ℚ)| ≤ 524288 := by
    rw [within]; constructor
    · exact_mod_cast hd.1
    · exact_mod_cast hd.2.le
  have e := phase_near hf (l := l) (d := d) (by rw [within]; constructor <;> linarith [hl.1, hl.2]) hdq
  rw [close] at e
  rw [within] at hdq
  have hw : |phase l d freq * (gpsC / freq)| ≤ 76820000 := by
    rw [within]; constructor <;> linarith [e.1, e.2, hl.1, hl.2, hdq.1, hdq.2]
  have := cycles (wl_range hf).1 hw
  linarith

/-- **C11 (ranges).**  Whatever bytes are accepted as a legacy observation message: L1 pseudoranges are between 0 and 76 819 km, L2
pseudoranges at most 164 m beyond, phases below 500 million cycles, signal to noise ratios between 0 and 63.75 dB-Hz, lock times not negative. -/
theorem C11_ranges (k : Kind) (p : Buf) (m : Msg) (h : (decode k).run p = .ok m) :
    ∀ s ∈ m.sats, (0 ≤ s.l1.pr ∧ s.l1.pr ≤ 76819000) ∧ (-164 ≤ s.l2.pr ∧ s.l2.pr ≤ 76819164) ∧
      (∀ f ∈ [s.l1, s.l2], |f.cp| ≤ 500000000 ∧ (0 ≤ f.cnr ∧ f.cnr ≤ 63.75) ∧ 0 ≤ f.lock) := by
  obtain ⟨r, hx⟩ := run_ok h
  obtain ⟨r', _, _, h3⟩ := decode_inv hx
  refine many_ok_mem ?_ h3
  intro bs a r ha
  unfold decodeSat at ha
  obtain ⟨raw, s1, hr, ha⟩ := bind_ok ha
  rw [Dec.pure_def] at ha
  simp only [Prod.mk.injEq, Except.ok.injEq] at ha
  obtain ⟨rfl, rfl⟩ := ha
  have hin := raw_in hr
  have hl := l1_range hin
  have hcnr : ∀ n : ℕ, n < 256 → (0 : ℚ) ≤ (n : ℚ) / 4 ∧ (n : ℚ) / 4 ≤ 63.75 := by
    intro n hn
    have h0 : (0 : ℚ) ≤ n := Nat.cast_nonneg _
    have h1 : (n : ℚ) ≤ 255 := by exact_mod_cast (show n ≤ 255 by omega)
    constructor <;> norm_num <;> linarith
  have hL1 : |(mkL1 k raw).cp| ≤ 500000000 := by
    show |(if (!k.glo || decide (raw.fcn ≤ 20)) = true then phase _ raw.diff1 (k.f1 raw.fcn) else 0)| ≤ _
    split
    · rename_i hg
      refine phase_range (f1_ok k ?_) hl hin.diff1
      rcases Bool.or_eq_true_iff.mp hg with hg | hg
      · rw [hin.fcnGps (by simpa using hg)]; omega
      · simpa using hg
    · norm_num
  have hP2 : -164 ≤ (mkL2 k raw).pr ∧ (mkL2 k raw).pr ≤ 76819164 := by
    have q0 : (-8192 : ℚ) ≤ raw.pr2 := by exact_mod_cast hin.pr2.1
    have q1 : (raw.pr2 : ℚ) ≤ 8191 := by exact_mod_cast (show raw.pr2 ≤ 8191 by have := hin.pr2.2; omega)
    have e := code_near (m := (raw.pr2 : ℚ)) (A := l1Code raw.pr1 (ambM k raw.amb)) (N := l1Code raw.pr1 (ambM k raw.amb)) (δ := 0)
      (by rw [within]; constructor <;> linarith) (by rw [within]; constructor <;> linarith [hl.1, hl.2]) (by norm_num) (by simp)
    show -164 ≤ Fp.f64 (Fp.f64 (c002 * (raw.pr2 : ℚ)) + l1Code raw.pr1 (ambM k raw.amb)) ∧
      Fp.f64 (Fp.f64 (c002 * (raw.pr2 : ℚ)) + l1Code raw.pr1 (ambM k raw.amb)) ≤ 76819164
    rw [close] at e
    constructor <;> linarith [e.1, e.2, hl.1, hl.2]
  refine ⟨hl, ?_, ?_⟩
  · show -164 ≤ (if k.l2 then mkL2 k raw else {}).pr ∧ (if k.l2 then mkL2 k raw else {}).pr ≤ _
    split
    · exact hP2
    · norm_num
  · intro f hf
    simp only [List.mem_cons, List.not_mem_nil, or_false] at hf
    rcases hf with rfl | rfl
    · exact ⟨hL1, hcnr _ hin.cnr1, Nat.cast_nonneg _⟩
    · show |(if k.l2 then mkL2 k raw else {}).cp| ≤ _ ∧ (0 ≤ (if k.l2 then mkL2 k raw else {}).cnr ∧
        (if k.l2 then mkL2 k raw else {}).cnr ≤ _) ∧ 0 ≤ (if k.l2 then mkL2 k raw else {}).lock
      split
      · exact ⟨phase_range (f2_any k hin.fcn) hl hin.diff2, hcnr _ hin.cnr2, Nat.cast_nonneg _⟩
      · norm_num

/-- a message with a satellite is accepted -/
example : ∃ p m, (decode .m1012).run p = .ok m ∧ ∃ s, s ∈ m.sats := by
  obtain ⟨p, m, h, s, hs, _⟩ := C11_unknown_channel_l2_bug
  exact ⟨p, m, h, s, hs⟩

end Verif.Obs
