import Verif.Spec.ObsStream
import Verif.Props.C29
import Verif.Props.C12_C13
import Verif.Props.C51
import Verif.Props.C16
/-
C72: one observation over the wire.
-/
namespace Verif.ObsStream
open Verif.ObsStream.Spec Verif.SbpRtcm.Spec Verif.Msm.Spec
open Verif.Msm hiding Inv
open Verif.SbpRtcm hiding Sat.zero Sig.zero
open Verif.RtcmSbp (SbpTime SbpObs crint packFrac packP packCn0 packMsm)

theorem int_eq_of_near {a b : ℤ} (h : |(a : ℚ) - b| < 1) : a = b := by
  rw [abs_lt] at h
  have h1 : (a : ℚ) < ((b + 1 : ℤ) : ℚ) := by push_cast; linarith
  have h2 : (b : ℚ) < ((a + 1 : ℤ) : ℚ) := by push_cast; linarith
  have := Int.cast_lt.1 h1
  have := Int.cast_lt.1 h2
  omega

theorem crint_of_near {x : ℚ} {n : ℤ} (h : |x - n| < 1 / 2) : crint x = n := by
  apply int_eq_of_near
  have := crint_near x
  rw [abs_le] at this
  rw [abs_lt] at h ⊢
  constructor <;> linarith

theorem packP_of_near {x : ℚ} {n : Nat} (hx : |x| ≤ 10 ^ 8) (h : |x * 50 - n| < 1 / 2 - 1 / 2 ^ 20) : packP x = n := by
  unfold packP
  have := RtcmSbp.p50_near hx
  rw [crint_of_near (n := (n : ℤ)) (by
    rw [Int.cast_natCast]
    rw [abs_le] at this
    rw [abs_lt] at h ⊢
    constructor <;> linarith [this.1, this.2, h.1, h.2])]
  simp

theorem packFrac_of_near {x : ℚ} {i : ℤ} {f : Nat} (hf : f ≤ 255) (h : |x - (i + f / 256)| < 1 / 512 - 1 / 2 ^ 52) : packFrac x = (i, f) := by
  obtain ⟨h1, h2⟩ := RtcmSbp.packFrac_near x
  generalize packFrac x = y at *
  obtain ⟨i', f'⟩ := y
  simp only at h1 h2
  have e : 256 * i' + (f' : ℤ) = 256 * i + f := by
    apply int_eq_of_near
    push_cast
    rw [abs_le] at h2
    rw [abs_lt] at h ⊢
    constructor <;> linarith
  have : i' = i ∧ f' = f := by omega
  rw [this.1, this.2]

/-- values on the grid of rough ranges -/
theorem grid_eq {a b : ℚ} {i j : ℤ} (ha : a = i / 1024) (hb : b = j / 1024) (h : |a - b| ≤ 1 / 2048) : a = b := by
  have : i = j := by
    apply int_eq_of_near
    rw [abs_le] at h
    rw [abs_lt]
    constructor <;> linarith
  rw [ha, hb, this]

theorem cn0_near {c : ℚ} {n : Nat} (h : |c - n / 4| ≤ 1 / 2) : |((packCn0 true c : Nat) : ℤ) - n| ≤ 2 := by
  simp only [packCn0, if_true]
  have h1 := crint_near (c * 4)
  rw [abs_le] at h1 h
  have a1 : ((crint (c * 4) : ℤ) : ℚ) < ((n + 3 : ℤ) : ℚ) := by push_cast; linarith
  have a2 : (((n : ℤ) - 3 : ℤ) : ℚ) < ((crint (c * 4) : ℤ) : ℚ) := by push_cast; linarith
  have a1 := Int.cast_lt.1 a1
  have a2 := Int.cast_lt.1 a2
  rw [abs_le]
  omega

/-- one observation: sent as `a`, received as `b` -/
theorem obs_back {ty : MsmType} (hty : ty = .msm4 ∨ ty = .msm5) {f : Option ℚ} {o : SbpObs} (ho : ObsOk f o) {a b : Sig} {sat' : Sat}
    (ha : SigOf f o a) (hb : SigOk ty sat' a b) (hr : |range o * 1000 / 299792458 - sat'.roughRangeMs| ≤ 1 / 2048 + 1 / 2 ^ 40 + 140 * 1000 / 299792458)
    (hd : ty = .msm5 → ∀ hz, f = some hz → o.flags.testBit 3 = true → |rate hz o - sat'.roughRate| ≤ 11 / 10 + 1 / 2 + 1 / 2 ^ 36)
    (env : RtcmSbp.Env) (h1 : ∀ c, env.sigBias c = 0) (h2 : ∀ c f, env.gloBias c f = (0, 0)) (fcn : Nat) (hf : env.freq o.code fcn = f) :
    b.vPr = true ∧ Back ty f.isSome o (packMsm env o.sat o.code fcn b) := by
  have hvp : a.vPr = true := by rw [ha.prValid]; exact ho.codeValid
  have hpr := ha.pr hvp
  have p0 : (0 : ℚ) ≤ range o := by unfold range; positivity
  have bms : |range o * 1000 / 299792458| ≤ 256 := by
    have := ho.range
    rw [abs_of_nonneg (by positivity), div_le_iff₀ (by norm_num)]
    linarith
  have epr : |a.pr - range o * 1000 / 299792458| ≤ 1 / 2 ^ 40 := by
    rw [show (o.P : ℚ) / 50 / 299792458 * 1000 = range o * 1000 / 299792458 by unfold range; ring] at hpr
    exact le_trans (hpr.abs bms) (by norm_num)
  have hbv : b.vPr = true := hb.prKept hvp (lt_of_le_of_lt (RtcmSbp.abs_trans epr hr) (by norm_num))
  have hbp := (hb.pr hbv).2
  refine ⟨hbv, ?_⟩
  -- phase
  have hcp : (b.vCp && f.isSome) = (f.isSome && o.flags.testBit 1) ∧
      ∀ hz, f = some hz → o.flags.testBit 1 = true → packFrac (RtcmSbp.cpCyc b.cp hz 0) = (o.Li, o.Lf) := by
    cases hfe : f with
    | none => simp
    | some hz =>
      simp only [Option.isSome_some, Bool.and_true, Bool.true_and]
      have hav := ha.cpValid
      cases h3 : o.flags.testBit 1 with
      | false =>
        refine ⟨?_, fun _ _ h => (by cases h)⟩
        cases hbc : b.vCp with
        | false => rfl
        | true =>
          have := (hav.1 (hb.cp hbc).1).2
          rw [h3] at this; cases this
      | true =>
        have hac := hav.2 ⟨by rw [hfe]; simp, h3⟩
        have hz0 := ho.hz hz hfe
        have hzp : 0 < hz := by linarith [hz0.1]
        have e := ha.cp hz hfe hz0.1 hac
        have hph := ho.phase hz hfe h3
        have e2 : (o.Li + o.Lf / 256) / hz * 1000 = cycles o * 299792458 / hz * 1000 / 299792458 := by unfold cycles; field_simp
        have hrr := ho.range
        have bcp : |(o.Li + o.Lf / 256) / hz * 1000| ≤ 257 := by
          rw [e2, abs_le]
          rw [abs_le] at hph
          have q : (-257 : ℚ) ≤ -800 * 1000 / 299792458 := by norm_num
          constructor
          · refine le_trans q (div_le_div_of_nonneg_right ?_ (by norm_num))
            linarith [hph.1]
          · rw [div_le_iff₀ (by norm_num)]
            linarith [hph.2]
        have e' := le_trans (e.abs bcp) (by norm_num : _ ≤ (1 : ℚ) / 2 ^ 40)
        have hbc : b.vCp = true := by
          apply hb.cpKept hac
          rw [e2] at e'
          rw [abs_le] at hph hr e'
          have p1 : cycles o * 299792458 / hz * 1000 / 299792458 ≤ (range o + 800) * 1000 / 299792458 := by
            apply div_le_div_of_nonneg_right _ (by norm_num)
            linarith [hph.2]
          have p2 : (range o - 800) * 1000 / 299792458 ≤ cycles o * 299792458 / hz * 1000 / 299792458 := by
            apply div_le_div_of_nonneg_right _ (by norm_num)
            linarith [hph.1]
          rw [abs_lt]
          constructor
          · have : -(1 / 2 ^ 8 - 1 / 2 ^ 29 : ℚ) < -800 * 1000 / 299792458 - (1 / 2048 + 1 / 2 ^ 40 + 140 * 1000 / 299792458) - 1 / 2 ^ 40 := by norm_num
            linarith [hr.1, e'.1]
          · have : 800 * 1000 / 299792458 + (1 / 2048 + 1 / 2 ^ 40 + 140 * 1000 / 299792458) + 1 / 2 ^ 40 < (1 / 2 ^ 8 - 1 / 2 ^ 29 : ℚ) := by norm_num
            linarith [hr.2, e'.2]
        refine ⟨hbc, fun hz' hz'' _ => ?_⟩
        obtain rfl := Option.some.inj hz''
        apply packFrac_of_near ho.Lf
        have := RtcmSbp.abs_trans (hb.cp hbc).2 e'
        have e3 : b.cp * hz / 1000 + 0 - (o.Li + o.Lf / 256) = (b.cp - (o.Li + o.Lf / 256) / hz * 1000) * (hz / 1000) := by
          field_simp [hzp.ne']; ring
        have hn : |b.cp * hz / 1000 + 0 - (o.Li + o.Lf / 256)| ≤ (1 / 2 ^ 30 + 1 / 2 ^ 58 + 1 / 2 ^ 40) * (2000000000 / 1000 : ℚ) := by
          rw [e3, abs_mul, abs_of_pos (div_pos hzp (by norm_num : (0:ℚ) < 1000))]
          exact mul_le_mul this (by linarith [hz0.2]) (div_nonneg hzp.le (by norm_num)) (by positivity)
        have bb : |b.cp * hz / 1000| ≤ 2 ^ 31 + 10 ^ 6 := by
          rw [mul_div_assoc, abs_mul, abs_of_pos (div_pos hzp (by norm_num : (0:ℚ) < 1000))]
          have := RtcmSbp.abs_of_near this bcp
          calc _ ≤ (257 + (1 / 2 ^ 30 + 1 / 2 ^ 58 + 1 / 2 ^ 40)) * (2000000000 / 1000 : ℚ) :=
                mul_le_mul this (by linarith [hz0.2]) (div_nonneg hzp.le (by norm_num)) (by norm_num)
            _ ≤ _ := by norm_num
        exact lt_of_le_of_lt (RtcmSbp.abs_trans (RtcmSbp.cpCyc_near bb (by norm_num)) hn) (by norm_num)
  -- Doppler
  have hdp : (b.vDop && f.isSome) = (f.isSome && decide (ty = .msm5) && o.flags.testBit 3) ∧
      ∀ hz, f = some hz → ty = .msm5 → o.flags.testBit 3 = true → packFrac (RtcmSbp.dopHz b.rate hz) = (o.Di, o.Df) := by
    cases hfe : f with
    | none => simp
    | some hz =>
      simp only [Option.isSome_some, Bool.and_true, Bool.true_and]
      have hav := ha.dopValid
      by_cases h5 : ty = .msm5
      swap
      · refine ⟨?_, fun _ _ h => absurd h h5⟩
        rw [decide_eq_false h5]
        cases hbc : b.vDop with
        | false => rfl
        | true => exact absurd (hb.rate hbc).1 h5
      rw [decide_eq_true h5]
      cases h3 : o.flags.testBit 3 with
      | false =>
        refine ⟨?_, fun _ _ _ h => (by cases h)⟩
        cases hbc : b.vDop with
        | false => rfl
        | true =>
          have := (hav.1 (hb.rate hbc).2.1).2
          rw [h3] at this; cases this
      | true =>
        have hac := hav.2 ⟨by rw [hfe]; simp, h3⟩
        have hz0 := ho.hz hz hfe
        have hzp : 0 < hz := by linarith [hz0.1]
        have e := ha.dop hz hfe hz0.1 hac
        have e2 : -((o.Di + o.Df / 256) / hz * 299792458) = rate hz o := by unfold rate; ring
        have hrt := ho.rate hz hfe h3
        rw [e2] at e
        have e' := le_trans (e.abs hrt) (by norm_num : _ ≤ (1 : ℚ) / 2 ^ 36)
        have hbc : b.vDop = true := hb.rateKept h5 hac (lt_of_le_of_lt (RtcmSbp.abs_trans e' (hd h5 hz hfe h3)) (by norm_num))
        refine ⟨hbc, fun hz' hz'' _ _ => ?_⟩
        obtain rfl := Option.some.inj hz''
        apply packFrac_of_near ho.Df
        have := RtcmSbp.abs_trans (hb.rate hbc).2.2 e'
        have e3 : -(b.rate * hz / 299792458) - (o.Di + o.Df / 256) = -(b.rate - rate hz o) * (hz / 299792458) := by
          unfold rate; field_simp [hzp.ne']; ring
        have hn : |-(b.rate * hz / 299792458) - (o.Di + o.Df / 256)| ≤ (1 / 20000 + 1 / 2 ^ 38 + 1 / 2 ^ 36) * (2000000000 / 299792458 : ℚ) := by
          rw [e3, abs_mul, abs_neg, abs_of_pos (div_pos hzp (by norm_num : (0:ℚ) < 299792458))]
          exact mul_le_mul this (by linarith [hz0.2]) (div_nonneg hzp.le (by norm_num)) (by positivity)
        have bb : |b.rate * hz / 299792458| ≤ 2 ^ 16 := by
          rw [mul_div_assoc, abs_mul, abs_of_pos (div_pos hzp (by norm_num : (0:ℚ) < 299792458))]
          have := RtcmSbp.abs_of_near this hrt
          calc _ ≤ (8191 + (1 / 20000 + 1 / 2 ^ 38 + 1 / 2 ^ 36)) * (2000000000 / 299792458 : ℚ) :=
                mul_le_mul this (by linarith [hz0.2]) (div_nonneg hzp.le (by norm_num)) (by norm_num)
            _ ≤ _ := by norm_num
        exact lt_of_le_of_lt (RtcmSbp.abs_trans (RtcmSbp.dopHz_near bb) hn) (by norm_num)
  have hcn : |((packCn0 b.vCnr b.cnr : Nat) : ℤ) - o.cn0| ≤ 2 := by
    cases hbc : b.vCnr with
    | true =>
      apply cn0_near
      rw [← ha.cnr]
      exact (hb.cnr hbc).2
    | false =>
      have : ¬ (1 / 2 ≤ a.cnr) := fun h => by
        have := hb.cnrKept ha.cnrValid h
        rw [hbc] at this; cases this
      rw [ha.cnr] at this
      have h4 : (o.cn0 : ℚ) < ((2 : Nat) : ℚ) := by push_cast; linarith
      have h4 := Nat.cast_lt.1 h4
      simp only [packCn0, Bool.false_eq_true, if_false]
      rw [abs_le]; omega
  have hlk : (if b.vLock = true then Lock.encodeLockTime b.lock else 0) = o.lock := by
    rw [if_pos hb.lockValid, hb.lockExact ha.lockValid o.lock ho.lock ha.lock, ha.lock]
    exact Lock.C16_msm_indicator_roundtrip _ ho.lock
  have hbm := RtcmSbp.abs_trans hbp epr
  have hb9 : |b.pr * 299792458 / 1000| ≤ 9 * 10 ^ 7 := by
    have := RtcmSbp.abs_of_near hbm bms
    rw [mul_div_assoc, abs_mul, abs_of_pos (by norm_num : (0:ℚ) < 299792458 / 1000)]
    calc _ ≤ (256 + (1 / 2 ^ 25 + 1 / 2 ^ 60 + 1 / 2 ^ 40)) * (299792458 / 1000 : ℚ) := mul_le_mul_of_nonneg_right this (by norm_num)
      _ ≤ _ := by norm_num
  have hpm := RtcmSbp.prM_near hb9 (s := 0) (g := 0) (by norm_num) (by norm_num)
  have hpb := RtcmSbp.abs_of_near hpm (RtcmSbp.abs_add_of (RtcmSbp.abs_add_of hb9 (le_of_eq (abs_zero (α := ℚ)))) (le_of_eq (abs_zero (α := ℚ))))
  have hpn : |(b.pr * 299792458 / 1000 + 0 + 0) * 50 - (o.P : ℚ)| ≤ (1 / 2 ^ 25 + 1 / 2 ^ 60 + 1 / 2 ^ 40) * (299792458 / 1000 * 50) := by
    have e : (b.pr * 299792458 / 1000 + 0 + 0) * 50 - (o.P : ℚ) = (b.pr - range o * 1000 / 299792458) * (299792458 / 1000 * 50) := by
      unfold range; ring
    rw [e, abs_mul, abs_of_pos (by norm_num : (0:ℚ) < 299792458 / 1000 * 50)]
    exact mul_le_mul_of_nonneg_right hbm (by norm_num)
  refine ⟨rfl, rfl, ?_, ?_, ?_, ?_, ?_, ?_⟩
  · simp only [packMsm, h1, h2]
    apply packP_of_near
    · exact le_trans hpb (by norm_num)
    · have hp50 : |RtcmSbp.prM b.pr 0 0 * 50 - (b.pr * 299792458 / 1000 + 0 + 0) * 50| ≤ 1 / 2 ^ 23 * 50 := by
        rw [← sub_mul, abs_mul, abs_of_pos (by norm_num : (0:ℚ) < 50)]
        exact mul_le_mul_of_nonneg_right hpm (by norm_num)
      exact lt_of_le_of_lt (RtcmSbp.abs_trans hp50 hpn) (by norm_num)
  · simp only [packMsm, h2, hf]
    rw [hcp.1]
    split
    · rename_i h
      rw [Bool.and_eq_true] at h
      obtain ⟨hz, hz'⟩ := Option.isSome_iff_exists.1 h.1
      rw [hz', Option.getD_some, hcp.2 hz hz' h.2]
    · rfl
  · simp only [packMsm, hf]
    rw [hdp.1]
    split
    · rename_i h
      rw [Bool.and_eq_true, Bool.and_eq_true] at h
      obtain ⟨hz, hz'⟩ := Option.isSome_iff_exists.1 h.1.1
      rw [hz', Option.getD_some, hdp.2 hz hz' (of_decide_eq_true h.1.2) h.2]
    · rfl
  · exact hcn
  · exact hlk
  · intro k
    have := RtcmSbp.flags_ok (b.vCp && f.isSome) b.hca (b.vDop && f.isSome) k
    simp only [packMsm, hf]
    rw [this]
    rcases k with _ | _ | _ | _ | k
    · rfl
    · exact hcp.1
    · show ((b.vCp && f.isSome) && !b.hca) = _
      rw [hcp.1]
      cases hx : (f.isSome && o.flags.testBit 1) with
      | false => simp
      | true =>
        rw [Bool.and_eq_true] at hx
        have hac := ha.cpValid.2 ⟨by intro h; rw [h] at hx; simp at hx, hx.2⟩
        rw [hb.hca, ha.hca hac]; simp
    · exact hdp.1
    · rfl

end Verif.ObsStream
