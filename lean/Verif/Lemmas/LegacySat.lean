import Verif.Lemmas.LegacyStream
import Verif.Lemmas.StationNum
/-
C78: one satellite over the wire.
-/
namespace Verif.LegacyStream
open Verif.LegacyStream.Spec Verif.SbpRtcm.Spec
open Verif.SbpRtcm hiding legacyLoop
open Verif.Msm (Code)
open Verif.Obs (Kind mkSat rawOf)
open Verif.Obs.Spec (SatOk PhaseOk WFSat Carried lam tiny)
open Verif.ObsStream.Spec (range cycles)
open Verif.ObsStream (packFrac_of_near perm_keys forall₂_append)
open Verif.RtcmSbp (SbpObs packLegacy crint packP packCn0 packFrac)

def kind (glo : Bool) : Kind := if glo then .m1012 else .m1004

theorem kind_l2 (glo : Bool) : (kind glo).l2 = true := by cases glo <;> rfl
theorem kind_ext (glo : Bool) : (kind glo).ext = true := by cases glo <;> rfl
theorem kind_glo (glo : Bool) : (kind glo).glo = glo := by cases glo <;> rfl
theorem kind_unit (glo : Bool) : (kind glo).unit = unit glo := by cases glo <;> rfl
theorem kind_f1 (glo : Bool) (ch : Nat) : (kind glo).f1 ch = hz (firstOf glo) ch := by cases glo <;> rfl
theorem kind_f2 (glo : Bool) (ch : Nat) : (kind glo).f2 ch = hz (secondOf glo) ch := by cases glo <;> rfl

/-- carriers lie between 1.2 and 1.61 GHz -/
theorem hz_range (b : Band) {ch : Nat} (h : ch ≤ 13) : 1200000000 ≤ hz b ch ∧ hz b ch ≤ 1610000000 := by
  have h1 : (ch : ℚ) ≤ 13 := by exact_mod_cast h
  have h0 : (0 : ℚ) ≤ ch := by positivity
  cases b <;> simp only [hz] <;> constructor <;> linarith

theorem phase_lam (b : Band) (ch : Nat) (o : SbpObs) (i : Nat) : (freqOfObs o i).cp * lam (hz b ch) = phase b ch o := by
  unfold freqOfObs lam phase cycles
  ring

theorem pr_near {o : SbpObs} (i : Nat) (h : range o ≤ 76000000) : |(freqOfObs o i).pr - range o| ≤ 1 / 2 ^ 25 ∧ 0 ≤ (freqOfObs o i).pr := by
  have h0 : 0 ≤ range o := by unfold range; positivity
  have := Obs.f64_le (x := range o) (M := 76000000) (by rw [abs_of_nonneg h0]; exact h) (by norm_num)
  refine ⟨le_trans this (by norm_num), nonneg_f64 h0⟩

theorem encCnr_eq (n : Nat) : Obs.encCnr ((n : ℚ) / 4) = n := by
  unfold Obs.encCnr
  rw [div_mul_cancel₀ _ (by norm_num)]
  have : cround (n : ℚ) = (n : Int) := cround_near (by rw [Int.cast_natCast, sub_self, abs_zero]; norm_num)
  rw [this]; simp

/-- the lock time that comes back -/
theorem lock_back (n : Nat) (h : n < 16) :
    Lock.encodeLockTime ((Lock.fromLockInd (Lock.toLockInd (Lock.decodeLockTime n) % 2 ^ 7) : Nat) : ℚ) ≤ n ∧
    (6 ≤ n → n ≤ Lock.encodeLockTime ((Lock.fromLockInd (Lock.toLockInd (Lock.decodeLockTime n) % 2 ^ 7) : Nat) : ℚ) + 1) := by
  have : ∀ n : Fin 16, Lock.encodeLockTime ((Lock.fromLockInd (Lock.toLockInd (Lock.decodeLockTime n) % 2 ^ 7) : Nat) : ℚ) ≤ n ∧
    (6 ≤ (n : Nat) → (n : Nat) ≤ Lock.encodeLockTime ((Lock.fromLockInd (Lock.toLockInd (Lock.decodeLockTime n) % 2 ^ 7) : Nat) : ℚ) + 1) := by
    decide +kernel
  exact this ⟨n, h⟩

/-- the frequency data `d` is what the receiver has for observation `o`, and it yields `o` back -/
theorem freq_back {b : Band} {ch : Nat} (hch : ch ≤ 13) {first : ℚ} {o : SbpObs} (ho : ObsOk b ch first o) {env' : RtcmSbp.Env}
    (hb : env'.sigBias o.code = 0) {d : Obs.Freq} (hpr : |d.pr - (freqOfObs o 0).pr| ≤ 1 / 100 + tiny)
    (hcp : |d.cp * lam (hz b ch) - (freqOfObs o 0).cp * lam (hz b ch)| ≤ 1 / 4000 + tiny)
    (hl : d.lock = ((Lock.fromLockInd (Lock.toLockInd (Lock.decodeLockTime o.lock) % 2 ^ 7) : Nat) : ℚ)) (hlv : d.vLock = true)
    (hc : d.cnr = ((o.cn0 : ℕ) : ℚ) / 4) (hcv : d.vCnr = decide (o.cn0 ≠ 0)) : Back o (packLegacy env' o.sat o.code d) := by
  obtain ⟨v, hr, hLf, hph, hcn, hlk⟩ := ho
  obtain ⟨p1, p2⟩ := pr_near 0 hr
  have h0 : 0 ≤ range o := by unfold range; positivity
  refine ⟨rfl, rfl, ?_, ?_, rfl, ?_, ?_, rfl⟩
  · -- pseudorange
    show |((packP (Fp.f64 (d.pr + env'.sigBias o.code)) : Nat) : ℤ) - o.P| ≤ 1
    rw [hb, add_zero]
    rw [Obs.close] at hpr p1
    unfold tiny at hpr
    have hd : |d.pr| ≤ 77000000 := by
      rw [Obs.within]
      constructor
      · linarith [hpr.1]
      · linarith [hpr.2, p1.2]
    have e1 := Obs.f64_le hd (by norm_num)
    rw [Obs.close] at e1
    set y := Fp.f64 d.pr
    have hy : |y| ≤ 10 ^ 8 := by
      rw [Obs.within] at hd ⊢
      constructor <;> linarith [e1.1, e1.2, hd.1, hd.2]
    have e2 := RtcmSbp.p50_near hy
    have e3 := crint_near (Fp.f64 (y * 50))
    rw [Obs.close] at e2
    rw [Obs.close] at e3
    have hP : (o.P : ℚ) = range o * 50 := by unfold range; ring
    have a1 : ((crint (Fp.f64 (y * 50)) : ℤ) : ℚ) < ((o.P + 2 : ℤ) : ℚ) := by
      push_cast; rw [hP]; linarith [e1.2, e2.2, e3.2, hpr.2, p1.2]
    have a2 : ((o.P - 2 : ℤ) : ℚ) < ((crint (Fp.f64 (y * 50)) : ℤ) : ℚ) := by
      push_cast; rw [hP]; linarith [e1.1, e2.1, e3.1, hpr.1, p1.1]
    have a1 := Int.cast_lt.1 a1
    have a2 := Int.cast_lt.1 a2
    unfold packP
    rw [abs_le]
    omega
  · show ((packFrac d.cp).1, (packFrac d.cp).2) = (o.Li, o.Lf)
    have hcyc : (freqOfObs o 0).cp = o.Li + o.Lf / 256 := rfl
    rw [hcyc] at hcp
    obtain ⟨z1, z2⟩ := hz_range b hch
    have hl0 : (299792458 / 1610000000 : ℚ) ≤ lam (hz b ch) := by
      unfold lam
      exact div_le_div_of_nonneg_left (by norm_num) (by linarith) z2
    have := packFrac_of_near (x := d.cp) (i := o.Li) (f := o.Lf) hLf (by
      rw [← sub_mul, abs_mul, abs_of_pos (lt_of_lt_of_le (by norm_num) hl0)] at hcp
      have hab := abs_nonneg (d.cp - (o.Li + o.Lf / 256))
      have : |d.cp - (o.Li + o.Lf / 256)| * (299792458 / 1610000000) ≤ 1 / 4000 + tiny := le_trans (mul_le_mul_of_nonneg_left hl0 hab) hcp
      unfold tiny at this
      norm_num at this ⊢
      linarith)
    rw [this]
  · show packCn0 d.vCnr d.cnr = o.cn0
    unfold packCn0
    rw [hcv, hc]
    by_cases hz : o.cn0 = 0
    · simp [hz]
    · have : decide (o.cn0 ≠ 0) = true := by simpa using hz
      rw [if_pos this, div_mul_cancel₀ _ (by norm_num), show ((o.cn0 : ℕ) : ℚ) = ((o.cn0 : ℤ) : ℚ) by simp, RtcmSbp.crint_int]
      simp
  · show (if d.vLock then Lock.encodeLockTime d.lock else 0) ≤ o.lock ∧ (6 ≤ o.lock → o.lock ≤ (if d.vLock then Lock.encodeLockTime d.lock else 0) + 1)
    rw [if_pos hlv, hl]
    exact lock_back _ hlk

/-! ### the satellite -/

theorem l2Of_cases (m : List SbpObs) (h : m.length ≤ 1) : m = [] ∧ l2Of m = {} ∨ ∃ o, m = [o] ∧ l2Of m = freqOfObs o 0 := by
  match m, h with
  | [], _ => exact Or.inl ⟨rfl, rfl⟩
  | [o], _ => exact Or.inr ⟨o, rfl, rfl⟩

theorem seconds_mem {glo : Bool} {l : List SbpObs} {sat : Nat} {o : SbpObs} (h : secondsOf glo l sat = [o]) :
    o ∈ l ∧ band o.code = some (secondOf glo) ∧ o.sat = sat := by
  have : o ∈ secondsOf glo l sat := by rw [h]; simp
  unfold secondsOf at this
  simpa [List.mem_filter] using this

theorem cnr_fits {n : Nat} (h : n ≤ 255) : 0 ≤ (n : ℚ) / 4 ∧ (n : ℚ) / 4 < 63.875 := by
  have : (n : ℚ) ≤ 255 := by exact_mod_cast h
  constructor
  · positivity
  · generalize (n : ℚ) = x at *
    rw [div_lt_iff₀ (by norm_num)]; norm_num; linarith

theorem sat_wf {cfg : Config} {glo : Bool} {l : List SbpObs} (hp : noP l) (h : ConsOk cfg glo l) {o : SbpObs} (ho : o ∈ l)
    (hb : band o.code = some (firstOf glo)) : WFSat (kind glo) (satOf cfg glo l o) ∧ Carried (kind glo) (satOf cfg glo l o) = true := by
  obtain ⟨s1, s2, s3⟩ := h.sats o ho (Or.inl hb)
  have ok := h.ok1 o ho hb
  obtain ⟨p1, p2⟩ := pr_near 0 ok.range
  have hch : (satOf cfg glo l o).fcn = chan cfg glo o.sat := rfl
  have e1 : (satOf cfg glo l o).l1 = freqOfObs o 0 := rfl
  have hlock : ∀ o : SbpObs, 0 ≤ (freqOfObs o 0).lock := by
    intro o
    show 0 ≤ Lock.decodeLockTime o.lock
    unfold Lock.decodeLockTime
    simp only
    split <;> positivity
  have hmax : maxSat glo ≤ 32 := by cases glo <;> decide
  have hph := ok.phase
  rw [Obs.close] at p1
  have hr := ok.range
  have hcarr : Carried (kind glo) (satOf cfg glo l o) = true := by
    unfold Carried
    rw [e1, if_neg (by cases glo <;> decide)]
    show (o.flags.testBit 0 && (o.flags.testBit 1 && o.flags.testBit 2) && true) = true
    rw [ok.valid.1, ok.valid.2.1, ok.valid.2.2]; rfl
  refine ⟨?_, hcarr⟩
  have hfcn : (kind glo).glo = false → (satOf cfg glo l o).fcn = 0 := by
    rw [kind_glo, hch]
    intro h; subst h; rfl
  have c1 : |(satOf cfg glo l o).l1.cp * lam ((kind glo).f1 (satOf cfg glo l o).fcn) - (satOf cfg glo l o).l1.pr| < 1000000 := by
    rw [e1, kind_f1, hch, phase_lam, abs_lt]
    rw [abs_le] at hph
    constructor <;> linarith [hph.1, hph.2, p1.1, p1.2]
  have c2 : (satOf cfg glo l o).l1.vCnr = false → (satOf cfg glo l o).l1.cnr = 0 := by
    rw [e1]
    intro h
    have : o.cn0 = 0 := by simpa [freqOfObs] using h
    simp [freqOfObs, this]
  have c3 : (satOf cfg glo l o).l1.pr < 76746869 := by rw [e1]; linarith [p1.2]
  rcases l2Of_cases _ (second_eq glo l o.sat hp h.once2).2 with ⟨m1, m2⟩ | ⟨o2, m1, m2⟩
  · have e2 : (satOf cfg glo l o).l2 = {} := m2
    refine ⟨by show o.sat < 64; omega, by rw [hch]; omega, hfcn, p2, c3, c1, fun _ => hlock o, cnr_fits ok.cn0, c2,
      fun _ hv => ?_, fun _ hv => ?_, fun _ hv => ?_, fun _ hv => ?_, fun _ => ?_, fun _ => ?_⟩ <;> rw [e2] at *
    · cases hv
    · cases hv
    · cases hv
    · norm_num
  · obtain ⟨q1, q2, q3⟩ := seconds_mem m1
    have e2 : (satOf cfg glo l o).l2 = freqOfObs o2 0 := m2
    obtain ⟨ok2, r2, r3⟩ := h.ok2 o ho o2 q1 hb q2 q3.symm
    rw [q3] at ok2
    obtain ⟨p3, p4⟩ := pr_near 0 ok2.range
    rw [Obs.close] at p3
    refine ⟨by show o.sat < 64; omega, by rw [hch]; omega, hfcn, p2, c3, c1, fun _ => hlock o, cnr_fits ok.cn0, c2,
      fun _ _ n hn => ?_, fun _ _ => ?_, fun _ _ => ?_, fun _ _ => ?_, fun _ => ?_, fun hv => ?_⟩ <;> rw [e2] at *
    · rw [kind_unit] at *
      rw [e1] at hn
      unfold tiny at hn ⊢
      have := r3 n (by linarith [p1.2])
      linarith [p3.1]
    · rw [e1, abs_le]
      rw [abs_le] at r2
      constructor <;> norm_num <;> linarith [r2.1, r2.2, p1.1, p1.2, p3.1, p3.2]
    · rw [e1, kind_f2, hch, phase_lam, abs_lt]
      have hph2 := ok2.phase
      rw [abs_le] at hph2
      constructor <;> linarith [hph2.1, hph2.2, p1.1, p1.2]
    · exact hlock o2
    · exact cnr_fits ok2.cn0
    · have : o2.cn0 = 0 := by simpa [freqOfObs] using hv
      simp [freqOfObs, this]

/-- what the receiver has for the satellite -/
theorem sat_back {cfg : Config} {glo : Bool} {l : List SbpObs} (hp : noP l) (h : ConsOk cfg glo l) {env' : RtcmSbp.Env}
    (hbias : ∀ c, band c ≠ none → env'.sigBias c = 0) {o : SbpObs} (ho : o ∈ l)
    (hb : band o.code = some (firstOf glo)) (s' : Obs.Sat) (hs' : s' = mkSat (kind glo) (rawOf (kind glo) (satOf cfg glo l o))) :
    s'.svId = o.sat ∧ (s'.l1.vPr = true ∧ s'.l1.vCp = true ∧ s'.l1.code = 0 ∧ Back o (packLegacy env' o.sat o.code s'.l1)) ∧
    (secondsOf glo l o.sat = [] ∧ s'.l2.vPr = false ∨
      ∃ o2, secondsOf glo l o.sat = [o2] ∧ o2.sat = o.sat ∧ band o2.code = some (secondOf glo) ∧ s'.l2.vPr = true ∧ s'.l2.vCp = true ∧
        s'.l2.code = 0 ∧ Back o2 (packLegacy env' o2.sat o2.code s'.l2)) := by
  obtain ⟨wf, hc⟩ := sat_wf hp h ho hb
  obtain ⟨s1, s2, s3⟩ := h.sats o ho (Or.inl hb)
  have ok := h.ok1 o ho hb
  obtain ⟨c, hk⟩ := Obs.sat_ok (kind glo) _ wf hc
  have hc0 : c = 0 := by
    have := hk.cut
    unfold Obs.Spec.IsCut at this
    rwa [if_pos (kind_ext glo)] at this
  subst hc0
  have ef : (satOf cfg glo l o).fcn = chan cfg glo o.sat := rfl
  have e1 : (satOf cfg glo l o).l1 = freqOfObs o 0 := rfl
  obtain ⟨p1, p2⟩ := pr_near 0 ok.range
  rw [Obs.close] at p1
  have hpr := hk.pr1
  have hcp1 := hk.cp1
  have hcp2 := hk.cp2 (kind_l2 glo)
  have hlk1 := hk.lock1.flag
  have hlk2 := (hk.lock2 (kind_l2 glo)).flag
  have hpr2 := hk.pr2
  have hv2 := hk.pr2v
  have hsv := hk.svId
  have hv1 := hk.pr1v
  have hcode := hk.code1 (by rw [e1]; rfl)
  have hcode2 := hk.code2
  rw [← hs'] at hpr hcp1 hcp2 hlk1 hlk2 hpr2 hv2 hsv hv1 hcode hcode2
  rw [kind_f1, ef, e1, add_zero] at hcp1
  rw [kind_f2, ef, add_zero] at hcp2
  rw [e1, sub_zero] at hpr
  have hpr' := hpr
  rw [Obs.close] at hpr'
  unfold tiny at hpr'
  have hcv : (freqOfObs o 0).vCp = true := by
    show (o.flags.testBit 1 && o.flags.testBit 2) = true
    rw [ok.valid.2.1, ok.valid.2.2]; rfl
  have hph := ok.phase
  rw [abs_le] at hph
  obtain ⟨hvc, hcp⟩ := hcp1.kept hcv (by
    rw [phase_lam, abs_lt]
    constructor <;> linarith [hph.1, hph.2, p1.1, p1.2, hpr'.1, hpr'.2])
  rw [sub_zero] at hcp
  refine ⟨hsv, ⟨hv1, hvc, hcode, ?_⟩, ?_⟩
  · refine freq_back s3 ok (hbias _ (by rw [hb]; simp)) hpr hcp ?_ (hlk1.trans hvc) ?_ ?_
    · rw [hs']; rfl
    · rw [hs']
      show ((rawOf (kind glo) (satOf cfg glo l o)).cnr1 : ℚ) / 4 = _
      have : (rawOf (kind glo) (satOf cfg glo l o)).cnr1 = o.cn0 := by
        unfold rawOf
        simp only
        rw [if_pos (kind_ext glo), e1, show (freqOfObs o 0).cnr = (o.cn0 : ℚ) / 4 from rfl, encCnr_eq]
        exact Nat.mod_eq_of_lt (by have := ok.cn0; omega)
      rw [this]
    · rw [hs']
      show decide ((rawOf (kind glo) (satOf cfg glo l o)).cnr1 ≠ 0) = _
      have : (rawOf (kind glo) (satOf cfg glo l o)).cnr1 = o.cn0 := by
        unfold rawOf
        simp only
        rw [if_pos (kind_ext glo), e1, show (freqOfObs o 0).cnr = (o.cn0 : ℚ) / 4 from rfl, encCnr_eq]
        exact Nat.mod_eq_of_lt (by have := ok.cn0; omega)
      rw [this]
  · rcases l2Of_cases _ (second_eq glo l o.sat hp h.once2).2 with ⟨m1, m2⟩ | ⟨o2, m1, m2⟩
    · refine Or.inl ⟨m1, ?_⟩
      have e2 : (satOf cfg glo l o).l2 = {} := m2
      rw [hv2, e2]
      simp
    · refine Or.inr ⟨o2, m1, ?_⟩
      obtain ⟨q1, q2, q3⟩ := seconds_mem m1
      have e2 : (satOf cfg glo l o).l2 = freqOfObs o2 0 := m2
      obtain ⟨ok2, r2, r3⟩ := h.ok2 o ho o2 q1 hb q2 q3.symm
      rw [q3] at ok2
      rw [e2] at hv2 hpr2 hcp2 hcode2
      have hv2 : s'.l2.vPr = true := by
        rw [hv2, kind_l2]
        show (true && o2.flags.testBit 0) = true
        rw [ok2.valid.1]; rfl
      have hpr2 := hpr2 hv2
      rw [sub_zero] at hpr2
      have hcv2 : (freqOfObs o2 0).vCp = true := by
        show (o2.flags.testBit 1 && o2.flags.testBit 2) = true
        rw [ok2.valid.2.1, ok2.valid.2.2]; rfl
      have hph2 := ok2.phase
      rw [abs_le] at hph2
      obtain ⟨hvc2, hcp2⟩ := hcp2.kept hcv2 (by
        rw [phase_lam, abs_lt]
        constructor <;> linarith [hph2.1, hph2.2, p1.1, p1.2, hpr'.1, hpr'.2])
      rw [sub_zero] at hcp2
      have e3 : s'.l2 = Obs.mkL2 (kind glo) (rawOf (kind glo) (satOf cfg glo l o)) := by
        rw [hs']
        show (if (kind glo).l2 then _ else _) = _
        rw [if_pos (kind_l2 glo)]
      have hcn : (rawOf (kind glo) (satOf cfg glo l o)).cnr2 = o2.cn0 := by
        unfold rawOf
        simp only
        rw [kind_l2, kind_ext, e2, show (freqOfObs o2 0).cnr = (o2.cn0 : ℚ) / 4 from rfl, encCnr_eq]
        exact Nat.mod_eq_of_lt (by have := ok2.cn0; omega)
      refine ⟨q3, q2, hv2, hvc2, hcode2 rfl, freq_back s3 ok2 (hbias _ (by rw [q2]; simp)) hpr2 hcp2 ?_ (hlk2.trans hvc2) ?_ ?_⟩
      · rw [e3]
        show ((Lock.fromLockInd (rawOf (kind glo) (satOf cfg glo l o)).lock2 : ℕ) : ℚ) = _
        unfold rawOf
        simp only
        rw [if_pos (kind_l2 glo), e2]
        rfl
      · rw [e3]
        show ((rawOf (kind glo) (satOf cfg glo l o)).cnr2 : ℚ) / 4 = _
        rw [hcn]
      · rw [e3]
        show decide ((rawOf (kind glo) (satOf cfg glo l o)).cnr2 ≠ 0) = _
        rw [hcn]

/-! ### the receiver's loop -/

theorem sid_first {glo : Bool} {c : Code} (h : band c = some (firstOf glo)) {sat : Nat} (h1 : 1 ≤ sat) (h2 : sat ≤ maxSat glo) :
    RtcmSbp.legacySid glo sat 0 0 = some (sat, c) := by
  unfold RtcmSbp.legacySid
  cases glo with
  | false =>
    have h2 : sat ≤ 32 := h2
    simp only [Bool.false_eq_true, if_false]
    rw [if_pos ⟨h1, h2⟩]
    have : c = .gps_l1ca := by revert h; cases c <;> decide
    rw [this]; rfl
  | true =>
    have h2 : sat ≤ 24 := h2
    simp only [if_true]
    rw [if_pos ⟨h1, h2⟩]
    have : c = .glo_l1of := by revert h; cases c <;> decide
    rw [this]

theorem sid_second {glo : Bool} {c : Code} (h : band c = some (secondOf glo)) {sat : Nat} (h1 : 1 ≤ sat) (h2 : sat ≤ maxSat glo) :
    RtcmSbp.legacySid glo sat 1 0 = some (sat, c) := by
  unfold RtcmSbp.legacySid
  cases glo with
  | false =>
    have h2 : sat ≤ 32 := h2
    simp only [Bool.false_eq_true, if_false]
    rw [if_pos ⟨h1, h2⟩]
    have : c = .gps_l2cm := by revert h; cases c <;> decide
    rw [this]; rfl
  | true =>
    have h2 : sat ≤ 24 := h2
    simp only [if_true]
    rw [if_pos ⟨h1, h2⟩]
    have : c = .glo_l2of := by revert h; cases c <;> decide
    rw [this]; rfl

theorem warn_zero (glo : Bool) (sv f : Nat) (s : RtcmSbp.State) : RtcmSbp.legacyWarn glo sv f 0 s = (s, []) := by
  unfold RtcmSbp.legacyWarn
  rw [if_neg (fun h => h.2.2.2 rfl)]

theorem loop_first {env' : RtcmSbp.Env} {glo : Bool} {sat : Obs.Sat} {prn : Nat} {c : Code} (h1 : sat.l1.vPr = true) (h2 : sat.l1.vCp = true)
    (h3 : sat.l1.code = 0) (h4 : RtcmSbp.legacySid glo sat.svId 0 0 = some (prn, c)) (r : List (Obs.Sat × Nat)) (s : RtcmSbp.State)
    (hl : s.buf.length < 210) : RtcmSbp.legacyLoop env' glo ((sat, 0) :: r) s =
      RtcmSbp.legacyLoop env' glo r { s with buf := s.buf ++ [packLegacy env' prn c sat.l1] } := by
  have e : RtcmSbp.freqOf sat 0 = sat.l1 := rfl
  simp only [RtcmSbp.legacyLoop, e, h3, warn_zero, h4]
  rw [if_pos ⟨h1, h2⟩, if_neg (by simp only [RtcmSbp.maxObs]; omega)]
  simp

theorem loop_second {env' : RtcmSbp.Env} {glo : Bool} {sat : Obs.Sat} {prn : Nat} {c : Code} (h1 : sat.l2.vPr = true) (h2 : sat.l2.vCp = true)
    (h3 : sat.l2.code = 0) (h4 : RtcmSbp.legacySid glo sat.svId 1 0 = some (prn, c)) (r : List (Obs.Sat × Nat)) (s : RtcmSbp.State)
    (hl : s.buf.length < 210) : RtcmSbp.legacyLoop env' glo ((sat, 1) :: r) s =
      RtcmSbp.legacyLoop env' glo r { s with buf := s.buf ++ [packLegacy env' prn c sat.l2] } := by
  have e : RtcmSbp.freqOf sat 1 = sat.l2 := rfl
  simp only [RtcmSbp.legacyLoop, e, h3, warn_zero, h4]
  rw [if_pos ⟨h1, h2⟩, if_neg (by simp only [RtcmSbp.maxObs]; omega)]
  simp

theorem loop_skip {env' : RtcmSbp.Env} {glo : Bool} {sat : Obs.Sat} (h1 : sat.l2.vPr = false) (r : List (Obs.Sat × Nat)) (s : RtcmSbp.State) :
    RtcmSbp.legacyLoop env' glo ((sat, 1) :: r) s = RtcmSbp.legacyLoop env' glo r s := by
  have e : RtcmSbp.freqOf sat 1 = sat.l2 := rfl
  simp only [RtcmSbp.legacyLoop, e]
  rw [if_neg (by rw [h1]; simp)]

theorem loop_ok {cfg : Config} {glo : Bool} {l : List SbpObs} (hp : noP l) (h : ConsOk cfg glo l) {env' : RtcmSbp.Env}
    (hbias : ∀ c, band c ≠ none → env'.sigBias c = 0) : ∀ (os : List SbpObs) (s : RtcmSbp.State),
    (∀ o ∈ os, o ∈ l ∧ band o.code = some (firstOf glo)) →
    s.buf.length + (os.flatMap fun o => o :: secondsOf glo l o.sat).length ≤ 210 →
    ∃ R, RtcmSbp.legacyLoop env' glo ((os.map fun o => mkSat (kind glo) (rawOf (kind glo) (satOf cfg glo l o))).flatMap fun s => [(s, 0), (s, 1)]) s =
        ({ s with buf := s.buf ++ R }, [], true) ∧
      List.Forall₂ Back (os.flatMap fun o => o :: secondsOf glo l o.sat) R := by
  intro os
  induction os with
  | nil => intro s _ _; exact ⟨[], by simp [RtcmSbp.legacyLoop], .nil⟩
  | cons o os ih =>
    intro s hm hl
    obtain ⟨ho, hb⟩ := hm o (by simp)
    obtain ⟨s1, s2, s3⟩ := h.sats o ho (Or.inl hb)
    simp only [List.map_cons, List.flatMap_cons, List.cons_append, List.nil_append]
    generalize hs' : mkSat (kind glo) (rawOf (kind glo) (satOf cfg glo l o)) = s'
    obtain ⟨a1, ⟨a2, a3, a4, a5⟩, a6⟩ := sat_back hp h hbias ho hb s' hs'.symm
    simp only [List.flatMap_cons, List.cons_append, List.length_cons, List.length_append] at hl
    rw [loop_first a2 a3 a4 (by rw [a1]; exact sid_first hb s1 s2) _ s (by omega)]
    rcases a6 with ⟨b1, b2⟩ | ⟨o2, b1, b2, b3, b4, b5, b6, b7⟩
    · rw [loop_skip b2]
      obtain ⟨R, r1, r2⟩ := ih { s with buf := s.buf ++ [packLegacy env' o.sat o.code s'.l1] } (fun x hx => hm x (by simp [hx]))
        (by simp only [List.length_append, List.length_singleton]; omega)
      refine ⟨packLegacy env' o.sat o.code s'.l1 :: R, ?_, ?_⟩
      · rw [r1]; simp
      · rw [b1]; exact .cons a5 r2
    · rw [b1] at hl
      rw [loop_second b4 b5 b6 (by rw [a1]; exact sid_second b3 s1 s2) _ _ (by simp only [List.length_append, List.length_singleton] at hl ⊢; omega)]
      obtain ⟨R, r1, r2⟩ := ih { s with buf := s.buf ++ [packLegacy env' o.sat o.code s'.l1] ++ [packLegacy env' o.sat o2.code s'.l2] }
        (fun x hx => hm x (by simp [hx])) (by simp only [List.length_append, List.length_singleton] at hl ⊢; omega)
      refine ⟨packLegacy env' o.sat o.code s'.l1 :: packLegacy env' o.sat o2.code s'.l2 :: R, ?_, ?_⟩
      · rw [r1]; simp
      · rw [b1]; rw [b2] at b7; exact .cons a5 (.cons b7 r2)

end Verif.LegacyStream
