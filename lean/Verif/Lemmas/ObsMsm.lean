import Verif.Lemmas.ObsStream
/-
C72: the MSM messages of an epoch, satellite and signal data.
-/
namespace Verif.ObsStream
open Verif.ObsStream.Spec Verif.SbpRtcm.Spec Verif.Msm.Spec
open Verif.Msm hiding Inv
open Verif.SbpRtcm
open Verif.RtcmSbp (SbpTime SbpObs crint)

/-- constellations with observations, in the order of transmission -/
def sentCons (env : Env) (e : Epoch) : List Cons := consOrder.filter fun c => !(obsFor env c e.obs).isEmpty

theorem bufferToMsm_ok (env : Env) (ht : env.prn.WF) (e : Epoch) (hc : Clean env e.obs)
    (hty : e.cfg.msmType = .msm4 ∨ e.cfg.msmType = .msm5) :
    ∃ (h1 h2 : Cons → Hdr) (b : Builds), (∀ c, ConsOk env e.cfg c e.obs (h1 c) (h2 c) (b c)) ∧
      bufferToMsm env e = some ((sentCons env e).map fun c => finish e c (if (sentCons env e).getLast? = some c then 0 else 1) (b c)) := by
  choose h1 h2 b hok using cons_ok env ht e.cfg e.obs hc
  refine ⟨h1, h2, b, hok, ?_⟩
  have hk : ∀ o ∈ e.obs, ∃ c, env.consOf o.code = some c := fun o ho => (hc.known o ho).imp fun _ h => h.1
  have p1 : pass1 env Build.empty e.obs = some fun c => { Build.empty c with hdr := h1 c } :=
    pass1_eq env e.obs Build.empty h1 _ hk fun c => (hok c).add
  have p2 : pass2 env (fun c => { Build.empty c with hdr := h1 c }) e.obs = some fun c => { Build.empty c with hdr := h2 c } :=
    pass2_eq env e.obs _ h2 _ hk fun c => (hok c).cell
  have p3 : pass3 env e.cfg (fun c => { Build.empty c with hdr := h2 c }) e.obs = some b :=
    pass3_eq env e.cfg e.obs _ b hk fun c => (hok c).fill
  have hpos : ∀ c, decide (numSats (b c).hdr > 0) = !(obsFor env c e.obs).isEmpty := by
    intro c
    rw [(hok c).hdr]
    cases ho : obsFor env c e.obs with
    | nil =>
      have := (hok c).pos.not.mpr (by simp [ho])
      simpa using this
    | cons x r =>
      have := (hok c).pos.mpr (by simp [ho])
      simpa using this
  have hsb : obsFor env .sbas e.obs = [] := by
    rw [obsFor, List.filter_eq_nil_iff]
    intro o ho
    obtain ⟨c, h, hne, -⟩ := hc.known o ho
    simp [h, hne]
  have hfil : (allCons.filter fun c => decide (numSats (b c).hdr > 0)) = sentCons env e := by
    have : (fun c => decide (numSats (b c).hdr > 0)) = fun c => !(obsFor env c e.obs).isEmpty := funext hpos
    rw [this]
    simp only [sentCons, allCons, consOrder, List.filter_cons, hsb, List.isEmpty_nil, Bool.not_true, Bool.false_eq_true, if_false]
  have hne : ∀ c ∈ consOrder, c ≠ .sbas := by decide
  unfold bufferToMsm
  simp only [p1, p2, p3, Option.bind_eq_bind, Option.bind_some]
  rw [lastCons_last, hfil, if_pos]
  rw [List.all_map, List.all_eq_true]
  intro c hcm
  have hcs := hne c (List.mem_filter.mp hcm).1
  show msmEncodable (toMsmMsgNum (some c) e.cfg.msmType) = true
  rcases hty with h | h <;> rw [h] <;> revert hcs <;> cases c <;> decide

/-! ### all rows and cells are legal -/

/-- legal satellite data with the range on the grid of 1/1024 ms and a whole number of m/s -/
structure GoodSat (s : Sat) : Prop where
  wf : WFSat s
  grid : ∃ k : ℤ, s.roughRangeMs = k / 1024
  whole : ∃ k : ℤ, s.roughRate = k

theorem grid_frac (k : ℤ) : (k : ℚ) / 1024 - ⌊(k : ℚ) / 1024⌋ < 1023.5 / 1024 := by
  have h := Int.lt_floor_add_one ((k : ℚ) / 1024)
  generalize ⌊(k : ℚ) / 1024⌋ = q at *
  have h1 : (k : ℚ) < ((1024 * (q + 1) : ℤ) : ℚ) := by push_cast; linarith
  have h2 := Int.cast_lt.1 h1
  have h3 : (k : ℚ) ≤ ((1024 * q + 1023 : ℤ) : ℚ) := by exact_mod_cast (by omega : k ≤ 1024 * q + 1023)
  push_cast at h3
  linarith

theorem zero_good : GoodSat Sat.zero := by
  refine ⟨⟨?_, ?_, ?_, ?_, ?_⟩, ⟨0, ?_⟩, ⟨0, ?_⟩⟩ <;> simp [Sat.zero] <;> norm_num

/-- the range in milliseconds -/
theorem prMs_ms {f : Option ℚ} {o : SbpObs} (ho : ObsOk f o) : |prMs o - range o * 1000 / 299792458| ≤ 1 / 2 ^ 40 := by
  have hr := ho.range
  have h := prMs_near o
  have e : (o.P : ℚ) / 50 / 299792458 * 1000 = range o * 1000 / 299792458 := by unfold range; ring
  rw [e] at h
  have p0 : (0 : ℚ) ≤ range o := by unfold range; positivity
  have b : |range o * 1000 / 299792458| ≤ 256 := by
    rw [abs_of_nonneg (by positivity), div_le_iff₀ (by norm_num)]
    linarith
  exact le_trans (h.abs b) (by norm_num)

/-- the range rate -/
theorem rateMs_rate {f : Option ℚ} {o : SbpObs} (ho : ObsOk f o) {hz : ℚ} (hf : f = some hz) (h3 : o.flags.testBit 3 = true) :
    |rateMs hz o - rate hz o| ≤ 1 / 2 ^ 36 := by
  have h := rateMs_near o (ho.hz hz hf).1
  have e : -(((o.Di : ℚ) + o.Df / 256) / hz * 299792458) = rate hz o := by unfold rate; ring
  rw [e] at h
  exact le_trans (h.abs (ho.rate hz hf h3)) (by norm_num)

theorem satData_good {f : Option ℚ} {o : SbpObs} (ho : ObsOk f o) (c : Cons) (cfg : Config) {s : Sat} (hs : GoodSat s) :
    GoodSat (satData c cfg f o s) := by
  have hv := ho.codeValid
  have hr := ho.range
  unfold Spec.range at hr
  have e1 : (satData c cfg f o s).roughRangeMs = (crint (prMs o * 1024) : ℚ) / 1024 := by
    simp only [satData, hv, if_true]
  have p0 : (0 : ℚ) ≤ (o.P : ℚ) / 50 := by positivity
  have hn := crint_near (prMs o * 1024)
  have hm := abs_le.1 (prMs_ms ho)
  unfold Spec.range at hm
  have p1 : (0 : ℚ) ≤ (o.P : ℚ) / 50 * 1000 / 299792458 := by positivity
  have hp : 0 ≤ crint (prMs o * 1024) := by
    apply RtcmSbp.crint_pos
    have : (1 : ℚ) / 2 ^ 40 * 1024 ≤ 1 / 4 := by norm_num
    linarith [hm.1]
  have e2 : ∃ k : ℤ, (satData c cfg f o s).roughRate = k ∧ -8192 < (k : ℚ) ∧ (k : ℚ) < 8192 := by
    obtain ⟨k, hk⟩ := hs.whole
    have old : ∃ k : ℤ, s.roughRate = k ∧ -8192 < (k : ℚ) ∧ (k : ℚ) < 8192 := ⟨k, hk, hk ▸ hs.wf.rateLo, hk ▸ hs.wf.rateHi⟩
    cases hf : f with
    | none => exact old
    | some hz =>
      by_cases h3 : o.flags.testBit 3 = true
      · refine ⟨_, by simp only [satData, if_pos h3]; rfl, ?_⟩
        have a := crint_near (rateMs hz o)
        have b := ho.rate hz hf h3
        have c := rateMs_rate ho hf h3
        have : (1 : ℚ) / 2 ^ 36 < 1 / 4 := by norm_num
        rw [abs_le] at a b c
        constructor <;> linarith [a.1, a.2, b.1, b.2, c.1, c.2]
      · simp only [satData, if_neg h3]; exact old
  obtain ⟨k, hk, k1, k2⟩ := e2
  refine ⟨⟨?_, ?_, ?_, ?_, ?_⟩, ⟨_, e1⟩, ⟨k, hk⟩⟩
  · rw [e1]; exact div_nonneg (by exact_mod_cast hp) (by norm_num)
  · rw [e1]
    rw [abs_le] at hn
    have : (o.P : ℚ) / 50 * 1000 / 299792458 ≤ 76000000 * 1000 / 299792458 := by
      apply div_le_div_of_nonneg_right _ (by norm_num)
      linarith
    have h3 : (76000000 * 1000 / 299792458 + 1 / 2 ^ 40 : ℚ) * 1024 + 1 / 2 < 255 * 1024 := by norm_num
    rw [div_lt_iff₀ (by norm_num)]
    linarith [hm.2, hn.2]
  · rw [e1]; exact grid_frac _
  · rw [hk]; exact k1
  · rw [hk]; exact k2

theorem decodeLockTime_nonneg (i : Nat) : 0 ≤ Lock.decodeLockTime i := by
  unfold Lock.decodeLockTime; simp only; split <;> positivity

theorem zero_sig : WFSig Sig.zero := by
  refine ⟨?_, ?_, ?_⟩ <;> intro h <;> simp [Sig.zero] at h
theorem sigData_wf {f : Option ℚ} {o : SbpObs} (ho : ObsOk f o) (s : Sig) : WFSig (sigData f o s) := by
  refine ⟨fun _ => decodeLockTime_nonneg _, fun _ => ?_, fun _ => ?_⟩
  · show (0 : ℚ) ≤ (o.cn0 : ℚ) / 4
    positivity
  · show (o.cn0 : ℚ) / 4 < 63.5
    have : (o.cn0 : ℚ) < ((254 : Nat) : ℚ) := by exact_mod_cast ho.cn0
    push_cast at this
    linarith

/-- what `fillSignal` does when it succeeds -/
theorem fillSignal_cases {env : Env} {cfg : Config} {c : Cons} {b b' : Build} {o : SbpObs} (h : fillSignal env cfg c b o = some b')
    (hin : InMasks env.prn b.hdr (o.code, o.sat)) :
    b'.hdr = b.hdr ∧ (b' = b ∨ ∃ sat sig, ∃ k : Nat, b.sats[prnToSatIndex env.prn b.hdr o.sat]? = some sat ∧ b.sigs[k]? = some sig ∧
      b' = { b with sats := b.sats.set (prnToSatIndex env.prn b.hdr o.sat) (satData c cfg (freqOf env cfg c o) o sat)
                    sigs := b.sigs.set k (sigData (freqOf env cfg c o) o sig) }) := by
  unfold fillSignal at h
  split at h
  · cases h
  simp only at h
  split at h
  · cases h
  · obtain rfl := Option.some.inj h; exact ⟨rfl, Or.inl rfl⟩
  · split at h
    · rename_i _ _ _ _ _ s1 s2 s3 e1 e2 e3
      obtain rfl := Option.some.inj h
      rw [signalToCode_in hin] at e3
      obtain rfl := Option.some.inj e3
      exact ⟨rfl, Or.inr ⟨_, _, _, e1, e2, rfl⟩⟩
    · cases h

theorem fillAll_good {env : Env} {cfg : Config} {c : Cons} (l : List SbpObs) : ∀ (b b' : Build),
    (∀ o ∈ l, InMasks env.prn b.hdr (o.code, o.sat)) → (∀ o ∈ l, ObsOk (freqOf env cfg c o) o) →
    (∀ s ∈ b.sats, GoodSat s) → (∀ s ∈ b.sigs, WFSig s) → fillAll env cfg c b l = some b' →
    (∀ s ∈ b'.sats, GoodSat s) ∧ ∀ s ∈ b'.sigs, WFSig s := by
  induction l with
  | nil =>
    intro b b' _ _ h1 h2 h
    obtain rfl := Option.some.inj h
    exact ⟨h1, h2⟩
  | cons o r ih =>
    intro b b' hin ho h1 h2 h
    unfold fillAll at h
    simp only [Option.bind_eq_bind] at h
    obtain ⟨v, hv, h⟩ := Option.bind_eq_some_iff.1 h
    obtain ⟨e, hcase⟩ := fillSignal_cases hv (hin o (by simp))
    have hoo := ho o (by simp)
    refine ih v b' (by rw [e]; exact fun o' h' => hin o' (by simp [h'])) (fun o' h' => ho o' (by simp [h'])) ?_ ?_ h
    · intro s hs
      rcases hcase with rfl | ⟨s1, s2, k, e1, e2, rfl⟩
      · exact h1 s hs
      · rcases List.mem_or_eq_of_mem_set hs with hs | rfl
        · exact h1 s hs
        · exact satData_good hoo c cfg (h1 s1 (List.mem_of_getElem? e1))
    · intro s hs
      rcases hcase with rfl | ⟨s1, s2, k, e1, e2, rfl⟩
      · exact h2 s hs
      · rcases List.mem_or_eq_of_mem_set hs with hs | rfl
        · exact h2 s hs
        · exact sigData_wf hoo _

/-! ### rates -/

/-- an observation with Doppler that the receiver can use -/
def HasRate (env : Env) (cfg : Config) (c : Cons) (o : SbpObs) (hz : ℚ) : Prop := freqOf env cfg c o = some hz ∧ o.flags.testBit 3 = true

def RateInv (env : Env) (cfg : Config) (c : Cons) (h : Hdr) (D : List SbpObs) (b : Build) : Prop :=
  ∀ o ∈ D, ∀ hz, HasRate env cfg c o hz → ∀ sat, b.sats[prnToSatIndex env.prn h o.sat]? = some sat →
    ∃ o' ∈ D, ∃ hz', HasRate env cfg c o' hz' ∧ prnToSatIndex env.prn h o'.sat = prnToSatIndex env.prn h o.sat ∧
      sat.roughRate = crint (rateMs hz' o')

theorem fillAll_rate {env : Env} {cfg : Config} {c : Cons} {h : Hdr} (hc : h.cons = c) (l : List SbpObs) : ∀ (D : List SbpObs) (b b' : Build),
    b.hdr = h → (∀ o ∈ l, InMasks env.prn h (o.code, o.sat) ∧ h.cell[cellId env.prn h (o.code, o.sat)]? = some true ∧
      cellId env.prn h (o.code, o.sat) < 256) → RateInv env cfg c h D b → fillAll env cfg c b l = some b' →
    RateInv env cfg c h (D ++ l) b' := by
  induction l with
  | nil =>
    intro D b b' _ _ h1 h
    obtain rfl := Option.some.inj h
    rw [List.append_nil]; exact h1
  | cons o r ih =>
    intro D b b' hb hin h1 hfill
    unfold fillAll at hfill
    simp only [Option.bind_eq_bind] at hfill
    obtain ⟨v, hv, hfill⟩ := Option.bind_eq_some_iff.1 hfill
    obtain ⟨hm, hcell, hlt⟩ := hin o (by simp)
    have hcase : ∃ sat sig, ∃ k : Nat, b.sats[prnToSatIndex env.prn b.hdr o.sat]? = some sat ∧ b.sigs[k]? = some sig ∧
        v = { b with sats := b.sats.set (prnToSatIndex env.prn b.hdr o.sat) (satData c cfg (freqOf env cfg c o) o sat)
                     sigs := b.sigs.set k (sigData (freqOf env cfg c o) o sig) } := by
      unfold fillSignal at hv
      rw [if_neg (by rw [not_not, ← hc]; exact hm.2.1)] at hv
      simp only at hv
      rw [hb, Nat.mod_eq_of_lt (show prnToSatIndex env.prn h o.sat * numSigs h + codeToSignalIndex h o.code < 256 from hlt),
        show h.cell[prnToSatIndex env.prn h o.sat * numSigs h + codeToSignalIndex h o.code]? = some true from hcell] at hv
      simp only at hv
      rw [signalToCode_in hm] at hv
      split at hv
      · rename_i _ _ _ s1 s2 s3 e1 e2 e3
        obtain rfl := Option.some.inj hv
        obtain rfl := Option.some.inj e3
        rw [hb]
        exact ⟨_, _, _, e1, e2, rfl⟩
      · cases hv
    obtain ⟨s1, s2, k, e1, e2, rfl⟩ := hcase
    rw [hb] at e1 hfill
    have key := ih (D ++ [o]) _ b' rfl (fun o' h' => hin o' (by simp [h'])) ?_ hfill
    · rw [List.append_assoc] at key; exact key
    intro o1 ho1 hz hr sat hsat
    simp only at hsat
    by_cases hrow : prnToSatIndex env.prn h o.sat = prnToSatIndex env.prn h o1.sat
    · rw [hrow, List.getElem?_set_self (by rw [← hrow]; exact (List.getElem?_eq_some_iff.1 e1).1)] at hsat
      obtain rfl := Option.some.inj hsat
      by_cases hro : ∃ hz', HasRate env cfg c o hz'
      · obtain ⟨hz', hh⟩ := hro
        refine ⟨o, by simp, hz', hh, hrow, ?_⟩
        unfold satData
        simp only [hh.1, hh.2, if_true]
      · have hne : o1 ≠ o := fun he => hro ⟨hz, he ▸ hr⟩
        have hD : o1 ∈ D := by
          rcases List.mem_append.1 ho1 with h' | h'
          · exact h'
          · exact absurd (List.mem_singleton.1 h') hne
        obtain ⟨o', a1, hz', a2, a3, a4⟩ := h1 o1 hD hz hr s1 (hrow ▸ e1)
        refine ⟨o', by simp [a1], hz', a2, a3, ?_⟩
        rw [← a4]
        unfold satData
        simp only
        cases hf : freqOf env cfg c o with
        | none => rfl
        | some hz'' =>
          simp only
          rw [if_neg (fun h3 => hro ⟨hz'', hf, h3⟩)]
    · rw [List.getElem?_set_ne hrow] at hsat
      have hne : o1 ≠ o := fun he => hrow (by rw [he])
      have hD : o1 ∈ D := by
        rcases List.mem_append.1 ho1 with h' | h'
        · exact h'
        · exact absurd (List.mem_singleton.1 h') hne
      obtain ⟨o', a1, hz', a2, a3, a4⟩ := h1 o1 hD hz hr sat hsat
      exact ⟨o', by simp [a1], hz', a2, a3, a4⟩

end Verif.ObsStream
