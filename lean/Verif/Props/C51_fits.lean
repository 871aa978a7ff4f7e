import Verif.Props.C13_ranges
/-! C51: which of the values of an accepted MSM message can fail to fit the SBP fields. -/
namespace Verif.RtcmSbp
open Verif.RtcmSbp.Spec Verif.Time Verif.Msm Verif.Lock

/-- the carrier frequencies are positive and at most 2 GHz -/
def SaneFreq (env : Env) : Prop := ∀ c f hz, env.freq c f = some hz → 0 < hz ∧ hz ≤ 2000000000

/-- **C51 (what can fail to fit).**  Of the measurements of an accepted MSM message only these can fail to fit the SBP fields: a pseudorange that is
negative (with the biases), a signal to noise ratio of 63.875 dB-Hz or more, and a Doppler beyond 32768 Hz; pseudoranges and phases are never too large. -/
theorem C51_fits (env : Env) (hb : SmallBias env) (hf : SaneFreq env) (table : List Nat) (cons : Cons) (ty : MsmType) (p : Buf) (m : Msm.Msg)
    (h : (decodeMsm ty).run p = .ok m) (x : Meas) (hx : x ∈ msmMeas env table cons m)
    (h1 : 0 ≤ x.pr) (h2 : ∀ c, x.cnr = some c → c < 511 / 8) (h3 : ∀ d, x.dop = some d → |d| < 2 ^ 15 - 1 / 256) : InRange x := by
  unfold msmMeas at hx
  split at hx
  · cases hx
  obtain ⟨⟨⟨s, g, row⟩, k⟩, hk, hx⟩ := List.mem_filterMap.1 hx
  simp only at hx
  split at hx
  swap
  · cases hx
  have hsig : ((-(1 / 1024) ≤ (m.sig k).pr ∧ (m.sig k).pr < 255 + 1 / 1024) ∧ (-(1 / 256) ≤ (m.sig k).cp ∧ (m.sig k).cp < 255 + 1 / 256) ∧
      |(m.sig k).rate| ≤ 8194 ∧ (0 ≤ (m.sig k).cnr ∧ (m.sig k).cnr < 64) ∧ 0 ≤ (m.sig k).lock) := by
    unfold Msg.sig
    rw [List.getD_eq_getElem?_getD]
    cases e : m.sigs[k]? with
    | some d => exact (C13_ranges ty p m h).1 d (List.mem_of_getElem? e)
    | none => norm_num
  obtain ⟨⟨p1, p2⟩, ⟨c1, c2⟩, -, ⟨n1, n2⟩, l1⟩ := hsig
  generalize m.sig k = d at *
  generalize (if cons = .glo then (if (m.sat row).gloFcn ≠ 255 then (m.sat row).gloFcn else table.getD (env.prn.first cons + s) 0) else 255) = fcn at hx
  generalize codeOf cons (g + 1) = code at *
  have bs := abs_le.1 (hb.code code)
  have bg := hb.glo code fcn
  have hx := Option.some.inj hx
  refine ⟨⟨h1, ?_⟩, fun c hc => ⟨?_, h2 c hc⟩, ?_, ?_, h3⟩
  · rw [← hx]
    have bg := abs_le.1 bg.1
    norm_num at bs bg ⊢
    linarith [bs.2, bg.2]
  · rw [← hx] at hc
    simp only at hc
    split at hc
    · obtain rfl := Option.some.inj hc; exact n1
    · cases hc
  · intro t ht
    rw [← hx] at ht
    simp only at ht
    split at ht
    · obtain rfl := Option.some.inj ht; exact l1
    · cases ht
  · intro y hy
    rw [← hx] at hy
    simp only at hy
    split at hy
    · rename_i hz _ hfr
      obtain rfl := Option.some.inj hy
      have hz0 := hf _ _ _ hfr
      have bg := abs_le.1 bg.2
      have a1 : d.cp * hz / 1000 ≤ 256 * 2000000000 / 1000 := by
        apply div_le_div_of_nonneg_right _ (by norm_num)
        exact mul_le_mul (by linarith) hz0.2 hz0.1.le (by norm_num)
      have a2 : -(2000000000 / 1000) ≤ d.cp * hz / 1000 := by
        rw [← neg_div]
        apply div_le_div_of_nonneg_right _ (by norm_num)
        have : -(1 : ℚ) * hz ≤ d.cp * hz := mul_le_mul_of_nonneg_right (by linarith) hz0.1.le
        linarith [hz0.2]
      rw [abs_lt]
      norm_num at bg a1 a2 ⊢
      constructor <;> linarith [bg.1, bg.2]
    · cases hy

/-- **C51 (any MSM message).**  Whatever bytes are accepted as an MSM message: the observations converted from it are, in order, its measurements, each
carried to the resolution of the SBP fields, unless one has a negative pseudorange, a signal to noise ratio of 63.875 dB-Hz or more or a
Doppler beyond 32768 Hz. -/
theorem C51_msm_any (env : Env) (hw : env.prn.WF) (hb : SmallBias env) (hf : SaneFreq env) (cons : Cons) (ty : MsmType) (p : Buf) (m : Msm.Msg)
    (h : (decodeMsm ty).run p = .ok m) (s : State)
    (hr : ∀ x ∈ msmMeas env s.fcn cons m, 0 ≤ x.pr ∧ (∀ c, x.cnr = some c → c < 511 / 8) ∧ ∀ d, x.dop = some d → |d| < 2 ^ 15 - 1 / 256) :
    List.Forall₂ Carries (msmMeas env s.fcn cons m) (msmObs env cons m s) := by
  have hcc := C12_accepted_consistent ty p m h
  exact C51_msm env hw hb cons m s hcc.1 hcc.2.1 fun x hx =>
    C51_fits env hb hf s.fcn cons ty p m h x hx (hr x hx).1 (hr x hx).2.1 (hr x hx).2.2

example : SaneFreq exEnv := by intro c f hz h; simp [exEnv] at h; subst h; norm_num

end Verif.RtcmSbp
