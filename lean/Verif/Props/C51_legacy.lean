import Verif.Props.C51_fits
import Verif.Props.C11_ranges
/-! C51: legacy messages almost always fit the SBP fields. -/
namespace Verif.RtcmSbp
open Verif.RtcmSbp.Spec Verif.Time Verif.Msm Verif.Lock

/-- **C51 (legacy, what can fail to fit).**  Of the measurements of an accepted legacy message only a pseudorange that is negative (after the bias, or on
L2 of a satellite closer than 164 m) does not fit the SBP fields. -/
theorem C51_legacy_fits (bias : Code → ℚ) (hb : ∀ c, |bias c| ≤ 10 ^ 6) (glo : Bool) (k : Obs.Kind) (p : Buf) (m : Obs.Msg)
    (h : (Obs.decode k).run p = .ok m) (x : Meas) (hx : x ∈ legacyMeas bias glo m) (h0 : 0 ≤ x.pr) : InRange x := by
  have hr := Obs.C11_ranges k p m h
  unfold legacyMeas at hx
  obtain ⟨s, hs, hx⟩ := List.mem_flatMap.mp hx
  obtain ⟨⟨f, d⟩, hd, hx⟩ := List.mem_filterMap.mp hx
  simp only at hx
  obtain ⟨r1, r2, r3⟩ := hr s hs
  have hdm : d ∈ [s.l1, s.l2] := by
    simp only [List.mem_cons, Prod.mk.injEq, List.not_mem_nil, or_false] at hd ⊢
    rcases hd with ⟨_, rfl⟩ | ⟨_, rfl⟩ <;> simp
  have hpr : d.pr ≤ 76819164 := by
    simp only [List.mem_cons, List.not_mem_nil, or_false] at hdm
    rcases hdm with rfl | rfl
    · linarith [r1.2]
    · exact r2.2
  obtain ⟨c1, c2, c3⟩ := r3 d hdm
  split at hx
  swap
  · cases hx
  rename_i code _ _
  have bs := abs_le.1 (hb code)
  have hx := Option.some.inj hx
  refine ⟨⟨h0, ?_⟩, ?_, ?_, ?_, ?_⟩
  · rw [← hx]
    norm_num at bs ⊢
    linarith [bs.2]
  · intro c hc
    rw [← hx] at hc
    simp only at hc
    split at hc
    · obtain rfl := Option.some.inj hc
      norm_num at c2 ⊢
      exact ⟨c2.1, by linarith [c2.2]⟩
    · cases hc
  · intro t ht
    rw [← hx] at ht
    simp only at ht
    split at ht
    · obtain rfl := Option.some.inj ht; exact c3
    · cases ht
  · intro y hy
    rw [← hx] at hy
    obtain rfl := Option.some.inj hy
    refine lt_of_le_of_lt c1 (by norm_num)
  · intro y hy
    rw [← hx] at hy
    cases hy

/-- **C51 (any legacy message).**  Whatever bytes are accepted as a legacy message: the observations converted from it are, in order, its measurements,
each carried to the resolution of the SBP fields, unless one has a negative pseudorange. -/
theorem C51_legacy_any (env : Env) (hb : SmallBias env) (glo : Bool) (k : Obs.Kind) (p : Buf) (m : Obs.Msg) (h : (Obs.decode k).run p = .ok m)
    (h0 : ∀ x ∈ legacyMeas env.sigBias glo m, 0 ≤ x.pr) :
    List.Forall₂ Carries (legacyMeas env.sigBias glo m) (legacyObs env glo m) :=
  C51_legacy env glo m fun x hx => C51_legacy_fits env.sigBias hb.code glo k p m h x hx (h0 x hx)

/-- **C51 (any payload).**  The observations offered for any payload at all are, in order, the measurements of the message in it, each carried to the
resolution of the SBP fields, unless one has a negative pseudorange, a signal to noise ratio of 63.875 dB-Hz or more or a Doppler beyond 32768 Hz. -/
theorem C51_any (env : Env) (hw : env.prn.WF) (hb : SmallBias env) (hf : SaneFreq env) (s : State) (inp : Input)
    (h : ∀ x ∈ measured env s.fcn inp.payload, 0 ≤ x.pr ∧ (∀ c, x.cnr = some c → c < 511 / 8) ∧ ∀ d, x.dop = some d → |d| < 2 ^ 15 - 1 / 256) :
    List.Forall₂ Carries (measured env s.fcn inp.payload) ((offered env s inp).map (·.obs)) := by
  refine C51_values env hw hb s inp fun x hx => ?_
  obtain ⟨h1, h2, h3⟩ := h x hx
  have leg : ∀ glo k, x ∈ (match (Obs.decode k).run inp.payload with | .ok m => legacyMeas env.sigBias glo m | .error _ => []) → InRange x := by
    intro glo k hx
    cases hd : (Obs.decode k).run inp.payload with
    | error e => rw [hd] at hx; cases hx
    | ok m => rw [hd] at hx; exact C51_legacy_fits _ hb.code glo k _ m hd x hx h1
  unfold measured at hx
  simp only at hx
  split at hx
  · exact leg _ _ hx
  · exact leg _ _ hx
  · exact leg _ _ hx
  · exact leg _ _ hx
  · split at hx
    · rename_i ty cons _
      cases hd : (decodeMsm ty).run inp.payload with
      | error e => rw [hd] at hx; cases hx
      | ok m => rw [hd] at hx; exact C51_fits env hb hf _ cons ty _ m hd x hx h1 h2 h3
    · cases hx

/-- its hypotheses: a GPS 1002 message with one measurement, 20985 km away -/
example : (measured exEnv [] exGps10.payload).map (fun m => decide (0 ≤ m.pr)) = [true] := by decide +kernel

end Verif.RtcmSbp
