import Verif.Model.RtcmSbp
/-! Members of the converter state that the observation code does not touch: `last1230` and `sentMsmWarning`. -/
namespace Verif.RtcmSbp
open Verif.Time Verif.Msm
theorem sendObservations_last1230 (s : State) : (sendObservations s).1.last1230 = s.last1230 := rfl
theorem flush_last1230 (t snd w) (s : State) : (flushIfOther t snd w s).1.last1230 = s.last1230 := by unfold flushIfOther; split <;> rfl
theorem warnCode_last1230 (i) (s : State) : (warnCode i s).1.last1230 = s.last1230 := by unfold warnCode; split <;> rfl
theorem legacyLoop_last1230 (env glo l) (s : State) : (legacyLoop env glo l s).1.last1230 = s.last1230 := by
  induction l generalizing s with
  | nil => rfl
  | cons c r ih =>
    obtain ⟨sat, f⟩ := c
    have hw : (legacyWarn glo sat.svId f (freqOf sat f).code s).1.last1230 = s.last1230 := by
      unfold legacyWarn; split
      · exact warnCode_last1230 _ _
      · rfl
    simp only [legacyLoop]
    split
    · split
      · rfl
      · split
        · simp only; rw [ih]; exact hw
        · simp only; rw [ih]; exact hw
    · exact ih s
theorem addObs_last1230 (env glo m t) (s : State) : (addObsToBuffer env glo m t s).1.last1230 = s.last1230 := by
  unfold addObsToBuffer
  simp only
  split
  · rw [legacyLoop_last1230]; exact flush_last1230 _ _ _ _
  · split
    · rw [sendObservations_last1230, legacyLoop_last1230]; exact flush_last1230 _ _ _ _
    · rw [legacyLoop_last1230]; exact flush_last1230 _ _ _ _
theorem addGps_last1230 (env m) (s : State) : (addGps env m s).1.last1230 = s.last1230 := by
  unfold addGps
  split
  · rfl
  · simp only
    split
    · rfl
    · split
      · rfl
      · split
        · exact addObs_last1230 _ _ _ _ _
        · rfl
theorem addGlo_last1230 (env m) (s : State) : (addGlo env m s).1.last1230 = s.last1230 := by
  unfold addGlo
  split
  · rfl
  · split
    · rfl
    · split
      · rfl
      · split
        · rfl
        · split
          · rfl
          · split
            · exact addObs_last1230 _ _ _ _ _
            · rfl
theorem sidFromMsm_last1230 (env h a b s) : (sidFromMsm env h a b s).2.1.last1230 = s.last1230 := by
  unfold sidFromMsm; simp only; split
  · rfl
  · split
    · unfold warnCode; split <;> rfl
    · rfl
theorem msmLoop_last1230 (env cons m l) (s : State) : (msmLoop env cons m l s).1.last1230 = s.last1230 := by
  induction l generalizing s with
  | nil => rfl
  | cons c r ih =>
    obtain ⟨sat, sig, i⟩ := c
    have hw := sidFromMsm_last1230 env (hdrOf cons m.header) sat sig s
    simp only [msmLoop]
    split
    · simp only; rw [ih]; exact hw
    · split
      · split
        · exact hw
        · simp only; rw [ih]; exact hw
      · simp only; rw [ih]; exact hw
theorem addMsm_last1230 (env cons m) (s : State) : (addMsm env cons m s).1.last1230 = s.last1230 := by
  unfold addMsm
  simp only
  split
  · rfl
  · split
    · rfl
    · rw [msmLoop_last1230]
      show (flushIfOther _ _ _ _).1.last1230 = s.last1230
      rw [flush_last1230]
      simp only
      split <;> rfl


theorem sendObservations_sentMsmWarning (s : State) : (sendObservations s).1.sentMsmWarning = s.sentMsmWarning := rfl
theorem flush_sentMsmWarning (t snd w) (s : State) : (flushIfOther t snd w s).1.sentMsmWarning = s.sentMsmWarning := by unfold flushIfOther; split <;> rfl
theorem warnCode_sentMsmWarning (i) (s : State) : (warnCode i s).1.sentMsmWarning = s.sentMsmWarning := by unfold warnCode; split <;> rfl
theorem legacyLoop_sentMsmWarning (env glo l) (s : State) : (legacyLoop env glo l s).1.sentMsmWarning = s.sentMsmWarning := by
  induction l generalizing s with
  | nil => rfl
  | cons c r ih =>
    obtain ⟨sat, f⟩ := c
    have hw : (legacyWarn glo sat.svId f (freqOf sat f).code s).1.sentMsmWarning = s.sentMsmWarning := by
      unfold legacyWarn; split
      · exact warnCode_sentMsmWarning _ _
      · rfl
    simp only [legacyLoop]
    split
    · split
      · rfl
      · split
        · simp only; rw [ih]; exact hw
        · simp only; rw [ih]; exact hw
    · exact ih s
theorem addObs_sentMsmWarning (env glo m t) (s : State) : (addObsToBuffer env glo m t s).1.sentMsmWarning = s.sentMsmWarning := by
  unfold addObsToBuffer
  simp only
  split
  · rw [legacyLoop_sentMsmWarning]; exact flush_sentMsmWarning _ _ _ _
  · split
    · rw [sendObservations_sentMsmWarning, legacyLoop_sentMsmWarning]; exact flush_sentMsmWarning _ _ _ _
    · rw [legacyLoop_sentMsmWarning]; exact flush_sentMsmWarning _ _ _ _
theorem addGps_sentMsmWarning (env m) (s : State) : (addGps env m s).1.sentMsmWarning = s.sentMsmWarning := by
  unfold addGps
  split
  · rfl
  · simp only
    split
    · rfl
    · split
      · rfl
      · split
        · exact addObs_sentMsmWarning _ _ _ _ _
        · rfl
theorem addGlo_sentMsmWarning (env m) (s : State) : (addGlo env m s).1.sentMsmWarning = s.sentMsmWarning := by
  unfold addGlo
  split
  · rfl
  · split
    · rfl
    · split
      · rfl
      · split
        · rfl
        · split
          · rfl
          · split
            · exact addObs_sentMsmWarning _ _ _ _ _
            · rfl
theorem sidFromMsm_sentMsmWarning (env h a b s) : (sidFromMsm env h a b s).2.1.sentMsmWarning = s.sentMsmWarning := by
  unfold sidFromMsm; simp only; split
  · rfl
  · split
    · unfold warnCode; split <;> rfl
    · rfl
theorem msmLoop_sentMsmWarning (env cons m l) (s : State) : (msmLoop env cons m l s).1.sentMsmWarning = s.sentMsmWarning := by
  induction l generalizing s with
  | nil => rfl
  | cons c r ih =>
    obtain ⟨sat, sig, i⟩ := c
    have hw := sidFromMsm_sentMsmWarning env (hdrOf cons m.header) sat sig s
    simp only [msmLoop]
    split
    · simp only; rw [ih]; exact hw
    · split
      · split
        · exact hw
        · simp only; rw [ih]; exact hw
      · simp only; rw [ih]; exact hw
theorem addMsm_sentMsmWarning (env cons m) (s : State) : (addMsm env cons m s).1.sentMsmWarning = s.sentMsmWarning := by
  unfold addMsm
  simp only
  split
  · rfl
  · split
    · rfl
    · rw [msmLoop_sentMsmWarning]
      show (flushIfOther _ _ _ _).1.sentMsmWarning = s.sentMsmWarning
      rw [flush_sentMsmWarning]
      simp only
      split <;> rfl


/-- the time of the last 1230 is that of the last 1230 converted -/
theorem step_last1230 (env : Env) (s : State) (inp : Input) :
    (inp.solved = true ∧ messageType inp.payload = 1230 ∧ (∃ m, decode1230.run inp.payload = .ok m) ∧ 2 ≤ inp.payload.length →
      (step env s inp).1.last1230 = inp.time) ∧
    (¬ (inp.solved = true ∧ messageType inp.payload = 1230 ∧ (∃ m, decode1230.run inp.payload = .ok m) ∧ 2 ≤ inp.payload.length) →
      (step env s inp).1.last1230 = s.last1230) := by
  have hd : ∀ s1 : State, (messageType inp.payload = 1230 → (∃ m, decode1230.run inp.payload = .ok m) →
        (dispatch env inp (messageType inp.payload) s1).1.last1230 = s1.timeInput) ∧
      (¬ (messageType inp.payload = 1230 ∧ ∃ m, decode1230.run inp.payload = .ok m) →
        (dispatch env inp (messageType inp.payload) s1).1.last1230 = s1.last1230) := by
    intro s1
    constructor
    · rintro h ⟨m, hm⟩
      unfold dispatch
      rw [h]
      simp [hm]
    · intro hn
      unfold dispatch
      split
      · split
        · exact addGps_last1230 _ _ _
        · rfl
      · split
        · split
          · exact addGlo_last1230 _ _ _
          · rfl
        · split
          · split
            · simp only; unfold setGloFcn; split
              · rfl
              · split <;> rfl
            · rfl
          · split
            · split
              · split <;> rfl
              · rfl
            · split
              · rename_i h5
                split
                · rename_i m hm; exact absurd ⟨h5, m, hm⟩ hn
                · rfl
              · split
                · rfl
                · split
                  · unfold msmWarning; split <;> rfl
                  · split
                    · split
                      · exact addMsm_last1230 _ _ _ _
                      · rfl
                    · rfl
  unfold step
  by_cases h2 : inp.payload.length < 2
  · rw [if_pos h2]
    exact ⟨fun h => by omega, fun _ => rfl⟩
  rw [if_neg h2]
  simp only
  by_cases hs : inp.solved = true
  · rw [if_neg (by simp [hs]), if_pos hs]
    have h := hd { ({ s with timeInput := inp.time } : State) with leap := some (env.utcOffset inp.time) }
    constructor
    · rintro ⟨-, h1, h3, -⟩
      have := h.1 h1 h3
      split <;> exact this
    · intro hn
      have := h.2 (fun hh => hn ⟨hs, hh.1, hh.2, by omega⟩)
      split <;> exact this
  · have hs' : inp.solved = false := by simpa using hs
    refine ⟨fun h => absurd h.1 hs, fun _ => ?_⟩
    by_cases hw : messageType inp.payload ∉ whitelist
    · rw [if_pos ⟨hw, hs'⟩]
    · rw [if_neg (fun h => hw h.1), if_neg hs]
      have hn : messageType inp.payload ≠ 1230 := fun h => hw (by rw [h]; decide)
      have := (hd { s with timeInput := inp.time }).2 (fun h => hn h.1)
      split <;> exact this

/-- the warning flag is set by the first MSM1-3 message -/
theorem step_warning (env : Env) (s : State) (inp : Input) :
    (messageType inp.payload ∈ msm13 ∧ 2 ≤ inp.payload.length → (step env s inp).1.sentMsmWarning = true) ∧
    (¬ (messageType inp.payload ∈ msm13 ∧ 2 ≤ inp.payload.length) → (step env s inp).1.sentMsmWarning = s.sentMsmWarning) := by
  have hd : ∀ s1 : State, (messageType inp.payload ∈ msm13 → (dispatch env inp (messageType inp.payload) s1).1.sentMsmWarning = true) ∧
      (messageType inp.payload ∉ msm13 → (dispatch env inp (messageType inp.payload) s1).1.sentMsmWarning = s1.sentMsmWarning) := by
    intro s1
    constructor
    · intro h
      have e : dispatch env inp (messageType inp.payload) s1 = msmWarning inp.payload s1 := by
        generalize messageType inp.payload = n at h
        have : ∀ n ∈ msm13, n ≠ 1002 ∧ n ≠ 1004 ∧ n ≠ 1010 ∧ n ≠ 1012 ∧ n ≠ 1020 ∧ n ≠ 1033 ∧ n ≠ 1230 ∧ n ∉ otherTypes := by decide
        obtain ⟨a1, a2, a3, a4, a5, a6, a7, a8⟩ := this n h
        unfold dispatch
        rw [if_neg (by omega), if_neg (by omega), if_neg a5, if_neg a6, if_neg a7, if_neg a8, if_pos h]
      rw [e]
      unfold msmWarning
      split
      · rename_i h; exact h
      · rfl
    · intro hn
      unfold dispatch
      split
      · split
        · exact addGps_sentMsmWarning _ _ _
        · rfl
      · split
        · split
          · exact addGlo_sentMsmWarning _ _ _
          · rfl
        · split
          · split
            · simp only; unfold setGloFcn; split
              · rfl
              · split <;> rfl
            · rfl
          · split
            · split
              · split <;> rfl
              · rfl
            · split
              · split <;> rfl
              · split
                · rfl
                · split
                  · split
                    · exact addMsm_sentMsmWarning _ _ _ _
                    · rfl
                  · rfl
  unfold step
  by_cases h2 : inp.payload.length < 2
  · rw [if_pos h2]
    exact ⟨fun h => by omega, fun _ => rfl⟩
  rw [if_neg h2]
  simp only
  by_cases hs : messageType inp.payload ∉ whitelist ∧ inp.solved = false
  · rw [if_pos hs]
    refine ⟨fun h => ?_, fun _ => rfl⟩
    exact absurd (List.mem_append_left _ (List.mem_append_right _ h.1)) hs.1
  · rw [if_neg hs]
    have h := hd (if inp.solved = true then { ({ s with timeInput := inp.time } : State) with leap := some (env.utcOffset inp.time) }
        else { s with timeInput := inp.time })
    have e : (if inp.solved = true then { ({ s with timeInput := inp.time } : State) with leap := some (env.utcOffset inp.time) }
        else { s with timeInput := inp.time }).sentMsmWarning = s.sentMsmWarning := by split <;> rfl
    rw [e] at h
    constructor
    · intro hm
      have := h.1 hm.1
      split <;> exact this
    · intro hn
      have := h.2 (fun hh => hn ⟨hh, by omega⟩)
      split <;> exact this

end Verif.RtcmSbp
