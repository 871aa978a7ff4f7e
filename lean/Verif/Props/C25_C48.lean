import Verif.Lemmas.RtcmSbp
/-! C25: conversion without a time solution.  C48: the GLONASS channel table. -/
namespace Verif.RtcmSbp
open Verif.RtcmSbp.Spec Verif.Time Verif.Msm

/-! ### C25 -/

/-- the message types that can be converted without knowing the time: station position (1005, 1006), text (1029),
MSM1-3 (only a warning), proprietary (4062, 4075), GPS/BeiDou/Galileo ephemerides -/
def timeFree (n : Nat) : Prop :=
  n = 1005 ∨ n = 1006 ∨ n = 1029 ∨ n = 4062 ∨ n = 4075 ∨ n = 1019 ∨ n = 1042 ∨ n = 1045 ∨ n = 1046 ∨
    (∃ c, (c = 107 ∨ c = 108 ∨ c = 109 ∨ c = 110 ∨ c = 111 ∨ c = 112) ∧ (n = 10 * c + 1 ∨ n = 10 * c + 2 ∨ n = 10 * c + 3))

theorem whitelist_iff (n : Nat) : n ∈ whitelist ↔ timeFree n := by
  unfold whitelist msm13 timeFree
  simp only [List.mem_append, List.mem_cons, List.not_mem_nil, or_false]
  constructor
  · rintro ((h | h) | h)
    · omega
    · right; right; right; right; right; right; right; right; right
      rcases h with h | h | h | h | h | h | h | h | h | h | h | h | h | h | h | h | h | h
      iterate 3 exact ⟨107, by omega, by omega⟩
      iterate 3 exact ⟨108, by omega, by omega⟩
      iterate 3 exact ⟨109, by omega, by omega⟩
      iterate 3 exact ⟨110, by omega, by omega⟩
      iterate 3 exact ⟨111, by omega, by omega⟩
      iterate 3 exact ⟨112, by omega, by omega⟩
    · omega
  · rintro (h | h | h | h | h | h | h | h | h | ⟨c, hc, h⟩) <;> omega

/-- C25: without a time solution a message of any other type produces no output and changes nothing (but the recorded time
of the last input). -/
theorem C25_ignored (env : Env) (s : State) (inp : Input) (hs : inp.solved = false) (hn : ¬ timeFree (messageType inp.payload)) :
    (step env s inp).2 = [] ∧
      ((step env s inp).1 = s ∨ (step env s inp).1 = { s with timeInput := inp.time }) := by
  unfold step
  split
  · exact ⟨rfl, Or.inl rfl⟩
  · simp only
    rw [if_pos ⟨fun h => hn ((whitelist_iff _).mp h), hs⟩]
    exact ⟨rfl, Or.inr rfl⟩

/-- the whitelisted types are converted outside the observation code or only warned about -/
theorem dispatch_whitelist {env} {inp : Input} {s : State} (h : messageType inp.payload ∈ whitelist) :
    dispatch env inp (messageType inp.payload) s = (s, List.replicate inp.extra (.converted (messageType inp.payload))) ∨
    (messageType inp.payload ∈ msm13 ∧ dispatch env inp (messageType inp.payload) s = msmWarning inp.payload s) := by
  obtain ⟨n, hn⟩ : ∃ n, n = messageType inp.payload := ⟨_, rfl⟩
  rw [← hn] at h ⊢
  have hne : ¬ (n = 1002 ∨ n = 1004) ∧ ¬ (n = 1010 ∨ n = 1012) ∧ n ≠ 1020 ∧ n ≠ 1033 ∧ n ≠ 1230 := by
    refine ⟨?_, ?_, ?_, ?_, ?_⟩ <;> (intro hx; revert h; first | (rcases hx with rfl | rfl <;> decide) | (subst hx; decide))
  have hcl : n ∈ otherTypes ∨ (n ∉ otherTypes ∧ n ∈ msm13) := by
    by_cases ho : n ∈ otherTypes
    · exact Or.inl ho
    · refine Or.inr ⟨ho, ?_⟩
      simp only [whitelist, List.mem_append] at h
      rcases h with (h | h) | h
      · exact absurd (by revert h; simp only [otherTypes, List.mem_cons, List.not_mem_nil, or_false]; omega) ho
      · exact h
      · exact absurd (by revert h; simp only [otherTypes, List.mem_cons, List.not_mem_nil, or_false]; omega) ho
  unfold dispatch
  rw [if_neg hne.1, if_neg hne.2.1, if_neg hne.2.2.1, if_neg hne.2.2.2.1, if_neg hne.2.2.2.2]
  rcases hcl with ho | ⟨ho, hm⟩
  · left; rw [if_pos ho]
  · right; rw [if_neg ho, if_pos hm]; exact ⟨hm, rfl⟩

/-- C25: a message processed without a time solution never contributes an observation: what was waiting is, in order,
sent or still waiting, and nothing else is. -/
theorem C25_no_observation (env : Env) (s : State) (inp : Input) (hb : s.buf.length ≤ 210) (hs : inp.solved = false) :
    tagsOf (obsOut (step env s inp).2) ++ waiting (step env s inp).1 = waiting s ∧ (step env s inp).1.buf.length ≤ 210 := by
  by_cases hn : messageType inp.payload ∈ whitelist
  · have key : ∀ a : State × List Out, a.1.core = s.core → obsOut a.2 = [] →
        tagsOf (obsOut (if endsEpoch (messageType inp.payload) inp.payload then
          ((sendObservations a.1).1, a.2 ++ (sendObservations a.1).2) else a).2) ++
        waiting (if endsEpoch (messageType inp.payload) inp.payload then
          ((sendObservations a.1).1, a.2 ++ (sendObservations a.1).2) else a).1 = waiting s ∧
        (if endsEpoch (messageType inp.payload) inp.payload then
          ((sendObservations a.1).1, a.2 ++ (sendObservations a.1).2) else a).1.buf.length ≤ 210 := by
      intro a hc ho
      have hbuf : a.1.buf = s.buf := congrArg Core.buf hc
      have hw : waiting a.1 = waiting s := by
        have h2 : a.1.obsTime = s.obsTime := congrArg Core.t hc
        have h3 : a.1.sender = s.sender := congrArg Core.sender hc
        unfold waiting; rw [hbuf, h2, h3]
      split
      · obtain ⟨gs, e, x⟩ := does_send False a.1 (by rw [hbuf]; exact hb)
        have hx := x.exact
        rw [← e] at hx
        rw [obsOut_append, ho, List.nil_append, ← hw]
        refine ⟨?_, by simp [sendObservations]⟩
        simpa [waitingC, State.core, waiting] using hx
      · rw [ho]
        exact ⟨by simpa [tagsOf] using hw, by rw [hbuf]; exact hb⟩
    unfold step
    split
    · exact ⟨by simp [tagsOf], hb⟩
    · simp only
      rw [if_neg (by rintro ⟨h, -⟩; exact h hn)]
      simp only [hs, Bool.false_eq_true, if_false]
      rcases dispatch_whitelist (env := env) (s := { s with timeInput := inp.time }) hn with h | ⟨-, h⟩
      · rw [h]
        exact key _ rfl (obsOut_converted _ _)
      · rw [h]
        exact key _ (msmWarning_core _ _) (msmWarning_out _ _)
  · obtain ⟨h1, h2⟩ := C25_ignored env s inp hs (fun h => hn ((whitelist_iff _).mpr h))
    rw [h1]
    rcases h2 with h2 | h2 <;> (rw [h2]; exact ⟨by simp [tagsOf, waiting], hb⟩)

/-- C25: in a history without any time solution no observation is ever sent. -/
theorem C25_no_observation_run (env : Env) (is : List Input) (hs : ∀ i ∈ is, i.solved = false) :
    ∀ m ∈ obsOut (run env .init is).2, m.obs = [] := by
  have key : ∀ (l : List Input) (s : State), (∀ i ∈ l, i.solved = false) → s.buf = [] →
      tagsOf (obsOut (run env s l).2) = [] := by
    intro l
    induction l with
    | nil => intro s _ _; rfl
    | cons i r ih =>
      intro s hi hb
      obtain ⟨h1, -⟩ := C25_no_observation env s i (by rw [hb]; simp) (hi i (by simp))
      have hw : waiting s = [] := by simp [waiting, hb]
      rw [hw, List.append_eq_nil_iff] at h1
      have hb' : (step env s i).1.buf = [] := by
        have := h1.2; simpa [waiting] using this
      simp only [run, obsOut_append, tagsOf_append, h1.1, List.nil_append]
      exact ih _ (fun x hx => hi x (by simp [hx])) hb'
  have := key is .init hs rfl
  intro m hm
  unfold tagsOf at this
  rw [List.flatMap_eq_nil_iff] at this
  simpa using this m hm

/-- C25: which output is possible for a message without time solution: conversions of that very message, the MSM warning,
and observation messages only for an MSM1-3 message. -/
theorem C25_outputs (env : Env) (s : State) (inp : Input) (hs : inp.solved = false) (o : Out) (ho : o ∈ (step env s inp).2) :
    timeFree (messageType inp.payload) ∧
    (o = .converted (messageType inp.payload) ∨
      (1071 ≤ messageType inp.payload ∧ messageType inp.payload ≤ 1123 ∧ (o = .log .msm13 ∨ ∃ m, o = .obs m))) := by
  by_cases hn : messageType inp.payload ∈ whitelist
  · refine ⟨(whitelist_iff _).mp hn, ?_⟩
    unfold step at ho
    split at ho
    · simp at ho
    simp only at ho
    rw [if_neg (by rintro ⟨h, -⟩; exact h hn)] at ho
    simp only [hs, Bool.false_eq_true, if_false] at ho
    have hm13 : messageType inp.payload ∈ msm13 → 1071 ≤ messageType inp.payload ∧ messageType inp.payload ≤ 1123 := by
      intro h
      simp only [msm13, List.mem_cons, List.not_mem_nil, or_false] at h
      omega
    have hend : endsEpoch (messageType inp.payload) inp.payload → messageType inp.payload ∈ msm13 := by
      rintro ⟨h1, h2, -⟩
      simp only [whitelist, List.mem_append] at hn
      rcases hn with (h | h) | h
      · simp only [List.mem_cons, List.not_mem_nil, or_false] at h; omega
      · exact h
      · simp only [List.mem_cons, List.not_mem_nil, or_false] at h; omega
    have hsend : ∀ t : State, o ∈ (sendObservations t).2 → ∃ m, o = .obs m := by
      intro t h
      obtain ⟨m, -, rfl⟩ := List.mem_map.mp h
      exact ⟨m, rfl⟩
    rcases dispatch_whitelist (env := env) (s := { s with timeInput := inp.time }) hn with h | ⟨hm, h⟩
    · rw [h] at ho
      split at ho
      · rename_i he
        have hm := hm13 (hend he)
        rcases List.mem_append.mp ho with h | h
        · left; exact (List.mem_replicate.mp h).2
        · right; exact ⟨hm.1, hm.2, Or.inr (hsend _ h)⟩
      · left; exact (List.mem_replicate.mp ho).2
    · rw [h] at ho
      have hw : ∀ x ∈ (msmWarning inp.payload { s with timeInput := inp.time }).2, x = .log .msm13 := by
        intro x hx
        unfold msmWarning at hx
        split at hx
        · simp at hx
        · simp only at hx
          split at hx <;> simp at hx
          exact hx
      have hm' := hm13 hm
      right
      refine ⟨hm'.1, hm'.2, ?_⟩
      split at ho
      · rcases List.mem_append.mp ho with h | h
        · exact Or.inl (hw o h)
        · exact Or.inr (hsend _ h)
      · exact Or.inl (hw o ho)
  · rw [(C25_ignored env s inp hs (fun h => hn ((whitelist_iff _).mpr h))).1] at ho
    simp at ho

/-- C25, defect: without any time solution an MSM1 message (which the converter does not support) makes it send an empty
observation message with week 0, time of week 0 and sender 0. -/
theorem C25_empty_obs_bug (env : Env) :
    obsOut (run env .init [{ solved := false, time := .unknown, payload := [0x42, 0xF0, 0, 0, 0, 0, 0, 0] }]).2 =
      [⟨0, ⟨0, 0⟩, 16, []⟩] := by rfl

/-- a message that is ignored without time, and one that is not -/
example : ¬ timeFree 1002 ∧ ¬ timeFree 1074 ∧ ¬ timeFree 1020 ∧ timeFree 1005 ∧ timeFree 1093 := by
  simp only [← whitelist_iff]; decide

/-! ### C48 -/

/-- C48: the channel number stored for an SBP channel number: legal ones (1..14) are shifted to 0..13, anything else is
"unknown" (255). -/
theorem C48_conversion (sbpFcn : Nat) (h : sbpFcn < 256) :
    sbpFcnToRtcm sbpFcn = if 1 ≤ sbpFcn ∧ sbpFcn ≤ 14 then sbpFcn - 1 else 255 := by
  have key : ∀ k : Fin 256, sbpFcnToRtcm k = if 1 ≤ k.val ∧ k.val ≤ 14 then k.val - 1 else 255 := by decide +kernel
  exact key ⟨sbpFcn, h⟩

/-- a history of channel updates (satellite, SBP channel number); `none` = access outside the table -/
def fcnRun : List (Nat × Nat) → State → Option State
  | [], s => some s
  | (sat, f) :: r, s => (setGloFcn sat f s).bind (fcnRun r)

/-- what the table should contain for a satellite: the last update for it, if any -/
def lastFcn (sat : Nat) : List (Nat × Nat) → Option Nat
  | [] => none
  | (a, f) :: r => match lastFcn sat r with
    | some x => some x
    | none => if a = sat then some f else none

theorem fcnRun_get (l : List (Nat × Nat)) (s : State) (hlen : s.fcn.length = 29) (h : ∀ u ∈ l, u.2 < 256) :
    ∃ s', fcnRun l s = some s' ∧ s'.fcn.length = 29 ∧ s'.core = s.core ∧
      ∀ sat, 1 ≤ sat → sat ≤ 28 → s'.fcn.getD sat 0 =
        match lastFcn sat l with
        | some f => if 1 ≤ f ∧ f ≤ 14 then f - 1 else 255
        | none => s.fcn.getD sat 0 := by
  induction l generalizing s with
  | nil => exact ⟨s, rfl, hlen, rfl, fun _ _ _ => rfl⟩
  | cons u r ih =>
    obtain ⟨a, f⟩ := u
    simp only [fcnRun]
    by_cases ha : a < 1 ∨ a ≥ 1 + numSatsGlo
    · have e : setGloFcn a f s = some s := by unfold setGloFcn; rw [if_pos ha]
      rw [e]
      obtain ⟨s', h1, h2, h3, h4⟩ := ih s hlen (fun u hu => h u (by simp [hu]))
      refine ⟨s', h1, h2, h3, ?_⟩
      intro sat hs0 hs1
      rw [h4 sat hs0 hs1]
      simp only [lastFcn]
      cases lastFcn sat r with
      | some x => rfl
      | none =>
        simp only
        rw [if_neg (by simp only [numSatsGlo] at ha; omega)]
    · have hlt : a < s.fcn.length := by simp only [numSatsGlo] at ha; omega
      have e : setGloFcn a f s = some { s with fcn := s.fcn.set a (sbpFcnToRtcm f) } := by
        unfold setGloFcn; rw [if_neg ha, if_pos hlt]
      rw [e]
      obtain ⟨s', h1, h2, h3, h4⟩ := ih { s with fcn := s.fcn.set a (sbpFcnToRtcm f) } (by simpa using hlen)
        (fun u hu => h u (by simp [hu]))
      refine ⟨s', h1, h2, h3, ?_⟩
      intro sat hs0 hs1
      rw [h4 sat hs0 hs1]
      simp only [lastFcn]
      cases lastFcn sat r with
      | some x => rfl
      | none =>
        simp only
        by_cases hx : a = sat
        · subst hx
          rw [if_pos rfl]
          simp only
          rw [List.getD_eq_getElem?_getD, List.getElem?_set_self hlt]
          exact C48_conversion f (h (a, f) (by simp))
        · rw [if_neg hx]
          simp only [List.getD_eq_getElem?_getD]
          rw [List.getElem?_set_ne hx]

/-- C48: whatever updates are applied, no access leaves the table, the table keeps its size, and the entry of each of the
28 satellites is the legal channel of the last update for that satellite, or "unknown". -/
theorem C48_history (l : List (Nat × Nat)) (h : ∀ u ∈ l, u.2 < 256) :
    ∃ s', fcnRun l .init = some s' ∧ s'.fcn.length = 29 ∧
      ∀ sat, 1 ≤ sat → sat ≤ 28 → s'.fcn.getD sat 0 =
        match lastFcn sat l with
        | some f => if 1 ≤ f ∧ f ≤ 14 then f - 1 else 255
        | none => 255 := by
  obtain ⟨s', h1, h2, -, h4⟩ := fcnRun_get l .init (by simp [State.init]) h
  refine ⟨s', h1, h2, ?_⟩
  intro sat hs0 hs1
  rw [h4 sat hs0 hs1]
  cases lastFcn sat l with
  | some f => rfl
  | none =>
    simp only [State.init, List.getD_eq_getElem?_getD, numSatsGlo, fcnUnknown]
    rw [List.getElem?_replicate, if_pos (by omega)]
    rfl

example : (fcnRun [(3, 14), (40, 3), (3, 200), (28, 1), (0, 5)] .init).map (fun s => (s.fcn.getD 3 0, s.fcn.getD 28 0, s.fcn.getD 1 0))
    = some (255, 0, 255) := by decide +kernel

theorem sendObservations_fcn (s : State) : (sendObservations s).1.fcn = s.fcn := rfl
theorem flush_fcn (t snd w) (s : State) : (flushIfOther t snd w s).1.fcn = s.fcn := by unfold flushIfOther; split <;> rfl
theorem warnCode_fcn (i) (s : State) : (warnCode i s).1.fcn = s.fcn := by unfold warnCode; split <;> rfl
theorem legacyLoop_fcn (env glo l) (s : State) : (legacyLoop env glo l s).1.fcn = s.fcn := by
  induction l generalizing s with
  | nil => rfl
  | cons c r ih =>
    obtain ⟨sat, f⟩ := c
    have hw : (legacyWarn glo sat.svId f (freqOf sat f).code s).1.fcn = s.fcn := by
      unfold legacyWarn; split
      · exact warnCode_fcn _ _
      · rfl
    simp only [legacyLoop]
    split
    · split
      · rfl
      · split
        · simp only; rw [ih]; exact hw
        · simp only; rw [ih]; exact hw
    · exact ih s
theorem addObs_fcn (env glo m t) (s : State) : (addObsToBuffer env glo m t s).1.fcn = s.fcn := by
  unfold addObsToBuffer
  simp only
  split
  · rw [legacyLoop_fcn]; exact flush_fcn _ _ _ _
  · split
    · rw [sendObservations_fcn, legacyLoop_fcn]; exact flush_fcn _ _ _ _
    · rw [legacyLoop_fcn]; exact flush_fcn _ _ _ _
theorem addGps_fcn (env m) (s : State) : (addGps env m s).1.fcn = s.fcn := by
  unfold addGps
  split
  · rfl
  · simp only
    split
    · rfl
    · split
      · rfl
      · split
        · exact addObs_fcn _ _ _ _ _
        · rfl
theorem addGlo_fcn (env m) (s : State) : (addGlo env m s).1.fcn = s.fcn := by
  unfold addGlo
  split
  · rfl
  · split
    · rfl
    · split
      · rfl
      · split
        · rfl
        · split
          · rfl
          · split
            · exact addObs_fcn _ _ _ _ _
            · rfl
theorem msmLoop_fcn (env cons m l) (s : State) : (msmLoop env cons m l s).1.fcn = s.fcn := by
  induction l generalizing s with
  | nil => rfl
  | cons c r ih =>
    obtain ⟨sat, sig, i⟩ := c
    have hw := sidFromMsm_fcn env (hdrOf cons m.header) sat sig s
    simp only [msmLoop]
    split
    · simp only; rw [ih]; exact hw
    · split
      · split
        · exact hw
        · simp only; rw [ih]; exact hw
      · simp only; rw [ih]; exact hw
theorem addMsm_fcn (env cons m) (s : State) : (addMsm env cons m s).1.fcn = s.fcn := by
  unfold addMsm
  simp only
  split
  · rfl
  · split
    · rfl
    · rw [msmLoop_fcn]
      show (flushIfOther _ _ _ _).1.fcn = s.fcn
      rw [flush_fcn]
      simp only
      split <;> rfl

/-- C48: a step of the converter changes the table only for a converted GLONASS ephemeris, as that update does. -/
theorem C48_step (env : Env) (s : State) (inp : Input) :
    (step env s inp).1.fcn = s.fcn ∨
    ∃ sat f s', inp.gloEph = some (sat, f) ∧ messageType inp.payload = 1020 ∧ setGloFcn sat f s = some s' ∧
      (step env s inp).1.fcn = s'.fcn := by
  have hd : ∀ s1 : State, s1.fcn = s.fcn → (dispatch env inp (messageType inp.payload) s1).1.fcn = s.fcn ∨
      ∃ sat f s', inp.gloEph = some (sat, f) ∧ messageType inp.payload = 1020 ∧ setGloFcn sat f s = some s' ∧
        (dispatch env inp (messageType inp.payload) s1).1.fcn = s'.fcn := by
    intro s1 h1
    unfold dispatch
    split
    · split
      · left; rw [addGps_fcn]; exact h1
      · left; exact h1
    · split
      · split
        · left; rw [addGlo_fcn]; exact h1
        · left; exact h1
      · split
        · rename_i hn
          cases hg : inp.gloEph with
          | none => left; exact h1
          | some x =>
            obtain ⟨sat, f⟩ := x
            simp only
            unfold setGloFcn
            by_cases hr : sat < 1 ∨ sat ≥ 1 + numSatsGlo
            · left; rw [if_pos hr]; exact h1
            · rw [if_neg hr]
              by_cases hl : sat < s1.fcn.length
              · right
                refine ⟨sat, f, { s with fcn := s.fcn.set sat (sbpFcnToRtcm f) }, rfl, hn, ?_, ?_⟩
                · rw [if_neg hr, if_pos (by rw [← h1]; exact hl)]
                · rw [if_pos hl]; simp only [Option.getD_some]; rw [h1]
              · left; rw [if_neg hl]; exact h1
        · left
          split
          · split
            · split <;> exact h1
            · exact h1
          · split
            · split <;> exact h1
            · split
              · exact h1
              · split
                · unfold msmWarning; split <;> exact h1
                · split
                  · split
                    · rw [addMsm_fcn]; exact h1
                    · exact h1
                  · exact h1
  unfold step
  split
  · left; rfl
  · simp only
    split
    · left; rfl
    · have hs := hd (if inp.solved = true then { ({ s with timeInput := inp.time } : State) with leap := some (env.utcOffset inp.time) }
        else { s with timeInput := inp.time }) (by split <;> rfl)
      split
      · simp only [sendObservations_fcn]; exact hs
      · exact hs

/-- C48: over any history of received messages every stored channel is legal (0..13) or "unknown", and the table keeps its
size. -/
theorem C48_run (env : Env) (is : List Input) (h : ∀ i ∈ is, ∀ sat f, i.gloEph = some (sat, f) → f < 256) :
    (run env .init is).1.fcn.length = 29 ∧ ∀ x ∈ (run env .init is).1.fcn, x ≤ 13 ∨ x = 255 := by
  have key : ∀ (l : List Input) (s : State), (∀ i ∈ l, ∀ sat f, i.gloEph = some (sat, f) → f < 256) →
      (s.fcn.length = 29 ∧ ∀ x ∈ s.fcn, x ≤ 13 ∨ x = 255) →
      ((run env s l).1.fcn.length = 29 ∧ ∀ x ∈ (run env s l).1.fcn, x ≤ 13 ∨ x = 255) := by
    intro l
    induction l with
    | nil => intro s _ hs; exact hs
    | cons i r ih =>
      intro s hi hs
      simp only [run]
      refine ih _ (fun x hx => hi x (by simp [hx])) ?_
      rcases C48_step env s i with he | ⟨sat, f, s', hg, -, hset, he⟩
      · rw [he]; exact hs
      · rw [he]
        unfold setGloFcn at hset
        split at hset
        · simp only [Option.some.injEq] at hset; rw [← hset]; exact hs
        · split at hset
          · simp only [Option.some.injEq] at hset
            rw [← hset]
            refine ⟨by simpa using hs.1, ?_⟩
            intro x hx
            rcases List.mem_or_eq_of_mem_set hx with hx | hx
            · exact hs.2 x hx
            · rw [hx, C48_conversion f (hi i (by simp) sat f hg)]
              split
              · left; omega
              · right; rfl
          · simp at hset
  exact key is .init h ⟨by simp [State.init], by intro x hx; right; simpa [State.init] using (List.eq_of_mem_replicate hx)⟩

end Verif.RtcmSbp
