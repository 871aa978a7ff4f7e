import Verif.Lemmas.RtcmSbp
import Verif.Spec.GpsTime
import Mathlib.Tactic.LinearCombination
import Mathlib.Data.List.Pairwise
/-! C20/C21: the observation output of the RTCM-to-SBP converter. -/
namespace Verif.RtcmSbp
open Verif.RtcmSbp.Spec Verif.Time Verif.Msm Verif.Time.Spec

/-- C20: sending a buffer of at most 210 observations produces a correct split of it into SBP messages (and nothing
else), and leaves the buffer empty. -/
theorem C20_split (s : State) (h : s.buf.length ≤ 210) :
    WellSplit s.obsTime s.sender s.buf (obsOut (sendObservations s).2) ∧
    (∀ o ∈ (sendObservations s).2, ∃ m, o = .obs m) ∧ (sendObservations s).1.buf = [] := by
  rw [sendObservations_snd, obsOut_map_obs]
  refine ⟨wellSplit_sendMsgs s h, ?_, rfl⟩
  intro o ho
  obtain ⟨m, -, rfl⟩ := List.mem_map.mp ho
  exact ⟨m, rfl⟩

/-- C20: the observation messages produced by any history of RTCM messages are a sequence of correctly split epochs. -/
theorem C20_history (env : Env) (is : List Input) :
    ∃ groups : List (List ObsMsg), obsOut (run env .init is).2 = groups.flatten ∧
      ∀ g ∈ groups, ∃ t sender obs, WellSplit t sender obs g := by
  obtain ⟨ps, -, gs, e, x⟩ := does_run env is .init (by simp [State.init])
  exact ⟨gs, e, x.groups⟩

/-- C21: the observation buffer never exceeds its 210 entries, whatever messages arrive. -/
theorem C21_bounded (env : Env) (is : List Input) : (run env .init is).1.buf.length ≤ 210 := by
  obtain ⟨ps, -, d⟩ := does_run env is .init (by simp [State.init])
  exact d.bounded (by simp [State.init])

/-- C21: whatever messages arrive, the observations sent so far followed by the ones still waiting are, in order and
without repetition, observations that were received, each with the time of week and the station it was received with. -/
theorem C21_no_fabrication (env : Env) (is : List Input) :
    (tagsOf (obsOut (run env .init is).2) ++ waiting (run env .init is).1).Sublist (offeredRun env .init is) := by
  obtain ⟨ps, h, gs, e, x⟩ := does_run env is .init (by simp [State.init])
  have := x.sublist
  rw [e]
  refine List.Sublist.trans ?_ h
  simpa [waitingC, State.core, State.init, waiting] using this

/-! ### nothing is lost -/

/-- a GPS legacy message as a step -/
theorem step_gps {env} {s : State} {inp : Input} {m} (hlen : 2 ≤ inp.payload.length) (hs : inp.solved = true)
    (hn : messageType inp.payload = 1002 ∧ (Obs.decode .m1002).run inp.payload = .ok m ∨
      messageType inp.payload = 1004 ∧ (Obs.decode .m1004).run inp.payload = .ok m) :
    step env s inp = addGps env m { s with timeInput := inp.time, leap := some (env.utcOffset inp.time) } := by
  unfold step
  rw [if_neg (by omega)]
  simp only [hs, Bool.true_eq_false, and_false, if_false, if_true]
  have hne : ¬ endsEpoch (messageType inp.payload) inp.payload := by
    unfold endsEpoch
    rcases hn with ⟨h, -⟩ | ⟨h, -⟩ <;> rw [h] <;> omega
  rw [if_neg hne]
  unfold dispatch
  rcases hn with ⟨h, hd⟩ | ⟨h, hd⟩
  · simp only [h, true_or, if_true, hd]
  · rw [h]
    simp only [or_true, if_true, show ¬ (1004 = 1002) by decide, if_false, hd]

/-- C21: a GPS message (1002/1004) with a solved time, newer than the last GPS message, that does not fill up the buffer
and is not superseded by recent MSM messages, loses nothing: what was waiting and all its convertible observations are,
in order, either sent or waiting. -/
theorem C21_gps_complete (env : Env) (s : State) (inp : Input) (m : Obs.Msg) (t : GpsTime) (hb : s.buf.length ≤ 210)
    (hlen : 2 ≤ inp.payload.length) (hs : inp.solved = true)
    (hn : messageType inp.payload = 1002 ∧ (Obs.decode .m1002).run inp.payload = .ok m ∨
      messageType inp.payload = 1004 ∧ (Obs.decode .m1004).run inp.payload = .ok m)
    (hr : Valid inp.time) (ht : computeGpsMessageTime m.header.towMs inp.time = some t) (htv : Valid t)
    (hnew : ¬ Valid s.lastGps ∨ seconds s.lastGps + 1 / 2000 < seconds t)
    (hmsm : ¬ Valid s.lastMsm ∨ seconds s.lastMsm + 5 ≤ seconds t)
    (hroom : (step env s inp).1.buf.length < 210) :
    tagsOf (obsOut (step env s inp).2) ++ waiting (step env s inp).1 =
      waiting s ++ (legacyObs env false m).map fun o => ⟨m.header.towMs, m.header.stnId ||| 0xF080, o⟩ := by
  rw [step_gps hlen hs hn] at hroom ⊢
  have hc : computeGpsTime m.header.towMs inp.time = some t := by
    unfold computeGpsTime; rw [if_pos (show inp.time.valid from hr)]; exact ht
  have hds : ∀ a b, diff a b = seconds a - seconds b := by
    intro a b; unfold diff seconds weekSecs; push_cast; ring
  have hact : ¬ msmActive t s := by
    unfold msmActive; rw [hds]
    rintro ⟨h1, h2⟩
    rcases hmsm with h | h
    · exact h h1
    · linarith
  have hnw : ¬ s.lastGps.valid ∨ diff t s.lastGps > 1 / 2000 := by
    rcases hnew with h | h
    · exact Or.inl h
    · right; rw [hds]; linarith
  unfold addGps at hroom ⊢
  simp only [hc] at hroom ⊢
  rw [if_neg (not_not.mpr (show t.valid from htv)), if_neg (show ¬ msmActive t { s with timeInput := inp.time, leap := some (env.utcOffset inp.time) } from hact), if_pos hnw] at hroom ⊢
  simp only at hroom ⊢
  obtain ⟨k, ⟨gs, e, x⟩, hk⟩ := does_addObs False env false m t
    { s with timeInput := inp.time, leap := some (env.utcOffset inp.time), lastGps := t } hb
  rw [obsOut_append, obsOut_validate, List.nil_append]
  have hk' := hk.resolve_right (by omega)
  rw [List.take_of_length_le hk', gpsTime_tow hc] at x
  rw [e]
  exact x.exact

/-- C21: a GPS message that is not newer than the last accepted GPS or MSM time is dropped: no observation message, the
buffer is unchanged. -/
theorem C21_gps_stale_dropped (env : Env) (s : State) (m : Obs.Msg) (t : GpsTime)
    (ht : computeGpsMessageTime m.header.towMs s.timeInput = some t) (hl : Valid s.lastGps)
    (hold : seconds t ≤ seconds s.lastGps + 1 / 2000) :
    obsOut (addGps env m s).2 = [] ∧ waiting (addGps env m s).1 = waiting s ∧ (addGps env m s).1 = s := by
  have hnw : ¬ (¬ s.lastGps.valid ∨ diff t s.lastGps > 1 / 2000) := by
    rintro (h | h)
    · exact h hl
    · unfold diff weekSecs at h; unfold seconds at hold; push_cast at h; linarith
  unfold addGps
  by_cases hr : s.timeInput.valid
  · simp only [computeGpsTime, if_pos hr, ht]
    split
    · exact ⟨obsOut_validate _ _, rfl, rfl⟩
    · split
      · exact ⟨obsOut_validate _ _, rfl, rfl⟩
      · exact ⟨obsOut_validate _ _, rfl, rfl⟩
  · simp only [computeGpsTime, if_neg hr]; refine ⟨?_, ?_, ?_⟩ <;> first | rfl | trivial

/-- C21: likewise for GLONASS messages (1010/1012). -/
theorem C21_glo_stale_dropped (env : Env) (s : State) (m : Obs.Msg) (t : GpsTime)
    (ht : computeGloTime m.header.towMs s.timeInput s.leap = some t) (hl : Valid s.lastGlo)
    (hold : seconds t ≤ seconds s.lastGlo + 1 / 2000) :
    obsOut (addGlo env m s).2 = [] ∧ waiting (addGlo env m s).1 = waiting s ∧ (addGlo env m s).1 = s := by
  have hnw : ¬ (¬ s.lastGlo.valid ∨ diff t s.lastGlo > 1 / 2000) := by
    rintro (h | h)
    · exact h hl
    · unfold diff weekSecs at h; unfold seconds at hold; push_cast at h; linarith
  unfold addGlo
  split
  · exact ⟨rfl, rfl, rfl⟩
  · rename_i leap hlp
    rw [hlp] at ht
    simp only [ht]
    rw [if_neg hnw]
    split
    · exact ⟨rfl, rfl, rfl⟩
    · split
      · exact ⟨rfl, rfl, rfl⟩
      · split <;> exact ⟨rfl, rfl, rfl⟩

/-- C21: an MSM message with a usable time loses nothing as long as MSM messages keep coming (or nothing is waiting) and
the buffer does not fill up. -/
theorem C21_msm_complete (env : Env) (cons : Cons) (m : Msm.Msg) (s : State) (t : GpsTime) (hb : s.buf.length ≤ 210)
    (ht : (msmTime cons m.header.towMs s).1 = some t) (hl : s.leap = some (env.utcOffset s.timeInput))
    (hact : s.buf = [] ∨ (Valid s.lastMsm ∧ seconds t < seconds s.lastMsm + 5))
    (h0 : Valid s.lastGps ∨ 1 / 1000 ≤ t.tow)
    (hroom : (addMsm env cons m s).1.buf.length < 210) :
    tagsOf (obsOut (addMsm env cons m s).2) ++ waiting (addMsm env cons m s).1 =
      waiting s ++ (msmObs env cons m s).map fun o =>
        ⟨towOf env cons m.header.towMs s.timeInput, m.header.stnId ||| 0xF080, o⟩ := by
  obtain ⟨k, ⟨gs, e, x⟩, hk⟩ := does_addMsm_some env cons m s hb t ht
  have hk' := (hk (by
    rintro ⟨h1, h2⟩
    rcases h0 with h | h
    · exact h1 h
    · rw [abs_le] at h2; linarith [h2.2])).resolve_right (by omega)
  rw [List.take_of_length_le hk', msmTime_tow hl ht] at x
  have x' : Exec False s.core _ gs _ := x.mono (by
    rintro ⟨h1, h2⟩
    rcases hact with h | ⟨h, h'⟩
    · exact h2 h
    · refine h1 ⟨h, ?_⟩
      unfold diff weekSecs; unfold seconds at h'; push_cast; linarith)
  rw [e]
  exact x'.exact

/-! ### order -/

/-- milliseconds of an SBP time -/
def keyOf (t : SbpTime) : Int := t.wn * 604800000 + t.tow

/-- `a` was sent before `b`: earlier epoch, or same epoch and lower index -/
def Before (a b : ObsMsg) : Prop := keyOf a.t < keyOf b.t ∨ (a.t = b.t ∧ a.sender = b.sender ∧ a.seq % 16 < b.seq % 16)

theorem before_of_wellSplit {t snd obs g} (h : WellSplit t snd obs g) : g.Pairwise Before := by
  rw [List.pairwise_iff_getElem]
  intro i j hi hj hij
  have ei : g[i]? = some g[i] := List.getElem?_eq_getElem hi
  have ej : g[j]? = some g[j] := List.getElem?_eq_getElem hj
  have ti := h.tagged g[i] (List.getElem_mem hi)
  have tj := h.tagged g[j] (List.getElem_mem hj)
  right
  refine ⟨ti.1.trans tj.1.symm, ti.2.trans tj.2.symm, ?_⟩
  rw [(h.numbered i _ ei).2, (h.numbered j _ ej).2]
  exact hij

theorem legacyLoop_lastGps (env glo l) (s : State) : (legacyLoop env glo l s).1.lastGps = s.lastGps := by
  induction l generalizing s with
  | nil => rfl
  | cons c r ih =>
    obtain ⟨sat, f⟩ := c
    have hw : (legacyWarn glo sat.svId f (freqOf sat f).code s).1.lastGps = s.lastGps := by
      unfold legacyWarn warnCode; split
      · split <;> rfl
      · rfl
    simp only [legacyLoop]
    split
    · split
      · rfl
      · split
        · simp only; rw [ih]; exact hw
        · simp only; rw [ih]; exact hw
    · exact ih s

/-- what adding a legacy message sends: possibly the previous epoch, then possibly the new one -/
theorem addObs_shape (env glo m t) (s : State) (h : s.buf.length ≤ 210) :
    ∃ A B, obsOut (addObsToBuffer env glo m t s).2 = A ++ B ∧
      (A = [] ∨ (s.buf ≠ [] ∧ WellSplit s.obsTime s.sender s.buf A)) ∧
      (B = [] ∨ ∃ obs, WellSplit (sbpTime t) (stnToSender m.header.stnId) obs B) ∧
      (addObsToBuffer env glo m t s).1.lastGps = s.lastGps ∧
      ((addObsToBuffer env glo m t s).1.buf = [] ∨
        (B = [] ∧ (addObsToBuffer env glo m t s).1.obsTime = sbpTime t)) := by
  obtain ⟨a, ha⟩ : ∃ a, a = flushIfOther (sbpTime t) (stnToSender m.header.stnId) [] s := ⟨_, rfl⟩
  have d1 := does_flush False s (sbpTime t) (stnToSender m.header.stnId) [] rfl h
  rw [← ha] at d1
  have hA : obsOut a.2 = [] ∨ (s.buf ≠ [] ∧ WellSplit s.obsTime s.sender s.buf (obsOut a.2)) := by
    rw [ha]; unfold flushIfOther
    split
    · rename_i hc
      right
      refine ⟨by intro hb; rw [hb] at hc; simp at hc, ?_⟩
      simp only [List.nil_append]
      rw [sendObservations_snd, obsOut_map_obs]
      exact wellSplit_sendMsgs s h
    · left; rfl
  have hAl : a.1.lastGps = s.lastGps := by rw [ha]; unfold flushIfOther; split <;> rfl
  obtain ⟨b, hbdef⟩ : ∃ b, b = legacyLoop env glo (cells m)
    { a.1 with obsTime := sbpTime t, sender := stnToSender m.header.stnId } := ⟨_, rfl⟩
  obtain ⟨k, d2, ht', hs', ho, -, -⟩ := does_legacyLoop False env glo (cells m)
    { a.1 with obsTime := sbpTime t, sender := stnToSender m.header.stnId }
  rw [← hbdef] at d2 ht' hs' ho
  simp only at ht' hs'
  have hbl : b.1.lastGps = s.lastGps := by rw [hbdef, legacyLoop_lastGps]; exact hAl
  have hbb : b.1.buf.length ≤ 210 := d2.bounded (d1.bounded h)
  unfold addObsToBuffer
  simp only [← ha, ← hbdef]
  by_cases hf : b.2.2 = false
  · rw [if_pos hf]
    exact ⟨obsOut a.2, [], by rw [obsOut_append, ho], hA, Or.inl rfl, hbl, Or.inr ⟨rfl, ht'⟩⟩
  · rw [if_neg hf]
    by_cases hy : m.header.sync = 0
    · rw [if_pos hy]
      refine ⟨obsOut a.2, obsOut (sendObservations b.1).2, by rw [obsOut_append, obsOut_append, ho]; simp, hA, Or.inr ?_, hbl,
        Or.inl rfl⟩
      rw [sendObservations_snd, obsOut_map_obs, ← ht', ← hs']
      exact ⟨_, wellSplit_sendMsgs b.1 hbb⟩
    · rw [if_neg hy]
      exact ⟨obsOut a.2, [], by rw [obsOut_append, ho], hA, Or.inl rfl, hbl, Or.inr ⟨rfl, ht'⟩⟩

/-- the messages of a GPS-only legacy stream: anything but GLONASS legacy and MSM messages -/
def GpsOnly (inp : Input) : Prop :=
  messageType inp.payload ≠ 1010 ∧ messageType inp.payload ≠ 1012 ∧
    ¬ (1070 ≤ messageType inp.payload ∧ messageType inp.payload ≤ 1229)

/-- invariant of such a stream -/
structure OrdInv (s : State) : Prop where
  bounded : s.buf.length ≤ 210
  time : s.buf = [] ∨ (s.lastGps.valid ∧ s.obsTime = sbpTime s.lastGps)
  ms : s.lastGps.valid → ((sbpTime s.lastGps).tow : ℚ) = s.lastGps.tow * 1000

/-- what may still be sent from a state -/
def Later (s : State) (out : List ObsMsg) : Prop :=
  ∀ m ∈ out, s.lastGps.valid → keyOf (sbpTime s.lastGps) < keyOf m.t ∨ (s.buf ≠ [] ∧ keyOf (sbpTime s.lastGps) ≤ keyOf m.t)

theorem gps_msTow {tow r t} (h : computeGpsTime tow r = some t) : ((sbpTime t).tow : ℚ) = t.tow * 1000 := by
  rw [gpsTime_tow h]
  unfold computeGpsTime at h
  split at h
  · unfold computeGpsMessageTime at h
    simp only at h
    repeat' (split at h)
    all_goals first
      | (simp only [Option.some.injEq] at h; subst h; simp only; rw [div_mul_cancel₀ _ (by norm_num)])
      | exact absurd h (by simp)
  · exact absurd h (by simp)

theorem key_seconds {t : GpsTime} (h : ((sbpTime t).tow : ℚ) = t.tow * 1000) : ((keyOf (sbpTime t) : Int) : ℚ) = 1000 * seconds t := by
  unfold keyOf seconds
  push_cast
  rw [h]
  simp only [sbpTime]
  ring

/-- one accepted GPS message -/
theorem addGps_order (env m) (s : State) (hi : OrdInv s) :
    OrdInv (addGps env m s).1 ∧ (obsOut (addGps env m s).2).Pairwise Before ∧ Later s (obsOut (addGps env m s).2) ∧
    ∀ out, Later (addGps env m s).1 out → Later s out ∧ ∀ a ∈ obsOut (addGps env m s).2, ∀ b ∈ out, Before a b ∨
      ¬ (addGps env m s).1.lastGps.valid := by
  have hskip : ∀ v : List Out, obsOut v = [] → OrdInv s ∧ (obsOut v).Pairwise Before ∧ Later s (obsOut v) ∧
      ∀ out, Later s out → Later s out ∧ ∀ a ∈ obsOut v, ∀ b ∈ out, Before a b ∨ ¬ s.lastGps.valid := by
    intro v hv
    rw [hv]
    exact ⟨hi, List.Pairwise.nil, by intro m hm; simp at hm, fun out h => ⟨h, by intro a ha; simp at ha⟩⟩
  unfold addGps
  split
  · exact hskip _ rfl
  · rename_i t ht
    simp only
    split
    · exact hskip _ (obsOut_validate _ _)
    · rename_i htv
      split
      · exact hskip _ (obsOut_validate _ _)
      · split
        · rename_i hnew
          obtain ⟨A, B, e, hA, hB, hlg, hend⟩ := addObs_shape env false m t { s with lastGps := t } hi.bounded
          obtain ⟨k, d, -⟩ := does_addObs False env false m t { s with lastGps := t } hi.bounded
          obtain ⟨x, hx⟩ : ∃ x, x = addObsToBuffer env false m t { s with lastGps := t } := ⟨_, rfl⟩
          rw [← hx] at e hlg hend d
          simp only [← hx, obsOut_append, obsOut_validate, List.nil_append, e]
          have hms := gps_msTow ht
          have hts := key_seconds hms
          have hlgt : x.1.lastGps = t := hlg
          -- the previous epoch is older
          have hold : s.lastGps.valid → keyOf (sbpTime s.lastGps) < keyOf (sbpTime t) := by
            intro hv
            have h1 := key_seconds (hi.ms hv)
            have h2 := hnew.resolve_left (not_not.mpr hv)
            have h3 : diff t s.lastGps = seconds t - seconds s.lastGps := by
              unfold diff seconds weekSecs; push_cast; ring
            rw [h3] at h2
            have : ((keyOf (sbpTime s.lastGps) : Int) : ℚ) < ((keyOf (sbpTime t) : Int) : ℚ) := by rw [h1, hts]; linarith
            exact_mod_cast this
          have hAkey : ∀ a ∈ A, s.buf ≠ [] ∧ s.lastGps.valid ∧ a.t = sbpTime s.lastGps := by
            intro a ha
            rcases hA with hA | ⟨hne, hA⟩
            · rw [hA] at ha; simp at ha
            · rcases hi.time with hbt | ⟨hv, hbt⟩
              · exact absurd hbt hne
              · exact ⟨hne, hv, ((hA.tagged a ha).1).trans hbt⟩
          have hBkey : ∀ b ∈ B, b.t = sbpTime t := by
            intro b hb
            rcases hB with hB | ⟨obs, hB⟩
            · rw [hB] at hb; simp at hb
            · exact (hB.tagged b hb).1
          refine ⟨⟨d.bounded hi.bounded, ?_, ?_⟩, ?_, ?_, ?_⟩
          · rw [hlgt]
            rcases hend with h | ⟨-, h⟩
            · exact Or.inl h
            · exact Or.inr ⟨not_not.mp htv, h⟩
          · rw [hlgt]; exact fun _ => hms
          · rw [List.pairwise_append]
            refine ⟨?_, ?_, ?_⟩
            · rcases hA with hA | ⟨-, hA⟩
              · rw [hA]; exact List.Pairwise.nil
              · exact before_of_wellSplit hA
            · rcases hB with hB | ⟨obs, hB⟩
              · rw [hB]; exact List.Pairwise.nil
              · exact before_of_wellSplit hB
            · intro a ha b hb
              obtain ⟨-, hv, hat⟩ := hAkey a ha
              left; rw [hat, hBkey b hb]; exact hold hv
          · intro y hy hv
            rcases List.mem_append.mp hy with h | h
            · obtain ⟨hne, -, hat⟩ := hAkey y h
              right; rw [hat]; exact ⟨hne, le_refl _⟩
            · left; rw [hBkey y h]; exact hold hv
          · intro out hout
            refine ⟨?_, ?_⟩
            · intro y hy hv
              have h1 := hout y hy (by rw [hlgt]; exact not_not.mp htv)
              rw [hlgt] at h1
              have := hold hv
              left
              rcases h1 with h | ⟨-, h⟩ <;> omega
            · intro a ha b hb
              left
              have h1 := hout b hb (by rw [hlgt]; exact not_not.mp htv)
              rw [hlgt] at h1
              rcases List.mem_append.mp ha with h | h
              · obtain ⟨-, hv, hat⟩ := hAkey a h
                have := hold hv
                left; rw [hat]
                rcases h1 with h | ⟨-, h⟩ <;> omega
              · -- the new epoch was sent: nothing is waiting
                left; rw [hBkey a h]
                rcases h1 with h1 | ⟨hne, -⟩
                · exact h1
                · exfalso
                  rcases hend with he | ⟨he, -⟩
                  · exact hne he
                  · rw [he] at h; simp at h
        · exact hskip _ (obsOut_validate _ _)

theorem dispatch_gpsOnly {env} {inp : Input} (hg : GpsOnly inp) (s1 : State) :
    (∃ m, dispatch env inp (messageType inp.payload) s1 = addGps env m s1) ∨
      (obsOut (dispatch env inp (messageType inp.payload) s1).2 = [] ∧
      (dispatch env inp (messageType inp.payload) s1).1.core = s1.core ∧
      (dispatch env inp (messageType inp.payload) s1).1.lastGps = s1.lastGps) := by
  obtain ⟨h10, h12, hm⟩ := hg
  have hns : msmSupported (messageType inp.payload) = none := by
    have hk : toMsmType (messageType inp.payload) = .unknown := by
      unfold toMsmType; rw [if_pos (by omega)]
    unfold msmSupported; rw [hk]
  unfold dispatch
  by_cases h1 : messageType inp.payload = 1002 ∨ messageType inp.payload = 1004
  · simp only [if_pos h1]
    split
    · exact Or.inl ⟨_, rfl⟩
    · exact Or.inr ⟨rfl, rfl, rfl⟩
  right
  rw [if_neg h1, if_neg (by omega)]
  by_cases h4 : messageType inp.payload = 1020
  · simp only [if_pos h4]
    cases inp.gloEph with
    | some x =>
      refine ⟨rfl, setGloFcn_core _ _ _, ?_⟩
      simp only; unfold setGloFcn; split
      · rfl
      · split <;> rfl
    | none => exact ⟨rfl, rfl, rfl⟩
  rw [if_neg h4]
  by_cases h5 : messageType inp.payload = 1033
  · simp only [if_pos h5]
    cases decode1033.run inp.payload with
    | ok x => simp only; split <;> exact ⟨rfl, rfl, rfl⟩
    | error e => exact ⟨rfl, rfl, rfl⟩
  rw [if_neg h5]
  by_cases h6 : messageType inp.payload = 1230
  · simp only [if_pos h6]
    cases decode1230.run inp.payload <;> exact ⟨rfl, rfl, rfl⟩
  rw [if_neg h6]
  by_cases h7 : messageType inp.payload ∈ otherTypes
  · rw [if_pos h7]; exact ⟨obsOut_converted _ _, rfl, rfl⟩
  rw [if_neg h7]
  by_cases h8 : messageType inp.payload ∈ msm13
  · rw [if_pos h8]
    refine ⟨msmWarning_out _ _, msmWarning_core _ _, ?_⟩
    unfold msmWarning; split <;> rfl
  rw [if_neg h8]
  simp only [hns]
  refine ⟨?_, ?_, ?_⟩ <;> first | rfl | trivial

/-- a step of a GPS-only stream adds a GPS message or leaves everything alone -/
theorem step_gpsOnly {env} {s : State} {inp : Input} (hg : GpsOnly inp) :
    (∃ m s1, State.core s1 = s.core ∧ s1.lastGps = s.lastGps ∧ step env s inp = addGps env m s1) ∨
    (obsOut (step env s inp).2 = [] ∧ (step env s inp).1.core = s.core ∧ (step env s inp).1.lastGps = s.lastGps) := by
  have hne : ¬ endsEpoch (messageType inp.payload) inp.payload := by
    unfold endsEpoch; rintro ⟨a, b, -⟩; exact hg.2.2 ⟨a, b⟩
  unfold step
  split
  · exact Or.inr ⟨rfl, rfl, rfl⟩
  simp only
  split
  · exact Or.inr ⟨rfl, rfl, rfl⟩
  obtain ⟨s1, hs1⟩ : ∃ s1 : State, s1 = (if inp.solved then { ({ s with timeInput := inp.time } : State) with leap := some (env.utcOffset inp.time) }
      else { s with timeInput := inp.time }) := ⟨_, rfl⟩
  rw [← hs1]
  have hc : s1.core = s.core := by rw [hs1]; split <;> rfl
  have hl : s1.lastGps = s.lastGps := by rw [hs1]; split <;> rfl
  rcases dispatch_gpsOnly (env := env) hg s1 with ⟨m, hd⟩ | ⟨h1, h2, h3⟩
  · exact Or.inl ⟨m, s1, hc, hl, hd⟩
  · exact Or.inr ⟨h1, h2.trans hc, h3.trans hl⟩

theorem OrdInv.congr {s s' : State} (h : OrdInv s) (hc : s'.core = s.core) (hl : s'.lastGps = s.lastGps) : OrdInv s' := by
  have hb : s'.buf = s.buf := congrArg Core.buf hc
  have ht : s'.obsTime = s.obsTime := congrArg Core.t hc
  exact ⟨by rw [hb]; exact h.bounded, by rw [hb, hl, ht]; exact h.time, by rw [hl]; exact h.ms⟩

theorem Later.congr {s s' : State} {out} (h : Later s out) (hc : s'.core = s.core) (hl : s'.lastGps = s.lastGps) : Later s' out := by
  have hb : s'.buf = s.buf := congrArg Core.buf hc
  intro m hm hv
  rw [hl, hb]
  rw [hl] at hv
  exact h m hm hv

theorem Later.append {s a b} (ha : Later s a) (hb : Later s b) : Later s (a ++ b) := by
  intro m hm
  rcases List.mem_append.mp hm with h | h
  · exact ha m h
  · exact hb m h

theorem addGps_sent_valid (env m) (s : State) (h : obsOut (addGps env m s).2 ≠ []) : (addGps env m s).1.lastGps.valid := by
  unfold addGps at h ⊢
  split at h
  · simp at h
  · rename_i t ht
    simp only at h ⊢
    by_cases htv : ¬ t.valid
    · rw [if_pos htv, obsOut_validate] at h; simp at h
    · rw [if_neg htv] at h ⊢
      by_cases ha : msmActive t s
      · rw [if_pos ha, obsOut_validate] at h; simp at h
      · rw [if_neg ha] at h ⊢
        by_cases hn : ¬ s.lastGps.valid ∨ diff t s.lastGps > 1 / 2000
        · rw [if_pos hn]
          simp only
          have : (addObsToBuffer env false m t { s with lastGps := t }).1.lastGps = t := by
            unfold addObsToBuffer flushIfOther
            simp only
            split <;> (split <;> [skip; split]) <;> simp [legacyLoop_lastGps, sendObservations]
          rw [this]; exact not_not.mp htv
        · rw [if_neg hn, obsOut_validate] at h; simp at h

theorem run_order (env) (is : List Input) (hg : ∀ i ∈ is, GpsOnly i) (s : State) (hi : OrdInv s) :
    (obsOut (run env s is).2).Pairwise Before ∧ Later s (obsOut (run env s is).2) := by
  induction is generalizing s with
  | nil => exact ⟨List.Pairwise.nil, by intro m hm; simp [run] at hm⟩
  | cons i r ih =>
    simp only [run, obsOut_append]
    rcases step_gpsOnly (env := env) (s := s) (hg i (by simp)) with ⟨m, s1, hc, hl, he⟩ | ⟨h1, h2, h3⟩
    · rw [he]
      obtain ⟨q1, q2, q3, q4⟩ := addGps_order env m s1 (hi.congr hc hl)
      obtain ⟨r1, r2⟩ := ih (fun x hx => hg x (by simp [hx])) _ q1
      obtain ⟨q5, q6⟩ := q4 _ r2
      refine ⟨?_, (q3.append q5).congr hc.symm hl.symm⟩
      rw [List.pairwise_append]
      refine ⟨q2, r1, ?_⟩
      intro a ha b hb
      refine (q6 a ha b hb).resolve_right (not_not.mpr (addGps_sent_valid env m s1 ?_))
      intro h; rw [h] at ha; simp at ha
    · rw [h1, List.nil_append]
      obtain ⟨r1, r2⟩ := ih (fun x hx => hg x (by simp [hx])) _ (hi.congr h2 h3)
      exact ⟨r1, r2.congr h2.symm h3.symm⟩

/-- C21: in a stream without GLONASS legacy and MSM messages the observation messages are sent in strictly increasing
order of epoch and, within an epoch, of index. -/
theorem C21_gps_order (env : Env) (is : List Input) (hg : ∀ i ∈ is, GpsOnly i) :
    (obsOut (run env .init is).2).Pairwise Before :=
  (run_order env is hg .init ⟨by simp [State.init], Or.inl rfl, by
    intro h; exact absurd h (by unfold State.init GpsTime.unknown GpsTime.valid; simp)⟩).1

/-! ### what does not hold -/

/-- tables for the examples: no biases, GPS and GLONASS PRNs, 18 leap seconds -/
def exEnv : Env where
  prn := ⟨fun _ => 1, fun _ => 32⟩
  sigBias := fun _ => 0
  masked := fun _ => false
  freq := fun _ _ => some 1575420000
  gloBias := fun _ _ => (0, 0)
  utcOffset := fun _ => 18

/-- a 1002 message (one satellite) for time of week 10 s, last of its epoch -/
def exGps10 : Input := { solved := true, time := ⟨2100, 10⟩, payload := [62, 160, 1, 0, 0, 156, 64, 16, 20, 0, 7, 208, 0, 0, 162, 145, 168, 0] }
/-- a 1010 message (one satellite) for the GPS time of week 9 s, last of its epoch -/
def exGlo9 : Input := { solved := true, time := ⟨2100, 10⟩, payload := [63, 32, 1, 20, 149, 11, 0, 128, 163, 128, 0, 250, 0, 0, 20, 82, 58, 0] }
/-- the same 1002 message, announcing more messages of the epoch -/
def exGps10More : Input := { exGps10 with payload := [62, 160, 1, 0, 0, 156, 66, 16, 20, 0, 7, 208, 0, 0, 162, 145, 168, 0] }
/-- the same 1002 message one week later -/
def exGps10Week : Input := { exGps10 with time := ⟨2101, 10⟩ }

/-- hypotheses of the theorems above: two GPS epochs, the first flushed by the second -/
example : GpsOnly exGps10More ∧ (obsOut (run exEnv .init [exGps10More, { exGps10 with payload := [62, 160, 1, 0, 0, 171, 224, 16, 20, 0, 7, 208, 0, 0, 162, 145, 168, 0] }]).2).map
    (fun m => (m.t.wn, m.t.tow, m.seq, m.sender, m.obs.length)) = [(2100, 10000, 16, 0xF081, 1), (2100, 11000, 16, 0xF081, 1)] := by
  refine ⟨?_, by decide +kernel⟩
  unfold GpsOnly; decide +kernel

/-- C21 does not hold for mixed streams: an older GLONASS epoch is sent after a newer GPS epoch (the constellations have
separate "last time" checks). -/
theorem C21_order_bug : ¬ (obsOut (run exEnv .init [exGps10, exGlo9]).2).Pairwise Before := by
  have h : (obsOut (run exEnv .init [exGps10, exGlo9]).2).map (fun m => (keyOf m.t, m.seq)) =
      [(2100 * 604800000 + 10000, 16), (2100 * 604800000 + 9000, 16)] := by decide +kernel
  intro hp
  have := hp.map (S := fun a b : Int × Nat => a.1 ≤ b.1) (f := fun m => (keyOf m.t, m.seq)) (by
    rintro a b (h | ⟨h, -⟩)
    · exact le_of_lt h
    · simp only; rw [h])
  rw [h] at this
  revert this
  decide

/-- C21 does not hold across weeks: only the time of week is compared, so observations of two different weeks end up in
the same SBP message. -/
theorem C21_week_mix_bug : ∃ m ∈ obsOut (run exEnv .init [exGps10More, exGps10Week]).2,
    m.obs.length = 2 ∧ (offered exEnv .init exGps10More).length = 1 ∧ (offered exEnv .init exGps10Week).length = 1 := by
  have h : (obsOut (run exEnv .init [exGps10More, exGps10Week]).2).map (fun m => m.obs.length) = [2] := by decide +kernel
  have h1 : (offered exEnv .init exGps10More).length = 1 := by decide +kernel
  have h2 : (offered exEnv .init exGps10Week).length = 1 := by decide +kernel
  cases hl : obsOut (run exEnv .init [exGps10More, exGps10Week]).2 with
  | nil => rw [hl] at h; simp at h
  | cons m r =>
    rw [hl] at h
    simp only [List.map_cons, List.cons.injEq] at h
    exact ⟨m, by simp, h.1, h1, h2⟩

end Verif.RtcmSbp
