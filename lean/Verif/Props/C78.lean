import Verif.Lemmas.LegacyRecv
/-
C78: observations survive the legacy RTCM messages.
-/
namespace Verif.LegacyStream
open Verif.LegacyStream.Spec Verif.SbpRtcm.Spec Verif.Time
open Verif.SbpRtcm hiding legacyLoop
open Verif.Msm (Code)
open Verif.ObsStream.Spec (range cycles epochTime secs Received)
open Verif.ObsStream (epochPayloads legacyPayload timed send_ok run_append split_eq supported_range forall₂_append)
open Verif.RtcmSbp (SbpObs SbpTime ObsMsg Out Input stnToSender messageType dispatch sendObservations obsOut_append)
open Verif.RtcmSbp.Spec (obsOut WellSplit)

/-! ### epochs -/

theorem epoch_payloads (env : Env) {e : Epoch} (h : EpochOk e) : epochPayloads env e = some
    ((if inB .gps1 e.obs = [] then [] else [legacyPayload (msgOf e false (if inB .glo1 e.obs = [] then 0 else 1))]) ++
      (if inB .glo1 e.obs = [] then [] else [legacyPayload (msgOf e true 0)])) := by
  unfold epochPayloads
  rw [h.mode.1, h.mode.2, legacy_msgs h]
  simp only [Bool.false_eq_true, if_false, if_true, Option.bind_eq_bind, Option.bind_some, Option.map_some, List.append_nil, List.map_append]
  congr 1
  have p1 : ∀ sync, sync < 2 → inB .gps1 e.obs ≠ [] → 0 < (legacyPayload (msgOf e false sync)).length := fun sync hs hn =>
    lt_of_lt_of_le (by norm_num) (payload_ok h false hs hn).1
  have p2 : inB .glo1 e.obs ≠ [] → 0 < (legacyPayload (msgOf e true 0)).length := fun hn =>
    lt_of_lt_of_le (by norm_num) (payload_ok h true (by norm_num) hn).1
  rw [List.filter_append]
  congr 1
  · split
    · rfl
    · rename_i hn
      rw [List.map_singleton, List.filter_cons, if_pos (by simpa using p1 _ (by split <;> norm_num) hn)]
      rfl
  · split
    · rfl
    · rename_i hn
      rw [List.map_singleton, List.filter_cons, if_pos (by simpa using p2 hn)]
      rfl

theorem list_nil {l : List SbpObs} {glo : Bool} (h : inB (firstOf glo) l = []) : listOf glo l = [] := by unfold listOf; rw [h]; rfl

theorem epoch_empty {e : Epoch} (h : EpochOk e) : (e.obs.filter fun o => (band o.code).isSome) = [] ↔ inB .gps1 e.obs = [] ∧ inB .glo1 e.obs = [] := by
  have := (all_perm h.gps h.glo)
  constructor
  · intro hn
    rw [hn, List.perm_nil, List.append_eq_nil_iff] at this
    have key : ∀ glo, listOf glo e.obs = [] → inB (firstOf glo) e.obs = [] := by
      intro glo hl
      unfold listOf at hl
      cases hh : inB (firstOf glo) e.obs with
      | nil => rfl
      | cons => rw [hh] at hl; simp at hl
    exact ⟨key false this.1, key true this.2⟩
  · rintro ⟨a, b⟩
    rw [list_nil (glo := false) a, list_nil (glo := true) b] at this
    exact List.perm_nil.1 this.symm

/-- the receiver's state after an epoch -/
structure Next (e : Epoch) (s s' : RtcmSbp.State) : Prop where
  buf : s'.buf = []
  msm : s'.lastMsm = s.lastMsm
  gps : s'.lastGps = s.lastGps ∨ s'.lastGps = epochTime e.t
  glo : s'.lastGlo = s.lastGlo ∨ s'.lastGlo = epochTime e.t

theorem sender_eq (e : Epoch) : stnToSender (e.sender % 4096) = (e.sender % 4096) ||| 0xF080 := rfl

theorem epoch_back {env' : RtcmSbp.Env} (hbias : ∀ c, band c ≠ none → env'.sigBias c = 0) {e : Epoch} (h : EpochOk e) (env : Env)
    (xs : List Input) (hx : ∀ x ∈ xs, TimeOk env' e x) (hp : epochPayloads env e = some (xs.map (·.payload)))
    (hne : (e.obs.filter fun o => (band o.code).isSome) ≠ []) (s : RtcmSbp.State) (hr : Ready (secs (epochTime e.t)) s) :
    EpochBack e (obsOut (RtcmSbp.run env' s xs).2) ∧ Next e s (RtcmSbp.run env' s xs).1 := by
  rw [epoch_payloads env h] at hp
  have hp := Option.some.inj hp
  have hperm := all_perm h.gps h.glo
  have l1 := list_length h.noP h.gps
  have l2 := list_length h.noP h.glo
  by_cases a : inB .gps1 e.obs = [] <;> by_cases b : inB .glo1 e.obs = []
  · exact absurd ((epoch_empty h).2 ⟨a, b⟩) hne
  · rw [if_pos a, if_neg b, List.nil_append] at hp
    obtain ⟨x, rfl⟩ : ∃ x, xs = [x] := by
      have hl := congrArg List.length hp
      rw [List.length_map] at hl
      exact List.length_eq_one_iff.1 hl.symm
    simp only [List.map_cons, List.map_nil, List.cons.injEq, and_true] at hp
    obtain ⟨R, v, r1, r2, r3⟩ := msg_in h true (sync := 0) (by norm_num) b hbias x (hx x (by simp)) hp.symm s (Or.inl hr.buf)
      (by rw [hr.buf]; simp only [List.length_nil]; omega) hr.msm hr.glo (fun _ ⟨o, ho, hb⟩ => absurd a (List.ne_nil_of_mem (List.mem_filter.2 ⟨ho, by simpa using hb⟩)))
    simp only [if_true] at r3
    simp only [RtcmSbp.run, r3, List.append_nil]
    generalize hs1 : added _ e R = s1
    have hbuf : s1.buf = R := by rw [← hs1]; show s.buf ++ R = R; rw [hr.buf]; rfl
    have hRl := r1.length_eq
    obtain ⟨w1, w2, -⟩ := send_ok s1 (by rw [hbuf]; omega)
    rw [obsOut_append, r2, List.nil_append]
    refine ⟨⟨listOf true e.obs, R, ?_, r1, ?_⟩, w2, ?_, ?_, ?_⟩
    · rw [list_nil (glo := false) a, List.nil_append] at hperm; exact hperm
    · rw [hbuf] at w1
      have e1 : s1.obsTime = e.t := by rw [← hs1]; rfl
      have e2 : s1.sender = (e.sender % 4096) ||| 0xF080 := by rw [← hs1]; rfl
      rw [e1, e2] at w1; exact w1
    · rw [← hs1]; rfl
    · rw [← hs1]; exact Or.inl rfl
    · rw [← hs1]; exact Or.inr rfl
  · rw [if_neg a, if_pos b, if_pos b, List.append_nil] at hp
    obtain ⟨x, rfl⟩ : ∃ x, xs = [x] := by
      have hl := congrArg List.length hp
      rw [List.length_map] at hl
      exact List.length_eq_one_iff.1 hl.symm
    simp only [List.map_cons, List.map_nil, List.cons.injEq, and_true] at hp
    obtain ⟨R, v, r1, r2, r3⟩ := msg_in h false (sync := 0) (by norm_num) a hbias x (hx x (by simp)) hp.symm s (Or.inl hr.buf)
      (by rw [hr.buf]; simp only [List.length_nil]; omega) hr.msm hr.gps (fun h => by cases h)
    simp only [if_true, Bool.false_eq_true, if_false] at r3
    simp only [RtcmSbp.run, r3, List.append_nil]
    generalize hs1 : added _ e R = s1
    have hbuf : s1.buf = R := by rw [← hs1]; show s.buf ++ R = R; rw [hr.buf]; rfl
    have hRl := r1.length_eq
    obtain ⟨w1, w2, -⟩ := send_ok s1 (by rw [hbuf]; omega)
    rw [obsOut_append, r2, List.nil_append]
    refine ⟨⟨listOf false e.obs, R, ?_, r1, ?_⟩, w2, ?_, ?_, ?_⟩
    · rw [list_nil (glo := true) b, List.append_nil] at hperm; exact hperm
    · rw [hbuf] at w1
      have e1 : s1.obsTime = e.t := by rw [← hs1]; rfl
      have e2 : s1.sender = (e.sender % 4096) ||| 0xF080 := by rw [← hs1]; rfl
      rw [e1, e2] at w1; exact w1
    · rw [← hs1]; rfl
    · rw [← hs1]; exact Or.inr rfl
    · rw [← hs1]; exact Or.inl rfl
  · rw [if_neg a, if_neg b, if_neg b, List.singleton_append] at hp
    obtain ⟨x, y, rfl⟩ : ∃ x y, xs = [x, y] := by
      have hl := congrArg List.length hp
      rw [List.length_map] at hl
      exact List.length_eq_two.1 hl.symm
    simp only [List.map_cons, List.map_nil, List.cons.injEq, and_true] at hp
    obtain ⟨R, v, r1, r2, r3⟩ := msg_in h false (sync := 1) (by norm_num) a hbias x (hx x (by simp)) hp.1.symm s (Or.inl hr.buf)
      (by rw [hr.buf]; simp only [List.length_nil]; omega) hr.msm hr.gps (fun h => by cases h)
    simp only [Bool.false_eq_true, if_false, one_ne_zero] at r3
    generalize hs1 : added _ e R = s1 at r3
    have hbuf : s1.buf = R := by rw [← hs1]; show s.buf ++ R = R; rw [hr.buf]; rfl
    have hRl := r1.length_eq
    obtain ⟨R', v', r1', r2', r3'⟩ := msg_in h true (sync := 0) (by norm_num) b hbias y (hx y (by simp)) hp.2.symm s1
      (Or.inr ⟨by rw [← hs1]; rfl, by rw [← hs1]; rfl⟩) (by rw [hbuf]; omega) (by rw [← hs1]; exact hr.msm) (by rw [← hs1]; exact hr.glo)
      (fun _ _ => by rw [← hs1]; rfl)
    simp only [if_true] at r3'
    simp only [RtcmSbp.run, r3, r3', List.append_nil]
    generalize hs2 : added _ e R' = s2
    have hbuf2 : s2.buf = R ++ R' := by rw [← hs2]; show s1.buf ++ R' = _; rw [hbuf]
    have hRl' := r1'.length_eq
    obtain ⟨w1, w2, -⟩ := send_ok s2 (by rw [hbuf2, List.length_append]; omega)
    rw [obsOut_append, obsOut_append, r2, r2', List.nil_append, List.nil_append]
    refine ⟨⟨listOf false e.obs ++ listOf true e.obs, R ++ R', hperm, forall₂_append r1 r1', ?_⟩, w2, ?_, ?_, ?_⟩
    · rw [hbuf2] at w1
      have e1 : s2.obsTime = e.t := by rw [← hs2]; rfl
      have e2 : s2.sender = (e.sender % 4096) ||| 0xF080 := by rw [← hs2]; rfl
      rw [e1, e2] at w1; exact w1
    · rw [← hs2, ← hs1]; rfl
    · rw [← hs2, ← hs1]; exact Or.inr rfl
    · rw [← hs2]; exact Or.inr rfl

/-! ### other messages -/

theorem other_in (env' : RtcmSbp.Env) (x : Input)
    (h1 : messageType x.payload ∉ [1002, 1004, 1010, 1012]) (h2 : ¬ (1070 ≤ messageType x.payload ∧ messageType x.payload ≤ 1229))
    (s : RtcmSbp.State) : obsOut (RtcmSbp.step env' s x).2 = [] ∧ (RtcmSbp.step env' s x).1.buf = s.buf ∧
      (RtcmSbp.step env' s x).1.lastMsm = s.lastMsm ∧ (RtcmSbp.step env' s x).1.lastGps = s.lastGps ∧
      (RtcmSbp.step env' s x).1.lastGlo = s.lastGlo := by
  have key : ∀ s : RtcmSbp.State, obsOut (dispatch env' x (messageType x.payload) s).2 = [] ∧
      (dispatch env' x (messageType x.payload) s).1.buf = s.buf ∧ (dispatch env' x (messageType x.payload) s).1.lastMsm = s.lastMsm ∧
      (dispatch env' x (messageType x.payload) s).1.lastGps = s.lastGps ∧ (dispatch env' x (messageType x.payload) s).1.lastGlo = s.lastGlo := by
    intro s
    generalize hn : messageType x.payload = n at *
    simp only [List.mem_cons, List.not_mem_nil, or_false, not_or] at h1
    unfold dispatch
    rw [if_neg (by tauto), if_neg (by tauto)]
    split
    · cases hg : x.gloEph with
      | none => exact ⟨rfl, rfl, rfl, rfl, rfl⟩
      | some p =>
        obtain ⟨sat, fcn⟩ := p
        simp only
        unfold RtcmSbp.setGloFcn
        split
        · exact ⟨rfl, rfl, rfl, rfl, rfl⟩
        · split <;> exact ⟨rfl, rfl, rfl, rfl, rfl⟩
    · split
      · cases decode1033.run x.payload with
        | error => exact ⟨rfl, rfl, rfl, rfl, rfl⟩
        | ok => simp only; split <;> exact ⟨rfl, rfl, rfl, rfl, rfl⟩
      · split
        · cases decode1230.run x.payload with
          | error => exact ⟨rfl, rfl, rfl, rfl, rfl⟩
          | ok => exact ⟨rfl, rfl, rfl, rfl, rfl⟩
        · split
          · exact ⟨RtcmSbp.obsOut_converted _ _, rfl, rfl, rfl, rfl⟩
          · rw [if_neg (by
              intro h
              apply h2
              revert h
              unfold RtcmSbp.msm13
              simp only [List.mem_cons, List.not_mem_nil, or_false]
              omega)]
            cases hm : RtcmSbp.msmSupported n with
            | none => exact ⟨rfl, rfl, rfl, rfl, rfl⟩
            | some r => exact absurd (supported_range hm) h2
  unfold RtcmSbp.step
  split
  · exact ⟨rfl, rfl, rfl, rfl, rfl⟩
  · simp only
    split
    · exact ⟨rfl, rfl, rfl, rfl, rfl⟩
    · rw [if_neg (fun h => h2 ⟨h.1, h.2.1⟩)]
      split
      · exact key _
      · exact key _

/-! ### streams -/

theorem ev_payloads (env : Env) (env' : RtcmSbp.Env) (v : Ev) (xs : List Input) (h : EvOk env env' v xs) :
    ∃ ps : List Buf, evPayloads env v = some ps ∧ xs.length = ps.length ∧ ∀ p ∈ ps, 1 ≤ p.length ∧ p.length ≤ 1017 := by
  cases v with
  | epoch e =>
    obtain ⟨he, -, hl⟩ := h
    have hp := epoch_payloads env he
    refine ⟨_, hp, hl _ hp, ?_⟩
    intro p hp
    rw [List.mem_append] at hp
    rcases hp with hp | hp
    · split at hp
      · simp at hp
      · rename_i hn
        rw [List.mem_singleton] at hp
        subst hp
        have := payload_ok he false (sync := if inB .glo1 e.obs = [] then 0 else 1) (by split <;> norm_num) hn
        exact ⟨by omega, this.2.1⟩
    · split at hp
      · simp at hp
      · rename_i hn
        rw [List.mem_singleton] at hp
        subst hp
        have := payload_ok he true (sync := 0) (by norm_num) hn
        exact ⟨by omega, this.2.1⟩
  | other p =>
    obtain ⟨a, b, -, -, x, rfl⟩ := h
    exact ⟨[p], rfl, rfl, by simpa using ⟨a, b⟩⟩

theorem payloads_exist (env : Env) (env' : RtcmSbp.Env) {evs : List Ev} {xss : List (List Input)}
    (h : List.Forall₂ (EvOk env env') evs xss) :
    ∃ pss : List (List Buf), evs.map (evPayloads env) = pss.map some ∧ xss.map List.length = pss.map List.length ∧
      ∀ p ∈ pss.flatten, 1 ≤ p.length ∧ p.length ≤ 1017 := by
  induction h with
  | nil => exact ⟨[], rfl, rfl, by simp⟩
  | @cons v xs vs xss h1 h2 ih =>
    obtain ⟨ps, a, b, c⟩ := ev_payloads env env' v xs h1
    obtain ⟨pss, a', b', c'⟩ := ih
    refine ⟨ps :: pss, by rw [List.map_cons, List.map_cons, a, a'], by rw [List.map_cons, List.map_cons, b, b'], ?_⟩
    intro q hq
    rw [List.flatten_cons, List.mem_append] at hq
    exact hq.elim (c q) (c' q)

/-- epochs one after the other: times are milliseconds, so a later epoch is at least one later -/
theorem later {a b : SbpTime} (h : secs (epochTime a) < secs (epochTime b)) : secs (epochTime a) + 1 / 1000 ≤ secs (epochTime b) := by
  have e : ∀ t : SbpTime, secs (epochTime t) = ((t.wn * 604800000 + t.tow : ℤ) : ℚ) / 1000 := by
    intro t; unfold secs epochTime; push_cast; ring
  rw [e, e] at h ⊢
  rw [div_lt_div_iff_of_pos_right (by norm_num)] at h
  have h := Int.cast_lt.1 h
  have : ((a.wn * 604800000 + a.tow + 1 : ℤ) : ℚ) ≤ ((b.wn * 604800000 + b.tow : ℤ) : ℚ) := by exact_mod_cast h
  generalize (b.wn * 604800000 + b.tow : ℤ) = y at *
  generalize (a.wn * 604800000 + a.tow : ℤ) = x at *
  push_cast at this
  linarith

theorem run_evs (env : Env) (env' : RtcmSbp.Env) (hbias : ∀ c, band c ≠ none → env'.sigBias c = 0) {evs : List Ev} {xss : List (List Input)}
    (h : List.Forall₂ (EvOk env env') evs xss) (hp : evs.map (evPayloads env) = xss.map fun xs => some (xs.map (·.payload)))
    (s : RtcmSbp.State) (hr : ∀ e ∈ evs.filterMap evEpoch, Ready (secs (epochTime e.t)) s)
    (ht : (evs.filterMap evEpoch).Pairwise fun a b => secs (epochTime a.t) < secs (epochTime b.t)) :
    ∃ gs : List (List ObsMsg), List.Forall₂ EpochBack (evs.filterMap evEpoch) gs ∧
      obsOut (RtcmSbp.run env' s xss.flatten).2 = gs.flatten := by
  induction h generalizing s with
  | nil => exact ⟨[], .nil, rfl⟩
  | @cons v xs vs xss h1 h2 ih =>
    simp only [List.map_cons, List.cons.injEq] at hp
    cases v with
    | other p =>
      obtain ⟨-, -, k1, k2, x, rfl⟩ := h1
      have hq := Option.some.inj hp.1
      simp only [List.map_cons, List.map_nil, List.cons.injEq, and_true] at hq
      subst hq
      have ef : (Ev.other x.payload :: vs).filterMap evEpoch = vs.filterMap evEpoch := rfl
      rw [ef] at hr ht ⊢
      obtain ⟨o1, o2, o3, o4, o5⟩ := other_in env' x k1 k2 s
      obtain ⟨g, b1, b2⟩ := ih hp.2 (RtcmSbp.step env' s x).1 (fun e he => by
        obtain ⟨q1, q2, q3, q4⟩ := hr e he
        exact ⟨by rw [o2]; exact q1, by rw [o3]; exact q2, by rw [o4]; exact q3, by rw [o5]; exact q4⟩) ht
      refine ⟨g, b1, ?_⟩
      rw [List.flatten_cons, run_append, obsOut_append]
      simp only [RtcmSbp.run, List.append_nil]
      rw [o1, List.nil_append, b2]
    | epoch e =>
      obtain ⟨he, hx, -⟩ := h1
      have hq : epochPayloads env e = some (xs.map (·.payload)) := hp.1
      by_cases hne : (e.obs.filter fun o => (band o.code).isSome) = []
      · have ef : (Ev.epoch e :: vs).filterMap evEpoch = vs.filterMap evEpoch := by
          rw [List.filterMap_cons]
          simp only [evEpoch, if_pos hne]
        rw [ef] at hr ht ⊢
        have hq' := epoch_payloads env he
        obtain ⟨n1, n2⟩ := (epoch_empty he).1 hne
        rw [if_pos n1, if_pos n2, hq] at hq'
        have : xs = [] := by simpa using hq'
        subst this
        rw [List.flatten_cons, List.nil_append]
        exact ih hp.2 s hr ht
      · have ef : (Ev.epoch e :: vs).filterMap evEpoch = e :: vs.filterMap evEpoch := by
          rw [List.filterMap_cons]
          simp only [evEpoch, if_neg hne]
        rw [ef] at hr ht ⊢
        rw [List.pairwise_cons] at ht
        obtain ⟨c1, c2⟩ := epoch_back hbias he env xs hx hq hne s (hr e (by simp))
        obtain ⟨g, b1, b2⟩ := ih hp.2 (RtcmSbp.run env' s xs).1 (fun e' he' => by
          obtain ⟨q1, q2, q3, q4⟩ := hr e' (by simp [he'])
          have hl := later (ht.1 e' he')
          refine ⟨c2.buf, by rw [c2.msm]; exact q2, ?_, ?_⟩
          · rcases c2.gps with h | h <;> rw [h]
            · exact q3
            · exact fun _ => hl
          · rcases c2.glo with h | h <;> rw [h]
            · exact q4
            · exact fun _ => hl) ht.2
        refine ⟨_ :: g, .cons c1 b1, ?_⟩
        rw [List.flatten_cons, run_append, obsOut_append, b2, List.flatten_cons]

/-- **C78** The sender can put every event on the stream. -/
theorem C78_sendable (crc : Buf → BitVec 24) (env : Env) (env' : RtcmSbp.Env) (evs : List Ev)
    (xss : List (List Input)) (h : List.Forall₂ (EvOk env env') evs xss) : ∃ bytes, SentAs crc env evs bytes := by
  obtain ⟨pss, h1, -, h2⟩ := payloads_exist env env' h
  obtain ⟨fs, h3, -⟩ := Verif.Misc.frames_exist crc _ h2
  exact ⟨_, pss, fs, h1, h3, rfl⟩

/-- **C78** (partial: the epochs must satisfy `EvOk`, which leaves out what the defects below and those of C11 and C49 spoil) GPS and GLONASS epochs
sent as 1004 and 1012 messages, at increasing times, and any other messages, mixed on one byte stream that is cut into chunks in any way: the
receiver outputs one group of SBP observation messages for each epoch with observations, in the order sent, with the time and station of the
epoch; the group holds each carried observation of the epoch exactly once, with the same carrier phase and signal to noise, the pseudorange
to 2 cm, and a lock time that is not overstated. -/
theorem C78_stream_partial (crc : Buf → BitVec 24) (env : Env) (env' : RtcmSbp.Env) (hbias : ∀ c, band c ≠ none → env'.sigBias c = 0)
    (evs : List Ev) (xss : List (List Input)) (h : List.Forall₂ (EvOk env env') evs xss) (bytes : Buf) (hb : SentAs crc env evs bytes)
    (chunks : List Buf) (hc : Received crc bytes chunks xss.flatten)
    (ht : (evs.filterMap evEpoch).Pairwise fun a b => secs (epochTime a.t) < secs (epochTime b.t))
    (s : RtcmSbp.State) (hr : ∀ e ∈ evs.filterMap evEpoch, Ready (secs (epochTime e.t)) s) :
    ∃ groups : List (List ObsMsg), List.Forall₂ EpochBack (evs.filterMap evEpoch) groups ∧
      obsOut (RtcmSbp.run env' s xss.flatten).2 = groups.flatten := by
  obtain ⟨pss, fs, h1, h2, rfl⟩ := hb
  obtain ⟨c1, c2, c3⟩ := hc
  obtain ⟨pss', a1, a3, a2⟩ := payloads_exist env env' h
  obtain rfl : pss = pss' := List.map_injective_iff.2 (Option.some_injective _) (h1.symm.trans a1)
  obtain ⟨fs', b1, b2⟩ := Verif.Misc.frames_exist crc _ a2
  obtain rfl : fs = fs' := Option.some.inj (h2.symm.trans b1)
  have := RtcmFraming.C04_stream_roundtrip crc _ a2 fs b2 chunks c2 c1
  rw [c3] at this
  have inj : Function.Injective RtcmFraming.FrameCall.payload := fun a b h => by cases h; rfl
  have e : xss.flatten.map (·.payload) = pss.flatten := by
    apply List.map_injective_iff.2 inj
    rw [← this, List.map_map]
    rfl
  have e' := split_eq (fun x : Input => x.payload) xss pss a3 e
  refine run_evs env env' hbias h ?_ s hr ht
  rw [h1, ← e', List.map_map]
  rfl

/-! ### a concrete stream, and defects -/

def wCfg : Config := { leap := some 18, fcn := List.replicate 29 8, legacy := true, msm := false, msmType := .msm5 }
/-- range 22000 km; lock indicator 9; code, phase and half-cycle valid -/
def wO (sat : Nat) (code : Code) (li : Int) : SbpObs := ⟨sat, code, 1100000000, li, 6, 100, 8, 160, 9, 15⟩
/-- an observation as it comes back: without Doppler, the lock time a step shorter -/
def wB (sat : Nat) (code : Code) (li : Int) : SbpObs := ⟨sat, code, 1100000000, li, 6, 0, 0, 160, 8, 7⟩
def wL : List SbpObs := [wO 3 .gps_l1ca 115611310, wO 5 .glo_l1of 117603117, wO 3 .gps_l2cm 90086735, wO 12 .gps_l1ca 115611400, wO 11 .gal_e1x 115611310]
def wEpoch (tow : Nat) (l : List SbpObs) : Epoch := ⟨wCfg, 4103, ⟨2100, tow⟩, l⟩
open Verif.ObsStream (wEnv wEnv' wIn)
/-- what the receiver outputs for an epoch -/
def wOut (tow : Nat) (l : List SbpObs) : Option (List ObsMsg) :=
  (epochPayloads wEnv (wEpoch tow l)).map fun ps => obsOut (RtcmSbp.run wEnv' RtcmSbp.State.init (ps.map wIn)).2

example : wOut 5000 wL = some [⟨0xF087, ⟨2100, 5000⟩, 16, [wB 3 .gps_l1ca 115611310, wB 3 .gps_l2cm 90086735, wB 12 .gps_l1ca 115611400,
    wB 5 .glo_l1of 117603117]⟩] := by decide +kernel

theorem wConsOk (glo : Bool) : ConsOk wCfg glo wL := by
  have hd : ∀ o ∈ wL, ∀ o1 ∈ wL, band o1.code = some (firstOf glo) → (band o.code = some (firstOf glo) ∨ band o.code = some (secondOf glo)) →
      |phase ((band o.code).getD .gps1) (chan wCfg glo o.sat) o - range o1| ≤ 261 := by
    cases glo <;> decide +kernel
  have hf : ∀ o ∈ wL, o.P = 1100000000 ∧ o.flags = 15 ∧ o.Lf = 6 ∧ o.cn0 = 160 ∧ o.lock = 9 := by decide +kernel
  have ok : ∀ o ∈ wL, ∀ o1 ∈ wL, ∀ b, (b = firstOf glo ∨ b = secondOf glo) → band o1.code = some (firstOf glo) → band o.code = some b →
      ObsOk b (chan wCfg glo o.sat) (range o1) o := by
    intro o ho o1 ho1 b hb h1 h
    obtain ⟨p1, p2, p3, p4, p5⟩ := hf o ho
    have hq := hd o ho o1 ho1 h1 (by rcases hb with rfl | rfl; exacts [.inl h, .inr h])
    rw [h] at hq
    refine ⟨by rw [p2]; decide, ?_, by omega, hq, by omega, by omega⟩
    show (o.P : ℚ) / 50 ≤ 76000000
    rw [p1]; norm_num
  refine ⟨?_, ?_, ?_, ?_, ?_, ?_, ?_⟩
  · cases glo <;> decide +kernel
  · cases glo <;> decide +kernel
  · cases glo <;> decide +kernel
  · cases glo <;> decide +kernel
  · intro o ho h
    exact ok o ho o ho _ (.inl rfl) h h
  · intro a o r h hb
    have ho : o ∈ wL := by rw [h]; simp
    cases glo with
    | true => 
      have key : ∀ o ∈ wL, band o.code ≠ some (secondOf true) := by decide +kernel
      exact absurd hb (key o ho)
    | false =>
      match a, h with
      | [], h => obtain ⟨rfl, -⟩ := List.cons.inj h; cases hb
      | [_], h => obtain ⟨-, h⟩ := List.cons.inj h; obtain ⟨rfl, -⟩ := List.cons.inj h; cases hb
      | x :: y :: a', h =>
        obtain ⟨rfl, h⟩ := List.cons.inj h
        refine ⟨wO 3 .gps_l1ca 115611310, by simp, rfl, ?_⟩
        have key : ∀ o ∈ wL, band o.code = some Band.gps2 → (3 : Nat) = o.sat := by decide +kernel
        exact key o ho hb
  · intro o1 ho1 o ho h1 h2 _
    have e : range o = range o1 := by unfold range; rw [(hf o ho).1, (hf o1 ho1).1]
    refine ⟨ok o ho o1 ho1 _ (.inr rfl) h1 h2, by rw [e]; norm_num, ?_⟩
    intro n hn
    have e1 : range o1 = 22000000 := by unfold range; rw [(hf o1 ho1).1]; norm_num
    rw [e1] at hn
    rw [e, e1]
    by_contra hc
    push Not at hc
    have hu : unit glo = 299792.458 ∨ unit glo = 599584.916 := by cases glo; exacts [.inl rfl, .inr rfl]
    have e3 : ∀ k : ℕ, n ≤ k ∨ k + 1 ≤ n := fun k => by omega
    have c1 : ∀ k : ℕ, n ≤ k → (n : ℚ) ≤ k := fun k h => by exact_mod_cast h
    have c2 : ∀ k : ℕ, k + 1 ≤ n → ((k : ℚ) + 1) ≤ n := fun k h => by exact_mod_cast h
    rcases hu with hu | hu <;> rw [hu] at hn hc
    · have := (e3 73).imp (c1 _) (c2 _)
      generalize (n : ℚ) = N at *
      rcases this with h | h <;> norm_num at h hc hn <;> linarith
    · have := (e3 36).imp (c1 _) (c2 _)
      generalize (n : ℚ) = N at *
      rcases this with h | h <;> norm_num at h hc hn <;> linarith

theorem wEpochOk : EpochOk (wEpoch 5000 wL) := by
  refine ⟨⟨rfl, rfl⟩, ?_, wConsOk false, wConsOk true, by decide, by decide, fun _ => ⟨18, rfl, by decide, by decide⟩⟩
  show ∀ o ∈ wL, _
  decide +kernel

theorem wTimeOk (p : Buf) : TimeOk wEnv' (wEpoch 5000 wL) (wIn p) := by
  refine ⟨rfl, ?_, ?_, ?_, by show (0 : Int) < 2100; decide, ?_⟩
  · show GpsTime.valid ⟨2100, 7⟩; decide +kernel
  · show 259200 ≤ secs ⟨2100, 7⟩ ∧ secs ⟨2100, 7⟩ < 32767 * 604800 - 259200; decide +kernel
  · simp only [secs, epochTime, wEpoch, wIn]; norm_num
  · intro _
    refine ⟨rfl, ?_, Or.inl ?_⟩ <;> simp only [secs, epochTime, wEpoch, wIn, wEnv'] <;> norm_num

/-- the hypotheses of `C78_stream_partial` are met by an epoch of GPS on two frequencies and GLONASS, then a text message, at the receiver's start -/
example : (∀ c, band c ≠ none → wEnv'.sigBias c = 0) ∧ Ready (secs (epochTime ⟨2100, 5000⟩)) RtcmSbp.State.init ∧
    ∃ xss, List.Forall₂ (EvOk wEnv wEnv') [.epoch (wEpoch 5000 wL), .other [0x40, 0x50, 0, 0]] xss := by
  refine ⟨fun _ _ => rfl, ⟨rfl, by decide +kernel, fun h => absurd h (by decide +kernel), fun h => absurd h (by decide +kernel)⟩, ?_⟩
  have hp := epoch_payloads wEnv wEpochOk
  generalize ((if inB .gps1 (wEpoch 5000 wL).obs = [] then _ else _) ++ _ : List Buf) = ps at hp
  refine ⟨[ps.map wIn, [wIn [0x40, 0x50, 0, 0]]], .cons ⟨wEpochOk, ?_, ?_⟩ (.cons ⟨by decide, by decide, by decide, by decide, _, rfl⟩ .nil)⟩
  · intro x hx
    obtain ⟨p, -, rfl⟩ := List.mem_map.1 hx
    exact wTimeOk _
  · intro ps' hps
    rw [hp] at hps
    rw [← Option.some.inj hps]
    simp

/-- **C78** Defect: a P-code observation comes back as one of the C/A code. -/
theorem C78_pcode_bug : (wOut 5000 [wO 3 .gps_l1p 115611310, wO 3 .gps_l2p 90086735]).map (fun ms => ms.flatMap fun m => m.obs.map (·.code)) =
    some [.gps_l1ca, .gps_l2cm] := by decide +kernel

/-- **C78** Defect: a satellite whose first-frequency phase is not valid is not sent at all: its valid pseudorange and its second frequency are lost, too.
The message without satellites makes the receiver output an observation message without observations. -/
theorem C78_no_phase_bug : (wOut 5000 [{ wO 3 .gps_l1ca 115611310 with flags := 1 }, wO 3 .gps_l2cm 90086735]).map
    (fun ms => ms.map fun m => m.obs) = some [[]] := by decide +kernel

/-- **C78** Defect: the second frequency of a satellite is dropped when it comes before the first. -/
theorem C78_order_bug : (wOut 5000 [wO 3 .gps_l2cm 90086735, wO 3 .gps_l1ca 115611310]).map (fun ms => ms.map fun m => m.obs) =
    some [[wB 3 .gps_l1ca 115611310]] := by decide +kernel

/-- **C78** Defect: a second-frequency pseudorange that differs by 170 m from the first comes back wrong by 328 m (wraps around). -/
theorem C78_second_wrap_bug : (wOut 5000 [wO 3 .gps_l1ca 115611310, { wO 3 .gps_l2cm 90086735 with P := 1100008500 }]).map
    (fun ms => ms.flatMap fun m => m.obs.map (·.P)) = some [1100000000, 1099992116] := by decide +kernel

end Verif.LegacyStream
