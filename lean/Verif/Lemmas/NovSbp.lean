import Verif.Spec.NovSbp
/-! The state of the NovAtel converter is a function of the logs handled. -/
namespace Verif.Nov
open Verif.Nov.Spec
open Verif.Ubx (Fl dbl flt castTo)

theorem stateAfter_nil (L : Lib) : stateAfter L [] = some {} := rfl

theorem stateAfter_snoc (L : Lib) (before : List Msg) (m : Msg) :
    stateAfter L (before ++ [m]) = (stateAfter L before).bind fun st => (convert L st m).map (·.1) := by
  unfold stateAfter
  rw [List.foldlM_append]
  cases List.foldlM (fun st m => (convert L st m).map (·.1)) ({} : St) before <;> simp

def recvOf (h : Header) : TimeMsg := { wn := h.week, tow := h.ms }

/-- what is remembered of a log -/
theorem convert_state {L : Lib} {st st' : St} {m : Msg} {os : List Out} (h : convert L st m = some (st', os)) :
    st'.gpsTime = (if isPos m || isVel m then headerTime m.header else st.gpsTime) ∧
    (st'.imuRecv.wn, st'.imuRecv.tow) = (if isImu m then (m.header.week, m.header.ms) else (st.imuRecv.wn, st.imuRecv.tow)) ∧
    (st'.posTow, st'.posFlags) = (match m.body with | .bestpos b => (m.header.ms, getPositionFlags b.pos_type) | _ => (st.posTow, st.posFlags)) ∧
    (st'.imuAux.wn, st'.imuAux.tow) = (if isImu m ∧ sendsAux st.imuAux m.header then (m.header.week, m.header.ms)
      else (st.imuAux.wn, st.imuAux.tow)) := by
  obtain ⟨hd, body⟩ := m
  cases body with
  | gpsephem b =>
    simp only [convert, writeGpsEphem] at h
    rcases he : toEphGps L b with _ | e
    · rw [he] at h; cases h
    · rw [he] at h
      obtain ⟨rfl, rfl⟩ := Prod.mk.inj (Option.some.inj h)
      simp [isPos, isVel, isImu]
  | bestpos b =>
    simp only [convert, writeBestPos] at h
    rcases he : bestposToLlh L hd b with _ | e
    · rw [he] at h; cases h
    · rw [he] at h
      obtain ⟨rfl, rfl⟩ := Prod.mk.inj (Option.some.inj h)
      have hf : e.flags = getPositionFlags b.pos_type := by
        unfold bestposToLlh at he
        rcases h1 : floatToU16 (mulFl rnd32 (.fin 1000) (flt b.hgt_stddev)) with _ | v
        · rw [h1] at he; cases he
        rw [h1] at he
        rcases h2 : floatToU16 (fmaxFl (mulFl rnd32 (.fin 1000) (flt b.lat_stddev)) (mulFl rnd32 (.fin 1000) (flt b.lon_stddev))) with _ | w
        · rw [h2] at he; cases he
        rw [h2] at he
        obtain rfl := Option.some.inj he
        rfl
      simp [isPos, isVel, isImu, sendTime, hf]
  | bestvel b =>
    simp only [convert, writeBestVel] at h
    rcases he : bestvelToNed L (sendTime st (headerTime hd)).1 hd b with _ | e
    · rw [he] at h; cases h
    · rw [he] at h
      obtain ⟨rfl, rfl⟩ := Prod.mk.inj (Option.some.inj h)
      simp [isPos, isVel, isImu, sendTime]
  | rangecmp b =>
    simp only [convert, writeRangeCmp] at h
    rcases he : sendObs L hd.week (Fp.f64 ((hd.ms.toInt : ℚ) / 1000)) (b.map toMiniNav) with _ | e
    · rw [he] at h; cases h
    · rw [he] at h
      obtain ⟨rfl, rfl⟩ := Prod.mk.inj (Option.some.inj h)
      simp [isPos, isVel, isImu]
  | insatt b =>
    simp only [convert, writeInsAtt] at h
    rcases h1 : doubleToS32 (mulFl rnd64 (dbl b.roll) (.fin 1000000)) with _ | e1
    · rw [h1] at h; cases h
    rcases h2 : doubleToS32 (mulFl rnd64 (dbl b.pitch) (.fin 1000000)) with _ | e2
    · rw [h1, h2] at h; cases h
    rcases h3 : doubleToS32 (mulFl rnd64 (dbl b.azimuth) (.fin 1000000)) with _ | e3
    · rw [h1, h2, h3] at h; cases h
    rw [h1, h2, h3] at h
    obtain ⟨rfl, rfl⟩ := Prod.mk.inj (Option.some.inj h)
    simp [isPos, isVel, isImu]
  | gloephemeris b =>
    obtain ⟨rfl, rfl⟩ := Prod.mk.inj (Option.some.inj h)
    simp [isPos, isVel, isImu]
  | rawimusx b =>
    simp only [convert, writeRawImu] at h
    split at h
    · cases h
    rcases h1 : toAngularRate st.imuRecv hd b with _ | e1
    · rw [h1] at h; cases h
    rcases h2 : toImuRaw st.imuRecv hd b with _ | e2
    · rw [h1, h2] at h; cases h
    rw [h1, h2] at h
    obtain ⟨rfl, rfl⟩ := Prod.mk.inj (Option.some.inj h)
    simp only [isPos, isVel, isImu, Bool.or_self, Bool.false_eq_true, if_false, if_true, true_and]
    split <;> rfl
  | other =>
    obtain ⟨rfl, rfl⟩ := Prod.mk.inj (Option.some.inj h)
    simp [isPos, isVel, isImu]

theorem last_snoc (p : Msg → Bool) (l : List Msg) (m : Msg) :
    ((l ++ [m]).filter p).getLast? = if p m then some m else (l.filter p).getLast? := by
  rw [List.filter_append]
  cases h : p m <;> simp [List.filter_cons, h]

/-- the state, from the logs -/
theorem hist {L : Lib} (before : List Msg) : ∀ {st : St}, stateAfter L before = some st →
    (st.gpsTime = match lastNav before with | some m => headerTime m.header | none => {}) ∧
    ((st.imuRecv.wn, st.imuRecv.tow) = match lastImu before with | some m => (m.header.week, m.header.ms) | none => (0, 0)) ∧
    ((st.posTow, st.posFlags) = match lastPos before with
      | some ⟨h, .bestpos b⟩ => (h.ms, getPositionFlags b.pos_type) | _ => (0xFFFFFFFF#32, 0)) := by
  induction before using List.reverseRecOn with
  | nil =>
    intro st h
    obtain rfl := Option.some.inj h
    exact ⟨rfl, rfl, rfl⟩
  | append_singleton before m ih =>
    intro st' h
    rw [stateAfter_snoc] at h
    rcases hs : stateAfter L before with _ | st
    · rw [hs] at h; cases h
    rw [hs] at h
    rcases hc : convert L st m with _ | ⟨st2, os⟩
    · simp [hc] at h
    have : st2 = st' := by simpa [hc] using h
    subst this
    obtain ⟨h1, h2, h3⟩ := ih hs
    obtain ⟨g1, g2, g3, _⟩ := convert_state hc
    unfold lastNav lastImu lastPos at *
    rw [last_snoc, last_snoc, last_snoc]
    refine ⟨?_, ?_, ?_⟩
    · rw [g1]; split
      · rfl
      · exact h1
    · rw [g2]; split
      · rfl
      · exact h2
    · rw [g3]
      obtain ⟨hd, body⟩ := m
      cases body <;> first | rfl | exact h3

theorem sentFor_eq {L : Lib} {before : List Msg} {st : St} (h : stateAfter L before = some st) (m : Msg) :
    sentFor L before m = (convert L st m).map (·.2) := by
  unfold sentFor
  rw [h]; rfl

theorem sentFor_some {L : Lib} {before : List Msg} {m : Msg} {os : List Out} (h : sentFor L before m = some os) :
    ∃ st st', stateAfter L before = some st ∧ convert L st m = some (st', os) ∧ stateAfter L (before ++ [m]) = some st' := by
  rcases hs : stateAfter L before with _ | st
  · unfold sentFor at h; rw [hs] at h; cases h
  · rw [sentFor_eq hs] at h
    rcases hc : convert L st m with _ | ⟨st', os'⟩
    · rw [hc] at h; cases h
    · rw [hc] at h
      obtain rfl := Option.some.inj h
      refine ⟨st, st', rfl, hc, ?_⟩
      rw [stateAfter_snoc, hs]
      simp [hc]

theorem alive_after {L : Lib} {before : List Msg} {m : Msg} {os : List Out} (h : sentFor L before m = some os) :
    (stateAfter L (before ++ [m])).isSome := by
  obtain ⟨st, st', _, hc, h2⟩ := sentFor_some h
  exact Option.isSome_iff_exists.2 ⟨_, h2⟩

/-- all logs: what is sent for each of them, up to the one in which the program aborts -/
theorem convertAll_spec (L : Lib) (ms : List Msg) : ∀ (before : List Msg) (st : St), stateAfter L before = some st →
    ∃ replies : List (List Out), (convertAll L st ms).1 = replies.flatten ∧ replies.length ≤ ms.length ∧
      (∀ (k : Nat) (os : List Out), replies[k]? = some os → ∃ m, ms[k]? = some m ∧ sentFor L (before ++ ms.take k) m = some os) ∧
      ((convertAll L st ms).2 = true ↔ replies.length = ms.length) ∧
      ∀ m, ms[replies.length]? = some m → sentFor L (before ++ ms.take replies.length) m = none := by
  induction ms with
  | nil =>
    intro before st h
    refine ⟨[], rfl, le_rfl, ?_, by simp [convertAll], ?_⟩
    · intro k os h; cases h
    · intro m h; cases h
  | cons m ms ih =>
    intro before st h
    unfold convertAll
    rcases hc : convert L st m with _ | ⟨st', os⟩
    · refine ⟨[], rfl, by simp, ?_, by simp, ?_⟩
      · intro k os h; cases h
      · intro m' hm
        obtain rfl := Option.some.inj hm
        simp only [List.length_nil, List.take_zero, List.append_nil]
        rw [sentFor_eq h, hc]; rfl
    · have hs : sentFor L before m = some os := by rw [sentFor_eq h, hc]; rfl
      have h' : stateAfter L (before ++ [m]) = some st' := by
        rw [stateAfter_snoc, h]; simp [hc]
      obtain ⟨rs, h1, h2, h3, h4, h5⟩ := ih (before ++ [m]) st' h'
      refine ⟨os :: rs, ?_, by simpa using h2, ?_, ?_, ?_⟩
      · simp only [h1, List.flatten_cons]
      · intro k os' hk
        cases k with
        | zero =>
          obtain rfl := Option.some.inj hk
          exact ⟨m, rfl, by simpa using hs⟩
        | succ k =>
          obtain ⟨m', a, b⟩ := h3 k os' (by simpa using hk)
          exact ⟨m', by simpa using a, by simpa using b⟩
      · simp only [h4, List.length_cons, Nat.add_right_cancel_iff]
      · intro m' hm
        have := h5 m' (by simpa using hm)
        simpa using this

end Verif.Nov
