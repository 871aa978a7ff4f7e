import Verif.Spec.UbxStatus
import Verif.Props.C56
/-! C55: the GNSS time offset. -/
namespace Verif.Ubx
open Verif.Fp Verif.Ubx.Spec Verif.Time

variable {E : Type}

/-! ### the time of the last IMU datum -/

/-- the time of a datum of an ESF-RAW message -/
def ImuAt (now : Int) (m : EsfRaw) (t : GpsTime) : Prop :=
  (51 ≤ now ∧ now ≤ 4294000000) ∧ ∃ d ∈ imuData m.data, t.valid ∧ |604800 * (t.wn : ℚ) + t.tow - sampleTime now (firstTag m.data) d.sensor_time_tag.toNat| ≤ 1 / 200000000

theorem rawLoop_imu (L : SbpLib E) (hL : SaneTime L) (msss first : Nat) (hf : first < 2 ^ 24) (ds : List EsfRawData) :
    ∀ (a : RawAcc) (s s' : EsfSt) (os : List (Out E)), rawLoop L msss first ds a s = some (s', os) → -1 ≤ s.runImu → Tags24 ds →
    (imuData ds = [] → s'.lastImu = s.lastImu) ∧
    (imuData ds ≠ [] → gap msss s → s'.lastImu = s.lastImu) ∧
    (imuData ds ≠ [] → ¬ gap msss s → 51 ≤ unwrap s.runImu s.lastImuMsss msss → unwrap s.runImu s.lastImuMsss msss ≤ 4294000000 →
      ∃ d ∈ imuData ds, s'.lastImu.valid ∧ |604800 * (s'.lastImu.wn : ℚ) + s'.lastImu.tow -
        sampleTime (unwrap s.runImu s.lastImuMsss msss) first d.sensor_time_tag.toNat| ≤ 1 / 200000000) := by
  induction ds with
  | nil =>
    intro a s s' os h _ _
    unfold rawLoop at h
    obtain ⟨rfl, rfl⟩ := Prod.mk.inj (Option.some.inj h)
    exact ⟨fun _ => rfl, fun h => absurd rfl h, fun h => absurd rfl h⟩
  | cons d ds ih =>
    intro a s s' os h hrun ht
    have ht2 : Tags24 ds := fun x hx => ht x (List.mem_cons_of_mem _ hx)
    rcases rawLoop_cons L msss first d ds a s s' os h with ⟨hn, h1⟩ | ⟨hm, _, h1⟩
    · have e : imuData (d :: ds) = imuData ds := by unfold imuData; rw [List.filter_cons, if_neg (by simpa using hn)]
      have e2 : (tempUpd d s).runImu = s.runImu ∧ (tempUpd d s).lastImuMsss = s.lastImuMsss ∧ (tempUpd d s).lastImu = s.lastImu := by
        unfold tempUpd; split <;> exact ⟨rfl, rfl, rfl⟩
      have := ih _ _ s' os h1 (by rw [e2.1]; exact hrun) ht2
      rw [e]
      unfold gap at this ⊢
      rw [e2.1, e2.2.1, e2.2.2] at this
      exact this
    · have e : imuData (d :: ds) = d :: imuData ds := by unfold imuData; rw [List.filter_cons, if_pos (by simpa using hm)]
      rw [e]
      refine ⟨fun h => absurd h (by simp), ?_, ?_⟩
      · intro _ hg
        rcases h1 with ⟨_, rfl, _⟩ | ⟨hg2, _⟩
        · rfl
        · exact absurd hg hg2
      · intro _ hg b1 b2
        obtain ⟨τ, tow, f, q1, q2, _⟩ := imuRawTime_ok hL b1 b2 (ht d (List.mem_cons_self ..)) hf
        have later : ∀ a2 s2 os2, rawLoop L msss first ds a2 s2 = some (s', os2) →
            s2.runImu = unwrap s.runImu s.lastImuMsss msss → s2.lastImuMsss = msss → s2.lastImu = τ →
            ∃ x ∈ d :: imuData ds, s'.lastImu.valid ∧ |604800 * (s'.lastImu.wn : ℚ) + s'.lastImu.tow -
              sampleTime (unwrap s.runImu s.lastImuMsss msss) first x.sensor_time_tag.toNat| ≤ 1 / 200000000 := by
          intro a2 s2 os2 h2 e1 e2 e3
          obtain ⟨p1, p2, p3⟩ := runUpd_idem hrun s2 ⟨e1, e2⟩
          obtain ⟨i1, _, i3⟩ := ih a2 s2 s' os2 h2 p3 ht2
          rw [p2, e1] at i3
          by_cases hd : imuData ds = []
          · rw [i1 hd, e3]
            exact ⟨d, List.mem_cons_self .., q2⟩
          · obtain ⟨x, hx, hx2⟩ := i3 hd p1 b1 b2
            exact ⟨x, List.mem_cons_of_mem _ hx, hx2⟩
        rcases h1 with ⟨hc, _⟩ | ⟨_, h1⟩
        · exact absurd hc hg
        · rcases h1 with ⟨hc, _⟩ | ⟨q, hq, h1⟩
          · rw [show (runUpd msss s).runImu = unwrap s.runImu s.lastImuMsss msss from rfl, q1] at hc; cases hc
          · rw [show (runUpd msss s).runImu = unwrap s.runImu s.lastImuMsss msss from rfl, q1] at hq
            have hq1 : q.1 = τ := by rw [← Option.some.inj (Option.some.inj hq)]
            rcases h1 with ⟨_, rfl, _⟩ | ⟨_, _, os', h5, _⟩ | ⟨_, _, h5⟩
            · simp only [hq1]
              exact ⟨d, List.mem_cons_self .., q2⟩
            · exact later _ _ _ h5 rfl rfl hq1
            · exact later _ _ _ h5 rfl rfl hq1

theorem lastImu_clock (frames : List Buf) : (frames.foldl imuStep (none, none)).1 = clock frames := by
  unfold clock
  have key : ∀ (fs : List Buf) (c : Option (Int × Nat) × Option (Int × EsfRaw)) (k : Option (Int × Nat)), c.1 = k →
      (fs.foldl imuStep c).1 = fs.foldl (fun c f =>
        match decEsfRaw f with
        | .ok (m, _) => if imuData m.data = [] then c else imuClock c m.msss.toNat
        | .error _ => c) k := by
    intro fs
    induction fs with
    | nil => intro c k h; exact h
    | cons f fs ih =>
      intro c k h
      rw [List.foldl_cons, List.foldl_cons]
      apply ih
      subst h
      unfold imuStep
      cases decEsfRaw f with
      | error e => rfl
      | ok r =>
        simp only
        split
        · rfl
        · cases imuClock c.1 _ <;> rfl
  exact key frames _ _ rfl

/-- the converter's time of the last IMU datum -/
def ImuInv (t : GpsTime) (r : Option (Int × EsfRaw)) : Prop :=
  match r with
  | none => ¬ t.valid
  | some (now, m) => ImuAt now m t

theorem lastImuRaw_snoc (frames : List Buf) (f : Buf) : lastImuRaw (frames ++ [f]) =
    match decEsfRaw f with
    | .ok (m, _) =>
      if imuData m.data = [] then lastImuRaw frames
      else match clock (frames ++ [f]) with
        | some (now, _) => some (now, m)
        | none => lastImuRaw frames
    | .error _ => lastImuRaw frames := by
  rw [clock_snoc]
  unfold lastImuRaw
  rw [List.foldl_append, ← lastImu_clock]
  generalize frames.foldl imuStep (none, none) = c
  change (imuStep c f).2 = _
  unfold imuStep
  cases decEsfRaw f with
  | error e => rfl
  | ok r =>
    obtain ⟨m, rest⟩ := r
    simp only
    split
    · rfl
    · cases imuClock c.1 m.msss.toNat <;> rfl

theorem handle_imu (L : SbpLib E) (hL : SaneTime L) {frames : List Buf} {f : Buf} {st st' : CSt} {outs : List (Out E)}
    (h : handleFrame L st f = some (st', outs)) (hc : ClockIs st.esf (clock frames))
    (hn : ∀ m, Holds decEsfRaw f m → Tags24 m.data ∧
      ∀ now last, clock (frames ++ [f]) = some (now, last) → 51 ≤ now ∧ now ≤ 4294000000)
    (hi : ImuInv st.esf.lastImu (lastImuRaw frames)) : ImuInv st'.esf.lastImu (lastImuRaw (frames ++ [f])) := by
  rw [lastImuRaw_snoc]
  cases hd : decEsfRaw f with
  | error e =>
    simp only
    rcases handle_cases L st f with ⟨m, ⟨rest, hm⟩, _⟩ | ⟨m, _, hm⟩ | ho
    · rw [hd] at hm; cases hm
    · rw [hm] at h
      unfold measStep at h
      split at h
      · obtain ⟨rfl, rfl⟩ := Prod.mk.inj (Option.some.inj h)
        exact hi
      · rw [Option.map_eq_some_iff] at h
        obtain ⟨⟨s2, o2⟩, h2, h⟩ := h
        obtain ⟨rfl, rfl⟩ := Prod.mk.inj h
        obtain ⟨_, r, m, t, u, g2⟩ := measLoop_out L _ _ _ _ _ h2
        simp only at g2 ⊢
        subst g2
        exact hi
    · obtain ⟨⟨o, w, he⟩, hs⟩ := ho st' outs h
      rw [he]; exact hi
  | ok r =>
    obtain ⟨m, rest⟩ := r
    simp only
    obtain ⟨ht, hb⟩ := hn m ⟨rest, hd⟩
    rw [handle_raw L st ⟨rest, hd⟩] at h
    unfold rawStep at h
    rw [Option.map_eq_some_iff] at h
    obtain ⟨⟨s', os⟩, hr, h⟩ := h
    obtain ⟨rfl, rfl⟩ := Prod.mk.inj h
    have hft : firstTag m.data < 2 ^ 24 := by
      unfold firstTag
      split
      · norm_num
      · rename_i x l hx; exact ht x (by rw [hx]; simp)
    rw [firstTag_eq] at hr
    obtain ⟨i1, i2, i3⟩ := rawLoop_imu L hL _ _ hft _ _ _ _ _ hr (clock_lo hc) ht
    by_cases he : imuData m.data = []
    · rw [if_pos he]
      simp only
      rw [i1 he]; exact hi
    · rw [if_neg he]
      obtain ⟨c1, c2⟩ := clock_step hc (msss := m.msss.toNat) m.msss.isLt
      have hcl : clock (frames ++ [f]) = imuClock (clock frames) m.msss.toNat := by
        rw [clock_snoc, hd]
        simp only
        rw [if_neg he]
      rw [hcl] at hb ⊢
      simp only
      by_cases hg : gap m.msss.toNat st.esf
      · rw [c1 hg]
        simp only
        rw [i2 he hg]; exact hi
      · obtain ⟨e1, _⟩ := c2 hg
        rw [e1] at hb ⊢
        obtain ⟨b1, b2⟩ := hb _ _ rfl
        exact ⟨⟨b1, b2⟩, i3 he hg b1 b2⟩

/-! ### GNSS time -/

def ObsInv (s : EsfSt) (g : Bool × Option GpsTime) : Prop := s.weekSet = g.1 ∧ s.lastObs = g.2.getD .unknown

theorem gnss_snoc (frames : List Buf) (f : Buf) : gnssClock (frames ++ [f]) = gnssStep (gnssClock frames) f := by
  unfold gnssClock
  rw [List.foldl_append]; rfl

/-- no frame is both -/
theorem holds_excl {α β : Type} {d : Dec α} {d' : Dec β} {c i c' i' : Nat} {len len' wf wf' p p' n n'} (h : Follows d c i len wf p n)
    (h' : Follows d' c' i' len' wf' p' n') (hne : (c, i) ≠ (c', i')) {f : Buf} {m : α} {m' : β} (hm : Holds d f m) (hm' : Holds d' f m') : False := by
  obtain ⟨rest, hm⟩ := hm
  obtain ⟨rest', hm'⟩ := hm'
  obtain ⟨_, _, h1, h2, _⟩ := h f m rest hm
  obtain ⟨_, _, h3, h4, _⟩ := h' f m' rest' hm'
  exact hne (by rw [← h1, ← h2, h3, h4])

theorem handle_status (L : SbpLib E) (st : CSt) {frame : Buf} {m : NavStatus} (h : Holds decNavStatus frame m) :
    handleFrame L st frame = statusStep L st m := by
  obtain ⟨rest, h⟩ := h
  obtain ⟨_, ⟨used, hu, hl⟩, h1, h2, _⟩ := flNavStatus frame m rest h
  have e1 := leAt_head frame 0 0x01#8 h1
  have e2 := leAt_head frame 1 0x03#8 h2
  have hlen : ¬ frame.length < 2 := by rw [hu, List.length_append, hl]; omega
  unfold handleFrame
  rw [if_neg hlen, e1, e2]
  simp only [reduceIte, BitVec.reduceEq, withMsg, h]

/-- GNSS time and its validity are not touched -/
def KeepObs (st : CSt) (r : Option (CSt × List (Out E))) : Prop :=
  ∀ st' outs, r = some (st', outs) → st'.esf.weekSet = st.esf.weekSet ∧ st'.esf.lastObs = st.esf.lastObs

theorem KeepObs.keep (st : CSt) : KeepObs st (some (st, ([] : List (Out E)))) := by
  intro st' outs h
  obtain ⟨rfl, rfl⟩ := Prod.mk.inj (Option.some.inj h)
  exact ⟨rfl, rfl⟩

theorem KeepObs.if {p : Prop} [Decidable p] {st : CSt} {a b : Option (CSt × List (Out E))} (ha : KeepObs st a) (hb : KeepObs st b) :
    KeepObs st (if p then a else b) := by
  split <;> assumption

theorem KeepObs.with {α : Type} {d : Dec α} {frame : Buf} {st : CSt} {f : α → Option (CSt × List (Out E))}
    (h : ∀ m, KeepObs st (f m)) : KeepObs st (withMsg d frame st f) := by
  unfold withMsg
  split
  · exact h _
  · exact KeepObs.keep st

theorem rawLoop_obs (L : SbpLib E) (msss first : Nat) (ds : List EsfRawData) : ∀ (a : RawAcc) (s s' : EsfSt) (os : List (Out E)),
    rawLoop L msss first ds a s = some (s', os) → s'.weekSet = s.weekSet ∧ s'.lastObs = s.lastObs := by
  induction ds with
  | nil =>
    intro a s s' os h
    unfold rawLoop at h
    obtain ⟨rfl, rfl⟩ := Prod.mk.inj (Option.some.inj h)
    exact ⟨rfl, rfl⟩
  | cons d ds ih =>
    intro a s s' os h
    rcases rawLoop_cons L msss first d ds a s s' os h with ⟨_, h⟩ | ⟨_, _, h⟩
    · have e : (tempUpd d s).weekSet = s.weekSet ∧ (tempUpd d s).lastObs = s.lastObs := by
        unfold tempUpd; split <;> exact ⟨rfl, rfl⟩
      have := ih _ _ _ _ h
      rwa [e.1, e.2] at this
    · rcases h with ⟨_, rfl, rfl⟩ | ⟨_, h⟩
      · exact ⟨rfl, rfl⟩
      · rcases h with ⟨_, rfl, rfl⟩ | ⟨r, _, h⟩
        · exact ⟨rfl, rfl⟩
        · rcases h with ⟨_, rfl, rfl⟩ | ⟨_, _, os', h5, rfl⟩ | ⟨_, _, h⟩
          · exact ⟨rfl, rfl⟩
          · have := ih _ _ _ _ h5
            exact this
          · have := ih _ _ _ _ h
            exact this

theorem handle_keep (L : SbpLib E) (st : CSt) (frame : Buf) :
    (∃ m, Holds decNavStatus frame m) ∨ (∃ m, Holds decRxmRawx frame m) ∨ KeepObs st (handleFrame L st frame) := by
  have hw : ∀ {α : Type} (d : Dec α) (f : α → Option (CSt × List (Out E))), (∃ m, Holds d frame m) ∨ KeepObs st (withMsg d frame st f) := by
    intro α d f
    unfold withMsg
    split
    · rename_i m rest h
      exact Or.inl ⟨m, ⟨rest, h⟩⟩
    · exact Or.inr (KeepObs.keep st)
  have h2 := hw decRxmRawx (rawxStep L st)
  have h4 := hw decNavStatus (statusStep L st)
  rcases h4 with h4 | h4
  · exact Or.inl h4
  rcases h2 with h2 | h2
  · exact Or.inr (Or.inl h2)
  refine Or.inr (Or.inr ?_)
  have one : ∀ (st1 : CSt) (o : List (Out E)), st1.esf = st.esf → KeepObs st (some (st1, o)) := by
    intro st1 o h1 st' outs h
    obtain ⟨rfl, rfl⟩ := Prod.mk.inj (Option.some.inj h)
    rw [h1]; exact ⟨rfl, rfl⟩
  unfold handleFrame
  refine KeepObs.if (KeepObs.keep st) ?_
  simp only
  refine KeepObs.if (KeepObs.if (KeepObs.with fun m => ?_) (KeepObs.if (KeepObs.with fun m => ?_) (KeepObs.keep st))) (KeepObs.if (KeepObs.if (KeepObs.with fun m => ?_) (KeepObs.keep st))
    (KeepObs.if (KeepObs.if (KeepObs.with fun m => ?_) (KeepObs.if (KeepObs.with fun m => ?_) (KeepObs.if (KeepObs.with fun m => ?_) (KeepObs.if (KeepObs.with fun m => ?_) (KeepObs.if h4 (KeepObs.keep st))))))
    (KeepObs.if (KeepObs.if h2 (KeepObs.if (KeepObs.with fun m => ?_) (KeepObs.keep st))) (KeepObs.if (KeepObs.if ?_ (KeepObs.keep st)) (KeepObs.keep st)))))
  · intro st' outs h
    unfold rawStep at h
    rw [Option.map_eq_some_iff] at h
    obtain ⟨⟨s', os⟩, hr, h⟩ := h
    obtain ⟨rfl, rfl⟩ := Prod.mk.inj h
    exact rawLoop_obs L _ _ _ _ _ _ _ hr
  · intro st' outs h
    unfold measStep at h
    split at h
    · exact KeepObs.keep st _ _ h
    · rw [Option.map_eq_some_iff] at h
      obtain ⟨⟨s', os⟩, hr, h⟩ := h
      obtain ⟨rfl, rfl⟩ := Prod.mk.inj h
      obtain ⟨_, r, m, t, u, g2⟩ := measLoop_out L _ _ _ _ _ hr
      simp only at g2 ⊢
      subst g2
      exact ⟨rfl, rfl⟩
  · unfold hnrStep
    intro st' outs h
    simp only [Option.bind_eq_bind, Option.bind_eq_some_iff] at h
    obtain ⟨y, _, h⟩ := h
    obtain ⟨rfl, rfl⟩ := Prod.mk.inj (Option.some.inj h)
    exact ⟨rfl, rfl⟩
  · unfold attStep
    intro st' outs h
    simp only [Option.bind_eq_bind, Option.bind_eq_some_iff] at h
    obtain ⟨y, _, h⟩ := h
    obtain ⟨rfl, rfl⟩ := Prod.mk.inj (Option.some.inj h)
    exact ⟨rfl, rfl⟩
  · exact one _ _ rfl
  · intro st' outs h
    simp only [Option.map_eq_some_iff] at h
    obtain ⟨y, _, h⟩ := h
    obtain ⟨rfl, rfl⟩ := Prod.mk.inj h
    exact ⟨rfl, rfl⟩
  · exact one _ _ rfl
  · unfold sfrbxStep
    intro st' outs h
    simp only [Option.map_eq_some_iff] at h
    obtain ⟨y, _, h⟩ := h
    obtain ⟨rfl, rfl⟩ := Prod.mk.inj h
    exact ⟨rfl, rfl⟩
  · unfold fwdStep
    exact one _ _ rfl

theorem timeOk_iff (m : NavStatus) : (m.status_flags.toNat &&& 8 ≠ 0 ∧ m.status_flags.toNat &&& 4 ≠ 0) ↔ timeOk m = true := by
  unfold timeOk
  generalize m.status_flags = x
  revert x
  decide

theorem fixOk_iff (m : NavStatus) : ((m.fix_type = 3#8 ∨ m.fix_type = 4#8) ∧ m.status_flags.toNat &&& 1 ≠ 0) ↔ fixOk m = true := by
  unfold fixOk
  have : ∀ x : BitVec 8, (x.toNat &&& 1 ≠ 0) ↔ x.getLsbD 0 = true := by decide
  rw [this]
  simp

/-- NAV-STATUS: the part of the state that matters -/
theorem status_obs (L : SbpLib E) (st : CSt) (m : NavStatus) {st' : CSt} {outs : List (Out E)} (h : statusStep L st m = some (st', outs)) :
    st'.esf.weekSet = (st.esf.weekSet || timeOk m) ∧ st'.esf.lastObs = st.esf.lastObs := by
  unfold statusStep at h
  simp only at h
  have e1 : (if m.status_flags.toNat &&& 8 ≠ 0 ∧ m.status_flags.toNat &&& 4 ≠ 0 then
      { st with esf := { st.esf with weekSet := true } } else st).esf.weekSet = (st.esf.weekSet || timeOk m) ∧
      (if m.status_flags.toNat &&& 8 ≠ 0 ∧ m.status_flags.toNat &&& 4 ≠ 0 then
      { st with esf := { st.esf with weekSet := true } } else st).esf.lastObs = st.esf.lastObs := by
    by_cases ht : m.status_flags.toNat &&& 8 ≠ 0 ∧ m.status_flags.toNat &&& 4 ≠ 0
    · rw [if_pos ht, (timeOk_iff m).1 ht]; simp
    · have : timeOk m = false := by rw [timeOk_iff] at ht; simpa using ht
      rw [if_neg ht, this]; simp
  generalize (if m.status_flags.toNat &&& 8 ≠ 0 ∧ m.status_flags.toNat &&& 4 ≠ 0 then
    { st with esf := { st.esf with weekSet := true } } else st) = st1 at h e1
  have key : ∀ o, some (st1, (o : List (Out E))) = some (st', outs) →
      st'.esf.weekSet = (st.esf.weekSet || timeOk m) ∧ st'.esf.lastObs = st.esf.lastObs := by
    intro o h
    obtain ⟨rfl, rfl⟩ := Prod.mk.inj (Option.some.inj h)
    exact e1
  split at h
  · split at h
    · exact key _ h
    · split at h
      · exact key _ h
      · split at h
        · split at h
          · exact key _ h
          · split at h
            · exact key _ h
            · rw [Option.map_eq_some_iff] at h
              obtain ⟨ms, _, h⟩ := h
              obtain ⟨rfl, rfl⟩ := Prod.mk.inj h
              exact e1
        · exact key _ h
  · exact key _ h

theorem handle_obs (L : SbpLib E) {frames : List Buf} {f : Buf} {st st' : CSt} {outs : List (Out E)}
    (h : handleFrame L st f = some (st', outs)) (hi : ObsInv st.esf (gnssClock frames)) :
    ObsInv st'.esf (gnssClock (frames ++ [f])) := by
  rw [gnss_snoc]
  generalize gnssClock frames = g at hi ⊢
  obtain ⟨i1, i2⟩ := hi
  unfold gnssStep
  cases hs : decNavStatus f with
  | ok r =>
    obtain ⟨m, rest⟩ := r
    rw [handle_status L st ⟨rest, hs⟩] at h
    obtain ⟨k1, k2⟩ := status_obs L st m h
    exact ⟨by rw [k1, i1], by rw [k2, i2]⟩
  | error e =>
    simp only
    cases hr : decRxmRawx f with
    | ok r =>
      obtain ⟨m, rest⟩ := r
      rw [handle_rawx L st ⟨rest, hr⟩] at h
      unfold rawxStep at h
      simp only [Option.bind_eq_bind, Option.bind_eq_some_iff] at h
      obtain ⟨tow, h1, t, _, obs, _, h⟩ := h
      obtain ⟨rfl, rfl⟩ := Prod.mk.inj (Option.some.inj h)
      simp only
      by_cases hc : m.num_meas ≠ 0 ∧ m.rcv_wn ≠ 0 ∧ st.esf.weekSet = true
      · rw [if_pos hc, if_pos ⟨by rw [← i1]; exact hc.2.2, hc.1, hc.2.1⟩, h1]
        exact ⟨i1, rfl⟩
      · rw [if_neg hc, if_neg (fun hx => hc ⟨hx.2.1, hx.2.2, by rw [i1]; exact hx.1⟩)]
        exact ⟨i1, i2⟩
    | error e' =>
      rcases handle_keep L st f with ⟨m, rest, hm⟩ | ⟨m, rest, hm⟩ | hk
      · rw [hs] at hm; cases hm
      · rw [hr] at hm; cases hm
      · obtain ⟨k1, k2⟩ := hk st' outs h
        exact ⟨by rw [k1]; exact i1, by rw [k2]; exact i2⟩

/-! ### the whole history -/

theorem reach_status (L : SbpLib E) (hL : SaneTime L) (frames : List Buf) : ∀ (pre : List Buf) (st st' : CSt) (outs : List (Out E)),
    handleAll L st frames = some (st', outs) → ImuNormal (pre ++ frames) → ClockIs st.esf (clock pre) →
    ImuInv st.esf.lastImu (lastImuRaw pre) → ObsInv st.esf (gnssClock pre) →
    ImuInv st'.esf.lastImu (lastImuRaw (pre ++ frames)) ∧ ObsInv st'.esf (gnssClock (pre ++ frames)) := by
  induction frames with
  | nil =>
    intro pre st st' outs h _ _ h1 h2
    unfold handleAll at h
    obtain ⟨rfl, rfl⟩ := Prod.mk.inj (Option.some.inj h)
    simpa using ⟨h1, h2⟩
  | cons f fs ih =>
    intro pre st st' outs h hn hc hi ho
    unfold handleAll at h
    simp only [Option.bind_eq_bind, Option.bind_eq_some_iff] at h
    obtain ⟨⟨st1, o1⟩, h1, ⟨st2, o2⟩, h2, h⟩ := h
    obtain ⟨rfl, rfl⟩ := Prod.mk.inj (Option.some.inj h)
    have e : pre ++ f :: fs = (pre ++ [f]) ++ fs := by simp
    rw [e] at hn ⊢
    refine ih (pre ++ [f]) _ _ _ h2 hn (handle_clock L h1 hc) (handle_imu L hL h1 hc ?_ hi) (handle_obs L h1 ho)
    intro m hm
    exact hn pre f m (List.prefix_append _ _) hm

theorem status_inv (L : SbpLib E) (hL : SaneTime L) {hnr : Bool} {frames : List Buf} {st : CSt} {outs : List (Out E)}
    (h : handleAll L (CSt.start hnr) frames = some (st, outs)) (hn : ImuNormal frames) :
    ImuInv st.esf.lastImu (lastImuRaw frames) ∧ ObsInv st.esf (gnssClock frames) :=
  reach_status L hL frames [] _ _ _ h hn rfl (fun h => absurd h.1 (by decide : ¬ (0 : Int) ≤ -1)) ⟨rfl, rfl⟩

/-! ### arithmetic -/

theorem milli_match {L : SbpLib E} (hL : SaneTime L) {c : Nat} (hc : c < 2 ^ 32) {g g' r : GpsTime} (hr : r.valid)
    (h1 : L.normalize (f64 (f64 (1 / 1000) * c)) = some g) (h2 : L.matchWeeks g r = some g') :
    ∃ M : Int, M % 604800000 = (c : Int) % 604800000 ∧ |(M : ℚ) / 1000 - (604800 * r.wn + r.tow)| ≤ 302400 + 1 / 500000000 ∧
      |g'.tow * 1000 - ((M : ℚ) - 604800000 * g'.wn)| ≤ 1 / 500000 ∧ 0 ≤ g'.tow ∧ g'.tow < 604800 := by
  have e : f64 ((c : Int) : ℚ) = (c : ℚ) := by rw [f64_int _ (by rw [abs_le]; omega)]; push_cast; rfl
  obtain ⟨w, y, h3, _, y0, y1, ye⟩ := milli_norm hL hc
  rw [e, h1] at h3
  obtain rfl := Option.some.inj h3
  have hk := hL.keep _ _ _ h2
  have hn := hL.near _ _ _ y0 y1 hr.2.2.1 (by have := hr.2.2.2; unfold weekSecs at this; exact this) h2
  simp only at hk
  rw [hk] at hn ⊢
  rw [abs_le] at hn ye
  refine ⟨604800000 * g'.wn + c - 604800000 * w, by omega, ?_, ?_, y0, y1⟩ <;> push_cast <;> rw [abs_le]
  · constructor <;> linarith [hn.1, hn.2, ye.1, ye.2]
  · constructor <;> linarith [ye.1, ye.2]

theorem milli_found {L : SbpLib E} (hL : SaneTime L) {c : Nat} (hc : c < 2 ^ 32) {r : GpsTime} (hr : r.valid) {M : Int} (hM : M % 604800000 = (c : Int) % 604800000)
    (h1 : 1 ≤ M) (h2 : M ≤ 32767 * 604800000) (h3 : |(M : ℚ) / 1000 - (604800 * r.wn + r.tow)| ≤ 302399 + 1 / 100000000) :
    ∃ g, L.normalize (f64 (f64 (1 / 1000) * c)) = some g ∧ ∃ g', L.matchWeeks g r = some g' := by
  have e : f64 ((c : Int) : ℚ) = (c : ℚ) := by rw [f64_int _ (by rw [abs_le]; omega)]; push_cast; rfl
  obtain ⟨w, y, h4, hw, y0, y1, ye⟩ := milli_norm hL hc
  rw [e] at h4
  refine ⟨_, h4, ?_⟩
  obtain ⟨k, hk⟩ : ∃ k : Int, M = c + 604800000 * k := ⟨(M - c) / 604800000, by omega⟩
  have hMq : (M : ℚ) = c + 604800000 * k := by exact_mod_cast hk
  have h1q : (1 : ℚ) ≤ M := by exact_mod_cast h1
  have h2q : (M : ℚ) ≤ 32767 * 604800000 := by exact_mod_cast h2
  rw [abs_le] at ye h3
  refine ⟨_, hL.found ⟨w, y⟩ r (w + k) hw y0 y1 hr.1 hr.2.2.1 (by have := hr.2.2.2; unfold weekSecs at this; exact this) ?_ ?_ ?_⟩
  · by_contra hneg
    have : w + k ≤ -1 := by omega
    have : ((w : ℚ) + k) ≤ -1 := by exact_mod_cast this
    linarith [ye.1, ye.2]
  · by_contra hneg
    have : 32768 ≤ w + k := by omega
    have : (32768 : ℚ) ≤ (w : ℚ) + k := by exact_mod_cast this
    linarith [ye.1, ye.2]
  · push_cast
    rw [abs_lt]
    constructor <;> linarith [ye.1, ye.2, h3.1, h3.2]

theorem round_diff {a b : ℚ} (a0 : 0 ≤ a) (a1 : a < 604800) (b0 : 0 ≤ b) (b1 : b < 604800) {A B : Int} (hA : |a * 1000 - A| ≤ 1 / 500000)
    (hB : |b * 1000 - B| ≤ 1 / 500000) : cround (f64 (1000 * f64 (a - b))) = A - B ∧ |A - B| ≤ 604800000 := by
  have e1 : |f64 (a - b) - (a - b)| ≤ 1 / 1000000000 := by
    refine (f64_err _).trans ?_
    have : |a - b| ≤ 604800 := by rw [abs_le]; constructor <;> linarith
    have : |a - b| / 9007199254740992 ≤ 604800 / 9007199254740992 := by gcongr
    refine le_trans (add_le_add this le_rfl) (by norm_num)
  generalize f64 (a - b) = x at *
  rw [abs_le] at e1 hA hB
  have e2 : |f64 (1000 * x) - 1000 * x| ≤ 1 / 1000000 := by
    refine (f64_err _).trans ?_
    have : |1000 * x| ≤ 604900000 := by rw [abs_le]; constructor <;> linarith [e1.1, e1.2]
    have : |1000 * x| / 9007199254740992 ≤ 604900000 / 9007199254740992 := by gcongr
    refine le_trans (add_le_add this le_rfl) (by norm_num)
  generalize f64 (1000 * x) = z at *
  rw [abs_le] at e2
  have hz : |z - ((A - B : Int) : ℚ)| ≤ 1 / 100000 := by
    push_cast
    rw [abs_le]
    constructor <;> linarith [e1.1, e1.2, e2.1, e2.2, hA.1, hA.2, hB.1, hB.2]
  constructor
  · have hc := cround_abs z
    rw [abs_le] at hz hc
    have u1 : (cround z : ℚ) < ((A - B : Int) : ℚ) + 1 := by linarith [hz.2, hc.2]
    have u2 : ((A - B : Int) : ℚ) < (cround z : ℚ) + 1 := by linarith [hz.1, hc.1]
    have u1 : cround z < A - B + 1 := by exact_mod_cast u1
    have u2 : A - B < cround z + 1 := by exact_mod_cast u2
    omega
  · rw [abs_le] at hz ⊢
    push_cast at hz
    have u1 : ((A - B : Int) : ℚ) < 604800001 := by push_cast; linarith [hA.1, hA.2, hB.1, hB.2]
    have u2 : (-604800001 : ℚ) < ((A - B : Int) : ℚ) := by push_cast; linarith [hA.1, hA.2, hB.1, hB.2]
    have u1 : A - B < 604800001 := by exact_mod_cast u1
    have u2 : -604800001 < A - B := by exact_mod_cast u2
    omega

/-! ### NAV-STATUS -/

/-- the step of a NAV-STATUS message that is good, with both times known -/
theorem status_good (L : SbpLib E) (st : CSt) (m : NavStatus) (hf : fixOk m = true) (ht : timeOk m = true) (ho : st.esf.lastObs.valid)
    (hi : st.esf.lastImu.valid) {g g' l l' : GpsTime} (h1 : L.normalize (f64 (f64 (1 / 1000) * m.i_tow.toNat)) = some g)
    (h2 : L.matchWeeks g st.esf.lastObs = some g') (h3 : L.normalize (f64 (f64 (1 / 1000) * m.msss.toNat)) = some l)
    (h4 : L.matchWeeks l st.esf.lastImu = some l') : ∃ st1 : CSt, statusStep L st m =
      (s32 (cround (f64 (1000 * f64 (g'.tow - l'.tow))))).map fun ms => (st1, [.timeOffset (toS16 (g'.wn - l'.wn)) ms 0 0]) := by
  unfold statusStep
  simp only
  rw [if_pos ((timeOk_iff m).2 ht), if_pos ⟨(fixOk_iff m).2 hf, (timeOk_iff m).2 ht, ho⟩, h1]
  simp only [h2]
  rw [if_pos hi, h3]
  simp only [h4]
  exact ⟨_, rfl⟩

/-- a time offset is sent only for such a message -/
theorem status_sent (L : SbpLib E) (st : CSt) (m : NavStatus) {st' : CSt} {outs : List (Out E)} (h : statusStep L st m = some (st', outs))
    (ho : outs ≠ []) : fixOk m = true ∧ timeOk m = true ∧ st.esf.lastObs.valid ∧ st.esf.lastImu.valid ∧
      ∃ g g' l l', L.normalize (f64 (f64 (1 / 1000) * m.i_tow.toNat)) = some g ∧ L.matchWeeks g st.esf.lastObs = some g' ∧
        L.normalize (f64 (f64 (1 / 1000) * m.msss.toNat)) = some l ∧ L.matchWeeks l st.esf.lastImu = some l' := by
  have no : ∀ st1 : CSt, ¬ some (st1, ([] : List (Out E))) = some (st', outs) := by
    intro st1 h
    exact ho (Prod.mk.inj (Option.some.inj h)).2.symm
  unfold statusStep at h
  simp only at h
  by_cases ht : m.status_flags.toNat &&& 8 ≠ 0 ∧ m.status_flags.toNat &&& 4 ≠ 0
  · rw [if_pos ht] at h
    simp only at h
    split at h
    · rename_i hc
      split at h
      · exact absurd h (no _)
      · rename_i g hg
        split at h
        · exact absurd h (no _)
        · rename_i g' hg'
          split at h
          · rename_i hv
            split at h
            · exact absurd h (no _)
            · rename_i l hl
              split at h
              · exact absurd h (no _)
              · rename_i l' hl'
                exact ⟨(fixOk_iff m).1 hc.1, (timeOk_iff m).1 ht, hc.2.2, hv, g, g', l, l', hg, hg', hl, hl'⟩
          · exact absurd h (no _)
    · exact absurd h (no _)
  · rw [if_neg ht, if_neg (fun hc => ht hc.2.1)] at h
    exact absurd h (no _)

theorem sampleTime_bounds (now : Int) (first this : Nat) : (now : ℚ) / 1000 - 5 / 100 ≤ sampleTime now first this ∧
    sampleTime now first this ≤ (now : ℚ) / 1000 + 656 := by
  unfold sampleTime
  have h1 : 0 ≤ ((this : Int) - first) % 2 ^ 24 := by omega
  have h2 : ((this : Int) - first) % 2 ^ 24 ≤ 16777216 := by omega
  generalize ((this : Int) - first) % 2 ^ 24 = z at *
  have h1 : (0 : ℚ) ≤ z := by exact_mod_cast h1
  have h2 : (z : ℚ) ≤ 16777216 := by exact_mod_cast h2
  constructor <;> linarith

theorem offset_frame (L : SbpLib E) {st st' : CSt} {frame : Buf} {outs : List (Out E)} (h : handleFrame L st frame = some (st', outs))
    {w ms : Int} {us fl : Nat} (ho : .timeOffset w ms us fl ∈ outs) : ∃ m, Holds decNavStatus frame m ∧ statusStep L st m = some (st', outs) := by
  obtain ⟨id, h1, h2⟩ := C54_sources L h ho
  simp only [sources, List.mem_singleton] at h2
  subst h2
  match frame, h1 with
  | x :: y :: r, h1 =>
    obtain ⟨rfl, rfl⟩ := Prod.mk.inj (Option.some.inj h1)
    cases hd : decNavStatus ((0x01 : BitVec 8) :: 0x03 :: r) with
    | ok q => exact ⟨q.1, ⟨q.2, hd⟩, by rw [← handle_status L st ⟨q.2, hd⟩]; exact h⟩
    | error e =>
      exfalso
      unfold handleFrame at h
      rw [if_neg (by simp)] at h
      simp only [List.getD_cons_zero, List.getD_cons_succ, reduceIte, BitVec.reduceEq, withMsg] at h
      rw [hd] at h
      rw [← (Prod.mk.inj (Option.some.inj h)).2] at ho
      simp at ho

/-- **C55 (sound).**  After any history in which the IMU counter behaves, a GNSS time offset is sent only for a NAV-STATUS message with a
good fix and valid time, when the receiver has said that its time is valid and then sent observations, and has sent IMU data.  The offset
is then, exactly to the millisecond, the difference of the two times of the message: GNSS time, taken in the week that is nearest to the last
observations, and time since start-up, taken in the week that is nearest to the last IMU data. -/
theorem C55_sound (L : SbpLib E) (hL : SaneTime L) (hnr : Bool) (frames : List Buf) (hn : ImuNormal frames) {st st' : CSt}
    {outs0 outs : List (Out E)} {frame : Buf} (h0 : handleAll L (CSt.start hnr) frames = some (st, outs0))
    (h : handleFrame L st frame = some (st', outs)) {w ms : Int} {us fl : Nat} (ho : .timeOffset w ms us fl ∈ outs) :
    outs = [.timeOffset w ms us fl] ∧ us = 0 ∧ fl = 0 ∧
    ∃ m, Holds decNavStatus frame m ∧ fixOk m = true ∧ timeOk m = true ∧
    ∃ t now mi, (gnssClock frames).2 = some t ∧ t.valid ∧ lastImuRaw frames = some (now, mi) ∧
    ∃ d ∈ imuData mi.data, ∃ G M : Int, Unfolds G m.i_tow.toNat (604800 * t.wn + t.tow) ∧
      Unfolds M m.msss.toNat (sampleTime now (firstTag mi.data) d.sensor_time_tag.toNat) ∧
      (t.wn ≤ 32765 → 604800000 * w + ms = G - M) := by
  obtain ⟨hI, hO⟩ := status_inv L hL h0 hn
  obtain ⟨m, hm, hs⟩ := offset_frame L h ho
  obtain ⟨hf, ht, vo, vi, g, g', l, l', h1, h2, h3, h4⟩ := status_sent L st m hs (List.ne_nil_of_mem ho)
  obtain ⟨st1, hg⟩ := status_good L st m hf ht vo vi h1 h2 h3 h4
  obtain ⟨G, G1, G2, G3, G4, G5⟩ := milli_match hL m.i_tow.isLt vo h1 h2
  obtain ⟨M, M1, M2, M3, M4, M5⟩ := milli_match hL m.msss.isLt vi h3 h4
  obtain ⟨hr, hr2⟩ := round_diff G4 G5 M4 M5 (A := G - 604800000 * g'.wn) (B := M - 604800000 * l'.wn) (by push_cast; exact G3) (by push_cast; exact M3)
  rw [hs, hr] at hg
  have hb : -2147483648 ≤ G - 604800000 * g'.wn - (M - 604800000 * l'.wn) ∧ G - 604800000 * g'.wn - (M - 604800000 * l'.wn) ≤ 2147483647 := by
    rw [abs_le] at hr2; omega
  rw [show s32 (G - 604800000 * g'.wn - (M - 604800000 * l'.wn)) = some _ from if_pos hb] at hg
  obtain ⟨_, rfl⟩ := Prod.mk.inj (Option.some.inj hg)
  rw [List.mem_singleton] at ho
  injection ho with w1 w2 w3 w4
  refine ⟨by rw [w1, w2, w3, w4], w3, w4, m, hm, hf, ht, ?_⟩
  cases hc : (gnssClock frames).2 with
  | none =>
    rw [hO.2, hc] at vo
    exact absurd vo.1 (by decide : ¬ (0 : Int) ≤ -1)
  | some t =>
    have e : st.esf.lastObs = t := by rw [hO.2, hc]; rfl
    rw [e] at vo G2
    cases hl : lastImuRaw frames with
    | none =>
      rw [hl] at hI
      exact absurd vi hI
    | some q =>
      obtain ⟨now, mi⟩ := q
      rw [hl] at hI
      obtain ⟨⟨hlo, hhi⟩, d, hd, _, hd2⟩ := hI
      refine ⟨t, now, mi, rfl, vo, rfl, d, hd, G, M, ⟨G1, G2.trans (by norm_num)⟩, ⟨M1, ?_⟩, ?_⟩
      · rw [abs_le] at M2 hd2 ⊢
        constructor <;> linarith [M2.1, M2.2, hd2.1, hd2.2]
      · intro hw
        have b1 : -32768 ≤ g'.wn - l'.wn ∧ g'.wn - l'.wn ≤ 32767 := by
          have v1 : (0 : ℚ) ≤ t.wn := by exact_mod_cast vo.1
          have v2 : (t.wn : ℚ) ≤ 32765 := by exact_mod_cast hw
          have v3 := vo.2.2.1
          have v4 : t.tow < 604800 := by have := vo.2.2.2; unfold weekSecs at this; exact this
          have u1 : (0 : ℚ) ≤ st.esf.lastImu.wn := by exact_mod_cast vi.1
          have u2 : (st.esf.lastImu.wn : ℚ) ≤ 32765 := by
            have : |604800 * (st.esf.lastImu.wn : ℚ) + st.esf.lastImu.tow - sampleTime now (firstTag mi.data) d.sensor_time_tag.toNat| ≤ 1 := hd2.trans (by norm_num)
            have hnow : (now : ℚ) ≤ 4294000000 := by exact_mod_cast hhi
            rw [abs_le] at this
            have hz := (sampleTime_bounds now (firstTag mi.data) d.sensor_time_tag.toNat).2
            have u3 := vi.2.2.1
            linarith [this.2]
          have u3 := vi.2.2.1
          have u4 : st.esf.lastImu.tow < 604800 := by have := vi.2.2.2; unfold weekSecs at this; exact this
          rw [abs_le] at G2 G3 M2 M3
          have z1 : ((g'.wn - t.wn : Int) : ℚ) < 2 := by push_cast; linarith [G2.1, G2.2, G3.1, G3.2]
          have z2 : (-2 : ℚ) < ((g'.wn - t.wn : Int) : ℚ) := by push_cast; linarith [G2.1, G2.2, G3.1, G3.2]
          have z3 : ((l'.wn - st.esf.lastImu.wn : Int) : ℚ) < 2 := by push_cast; linarith [M2.1, M2.2, M3.1, M3.2]
          have z4 : (-2 : ℚ) < ((l'.wn - st.esf.lastImu.wn : Int) : ℚ) := by push_cast; linarith [M2.1, M2.2, M3.1, M3.2]
          have z1 : g'.wn - t.wn < 2 := by exact_mod_cast z1
          have z2 : -2 < g'.wn - t.wn := by exact_mod_cast z2
          have z3 : l'.wn - st.esf.lastImu.wn < 2 := by exact_mod_cast z3
          have z4 : -2 < l'.wn - st.esf.lastImu.wn := by exact_mod_cast z4
          have v1 := vo.1
          have u1 := vi.1
          have u2 : st.esf.lastImu.wn ≤ 32765 := by exact_mod_cast u2
          omega
        rw [w1, w2]
        unfold toS16
        omega

/-- **C55 (complete).**  A NAV-STATUS message with a good fix and valid time is always answered by a time offset when the receiver has
said that its time is valid and has then sent observations with a valid time, and has sent IMU data, if there are weeks in which the two
times of the message are close to them. -/
theorem C55_complete (L : SbpLib E) (hL : SaneTime L) (hnr : Bool) (frames : List Buf) (hn : ImuNormal frames) {st : CSt}
    {outs0 : List (Out E)} {frame : Buf} {m : NavStatus} (h0 : handleAll L (CSt.start hnr) frames = some (st, outs0))
    (hm : Holds decNavStatus frame m) (hf : fixOk m = true) (ht : timeOk m = true) {t : GpsTime} (hg : (gnssClock frames).2 = some t)
    (hv : t.valid) {now : Int} {mi : EsfRaw} (hi : lastImuRaw frames = some (now, mi)) {G M : Int}
    (hG : UnfoldsWell G m.i_tow.toNat (604800 * t.wn + t.tow)) (hG1 : 1 ≤ G) (hG2 : G ≤ 32767 * 604800000)
    (hM : ∀ d ∈ imuData mi.data, UnfoldsWell M m.msss.toNat (sampleTime now (firstTag mi.data) d.sensor_time_tag.toNat)) (hM1 : 1 ≤ M) :
    ∃ st' w ms, handleFrame L st frame = some (st', [.timeOffset w ms 0 0]) := by
  obtain ⟨hI, hO⟩ := status_inv L hL h0 hn
  rw [hi] at hI
  obtain ⟨⟨hlo, hhi⟩, d, hd, vi, hd2⟩ := hI
  have e : st.esf.lastObs = t := by rw [hO.2, hg]; rfl
  rw [← e] at hv hG
  obtain ⟨M1, M2⟩ := hM d hd
  obtain ⟨g, h1, g', h2⟩ := milli_found hL m.i_tow.isLt hv hG.1 hG1 hG2 (hG.2.trans (by norm_num))
  have M3 : M ≤ 32767 * 604800000 := by
    have hz := (sampleTime_bounds now (firstTag mi.data) d.sensor_time_tag.toNat).2
    have hnow : (now : ℚ) ≤ 4294000000 := by exact_mod_cast hhi
    rw [abs_le] at M2
    have : (M : ℚ) ≤ 32767 * 604800000 := by linarith [M2.2]
    exact_mod_cast this
  obtain ⟨l, h3, l', h4⟩ := milli_found hL m.msss.isLt vi M1 hM1 M3 (by
    rw [abs_le] at M2 hd2 ⊢
    constructor <;> linarith [M2.1, M2.2, hd2.1, hd2.2])
  obtain ⟨st1, hs⟩ := status_good L st m hf ht hv vi h1 h2 h3 h4
  obtain ⟨A, _, _, A3, A4, A5⟩ := milli_match hL m.i_tow.isLt hv h1 h2
  obtain ⟨B, _, _, B3, B4, B5⟩ := milli_match hL m.msss.isLt vi h3 h4
  obtain ⟨hr, hr2⟩ := round_diff A4 A5 B4 B5 (A := A - 604800000 * g'.wn) (B := B - 604800000 * l'.wn) (by push_cast; exact A3) (by push_cast; exact B3)
  rw [handle_status L st hm, hs, hr]
  rw [show s32 (A - 604800000 * g'.wn - (B - 604800000 * l'.wn)) = some _ from if_pos (by rw [abs_le] at hr2; omega)]
  exact ⟨st1, _, _, rfl⟩

/-- **C55 (start-up).**  In the first three days after start-up, the time offset added to the time since start-up of the NAV-STATUS message
gives its GNSS time. -/
theorem C55_startup (L : SbpLib E) (hL : SaneTime L) (hnr : Bool) (frames : List Buf) (hn : ImuNormal frames) {st st' : CSt}
    {outs0 outs : List (Out E)} {frame : Buf} (h0 : handleAll L (CSt.start hnr) frames = some (st, outs0))
    (h : handleFrame L st frame = some (st', outs)) {w ms : Int} {us fl : Nat} (ho : .timeOffset w ms us fl ∈ outs) {m : NavStatus}
    (hm : Holds decNavStatus frame m) (h1 : m.msss.toNat ≤ 259200000) {t : GpsTime} (hg : (gnssClock frames).2 = some t) (hw : t.wn ≤ 32765)
    (h2 : ∀ now mi, lastImuRaw frames = some (now, mi) → now ≤ 259200000) :
    Unfolds (604800000 * w + ms + m.msss.toNat) m.i_tow.toNat (604800 * t.wn + t.tow) := by
  obtain ⟨_, _, _, m', hm', _, _, t', now, mi, hg', _, hi, d, hd, G, M, hG, hM, he⟩ := C55_sound L hL hnr frames hn h0 h ho
  obtain ⟨r, hm⟩ := hm
  obtain ⟨r', hm'⟩ := hm'
  rw [hm] at hm'
  obtain ⟨rfl, rfl⟩ := Prod.mk.inj (Except.ok.inj hm')
  rw [hg] at hg'
  obtain rfl := Option.some.inj hg'
  have he := he hw
  have hnow := h2 now mi hi
  obtain ⟨b1, b2⟩ := sampleTime_bounds now (firstTag mi.data) d.sensor_time_tag.toNat
  obtain ⟨hI, _⟩ := status_inv L hL h0 hn
  rw [hi] at hI
  obtain ⟨⟨hlo, _⟩, _⟩ := hI
  have hnow : (now : ℚ) ≤ 259200000 := by exact_mod_cast hnow
  have hlo : (51 : ℚ) ≤ now := by exact_mod_cast hlo
  have hMc : M = m.msss.toNat := by
    obtain ⟨k2, k3⟩ := hM
    rw [abs_le] at k3
    have c1 : (m.msss.toNat : ℚ) ≤ 259200000 := by exact_mod_cast h1
    have c0 : (0 : ℚ) ≤ m.msss.toNat := by positivity
    have a1 : (M : ℚ) - m.msss.toNat < 604800000 := by linarith [k3.2]
    have a2 : (-604800000 : ℚ) < (M : ℚ) - m.msss.toNat := by linarith [k3.1]
    have a1 : M - m.msss.toNat < 604800000 := by exact_mod_cast a1
    have a2 : -604800000 < M - m.msss.toNat := by exact_mod_cast a2
    omega
  rw [show 604800000 * w + ms + (m.msss.toNat : Int) = G by omega]
  exact hG

/-! valid time, observations of week 2000, second 345600, IMU data 70 s after start-up, and then a fix a second later -/

def exStatusMsg (itow msss : BitVec 32) : NavStatus :=
  { class_id := 0x01, msg_id := 0x03, length := 16, i_tow := itow, fix_type := 3, status_flags := 0x0D, fix_status := 0
    status_flags_ext := 0, ttff_ms := 0, msss := msss }
def exStatus (itow msss : BitVec 32) : Buf := encNavStatus (exStatusMsg itow msss)
def exObsFrame : Buf := exRawx 0x41151800009d4952 [exMeas 0x4174fb180028f5c3 0x3ff8000000000000 0xc0000000]
def exImuFrame : Buf := (encEsfRaw (exRaw 70000 (exGroup 0x000400 1000))).getD []
def exHist : List Buf := [exStatus 345599000 69000, exObsFrame, exImuFrame]

example : (handleAll exLib (CSt.start false) (exHist ++ [exStatus 345601000 71000])).map (fun r => r.2.filter fun o => !isQuiet o) =
    some [.timeOffset 2000 345530000 0 0] := by decide +kernel

theorem prefix_three {α : Type} {a b c f : α} {pre : List α} (h : pre ++ [f] <+: [a, b, c]) :
    (pre = [] ∧ f = a) ∨ (pre = [a] ∧ f = b) ∨ (pre = [a, b] ∧ f = c) := by
  obtain ⟨t, h⟩ := h
  match pre, h with
  | [], h => simp at h; exact Or.inl ⟨rfl, h.1⟩
  | [x], h => simp at h; obtain ⟨rfl, h, _⟩ := h; exact Or.inr (Or.inl ⟨rfl, h⟩)
  | [x, y], h => simp at h; obtain ⟨rfl, rfl, h, _⟩ := h; exact Or.inr (Or.inr ⟨rfl, h⟩)
  | x :: y :: z :: r, h => simp at h

/-- the hypotheses of C55 -/
example : ImuNormal exHist ∧ (∃ t, (gnssClock exHist).2 = some t ∧ t.valid ∧ t.wn ≤ 32765 ∧
      UnfoldsWell (2000 * 604800000 + 345601000) 345601000 (604800 * t.wn + t.tow)) ∧
    lastImuRaw exHist = some (70000, exRaw 70000 (exGroup 0x000400 1000)) ∧
    (∀ d ∈ imuData (exGroup 0x000400 1000), UnfoldsWell 71000 71000 (sampleTime 70000 0x000400 d.sensor_time_tag.toNat)) ∧
    Holds decNavStatus (exStatus 345601000 71000) (exStatusMsg 345601000 71000) ∧
    fixOk (exStatusMsg 345601000 71000) = true ∧ timeOk (exStatusMsg 345601000 71000) = true := by
  refine ⟨?_, ?_, by decide +kernel, by unfold UnfoldsWell; decide +kernel, ⟨[], by decide +kernel⟩, by decide, by decide⟩
  · intro pre f m h hm
    obtain ⟨rest, hm⟩ := hm
    rcases prefix_three h with ⟨rfl, rfl⟩ | ⟨rfl, rfl⟩ | ⟨rfl, rfl⟩
    · have : (decEsfRaw (exStatus 345599000 69000)).toOption.isSome = false := by decide +kernel
      rw [hm] at this; cases this
    · have : (decEsfRaw exObsFrame).toOption.isSome = false := by decide +kernel
      rw [hm] at this; cases this
    · have e : decEsfRaw exImuFrame = .ok (exRaw 70000 (exGroup 0x000400 1000), []) := by decide +kernel
      rw [e] at hm
      obtain ⟨rfl, rfl⟩ := Prod.mk.inj (Except.ok.inj hm)
      refine ⟨by unfold Tags24; decide +kernel, ?_⟩
      have e2 : clock ([exStatus 345599000 69000, exObsFrame] ++ [exImuFrame]) = some (70000, 70000) := by decide +kernel
      intro now last h
      rw [e2] at h
      obtain ⟨rfl, rfl⟩ := Prod.mk.inj (Option.some.inj h)
      decide
  · have : (gnssClock exHist).2.any (fun t => decide (t.valid ∧ t.wn ≤ 32765 ∧
      ((2000 * 604800000 + 345601000 : Int) % 604800000 = ((345601000 : Nat) : Int) % 604800000 ∧
        |((2000 * 604800000 + 345601000 : Int) : ℚ) / 1000 - (604800 * t.wn + t.tow)| ≤ 302399))) = true := by decide +kernel
    rw [Option.any_eq_true] at this
    obtain ⟨t, h1, h2⟩ := this
    have h2 := of_decide_eq_true h2
    exact ⟨t, h1, h2⟩

/-- **C55 (bug).**  The 32-bit time since start-up wraps after 49.7 days.  IMU times go on, but the one of the NAV-STATUS message does not:
after the wrap, in this history 7 weeks and 17 hours after start-up, the offset is wrong by those 17 hours. -/
theorem C55_wrap_bug : ∃ frames : List Buf, ∃ now,
    (clock frames).map (·.1) = some now ∧ now = 4294967296 + 24 ∧
    (handleAll exLib (CSt.start false) (frames ++ [exStatus 345601000 1024])).map (fun r => r.2.filter fun o => !isQuiet o) =
      some [.timeOffset 1993 345599976 0 0] ∧
    604800000 * 1993 + 345599976 = (604800000 * 2000 + 345601000) - (now + 1000) + (now - 24) % 604800000 := by
  refine ⟨[exStatus 345599000 69000, exObsFrame, exFrame1, exFrame2], 4294967296 + 24, ?_, rfl, ?_, ?_⟩ <;> decide +kernel

end Verif.Ubx
