import Verif.Spec.UbxImu
import Verif.Lemmas.UbxSbp
/-! The loop over the data of an ESF-RAW message. -/
namespace Verif.Ubx
open Verif.Fp Verif.Ubx.Spec Verif.Time

variable {E : Type}

theorem rawType_eq (d : EsfRawData) : d.data.toNat / 2 ^ 24 % 2 ^ 8 = rawType d := by
  simp [rawType, BitVec.extractLsb'_toNat, Nat.shiftRight_eq_div_pow]

theorem convert24b_eq (w : BitVec 32) : convert24b (w.toNat % 2 ^ 24) = (w.extractLsb' 0 24).toInt := by
  unfold convert24b
  rw [BitVec.toInt_eq_toNat_cond, BitVec.extractLsb'_toNat, Nat.shiftRight_zero]
  have : w.toNat % 2 ^ 24 < 2 ^ 24 := Nat.mod_lt _ (by decide)
  generalize w.toNat % 2 ^ 24 = v at *
  norm_num at this ⊢
  split <;> split <;> omega

/-- running_imu_msss after a datum -/
def unwrap (run : Int) (last this : Nat) : Int := if run = -1 then this else run + ((this : Int) - last) % 2 ^ 32

/-- the state after a temperature -/
def tempUpd (d : EsfRawData) (s : EsfSt) : EsfSt :=
  if rawType d = 12 then { s with temp := f64 (f64 (1 / 100) * rawVal d), tempSet := true } else s

def runUpd (msss : Nat) (s : EsfSt) : EsfSt := { s with runImu := unwrap s.runImu s.lastImuMsss msss, lastImuMsss := msss }

def recvUpd (d : EsfRawData) (a : RawAcc) : Nat → Nat := fun i => if i = rawType d then a.recv i + 1 else a.recv i

def msgUpd (d : EsfRawData) (r : GpsTime × Nat × Nat) (a : RawAcc) : ImuRaw :=
  parseImu (d.data.toNat % 2 ^ 24) (rawType d) { a.msg with tow := r.2.1, towF := r.2.2 }

def gap (msss : Nat) (s : EsfSt) : Prop := s.runImu ≠ -1 ∧ 1000 < ((msss : Int) - s.lastImuMsss) % 2 ^ 32

def allRecv (a : RawAcc) (recv : Nat → Nat) : Bool := axisTypes.all fun i => recv i = a.cur + 1

theorem rawLoop_cons (L : SbpLib E) (msss first : Nat) (d : EsfRawData) (ds : List EsfRawData) (a : RawAcc) (s s' : EsfSt)
    (os : List (Out E)) (h : rawLoop L msss first (d :: ds) a s = some (s', os)) :
    (rawType d ∉ axisTypes ∧ rawLoop L msss first ds a (tempUpd d s) = some (s', os)) ∨
    (rawType d ∈ axisTypes ∧ tempUpd d s = s ∧ (
      (gap msss s ∧ s' = { s with runImu := -1 } ∧ os = []) ∨
      (¬ gap msss s ∧ (
        (imuRawTime L d.sensor_time_tag.toNat first (runUpd msss s).runImu = some none ∧ s' = runUpd msss s ∧ os = []) ∨
        (∃ r, imuRawTime L d.sensor_time_tag.toNat first (runUpd msss s).runImu = some (some r) ∧ (
          (recvUpd d a (rawType d) ≠ a.cur + 1 ∧ s' = { runUpd msss s with lastImu := r.1 } ∧ os = []) ∨
          (recvUpd d a (rawType d) = a.cur + 1 ∧ allRecv a (recvUpd d a) = true ∧ ∃ os',
            rawLoop L msss first ds { recv := recvUpd d a, cur := a.cur + 1, msg := msgUpd d r a }
              { runUpd msss s with lastImu := r.1, rawSent := ((if s.rawSent % 20 = 0 then 0 else s.rawSent) + 1) % 2 ^ 32 } =
                some (s', os') ∧
            os = (if s.rawSent % 20 = 0 then [imuAux s] else []) ++ .imuRaw (msgUpd d r a) :: os') ∨
          (recvUpd d a (rawType d) = a.cur + 1 ∧ allRecv a (recvUpd d a) = false ∧
            rawLoop L msss first ds { a with recv := recvUpd d a, msg := msgUpd d r a } { runUpd msss s with lastImu := r.1 } =
              some (s', os)))))))) := by
  have hI : isImu (rawType d) = decide (rawType d ∈ axisTypes) := by
    simp [isImu, axisTypes, Bool.or_assoc]
  have hrec : recvUpd d a (rawType d) = a.recv (rawType d) + 1 := if_pos rfl
  unfold rawLoop at h
  simp only [rawType_eq, convert24b_eq, if_true] at h
  by_cases hi : rawType d ∈ axisTypes
  · right
    have h12 : rawType d ≠ 12 := by rintro hc; rw [hc] at hi; simp [axisTypes] at hi
    rw [hI, if_neg (by simp [hi]), if_neg h12] at h
    refine ⟨hi, by unfold tempUpd; rw [if_neg h12], ?_⟩
    by_cases hg : gap msss s
    · left
      unfold gap at hg
      rw [if_pos hg] at h
      obtain ⟨rfl, rfl⟩ := Prod.mk.inj (Option.some.inj h)
      exact ⟨hg, rfl, rfl⟩
    · right
      rw [if_neg (by unfold gap at hg; exact hg)] at h
      refine ⟨hg, ?_⟩
      simp only [Option.bind_eq_bind, Option.bind_eq_some_iff] at h
      obtain ⟨t, ht, h⟩ := h
      change imuRawTime L d.sensor_time_tag.toNat first (runUpd msss s).runImu = some t at ht
      rcases t with _ | ⟨t, tow, towF⟩
      · left
        obtain ⟨rfl, rfl⟩ := Prod.mk.inj (Option.some.inj h)
        exact ⟨ht, rfl, rfl⟩
      · right
        refine ⟨_, ht, ?_⟩
        simp only at h
        by_cases hr : recvUpd d a (rawType d) = a.cur + 1
        · right
          rw [if_neg (by rw [← hrec]; simpa using hr)] at h
          by_cases hc : allRecv a (recvUpd d a) = true
          · left
            refine ⟨hr, hc, ?_⟩
            have hc2 := hc
            unfold allRecv axisTypes recvUpd at hc2
            rw [if_pos hc2] at h
            simp only [Option.bind_eq_some_iff] at h
            obtain ⟨⟨s2, os'⟩, h2, h⟩ := h
            obtain ⟨rfl, rfl⟩ := Prod.mk.inj (Option.some.inj h)
            exact ⟨os', h2, rfl⟩
          · right
            have hc2 := hc
            unfold allRecv axisTypes recvUpd at hc2
            rw [if_neg hc2] at h
            exact ⟨hr, by simpa using hc, h⟩
        · left
          rw [if_pos (by rw [← hrec]; exact hr)] at h
          obtain ⟨rfl, rfl⟩ := Prod.mk.inj (Option.some.inj h)
          exact ⟨hr, rfl, rfl⟩
  · left
    rw [hI, if_pos (by simp [hi])] at h
    exact ⟨hi, h⟩

/-! ### the loop over the data of an ESF-MEAS message -/

theorem measLoop_out (L : SbpLib E) (calib : Nat) (ws : List (BitVec 32)) : ∀ (s s' : EsfSt) (os : List (Out E)),
    measLoop L calib ws s = some (s', os) →
    (∀ o ∈ os, isOdoMsg o = true) ∧
    ∃ r m t u, s' = { s with runOdo := r, lastOdoMsss := m, lastTick := t, outTick := u } := by
  induction ws with
  | nil =>
    intro s s' os h
    unfold measLoop at h
    obtain ⟨rfl, rfl⟩ := Prod.mk.inj (Option.some.inj h)
    exact ⟨by simp, _, _, _, _, rfl⟩
  | cons w ws ih =>
    intro s s' os h
    unfold measLoop at h
    simp only at h
    split at h
    · exact ih _ _ _ h
    · split at h
      · obtain ⟨rfl, rfl⟩ := Prod.mk.inj (Option.some.inj h)
        exact ⟨by simp, _, _, _, _, rfl⟩
      · split at h
        · simp only [Option.bind_eq_bind, Option.bind_eq_some_iff] at h
          obtain ⟨t, _, ⟨s2, o2⟩, h2, h⟩ := h
          obtain ⟨rfl, rfl⟩ := Prod.mk.inj (Option.some.inj h)
          obtain ⟨g1, r, m, t, u, g2⟩ := ih _ _ _ h2
          refine ⟨?_, r, m, t, u, g2⟩
          intro o ho
          rcases List.mem_cons.mp ho with rfl | ho
          · rfl
          · exact g1 o ho
        · simp only [Option.bind_eq_bind, Option.bind_eq_some_iff] at h
          obtain ⟨t, _, ⟨s2, o2⟩, h2, h⟩ := h
          obtain ⟨rfl, rfl⟩ := Prod.mk.inj (Option.some.inj h)
          obtain ⟨g1, r, m, t, u, g2⟩ := ih _ _ _ h2
          refine ⟨?_, ?_⟩
          · intro o ho
            rcases List.mem_cons.mp ho with rfl | ho
            · rfl
            · exact g1 o ho
          · refine ⟨r, m, t, u, ?_⟩
            rw [g2]
            split <;> rfl

theorem measStep_out (L : SbpLib E) (st st' : CSt) (m : EsfMeas) (os : List (Out E)) (h : measStep L st m = some (st', os)) :
    (∀ o ∈ os, isImuMsg o = false) ∧ st'.esf.rawSent = st.esf.rawSent ∧ st'.esf.runImu = st.esf.runImu ∧
    st'.esf.lastImuMsss = st.esf.lastImuMsss ∧ st'.esf.temp = st.esf.temp ∧ st'.esf.tempSet = st.esf.tempSet := by
  unfold measStep at h
  split at h
  · obtain ⟨rfl, rfl⟩ := Prod.mk.inj (Option.some.inj h)
    simp
  · rw [Option.map_eq_some_iff] at h
    obtain ⟨⟨s2, o2⟩, h2, h⟩ := h
    obtain ⟨rfl, rfl⟩ := Prod.mk.inj h
    obtain ⟨g1, r, m, t, u, g2⟩ := measLoop_out L _ _ _ _ _ h2
    simp only at g2 ⊢
    subst g2
    refine ⟨fun o ho => ?_, rfl, rfl, rfl, rfl, rfl⟩
    have := g1 o ho
    cases o <;> first | rfl | cases this

/-! ### dispatch -/

/-- an IMU, odometry or wheel tick message -/
def isSensor : Out E → Bool
  | .imuAux .. => true
  | .imuRaw _ => true
  | .odometry .. => true
  | .wheeltick .. => true
  | _ => false

/-- messages other than ESF-RAW and ESF-MEAS -/
def Other (st : CSt) (r : Option (CSt × List (Out E))) : Prop :=
  ∀ st' outs, r = some (st', outs) →
    (∃ o w, st'.esf = { st.esf with lastObs := o, weekSet := w }) ∧ ∀ o ∈ outs, isSensor o = false

theorem Other.keep (st : CSt) : Other (E := E) st (some (st, [])) := by
  intro st' outs h
  obtain ⟨rfl, rfl⟩ := Prod.mk.inj (Option.some.inj h)
  exact ⟨⟨_, _, rfl⟩, by simp⟩

theorem Other.with {α : Type} {d : Dec α} {frame : Buf} {st : CSt} {f : α → Option (CSt × List (Out E))}
    (h : ∀ m, Other st (f m)) : Other st (withMsg d frame st f) := by
  unfold withMsg
  split
  · exact h _
  · exact Other.keep st

theorem Other.if {p : Prop} [Decidable p] {st : CSt} {a b : Option (CSt × List (Out E))} (ha : Other st a) (hb : Other st b) :
    Other st (if p then a else b) := by
  split <;> assumption

theorem other_sat (L : SbpLib E) : ∀ ds az ms, ∀ o ∈ satLoop L ds az ms, isSensor o = false := by
  intro ds
  induction ds with
  | nil =>
    intro az ms o ho
    unfold satLoop at ho
    rw [List.mem_append] at ho
    rcases ho with ho | ho <;> split at ho <;> simp at ho <;> rw [ho] <;> rfl
  | cons d ds ih =>
    intro az ms o ho
    unfold satLoop at ho
    simp only [List.mem_append] at ho
    rcases ho with (ho | ho) | ho
    · split at ho <;> simp at ho; rw [ho]; rfl
    · split at ho <;> simp at ho; rw [ho]; rfl
    · exact ih _ _ o ho

theorem other_status (L : SbpLib E) (st : CSt) (m : NavStatus) : Other st (statusStep L st m) := by
  intro st' outs h
  unfold statusStep at h
  simp only at h
  have key : ∀ st1 : CSt, (∃ o w, st1.esf = { st.esf with lastObs := o, weekSet := w }) →
      ∀ (o : List (Out E)) , (o = [] ∨ ∃ a b c d, o = [.timeOffset a b c d]) → some (st1, o) = some (st', outs) →
      (∃ o w, st'.esf = { st.esf with lastObs := o, weekSet := w }) ∧ ∀ o ∈ outs, isSensor o = false := by
    rintro st1 he o ho h
    obtain ⟨rfl, rfl⟩ := Prod.mk.inj (Option.some.inj h)
    refine ⟨he, ?_⟩
    rcases ho with rfl | ⟨a, b, c, d, rfl⟩
    · simp
    · intro x hx; simp at hx; rw [hx]; rfl
  have e1 : ∀ p : Prop, [Decidable p] → ∃ o w, (if p then { st with esf := { st.esf with weekSet := true } } else st).esf =
      { st.esf with lastObs := o, weekSet := w } := by
    intro p _
    split
    · exact ⟨st.esf.lastObs, true, rfl⟩
    · exact ⟨st.esf.lastObs, st.esf.weekSet, rfl⟩
  have e2 := e1 (m.status_flags.toNat &&& 8 ≠ 0 ∧ m.status_flags.toNat &&& 4 ≠ 0)
  generalize (if m.status_flags.toNat &&& 8 ≠ 0 ∧ m.status_flags.toNat &&& 4 ≠ 0 then
    { st with esf := { st.esf with weekSet := true } } else st) = st1 at h e2
  split at h
  · split at h
    · exact key _ e2 _ (Or.inl rfl) h
    · split at h
      · exact key _ e2 _ (Or.inl rfl) h
      · split at h
        · split at h
          · exact key _ e2 _ (Or.inl rfl) h
          · split at h
            · exact key _ e2 _ (Or.inl rfl) h
            · rw [Option.map_eq_some_iff] at h
              obtain ⟨ms, _, h⟩ := h
              obtain ⟨rfl, rfl⟩ := Prod.mk.inj h
              exact ⟨e2, by intro x hx; simp at hx; rw [hx]; rfl⟩
        · exact key _ e2 _ (Or.inl rfl) h
  · exact key _ e2 _ (Or.inl rfl) h

theorem handle_cases (L : SbpLib E) (st : CSt) (frame : Buf) :
    (∃ m, Holds decEsfRaw frame m ∧ handleFrame L st frame = rawStep L st m) ∨
    (∃ m, Holds decEsfMeas frame m ∧ handleFrame L st frame = measStep L st m) ∨
    Other st (handleFrame L st frame) := by
  have hw : ∀ {α : Type} (d : Dec α) (f : α → Option (CSt × List (Out E))), (∃ m, Holds d frame m ∧ withMsg d frame st f = f m) ∨
      Other st (withMsg d frame st f) := by
    intro α d f
    unfold withMsg
    split
    · rename_i m rest h
      exact Or.inl ⟨m, ⟨rest, h⟩, rfl⟩
    · exact Or.inr (Other.keep st)
  unfold handleFrame
  by_cases h0 : frame.length < 2
  · rw [if_pos h0]; exact Or.inr (Or.inr (Other.keep st))
  · rw [if_neg h0]
    simp only
    by_cases h1 : frame.getD 0 0 = 0x10#8
    · rw [if_pos h1]
      by_cases h2 : frame.getD 1 0 = 0x03#8
      · rw [if_pos h2]
        rcases hw decEsfRaw (rawStep L st) with h | h
        · exact Or.inl h
        · exact Or.inr (Or.inr h)
      · rw [if_neg h2]
        by_cases h3 : frame.getD 1 0 = 0x02#8
        · rw [if_pos h3]
          rcases hw decEsfMeas (measStep L st) with h | h
          · exact Or.inr (Or.inl h)
          · exact Or.inr (Or.inr h)
        · rw [if_neg h3]; exact Or.inr (Or.inr (Other.keep st))
    · rw [if_neg h1]
      refine Or.inr (Or.inr ?_)
      have one : ∀ (st1 : CSt) (o : List (Out E)), st1.esf = st.esf → (∀ x ∈ o, isSensor x = false) → Other st (some (st1, o)) := by
        intro st1 o h1 h2 st' outs h
        obtain ⟨rfl, rfl⟩ := Prod.mk.inj (Option.some.inj h)
        exact ⟨⟨st.esf.lastObs, st.esf.weekSet, by rw [h1]⟩, h2⟩
      refine Other.if (Other.if (Other.with fun m => ?_) (Other.keep _)) (Other.if (Other.if (Other.with fun m => ?_)
        (Other.if (Other.with fun m => ?_) (Other.if (Other.with fun m => ?_) (Other.if (Other.with fun m => ?_)
        (Other.if (Other.with fun m => ?_) (Other.keep _)))))) (Other.if (Other.if (Other.with fun m => ?_)
        (Other.if (Other.with fun m => ?_) (Other.keep _))) (Other.if (Other.if ?_ (Other.keep _)) (Other.keep _))))
      · unfold hnrStep
        intro st' outs h
        simp only [Option.bind_eq_bind, Option.bind_eq_some_iff] at h
        obtain ⟨y, _, h⟩ := h
        refine one st' outs ?_ ?_ _ _ rfl <;> obtain ⟨rfl, rfl⟩ := Prod.mk.inj (Option.some.inj h)
        · rfl
        intro x hx; split at hx <;> simp at hx; rcases hx with rfl | rfl <;> rfl
      · unfold attStep
        intro st' outs h
        simp only [Option.bind_eq_bind, Option.bind_eq_some_iff] at h
        obtain ⟨y, _, h⟩ := h
        refine one st' outs ?_ ?_ _ _ rfl <;> obtain ⟨rfl, rfl⟩ := Prod.mk.inj (Option.some.inj h)
        · rfl
        intro x hx; split at hx <;> simp at hx; subst hx; rfl
      · unfold pvtStep
        refine one _ _ rfl ?_
        intro x hx; split at hx <;> simp at hx; subst hx; rfl
      · intro st' outs h
        simp only [Option.map_eq_some_iff] at h
        obtain ⟨y, _, h⟩ := h
        refine one st' outs ?_ ?_ _ _ rfl <;> obtain ⟨rfl, rfl⟩ := Prod.mk.inj h
        · rfl
        intro x hx; simp at hx; subst hx; rfl
      · exact one _ _ rfl (other_sat L _ _ _)
      · exact other_status L st m
      · unfold rawxStep
        intro st' outs h
        simp only [Option.bind_eq_bind, Option.bind_eq_some_iff] at h
        obtain ⟨t, _, t2, _, obs, _, h⟩ := h
        obtain ⟨rfl, rfl⟩ := Prod.mk.inj (Option.some.inj h)
        refine ⟨?_, ?_⟩
        · simp only
          split
          · exact ⟨_, st.esf.weekSet, rfl⟩
          · exact ⟨st.esf.lastObs, st.esf.weekSet, rfl⟩
        · intro x hx; simp only [List.mem_map] at hx; obtain ⟨_, _, rfl⟩ := hx; rfl
      · unfold sfrbxStep
        intro st' outs h
        rw [Option.map_eq_some_iff] at h
        obtain ⟨y, _, h⟩ := h
        refine one st' outs ?_ ?_ _ _ rfl <;> obtain ⟨rfl, rfl⟩ := Prod.mk.inj h
        · rfl
        intro x hx; simp only [List.mem_map] at hx; obtain ⟨_, _, rfl⟩ := hx; rfl
      · unfold fwdStep
        refine one _ _ rfl ?_
        intro x hx; split at hx
        · simp at hx
        · split at hx <;> simp at hx; subst hx; rfl

end Verif.Ubx
