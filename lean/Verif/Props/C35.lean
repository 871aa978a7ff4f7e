import Verif.Lemmas.NmeaSched
import Verif.Props.C33
/-
C35: which sentences are sent, and when.
-/
namespace Verif.Nmea
open Verif.Nmea.Spec Verif.Fp

/-- all the messages a sentence depends on have arrived at some time -/
def Arrived (mode : Mode) (hist : List In) (id : NmeaId) : Prop :=
  utcTow mode true hist ≠ none ∧ ∀ d ∈ needs id, depTow mode hist d ≠ none

theorem latest_grow {α : Type} (f : Msg → Option α) (h : List In) (i : In) (hl : latest f h ≠ none) : latest f (h ++ [i]) ≠ none := by
  rw [latest_snoc]
  cases i with
  | msg m => cases hm : f m <;> simp [hm, hl]
  | _ => simpa using hl

theorem arrived_grow {mode : Mode} {h : List In} {id : NmeaId} (i : In) (ha : Arrived mode h id) : Arrived mode (h ++ [i]) id := by
  have key : ∀ {α : Type} (f : Msg → Option α) (t : α → Nat), (latest f h).map t ≠ none → (latest f (h ++ [i])).map t ≠ none := by
    intro α f t hl
    rw [Ne, Option.map_eq_none_iff] at *
    exact latest_grow f h i hl
  refine ⟨key _ _ ha.1, fun d hd => ?_⟩
  have := ha.2 d hd
  cases d <;> exact key _ _ this

theorem towFor_gnss {mode : Mode} {freq : ℚ} {hist : List In} {st : St} (h : StOk mode freq hist st) {id : NmeaId} (hg : gnssPath mode hist id = true) :
    st.towFor id = (st.store.utc true).tow := by
  unfold St.towFor St.src
  unfold gnssPath at hg
  rw [h.actual]
  cases hs : switched mode hist with
  | false => simp
  | true => rw [hs] at hg; cases id <;> simp_all [availableInFused]

theorem towFor_fused {mode : Mode} {freq : ℚ} {hist : List In} {st : St} (h : StOk mode freq hist st) {id : NmeaId} (hg : gnssPath mode hist id = false) :
    st.towFor id = (st.store.utc false).tow := by
  unfold St.towFor St.src
  unfold gnssPath at hg
  rw [h.actual]
  cases hs : switched mode hist with
  | false => rw [hs] at hg; simp at hg
  | true => rw [hs] at hg; cases id <;> simp_all [availableInFused]

/-- readiness on the GNSS path -/
theorem ready_gnss {mode : Mode} {freq : ℚ} {hist : List In} {st : St} (h : StOk mode freq hist st) {id : NmeaId} (hg : gnssPath mode hist id = true) :
    nmeaReady st id = true ↔ ¬ (mode = .fused ∧ availableInFused id = false) ∧ st.lastTow id ≠ (st.store.utc true).tow ∧
      ¬ (id = .gsa ∧ (st.obsSeqCount + 1 ≠ st.obsSeqTotal ∨ (st.store.gpsTime true).ms > st.obsTime.ms)) ∧
      componentsAt id st.store (st.store.utc true).tow = true := by
  have hnf : ¬ (st.actual = .fused ∧ availableInFused id = true) := by
    rintro ⟨ha, hav⟩
    rw [h.actual] at ha
    unfold gnssPath at hg
    cases hs : switched mode hist with
    | false => rw [hs] at ha; simp at ha
    | true => rw [hs] at hg; cases id <;> simp_all [availableInFused]
  unfold nmeaReady
  rw [h.requested, if_neg hnf]
  by_cases h1 : mode = .fused ∧ availableInFused id = false
  · rw [if_pos h1]; simp only [Bool.false_eq_true, false_iff]; tauto
  · rw [if_neg h1]
    by_cases h2 : st.lastTow id = (st.store.utc true).tow
    · rw [if_pos h2]; simp only [Bool.false_eq_true, false_iff]; tauto
    · rw [if_neg h2]
      by_cases h3 : id = .gsa ∧ (st.obsSeqCount + 1 ≠ st.obsSeqTotal ∨ (st.store.gpsTime true).ms > st.obsTime.ms)
      · rw [if_pos h3]; simp only [Bool.false_eq_true, false_iff]; tauto
      · rw [if_neg h3]; tauto

/-- the stored time of a kind of message -/
def storeTow (s : Store) : Dep → Nat
  | .pos => (s.pos true).tow | .gpsTime => (s.gpsTime true).tow | .vel => (s.vel true).tow | .dops => s.dops.tow
  | .age => s.age.tow | .hdg => s.hdg.tow | .orient => s.orient.tow

theorem components_iff (id : NmeaId) (s : Store) (tow : Nat) : componentsAt id s tow = true ↔ ∀ d ∈ needs id, storeTow s d = tow := by
  cases id <;> simp [componentsAt, needs, solutionAt, storeTow, and_assoc]

theorem depTow_store {mode : Mode} {hist : List In} {s : Store} (h : StoreOk mode hist s) (d : Dep) :
    storeTow s d = (depTow mode hist d).getD 0 := by
  cases d <;> simp only [storeTow, depTow, h.pos, h.gpsTime, h.vel, h.dops, h.age, h.hdg, h.orient]
  · cases latest (posOf mode true) hist <;> rfl
  · cases latest (gpsTimeOf mode true) hist <;> rfl
  · cases latest (velOf mode true) hist <;> rfl
  · cases latest dopsOf hist <;> rfl
  · cases latest ageOf hist <;> rfl
  · cases latest hdgOf hist <;> rfl
  · cases latest orientOf hist <;> rfl

theorem utcTow_store {mode : Mode} {hist : List In} {s : Store} (h : StoreOk mode hist s) (g : Bool) :
    (s.utc g).tow = (utcTow mode g hist).getD 0 := by
  rw [h.utc]; unfold utcTow; cases latest (utcOf mode g) hist <;> rfl

/-- a ready sentence on the GNSS path is coherent once everything has arrived -/
theorem coherent_of_ready {mode : Mode} {freq : ℚ} {hist : List In} {st : St} (h : StOk mode freq hist st) {id : NmeaId} (hg : gnssPath mode hist id = true)
    (hr : nmeaReady st id = true) (harr : st.lastTow id ≠ 0 → Arrived mode hist id) : Coherent mode hist id (st.towFor id) := by
  obtain ⟨-, hne, -, hc⟩ := (ready_gnss h hg).1 hr
  rw [components_iff] at hc
  rw [towFor_gnss h hg]
  have harr' : Arrived mode hist id := by
    by_cases h0 : st.lastTow id = 0
    · have hT : (st.store.utc true).tow ≠ 0 := by rw [h0] at hne; exact fun e => hne e.symm
      refine ⟨?_, fun d hd => ?_⟩
      · intro hn
        rw [utcTow_store h.store, hn] at hT; exact hT rfl
      · intro hn
        have := hc d hd
        rw [depTow_store h.store, hn] at this
        exact hT this.symm
    · exact harr h0
  refine ⟨?_, fun d hd => ?_⟩
  · obtain ⟨t, ht⟩ := Option.ne_none_iff_exists'.1 harr'.1
    rw [utcTow_store h.store, ht]; rfl
  · obtain ⟨t, ht⟩ := Option.ne_none_iff_exists'.1 (harr'.2 d hd)
    have := hc d hd
    rw [depTow_store h.store, ht] at this
    rw [ht]; exact congrArg some this

/-- the scheduling invariant: a type that has been sent has all it needs (until the switch to the fused solution) -/
def SchedOk (mode : Mode) (freq : ℚ) (hist : List In) (st : St) : Prop :=
  StOk mode freq hist st ∧ ∀ id, gnssPath mode hist id = true → st.lastTow id ≠ 0 → Arrived mode hist id

theorem absorb_lastTow {L : Lib} {st st' : St} {i : In} {b : Bool} (ha : absorb L st i = some (st', b)) : st'.lastTow = st.lastTow := by
  cases i with
  | msg m => obtain ⟨_, _, rfl | rfl⟩ := absorb_msg ha <;> rfl
  | obs o => obtain ⟨_, _, _, _, _, rfl, _⟩ := absorb_obs ha; rfl
  | rate a b => simp only [absorb, Option.some.injEq, Prod.mk.injEq] at ha; obtain ⟨rfl, -⟩ := ha; rfl
  | baseId a => simp only [absorb, Option.some.injEq, Prod.mk.injEq] at ha; obtain ⟨rfl, -⟩ := ha; rfl
  | cogThreshold a => simp only [absorb, Option.some.injEq, Prod.mk.injEq] at ha; obtain ⟨rfl, -⟩ := ha; rfl
  | cogStationary a => simp only [absorb, Option.some.injEq, Prod.mk.injEq] at ha; obtain ⟨rfl, -⟩ := ha; rfl

theorem gnssPath_back {mode : Mode} {h : List In} {id : NmeaId} {i : In} (hg : gnssPath mode (h ++ [i]) id = true) : gnssPath mode h id = true := by
  unfold gnssPath at *
  rw [switched_snoc] at hg
  cases hs : switched mode h <;> simp_all

theorem sched_absorb {mode : Mode} {freq : ℚ} {L : Lib} {h : List In} {st st' : St} {i : In} {b : Bool} (hP : SchedOk mode freq h st)
    (ha : absorb L st i = some (st', b)) : SchedOk mode freq (h ++ [i]) st' := by
  refine ⟨absorb_ok hP.1 ha, fun id hg h0 => ?_⟩
  rw [absorb_lastTow ha] at h0
  exact arrived_grow i (hP.2 id (gnssPath_back hg) h0)

theorem mark_lastTow {L : Lib} {st st' : St} {id : NmeaId} {ss : List Sentence} (hs : send L id st = some (st', ss)) (j : NmeaId) :
    (mark st st' id).lastTow j = if j = id then st.towFor id else st.lastTow j := by
  have := send_state hs
  rw [this]; rfl

theorem sched_mark {mode : Mode} {freq : ℚ} {L : Lib} {h : List In} {st st' : St} {id : NmeaId} {ss : List Sentence} (hP : SchedOk mode freq h st)
    (hr : nmeaReady st id = true) (hs : send L id st = some (st', ss)) : SchedOk mode freq h (mark st st' id) := by
  refine ⟨mark_ok hP.1 hs, fun j hg h0 => ?_⟩
  rw [mark_lastTow hs] at h0
  by_cases hj : j = id
  · subst hj
    have hc := coherent_of_ready hP.1 hg hr (hP.2 j hg)
    exact ⟨by rw [hc.1]; simp, fun d hd => by rw [hc.2 d hd]; simp⟩
  · rw [if_neg hj] at h0; exact hP.2 j hg h0

theorem sched_run {mode : Mode} {freq : ℚ} {L : Lib} {is : List In} {st : St} {es : List Emit} (hrun : run L (init mode freq) is = some (st, es)) :
    SchedOk mode freq is st := by
  have := hist_inv (L := L) (P := SchedOk mode freq) (fun _ _ _ _ _ hP ha => sched_absorb hP ha) (fun _ _ _ _ _ hP hr _ hs => sched_mark hP hr hs)
    is (h := []) ⟨StOk.init mode freq, fun id _ h0 => absurd rfl h0⟩ hrun
  simpa using this

theorem checkSend_inv' {L : Lib} {P : List Emit → St → Prop}
    (hsend : ∀ es st id st' ss, P es st → nmeaReady st id = true → checkRate (st.rate id) (st.towFor id) st.solnFreq = some true →
      send L id st = some (st', ss) → P (es ++ ss.map fun s => ⟨id, st.towFor id, s⟩) (mark st st' id)) {es0 : List Emit} {st st' : St} {es : List Emit}
    (hP : P es0 st) (h : checkSend L st = some (st', es)) : P (es0 ++ es) st' ∧ ∀ e ∈ es, SentFrom L (fun s => ∃ e1, P e1 s) e := by
  have key : ∀ (ids : List NmeaId) (acc acc' : St × List Emit), P (es0 ++ acc.2) acc.1 → (∀ e ∈ acc.2, SentFrom L (fun s => ∃ e1, P e1 s) e) →
      ids.foldlM (sendOne L) acc = some acc' → P (es0 ++ acc'.2) acc'.1 ∧ ∀ e ∈ acc'.2, SentFrom L (fun s => ∃ e1, P e1 s) e := by
    intro ids
    induction ids with
    | nil => intro acc acc' h1 h2 h3; simp at h3; subst h3; exact ⟨h1, h2⟩
    | cons id ids ih =>
      intro acc acc' h1 h2 h3
      simp only [List.foldlM_cons, Option.bind_eq_bind, Option.bind_eq_some_iff] at h3
      obtain ⟨a, ha, h3⟩ := h3
      rcases sendOne_cases ha with ⟨rfl, -⟩ | ⟨hr, hc, st1, ss, hs, rfl⟩
      · exact ih _ _ h1 h2 h3
      · refine ih _ _ (by have := hsend _ _ _ _ _ h1 hr hc hs; simpa using this) ?_ h3
        intro e he
        rcases List.mem_append.1 he with he | he
        · exact h2 e he
        · obtain ⟨s, hss, rfl⟩ := List.mem_map.1 he
          exact ⟨acc.1, ⟨_, h1⟩, hr, hc, rfl, st1, ss, hs, hss⟩
  exact key _ (st, []) (st', es) (by simpa using hP) (by simp) h

/-- one step: the state that was absorbed, and the property at every sending -/
theorem step_inv' {L : Lib} {P : List Emit → St → Prop} {st st' : St} {i : In} {es0 es : List Emit}
    (hstep : step L st i = some (st', es)) (habs : ∀ st0 b, absorb L st i = some (st0, b) → P es0 st0)
    (hsend : ∀ es st id st' ss, P es st → nmeaReady st id = true → checkRate (st.rate id) (st.towFor id) st.solnFreq = some true →
      send L id st = some (st', ss) → P (es ++ ss.map fun s => ⟨id, st.towFor id, s⟩) (mark st st' id)) :
    P (es0 ++ es) st' ∧ ∀ e ∈ es, SentFrom L (fun s => ∃ e1, P e1 s) e := by
  rw [step_absorb, Option.bind_eq_some_iff] at hstep
  obtain ⟨⟨s0, b⟩, ha, hb⟩ := hstep
  have hP0 := habs _ _ ha
  cases b with
  | true => exact checkSend_inv' hsend hP0 hb
  | false => simp at hb; obtain ⟨rfl, rfl⟩ := hb; simpa using hP0

/-- Invariant rule with the history and everything sent. -/
theorem hist_inv' {L : Lib} {P : List In → List Emit → St → Prop}
    (habs : ∀ h es st i st' b, P h es st → absorb L st i = some (st', b) → P (h ++ [i]) es st')
    (hsend : ∀ h es st id st' ss, P h es st → nmeaReady st id = true → checkRate (st.rate id) (st.towFor id) st.solnFreq = some true →
      send L id st = some (st', ss) → P h (es ++ ss.map fun s => ⟨id, st.towFor id, s⟩) (mark st st' id)) :
    ∀ (is : List In) {h : List In} {st st' : St} {es0 es : List Emit}, P h es0 st → run L st is = some (st', es) → P (h ++ is) (es0 ++ es) st' := by
  intro is
  induction is with
  | nil => intro h st st' es0 es hP hr; simp [run] at hr; obtain ⟨rfl, rfl⟩ := hr; simpa using hP
  | cons i is ih =>
    intro h st st' es0 es hP hr
    simp only [run, Option.bind_eq_bind, Option.bind_eq_some_iff] at hr
    obtain ⟨⟨s1, e1⟩, h1, ⟨s2, e2⟩, h2, h3⟩ := hr
    simp only [Option.some.injEq, Prod.mk.injEq] at h3
    obtain ⟨rfl, rfl⟩ := h3
    have := (step_inv' (P := P (h ++ [i])) (es0 := es0) h1 (fun _ _ ha => habs _ _ _ _ _ _ hP ha) (fun es st id st' ss => hsend _ es st id st' ss)).1
    have := ih this h2
    simpa using this

/-! ### Soundness -/

/-- **C35 (GNSS sentences are coherent).** -/
theorem C35_coherent {L : Lib} {mode : Mode} {freq : ℚ} {pre : List In} {i : In} {st st' : St} {es0 es : List Emit}
    (hrun : run L (init mode freq) pre = some (st, es0)) (hstep : step L st i = some (st', es))
    {e : Emit} (he : e ∈ es) (hg : gnssPath mode (pre ++ [i]) e.id = true) : Coherent mode (pre ++ [i]) e.id e.tow := by
  have hs := sched_run hrun
  obtain ⟨s, ⟨-, hP⟩, hr, -, ht, -⟩ := (step_inv' (P := fun _ => SchedOk mode freq (pre ++ [i])) (es0 := []) hstep (fun _ _ ha => sched_absorb hs ha)
    (fun _ _ _ _ _ hP hr _ hs => sched_mark hP hr hs)).2 e he
  rw [ht]
  exact coherent_of_ready hP.1 hg hr (hP.2 _ hg)

/-- the wagon flag as the history determines it -/
def WagonOk (mode : Mode) (hist : List In) (st : St) : Prop := st.wagonComplete = true ↔ switched mode hist = true ∧ GroupClosed hist

theorem groupClosed_snoc (h : List In) (i : In) :
    GroupClosed (h ++ [i]) ↔ (i ≠ .msg .groupMeta ∧ GroupClosed h) ∨ (∃ d, i = .msg (.solnMeta d)) ∧ In.msg .groupMeta ∈ h := by
  constructor
  · rintro ⟨h1, d, h2, he, hm, hn⟩
    rcases List.eq_nil_or_concat h2 with rfl | ⟨h3, x, rfl⟩
    · obtain ⟨rfl, h5⟩ := List.append_inj' he rfl
      simp at h5
      exact Or.inr ⟨⟨d, h5⟩, hm⟩
    · rw [List.concat_eq_append, ← List.cons_append, ← List.append_assoc] at he
      obtain ⟨rfl, h5⟩ := List.append_inj' he rfl
      simp at h5; subst h5
      refine Or.inl ⟨?_, h1, d, h3, rfl, hm, ?_⟩
      · rintro rfl; simp at hn
      · intro hx; exact hn (by simp [hx])
  · rintro (⟨hi, h1, d, h2, rfl, hm, hn⟩ | ⟨⟨d, rfl⟩, hm⟩)
    · exact ⟨h1, d, h2 ++ [i], by simp, hm, by simp [hn, Ne.symm hi]⟩
    · exact ⟨h, d, [], rfl, hm, by simp⟩

theorem recode_soln (st : St) (m : Msg) (d : SolnMeta) : recode st m = .solnMeta d ↔ m = .solnMeta d := by
  unfold recode; split <;> cases m <;> simp

theorem absorb_wagon {mode : Mode} {freq : ℚ} {L : Lib} {h : List In} {st st' : St} {i : In} {b : Bool} (hS : StOk mode freq h st) (hW : WagonOk mode h st)
    (ha : absorb L st i = some (st', b)) : WagonOk mode (h ++ [i]) st' := by
  have other : (∀ m, i ≠ .msg m) → st'.wagonComplete = st.wagonComplete → WagonOk mode (h ++ [i]) st' := by
    intro hi hw
    unfold WagonOk at *
    rw [hw, hW, switched_snoc, groupClosed_snoc]
    have h1 := hi .groupMeta
    have h2 := fun d => hi (.solnMeta d)
    simp [h1, h2]
  cases i with
  | msg m =>
    have hw : st'.wagonComplete = (checkWagon (updateMode st (recode st m)) (recode st m)).wagonComplete := by
      simp only [absorb] at ha
      split at ha <;> (obtain ⟨rfl, -⟩ := Prod.mk.inj (Option.some.inj ha); rfl)
    unfold WagonOk at *
    rw [hw, switched_snoc, groupClosed_snoc]
    have hact := hS.actual
    have hr := hS.requested
    unfold updateMode
    simp only [recode_group, hr]
    by_cases hg : m = .groupMeta
    · subst hg
      have hrec : recode st .groupMeta = .groupMeta := (recode_group st _).2 rfl
      rw [hrec]
      by_cases hb : mode = .best
      · subst hb
        cases hsw : switched .best h <;> rw [hsw] at hact <;> simp at hact <;> simp [hact, checkWagon]
      · have hsw : switched mode h = false := by simp [switched, hb]
        rw [hsw] at hact hW
        simp at hact hW
        simp [hb, hact, checkWagon, hsw, hW]
    · by_cases hd : ∃ d, m = .solnMeta d
      · obtain ⟨d, rfl⟩ := hd
        have hrec : recode st (.solnMeta d) = .solnMeta d := (recode_soln st _ d).2 rfl
        rw [hrec]
        cases hsw : switched mode h <;> rw [hsw] at hact hW <;> simp at hact hW <;> simp [hact, checkWagon, hsw, hW]
        unfold switched at hsw
        simp at hsw
        exact Or.inr hsw.2
      · have hno : ∀ d, m ≠ .solnMeta d := fun d e => hd ⟨d, e⟩
        have : (checkWagon st (recode st m)).wagonComplete = st.wagonComplete := by
          unfold checkWagon
          split
          · rfl
          · split
            · rename_i hh; exact absurd ((recode_group st m).1 hh) hg
            · rename_i d hh; exact absurd ((recode_soln st m d).1 hh) (hno d)
            · rfl
        simp only [hg, and_false, if_false, this, hW]
        simp [hg, hno]
  | obs o => obtain ⟨_, _, _, _, _, rfl, _⟩ := absorb_obs ha; exact other (by simp) rfl
  | rate a b => simp only [absorb, Option.some.injEq, Prod.mk.injEq] at ha; obtain ⟨rfl, -⟩ := ha; exact other (by simp) rfl
  | baseId a => simp only [absorb, Option.some.injEq, Prod.mk.injEq] at ha; obtain ⟨rfl, -⟩ := ha; exact other (by simp) rfl
  | cogThreshold a => simp only [absorb, Option.some.injEq, Prod.mk.injEq] at ha; obtain ⟨rfl, -⟩ := ha; exact other (by simp) rfl
  | cogStationary a => simp only [absorb, Option.some.injEq, Prod.mk.injEq] at ha; obtain ⟨rfl, -⟩ := ha; exact other (by simp) rfl

theorem rateSet_snoc (h : List In) (i : In) (id : NmeaId) :
    rateSet (h ++ [i]) id = match i with | .rate j r => if j = id then r else rateSet h id | _ => rateSet h id := by
  unfold rateSet
  rw [List.filterMap_append]
  cases i with
  | rate j r => by_cases hj : j = id <;> simp [hj]
  | _ => simp

def RateOk (hist : List In) (st : St) : Prop := ∀ id, st.rate id = rateSet hist id

theorem absorb_rate {L : Lib} {h : List In} {st st' : St} {i : In} {b : Bool} (hR : RateOk h st)
    (ha : absorb L st i = some (st', b)) : RateOk (h ++ [i]) st' := by
  intro id
  rw [rateSet_snoc]
  cases i with
  | msg m => obtain ⟨_, _, rfl | rfl⟩ := absorb_msg ha <;> exact hR id
  | obs o => obtain ⟨_, _, _, _, _, rfl, _⟩ := absorb_obs ha; exact hR id
  | rate a b =>
    simp only [absorb, Option.some.injEq, Prod.mk.injEq] at ha; obtain ⟨rfl, -⟩ := ha
    by_cases hj : a = id
    · subst hj; simp
    · simp only [if_neg hj, if_neg (Ne.symm hj)]; exact hR id
  | baseId a => simp only [absorb, Option.some.injEq, Prod.mk.injEq] at ha; obtain ⟨rfl, -⟩ := ha; exact hR id
  | cogThreshold a => simp only [absorb, Option.some.injEq, Prod.mk.injEq] at ha; obtain ⟨rfl, -⟩ := ha; exact hR id
  | cogStationary a => simp only [absorb, Option.some.injEq, Prod.mk.injEq] at ha; obtain ⟨rfl, -⟩ := ha; exact hR id

/-- everything the history determines -/
def FullOk (mode : Mode) (freq : ℚ) (hist : List In) (st : St) : Prop := StOk mode freq hist st ∧ WagonOk mode hist st ∧ RateOk hist st

theorem full_absorb {mode : Mode} {freq : ℚ} {L : Lib} {h : List In} {st st' : St} {i : In} {b : Bool} (hP : FullOk mode freq h st)
    (ha : absorb L st i = some (st', b)) : FullOk mode freq (h ++ [i]) st' :=
  ⟨absorb_ok hP.1 ha, absorb_wagon hP.1 hP.2.1 ha, absorb_rate hP.2.2 ha⟩

theorem full_mark {mode : Mode} {freq : ℚ} {L : Lib} {h : List In} {st st' : St} {id : NmeaId} {ss : List Sentence} (hP : FullOk mode freq h st)
    (hs : send L id st = some (st', ss)) : FullOk mode freq h (mark st st' id) := by
  refine ⟨mark_ok hP.1 hs, ?_, ?_⟩
  · have := send_state hs; rw [this]; exact hP.2.1
  · have := send_state hs; rw [this]; exact hP.2.2

theorem full_init (mode : Mode) (freq : ℚ) : FullOk mode freq [] (init mode freq) := by
  refine ⟨StOk.init mode freq, ?_, fun id => rfl⟩
  simp [WagonOk, init, switched]

theorem full_run {mode : Mode} {freq : ℚ} {L : Lib} {is : List In} {st : St} {es : List Emit} (hrun : run L (init mode freq) is = some (st, es)) :
    FullOk mode freq is st := by
  have := hist_inv (L := L) (P := FullOk mode freq) (fun _ _ _ _ _ hP ha => full_absorb hP ha) (fun _ _ _ _ _ hP _ _ hs => full_mark hP hs)
    is (h := []) (full_init mode freq) hrun
  simpa using this

/-- readiness on the fused path -/
theorem ready_fused {mode : Mode} {freq : ℚ} {hist : List In} {st : St} (h : StOk mode freq hist st) {id : NmeaId} (hg : gnssPath mode hist id = false) :
    nmeaReady st id = true ↔ st.wagonComplete = true ∧ st.lastTow id ≠ (st.store.utc false).tow := by
  unfold gnssPath at hg
  cases hs : switched mode hist with
  | false => rw [hs] at hg; simp at hg
  | true =>
    have ha := h.actual
    rw [hs] at hg ha
    have hb : mode = .best := by simp [switched] at hs; exact hs.1
    have hav : availableInFused id = true := by cases id <;> simp_all [availableInFused]
    unfold nmeaReady
    rw [h.requested, hb, ha, hav]
    simp

/-- **C35 (fused sentences).**  A sentence made from the fused solution is sent for the time of the latest fused UTC message, in a
group that its SOLN_META has closed. -/
theorem C35_fused {L : Lib} {mode : Mode} {freq : ℚ} {pre : List In} {i : In} {st st' : St} {es0 es : List Emit}
    (hrun : run L (init mode freq) pre = some (st, es0)) (hstep : step L st i = some (st', es))
    {e : Emit} (he : e ∈ es) (hg : gnssPath mode (pre ++ [i]) e.id = false) :
    e.tow = (utcTow mode false (pre ++ [i])).getD 0 ∧ GroupClosed (pre ++ [i]) := by
  have hs := full_run hrun
  obtain ⟨s, ⟨-, hP⟩, hr, -, ht, -⟩ := (step_inv' (P := fun _ => FullOk mode freq (pre ++ [i])) (es0 := []) hstep (fun _ _ ha => full_absorb hs ha)
    (fun _ _ _ _ _ hP _ _ hs => full_mark hP hs)).2 e he
  rw [ht, towFor_fused hP.1 hg, utcTow_store hP.1.store]
  exact ⟨rfl, (hP.2.1.1 ((ready_fused hP.1 hg).1 hr).1).2⟩

/-- **C35 (content).**  Every sentence is made from the latest messages of the history, those of the fused solution if and only if
the converter has switched to it, and at the requested rate. -/
theorem C35_content {L : Lib} {mode : Mode} {freq : ℚ} {pre : List In} {i : In} {st st' : St} {es0 es : List Emit}
    (hrun : run L (init mode freq) pre = some (st, es0)) (hstep : step L st i = some (st', es)) {e : Emit} (he : e ∈ es) :
    ∃ s, (∃ s' ss, send L e.id s = some (s', ss) ∧ e.sentence ∈ ss) ∧ s.src = !switched mode (pre ++ [i]) ∧
      checkRate (rateSet (pre ++ [i]) e.id) e.tow freq = some true ∧
      (∀ g, s.store.utc g = (latest (utcOf mode g) (pre ++ [i])).getD {}) ∧
      (∀ g, s.store.gpsTime g = (latest (gpsTimeOf mode g) (pre ++ [i])).getD {}) ∧
      (∀ g, s.store.pos g = (latest (posOf mode g) (pre ++ [i])).getD {}) ∧
      (∀ g, s.store.vel g = (latest (velOf mode g) (pre ++ [i])).getD {}) ∧
      s.store.dops = (latest dopsOf (pre ++ [i])).getD {} ∧ s.store.age = (latest ageOf (pre ++ [i])).getD {} ∧
      s.store.hdg = (latest hdgOf (pre ++ [i])).getD {} ∧ s.store.orient = (latest orientOf (pre ++ [i])).getD {} := by
  have hs := full_run hrun
  obtain ⟨s, ⟨-, hP⟩, hr, hc, ht, hsend⟩ := (step_inv' (P := fun _ => FullOk mode freq (pre ++ [i])) (es0 := []) hstep (fun _ _ ha => full_absorb hs ha)
    (fun _ _ _ _ _ hP _ _ hs => full_mark hP hs)).2 e he
  obtain ⟨h1, h2, h3, h4, h5, h6, h7, h8⟩ := hP.1.store
  rw [hP.2.2, ← ht, hP.1.freq] at hc
  refine ⟨s, hsend, ?_, hc, h1, h2, h3, h4, h5, h6, h7, h8⟩
  unfold St.src; rw [hP.1.actual]
  cases switched mode (pre ++ [i]) <;> rfl

/-! ### At most once -/

theorem send_one {L : Lib} {id : NmeaId} {st st' : St} {ss : List Sentence} (hid : id ≠ .gsa ∧ id ≠ .gsv) (h : send L id st = some (st', ss)) :
    ∃ s, ss = [s] := by
  cases id <;> simp only [send, Option.map_eq_some_iff, Option.some.injEq, Prod.mk.injEq] at h
  case gga | gll | gst | rmc | vtg | pubx => obtain ⟨_, _, _, rfl⟩ := h; exact ⟨_, rfl⟩
  case hdt | zda | ths => obtain ⟨_, rfl⟩ := h; exact ⟨_, rfl⟩
  case gsa => exact absurd rfl hid.1
  case gsv => exact absurd rfl hid.2

/-- **C35 (once in a call).**  A call sends at most one sentence of a type (GSA and GSV excepted, which are sent one per
constellation), and all those of a type for the same time. -/
theorem C35_once_per_call {L : Lib} {st st' : St} {i : In} {es : List Emit} (hstep : step L st i = some (st', es)) (id : NmeaId) :
    (∀ e ∈ es, ∀ e' ∈ es, e.id = id → e'.id = id → e.tow = e'.tow) ∧
    (id ≠ .gsa ∧ id ≠ .gsv → (es.filter fun e => e.id = id).length ≤ 1) := by
  have key : ∀ (ids : List NmeaId) (acc acc' : St × List Emit), ids.Nodup → (∀ e ∈ acc.2, e.id ∉ ids) →
      ((∀ e ∈ acc.2, ∀ e' ∈ acc.2, e.id = id → e'.id = id → e.tow = e'.tow) ∧
        (id ≠ .gsa ∧ id ≠ .gsv → (acc.2.filter fun e => e.id = id).length ≤ 1)) → ids.foldlM (sendOne L) acc = some acc' →
      ((∀ e ∈ acc'.2, ∀ e' ∈ acc'.2, e.id = id → e'.id = id → e.tow = e'.tow) ∧
        (id ≠ .gsa ∧ id ≠ .gsv → (acc'.2.filter fun e => e.id = id).length ≤ 1)) := by
    intro ids
    induction ids with
    | nil => intro acc acc' _ _ h2 h3; simp at h3; subst h3; exact h2
    | cons x ids ih =>
      intro acc acc' hnd hno h2 h3
      simp only [List.foldlM_cons, Option.bind_eq_bind, Option.bind_eq_some_iff] at h3
      obtain ⟨a, ha, h3⟩ := h3
      obtain ⟨hx, hnd⟩ := List.nodup_cons.1 hnd
      rcases sendOne_cases ha with ⟨rfl, -⟩ | ⟨hr, hc, st1, ss, hs, rfl⟩
      · exact ih _ _ hnd (fun e he hm => hno e he (List.mem_cons_of_mem _ hm)) h2 h3
      · refine ih _ _ hnd ?_ ?_ h3
        · intro e he hm
          rcases List.mem_append.1 he with he | he
          · exact hno e he (List.mem_cons_of_mem _ hm)
          · obtain ⟨s, _, rfl⟩ := List.mem_map.1 he
            exact hx hm
        · by_cases hid : x = id
          · subst hid
            have hempty : ∀ e ∈ acc.2, e.id ≠ x := fun e he h => hno e he (by rw [h]; simp)
            have htow : ∀ e ∈ acc.2 ++ ss.map (fun s => (⟨x, acc.1.towFor x, s⟩ : Emit)), e.id = x → e.tow = acc.1.towFor x := by
              intro e he h
              rcases List.mem_append.1 he with he | he
              · exact absurd h (hempty e he)
              · obtain ⟨s, _, rfl⟩ := List.mem_map.1 he; rfl
            refine ⟨fun e he e' he' h h' => by rw [htow e he h, htow e' he' h'], fun hne => ?_⟩
            obtain ⟨s, rfl⟩ := send_one hne hs
            rw [List.filter_append, List.filter_eq_nil_iff.2 (by intro e he; simpa using hempty e he)]
            simp
          · have hout : ∀ e ∈ ss.map (fun s => (⟨x, acc.1.towFor x, s⟩ : Emit)), e.id ≠ id := by
              intro e he; obtain ⟨s, _, rfl⟩ := List.mem_map.1 he; exact hid
            refine ⟨fun e he e' he' h h' => ?_, fun hne => ?_⟩
            · rcases List.mem_append.1 he with he | he
              · rcases List.mem_append.1 he' with he' | he'
                · exact h2.1 e he e' he' h h'
                · exact absurd h' (hout _ he')
              · exact absurd h (hout _ he)
            · have hnil := (List.filter_eq_nil_iff (p := fun e : Emit => decide (e.id = id))).2 (fun e he => by simpa using hout e he)
              rw [List.filter_append, hnil]
              simpa using h2.2 hne
  rw [step_absorb, Option.bind_eq_some_iff] at hstep
  obtain ⟨⟨s0, b⟩, ha, hb⟩ := hstep
  cases b with
  | true => exact key NmeaId.all (s0, []) (st', es) (by decide) (by simp) (by simp) hb
  | false => simp at hb; obtain ⟨rfl, rfl⟩ := hb; simp

/-- the time a source's UTC messages have reached -/
theorem utc_mono {mode : Mode} {g : Bool} {h : List In} {i : In} (hs : (utcTows mode g (h ++ [i])).Pairwise (· ≤ ·)) :
    (utcTow mode g h).getD 0 ≤ (utcTow mode g (h ++ [i])).getD 0 := by
  have hl : ∀ h, utcTow mode g h = (utcTows mode g h).getLast? := by
    intro h; unfold utcTow utcTows latest; rw [List.getLast?_map]
  rw [hl, hl]
  unfold utcTows at *
  rw [List.filterMap_append, List.map_append] at *
  generalize List.map Utc.tow (List.filterMap _ [i]) = l at *
  generalize List.map Utc.tow (List.filterMap _ h) = k at *
  rcases List.eq_nil_or_concat l with rfl | ⟨l', x, rfl⟩
  · simp
  · rcases List.eq_nil_or_concat k with rfl | ⟨k', y, rfl⟩
    · simp
    · simp only [List.concat_eq_append] at *
      rw [List.pairwise_append] at hs
      have := hs.2.2 y (by simp) x (by simp)
      have e1 : (k' ++ [y]).getLast? = some y := by simp
      have e2 : (k' ++ [y] ++ (l' ++ [x])).getLast? = some x := by rw [← List.append_assoc]; exact List.getLast?_concat
      rw [e1, e2]; exact this

/-- **C35 (once per epoch).**  Over any history, as long as the times of the UTC messages of the source of a sentence type do not go
back and the source does not change, every call sends it for a later time than all calls before: never twice for an epoch. -/
theorem C35_once {L : Lib} {mode : Mode} {freq : ℚ} {pre mid : List In} {i j : In} {s0 s1 s2 s3 : St} {e0 e1 e2 e3 : List Emit}
    (h0 : run L (init mode freq) pre = some (s0, e0)) (h1 : step L s0 i = some (s1, e1))
    (h2 : run L s1 mid = some (s2, e2)) (h3 : step L s2 j = some (s3, e3))
    {e e' : Emit} (he : e ∈ e1) (he' : e' ∈ e3) (hid : e'.id = e.id) {g : Bool}
    (hg : gnssPath mode (pre ++ [i]) e.id = g) (hg' : gnssPath mode (pre ++ [i] ++ mid ++ [j]) e.id = g)
    (hsort : (utcTows mode g (pre ++ [i] ++ mid ++ [j])).Pairwise (· ≤ ·)) : e.tow < e'.tow := by
  have htow : ∀ {h : List In} {st : St}, StOk mode freq h st → gnssPath mode h e.id = g → st.towFor e.id = (utcTow mode g h).getD 0 := by
    intro h st hs hp
    cases g with
    | true => rw [towFor_gnss hs hp, utcTow_store hs.store]
    | false => rw [towFor_fused hs hp, utcTow_store hs.store]
  -- after the first sending
  have hs0 := full_run h0
  have hA : StOk mode freq (pre ++ [i]) s1 ∧ (e ∈ e1 → s1.lastTow e.id = e.tow ∧ e.tow = (utcTow mode g (pre ++ [i])).getD 0) := by
    have := (step_inv' (P := fun es s => StOk mode freq (pre ++ [i]) s ∧
        (∀ x ∈ es, x.id = e.id → s.lastTow e.id = x.tow ∧ x.tow = (utcTow mode g (pre ++ [i])).getD 0)) (es0 := []) h1
      (fun _ _ ha => ⟨absorb_ok hs0.1 ha, by simp⟩) ?_).1
    · exact ⟨this.1, fun hm => this.2 e (by simpa using hm) rfl⟩
    · rintro es st id st' ss ⟨hS, hP⟩ hr hc hs
      refine ⟨mark_ok hS hs, ?_⟩
      intro x hx hxid
      rw [mark_lastTow hs]
      rcases List.mem_append.1 hx with hx | hx
      · obtain ⟨ha, hb⟩ := hP x hx hxid
        by_cases hii : e.id = id
        · subst hii
          rw [if_pos rfl, htow hS hg, hb]; exact ⟨rfl, rfl⟩
        · rw [if_neg hii]; exact ⟨ha, hb⟩
      · obtain ⟨s, _, rfl⟩ := List.mem_map.1 hx
        simp only at hxid
        subst hxid
        rw [if_pos rfl]
        exact ⟨rfl, htow hS hg⟩
  obtain ⟨hS1, hA⟩ := hA
  obtain ⟨hlast, het⟩ := hA he
  -- kept until the second
  let Q : List In → St → Prop := fun h st => (∃ r, pre ++ [i] ++ mid ++ [j] = h ++ r) →
    StOk mode freq h st ∧ gnssPath mode h e.id = g ∧ e.tow ≤ st.lastTow e.id ∧ st.lastTow e.id ≤ (utcTow mode g h).getD 0
  have hback : ∀ h r, gnssPath mode (h ++ r) e.id = true → gnssPath mode h e.id = true := by
    intro h r
    induction r using List.reverseRecOn with
    | nil => simp
    | append_singleton r x ih => intro hp; rw [← List.append_assoc] at hp; exact ih (gnssPath_back hp)
  have hQabs : ∀ h st x st' b, Q h st → absorb L st x = some (st', b) → Q (h ++ [x]) st' := by
    rintro h st x st' b hQ ha ⟨r, hr⟩
    obtain ⟨hS, hp, hle, hle2⟩ := hQ ⟨x :: r, by rw [hr]; simp⟩
    refine ⟨absorb_ok hS ha, ?_, ?_, ?_⟩
    · cases g with
      | true => rw [hr] at hg'; exact hback _ _ hg'
      | false =>
        by_contra hc
        rw [Bool.not_eq_false] at hc
        rw [gnssPath_back hc] at hp; simp at hp
    · rw [absorb_lastTow ha]; exact hle
    · rw [absorb_lastTow ha]
      refine le_trans hle2 (utc_mono ?_)
      rw [hr] at hsort
      unfold utcTows at hsort ⊢
      rw [List.filterMap_append, List.map_append, List.pairwise_append] at hsort
      exact hsort.1
  have hQmark : ∀ h st id st' ss, Q h st → send L id st = some (st', ss) → Q h (mark st st' id) := by
    rintro h st id st' ss hQ hs ⟨r, hr⟩
    obtain ⟨hS, hp, hle, hle2⟩ := hQ ⟨r, hr⟩
    refine ⟨mark_ok hS hs, hp, ?_, ?_⟩ <;> rw [mark_lastTow hs]
    · by_cases hii : e.id = id
      · subst hii; rw [if_pos rfl, htow hS hp]; exact le_trans hle hle2
      · rw [if_neg hii]; exact hle
    · by_cases hii : e.id = id
      · subst hii; rw [if_pos rfl, htow hS hp]
      · rw [if_neg hii]; exact hle2
  have hQ1 : Q (pre ++ [i]) s1 := fun _ => ⟨hS1, hg, by rw [hlast], by rw [hlast, het]⟩
  have hQ2 : Q (pre ++ [i] ++ mid) s2 := hist_inv (L := L) (P := Q) hQabs (fun h st id st' ss hQ _ _ hs => hQmark h st id st' ss hQ hs) mid hQ1 h2
  obtain ⟨s, ⟨-, hP⟩, hr, -, ht, -⟩ := (step_inv' (P := fun _ => Q (pre ++ [i] ++ mid ++ [j])) (es0 := []) h3 (fun _ _ ha => hQabs _ _ _ _ _ hQ2 ha)
    (fun _ _ _ _ _ hP _ _ hs => hQmark _ _ _ _ _ hP hs)).2 e' he'
  obtain ⟨hS, hp, hle, hle2⟩ := hP ⟨[], by simp⟩
  rw [hid] at hr ht
  have hne : s.lastTow e.id ≠ (utcTow mode g (pre ++ [i] ++ mid ++ [j])).getD 0 := by
    cases g with
    | true => have := ((ready_gnss hS hp).1 hr).2.1; rwa [utcTow_store hS.store] at this
    | false => have := ((ready_fused hS hp).1 hr).2; rwa [utcTow_store hS.store] at this
  rw [ht, htow hS hp]
  omega

/-! ### Completeness -/

/-- a type that has a sending time has been sent for it -/
def SentOk (es : List Emit) (st : St) : Prop :=
  ∀ id, id ≠ .gsa ∧ id ≠ .gsv → st.lastTow id ≠ 0 → ∃ e ∈ es, e.id = id ∧ e.tow = st.lastTow id

theorem sentOk_mark {L : Lib} {es : List Emit} {st st' : St} {id : NmeaId} {ss : List Sentence} (hP : SentOk es st)
    (hs : send L id st = some (st', ss)) : SentOk (es ++ ss.map fun s => ⟨id, st.towFor id, s⟩) (mark st st' id) := by
  intro j hj h0
  rw [mark_lastTow hs] at h0 ⊢
  by_cases hji : j = id
  · subst hji
    obtain ⟨s, rfl⟩ := send_one hj hs
    rw [if_pos rfl]
    exact ⟨⟨j, st.towFor j, s⟩, by simp, rfl, rfl⟩
  · rw [if_neg hji] at h0 ⊢
    obtain ⟨e, he, h⟩ := hP j hj h0
    exact ⟨e, by simp [he], h⟩

theorem sentOk_run {L : Lib} {mode : Mode} {freq : ℚ} {is : List In} {st : St} {es : List Emit} (hrun : run L (init mode freq) is = some (st, es)) :
    SentOk es st := by
  have := hist_inv' (L := L) (P := fun _ => SentOk) (fun _ _ _ _ _ _ hP ha => by unfold SentOk; rw [absorb_lastTow ha]; exact hP)
    (fun _ _ _ _ _ _ hP _ _ hs => sentOk_mark hP hs) is (h := []) (es0 := []) (fun id _ h0 => absurd rfl h0) hrun
  simpa using this

/-- the converter answers for time `T`: on the GNSS path all that the sentence needs has arrived for `T`; on the fused path the group is closed -/
def Due (mode : Mode) (hist : List In) (id : NmeaId) (T : Nat) : Prop :=
  if gnssPath mode hist id then Coherent mode hist id T else utcTow mode false hist = some T ∧ GroupClosed hist

/-- **C35 (completeness).**  When a message completes what a sentence needs for a time, and the time is one of those asked for, the sentence
has been sent for it by the end of the call.  (GSA also waits for the observations, GSV may have nothing to say; time of week 0 is
lost when nothing has been sent before: see `C35_first_epoch_zero_bug`.) -/
theorem C35_complete {L : Lib} {mode : Mode} {freq : ℚ} {pre : List In} {m : Msg} {st st' : St} {es0 es : List Emit}
    (hrun : run L (init mode freq) pre = some (st, es0)) (hstep : step L st (.msg m) = some (st', es)) (hm : ∀ l, m ≠ .meas l)
    {id : NmeaId} (hid : id ≠ .gsa ∧ id ≠ .gsv) (hmode : ¬ (mode = .fused ∧ id = .hdt)) {T : Nat} (hT : T ≠ 0)
    (hdue : Due mode (pre ++ [.msg m]) id T) (hrate : checkRate (rateSet (pre ++ [.msg m]) id) T freq = some true) :
    ∃ e ∈ es0 ++ es, e.id = id ∧ e.tow = T := by
  have hs0 := full_run hrun
  have he0 := sentOk_run hrun
  rw [step_absorb, Option.bind_eq_some_iff] at hstep
  obtain ⟨⟨s0, b⟩, ha, hb⟩ := hstep
  have hb' : b = true := by
    simp only [absorb] at ha
    split at ha
    · rename_i hd
      obtain ⟨l, hl⟩ := discard_cases hd
      exfalso
      unfold recode at hl
      split at hl <;> cases m <;> simp_all
    · exact (Prod.mk.inj (Option.some.inj ha)).2.symm
  subst hb'
  simp only [if_true] at hb
  have hF := full_absorb hs0 ha
  have hE : SentOk es0 s0 := by unfold SentOk; rw [absorb_lastTow ha]; exact he0
  have htow : ∀ {s : St}, FullOk mode freq (pre ++ [.msg m]) s → s.towFor id = T := by
    intro s hF
    unfold Due at hdue
    by_cases hg : gnssPath mode (pre ++ [.msg m]) id = true
    · rw [if_pos hg] at hdue
      rw [towFor_gnss hF.1 hg, utcTow_store hF.1.store, hdue.1]; rfl
    · rw [if_neg hg] at hdue
      rw [towFor_fused hF.1 (by simpa using hg), utcTow_store hF.1.store, hdue.1]; rfl
  have hready : ∀ {s : St}, FullOk mode freq (pre ++ [.msg m]) s → s.lastTow id ≠ T → nmeaReady s id = true := by
    intro s hF hne
    have ht := htow hF
    unfold Due at hdue
    by_cases hg : gnssPath mode (pre ++ [.msg m]) id = true
    · rw [if_pos hg] at hdue
      rw [towFor_gnss hF.1 hg] at ht
      rw [ready_gnss hF.1 hg, ht, components_iff]
      refine ⟨?_, hne, ?_, ?_⟩
      · rintro ⟨h1, h2⟩
        cases id <;> simp_all [availableInFused]
      · rintro ⟨h1, -⟩; exact hid.1 h1
      · intro d hd
        rw [depTow_store hF.1.store, hdue.2 d hd]; rfl
    · rw [if_neg hg] at hdue
      rw [towFor_fused hF.1 (by simpa using hg)] at ht
      rw [ready_fused hF.1 (by simpa using hg), ht]
      refine ⟨hF.2.1.2 ⟨?_, hdue.2⟩, hne⟩
      unfold gnssPath at hg
      cases hsw : switched mode (pre ++ [.msg m]) <;> simp_all
  have key : ∀ (ids : List NmeaId) (acc acc' : St × List Emit), FullOk mode freq (pre ++ [.msg m]) acc.1 → SentOk (es0 ++ acc.2) acc.1 →
      (id ∈ ids ∨ acc.1.lastTow id = T) → ids.foldlM (sendOne L) acc = some acc' → SentOk (es0 ++ acc'.2) acc'.1 ∧ acc'.1.lastTow id = T := by
    intro ids
    induction ids with
    | nil => intro acc acc' _ h1 h2 h3; simp at h3; subst h3; exact ⟨h1, by simpa using h2⟩
    | cons x ids ih =>
      intro acc acc' hF hS hin h3
      simp only [List.foldlM_cons, Option.bind_eq_bind, Option.bind_eq_some_iff] at h3
      obtain ⟨a, ha, h3⟩ := h3
      rcases sendOne_cases ha with ⟨rfl, hno⟩ | ⟨hr, hc, st1, ss, hs, rfl⟩
      · refine ih _ _ hF hS ?_ h3
        rcases hin with hin | hin
        · rcases List.mem_cons.1 hin with rfl | hin
          · right
            by_contra hne
            rcases hno with hno | hno
            · rw [hready hF hne] at hno; simp at hno
            · rw [htow hF, hF.2.2, hF.1.freq, hrate] at hno; simp at hno
          · exact Or.inl hin
        · exact Or.inr hin
      · refine ih _ _ (full_mark hF hs) ?_ ?_ h3
        · have := sentOk_mark hS hs
          simpa using this
        · rw [mark_lastTow hs]
          by_cases hx : id = x
          · subst hx; rw [if_pos rfl]; exact Or.inr (htow hF)
          · rw [if_neg hx]
            rcases hin with hin | hin
            · rcases List.mem_cons.1 hin with rfl | hin
              · exact absurd rfl hx
              · exact Or.inl hin
            · exact Or.inr hin
  obtain ⟨h1, h2⟩ := key NmeaId.all (s0, []) (st', es) hF (by simpa using hE) (Or.inl (by cases id <;> decide)) hb
  obtain ⟨e, he, hei, het⟩ := h1 id hid (by simp only; rw [h2]; exact hT)
  exact ⟨e, he, hei, by rw [het]; exact h2⟩

/-! ### Rates -/

/-- **C35 (rate).**  With solution period `P` ms, a sentence of rate `n` is due at every `n`-th solution epoch: the time of epoch `k`,
late by `j` ms, is due if and only if `n` divides `k` and the delay is below half a period. -/
theorem C35_rate {rate k j : Nat} {freq : ℚ} (hr : 0 < rate) (hP : 0 < solnPeriod freq) (hb : solnPeriod freq * rate < 2 ^ 32)
    (hj : j < solnPeriod freq) :
    checkRate rate (k * solnPeriod freq + j) freq = some (decide (rate ∣ k ∧ j < solnPeriod freq / 2)) := by
  unfold checkRate
  generalize solnPeriod freq = P at *
  have hpos : 0 < P * rate := Nat.mul_pos hP hr
  have hmod : (k * P + j) % (P * rate) = (k % rate) * P + j := by
    have hk : k = rate * (k / rate) + k % rate := (Nat.div_add_mod k rate).symm
    have hlt : (k % rate) * P + j < P * rate := by
      have h1 : k % rate < rate := Nat.mod_lt _ hr
      have : (k % rate + 1) * P ≤ rate * P := Nat.mul_le_mul_right _ h1
      rw [Nat.mul_comm P rate]
      rw [Nat.add_mul] at this
      omega
    conv_lhs => rw [hk]
    rw [show (rate * (k / rate) + k % rate) * P + j = ((k % rate) * P + j) + (P * rate) * (k / rate) by ring, Nat.add_mul_mod_self_left]
    exact Nat.mod_eq_of_lt hlt
  have e1 : P * rate % 2 ^ 32 = P * rate := Nat.mod_eq_of_lt hb
  simp only [e1]
  rw [if_neg (by omega), if_neg (by omega), hmod]
  congr 1
  rw [decide_eq_decide, Nat.dvd_iff_mod_eq_zero]
  by_cases hz : k % rate = 0
  · simp [hz]
  · have : 1 * P ≤ (k % rate) * P := Nat.mul_le_mul_right _ (by omega)
    constructor
    · intro h; omega
    · rintro ⟨h, -⟩; exact absurd h hz

/-- **C35 (period).**  For every solution frequency that divides 1000 Hz the period is exact. -/
theorem C35_period {n : Nat} (hn : n ∣ 1000) : solnPeriod n = 1000 / n := by
  have key : ∀ n ∈ Nat.divisors 1000, solnPeriod n = 1000 / n := by decide +kernel
  exact key n (by simp [hn])

/-- **C35 (bug).**  Above 1000 Hz the period is 0 and deciding whether a sentence is due divides by zero. -/
theorem C35_period_zero_bug : checkRate 1 5000 1001 = none := by decide +kernel

/-! ### Findings -/

/-- types and times of what is sent -/
def sentTimes (L : Lib) (st : St) (is : List In) : Option (List (NmeaId × Nat)) := (run L st is).map fun r => r.2.map fun e => (e.id, e.tow)

/-- a GNSS epoch -/
def epoch (g : Bool) (t : Nat) : List In :=
  [.msg (.gpsTime g { wn := 2100, tow := t }), .msg (.pos g { tow := t, flags := 0 }), .msg (.vel g { tow := t, flags := 0 }),
   .msg (.dops { tow := t }), .msg (.age { tow := t }), .msg (.utc g { exUtc with tow := t })]

/-- non-trivial: three epochs, rate 2 at 1 Hz: the middle one is skipped -/
example : sentTimes exLib (init .gnss 1) ([.rate .gga 2] ++ epoch true 2000 ++ epoch true 3000 ++ epoch true 4000) =
    some [(.gga, 2000), (.gga, 4000)] := by decide +kernel
example : Due .gnss ([.rate .gga 2] ++ epoch true 2000) .gga 2000 := by
  unfold Due; rw [if_pos (by decide)]; exact ⟨by decide, by decide⟩
example : rateSet ([.rate .gga 2] ++ epoch true 2000) .gga = 2 ∧ checkRate 2 2000 1 = some true := by decide +kernel
example : (utcTows .gnss true ([.rate .gga 2] ++ epoch true 2000 ++ epoch true 3000)).Pairwise (· ≤ ·) := by decide
example : sentTimes exLib (init .best 1) ([.rate .gga 1, .msg .groupMeta] ++ epoch false 2000 ++ [.msg (.solnMeta {})]) =
    some [(.gga, 2000)] := by decide +kernel
example : GroupClosed ([.rate .gga 1, .msg .groupMeta] ++ epoch false 2000 ++ [.msg (.solnMeta {})]) :=
  ⟨_, _, [], rfl, by decide, by decide⟩
example : gnssPath .best ([.rate .gga 1, .msg .groupMeta] ++ epoch false 2000 ++ [.msg (.solnMeta {})]) .gga = false := by decide

/-- **C35 (bug).**  A complete first epoch at time of week 0 is never answered. -/
theorem C35_first_epoch_zero_bug : Due .gnss ([.rate .gga 1] ++ epoch true 0) .gga 0 ∧ checkRate 1 0 1 = some true ∧
    sentTimes exLib (init .gnss 1) ([.rate .gga 1] ++ epoch true 0) = some [] := by
  refine ⟨?_, by decide +kernel, by decide +kernel⟩
  unfold Due; rw [if_pos (by decide)]; exact ⟨by decide, by decide⟩

/-- **C35 (bug).**  On the fused path nothing checks that the position belongs to the epoch: with the position message of an epoch lost,
GGA is sent for 3000 from the position of 2000. -/
theorem C35_fused_incoherent_bug :
    let hist := [In.rate .gga 1, .msg .groupMeta] ++ epoch false 2000 ++ [.msg (.solnMeta {}), .msg .groupMeta, .msg (.utc false { exUtc with tow := 3000 })]
    sentTimes exLib (init .best 1) (hist ++ [.msg (.solnMeta {})]) = some [(.gga, 2000), (.gga, 3000)] ∧
    (latest (posOf .best false) (hist ++ [.msg (.solnMeta {})])).map Pos.tow = some 2000 := by decide +kernel

/-- **C35 (bug).**  When the converter switches to the fused solution and that lags behind the GNSS one, epochs already answered are answered
again. -/
theorem C35_mode_switch_repeat_bug :
    sentTimes exLib (init .best 1) ([.rate .gga 1] ++ epoch true 2000 ++ epoch true 3000 ++
      [.msg .groupMeta] ++ epoch false 2000 ++ [.msg (.solnMeta {}), .msg .groupMeta] ++ epoch false 3000 ++ [.msg (.solnMeta {})]) =
    some [(.gga, 2000), (.gga, 3000), (.gga, 2000), (.gga, 3000)] := by decide +kernel

/-- **C35 (bug).**  A converter asked for the fused solution never uses it: whatever fused messages arrive, nothing is sent while no UTC message of
the GNSS solution has come, and HDT, GSA and GSV are never sent. -/
theorem C35_fused_mode_bug {L : Lib} {freq : ℚ} {pre : List In} {i : In} {st st' : St} {es0 es : List Emit}
    (hrun : run L (init .fused freq) pre = some (st, es0)) (hstep : step L st i = some (st', es)) :
    (∀ e ∈ es, Coherent .fused (pre ++ [i]) e.id e.tow ∧ e.id ≠ .hdt ∧ e.id ≠ .gsa ∧ e.id ≠ .gsv) ∧
    ((∀ t, In.msg (.utc true t) ∉ pre ++ [i]) → es = []) := by
  have hg : ∀ id, gnssPath .fused (pre ++ [i]) id = true := by intro id; simp [gnssPath, switched]
  have h1 : ∀ e ∈ es, Coherent .fused (pre ++ [i]) e.id e.tow ∧ e.id ≠ .hdt ∧ e.id ≠ .gsa ∧ e.id ≠ .gsv := by
    intro e he
    refine ⟨C35_coherent hrun hstep he (hg _), ?_⟩
    have hs := full_run hrun
    obtain ⟨s, ⟨-, hP⟩, hr, -⟩ := (step_inv' (P := fun _ => FullOk .fused freq (pre ++ [i])) (es0 := []) hstep (fun _ _ ha => full_absorb hs ha)
      (fun _ _ _ _ _ hP _ _ hs => full_mark hP hs)).2 e he
    have := ((ready_gnss hP.1 (hg _)).1 hr).1
    refine ⟨?_, ?_, ?_⟩ <;> intro hh <;> rw [hh] at this <;> simp [availableInFused] at this
  refine ⟨h1, fun hno => ?_⟩
  rw [List.eq_nil_iff_forall_not_mem]
  intro e he
  have hc := (h1 e he).1.1
  unfold utcTow latest at hc
  rw [Option.map_eq_some_iff] at hc
  obtain ⟨u, hu, -⟩ := hc
  have := List.mem_of_getLast? hu
  rw [List.mem_filterMap] at this
  obtain ⟨x, hx, hx2⟩ := this
  cases x with
  | msg m =>
    cases m with
    | utc b t =>
      cases b with
      | true => exact hno t hx
      | false => simp [utcOf, filed] at hx2
    | _ => simp [utcOf] at hx2
  | _ => simp at hx2

end Verif.Nmea
