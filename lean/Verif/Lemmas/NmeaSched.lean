import Verif.Spec.NmeaSched
import Verif.Lemmas.NmeaRun
/-
The state of the converter told from the history.
-/
namespace Verif.Nmea
open Verif.Nmea.Spec

theorem latest_snoc {α : Type} (f : Msg → Option α) (h : List In) (i : In) :
    latest f (h ++ [i]) = match i with
      | .msg m => (match f m with | some a => some a | none => latest f h)
      | _ => latest f h := by
  unfold latest
  rw [List.filterMap_append]
  cases i with
  | msg m =>
    cases hm : f m with
    | none => simp [hm]
    | some a => simp [hm]
  | obs o => simp
  | rate a b => simp
  | baseId a => simp
  | cogThreshold a => simp
  | cogStationary a => simp

theorem latest_msg {α : Type} (f : Msg → Option α) (h : List In) (m : Msg) :
    latest f (h ++ [.msg m]) = (match f m with | some a => some a | none => latest f h) := latest_snoc f h _

theorem latest_other {α : Type} (f : Msg → Option α) (h : List In) (i : In) (hi : ∀ m, i ≠ .msg m) : latest f (h ++ [i]) = latest f h := by
  rw [latest_snoc]
  cases i with
  | msg m => exact absurd rfl (hi m)
  | _ => rfl

/-- the store holds the latest messages -/
structure StoreOk (mode : Mode) (hist : List In) (s : Store) : Prop where
  utc : ∀ g, s.utc g = (latest (utcOf mode g) hist).getD {}
  gpsTime : ∀ g, s.gpsTime g = (latest (gpsTimeOf mode g) hist).getD {}
  pos : ∀ g, s.pos g = (latest (posOf mode g) hist).getD {}
  vel : ∀ g, s.vel g = (latest (velOf mode g) hist).getD {}
  dops : s.dops = (latest dopsOf hist).getD {}
  age : s.age = (latest ageOf hist).getD {}
  hdg : s.hdg = (latest hdgOf hist).getD {}
  orient : s.orient = (latest orientOf hist).getD {}

/-- the state as the history determines it -/
structure StOk (mode : Mode) (freq : ℚ) (hist : List In) (st : St) : Prop where
  requested : st.requested = mode
  freq : st.solnFreq = freq
  actual : st.actual = if switched mode hist then .fused else .gnss
  store : StoreOk mode hist st.store

theorem StOk.init (mode : Mode) (freq : ℚ) : StOk mode freq [] (init mode freq) where
  requested := rfl
  freq := rfl
  actual := by simp [switched, Nmea.init]
  store := ⟨fun _ => rfl, fun _ => rfl, fun _ => rfl, fun _ => rfl, rfl, rfl, rfl, rfl⟩

theorem storeOk_set {mode : Mode} {hist : List In} {s : Store} (h : StoreOk mode hist s) (st : St) (hr : st.requested = mode) (m : Msg) :
    StoreOk mode (hist ++ [.msg m]) (s.set (recode st m)) := by
  obtain ⟨h1, h2, h3, h4, h5, h6, h7, h8⟩ := h
  have hrec : recode st m = match m with
      | .gpsTime b t => .gpsTime (filed mode b) t
      | .utc b t => .utc (filed mode b) t
      | .pos b t => .pos (filed mode b) t
      | .vel b t => .vel (filed mode b) t
      | m => m := by
    unfold recode
    rw [hr]
    by_cases hm : mode = .gnss
    · rw [if_pos hm]; cases m <;> simp [filed, hm]
    · rw [if_neg hm]; cases m <;> simp [filed, hm]
  rw [hrec]
  constructor <;> first | intro g | skip
  all_goals rw [latest_msg]
  all_goals cases m <;> simp only [utcOf, gpsTimeOf, posOf, velOf, dopsOf, ageOf, hdgOf, orientOf, Store.set, Option.getD_some, *]
  all_goals
    rename_i b t
    by_cases hb : filed mode b = g
    · subst hb; simp
    · simp [hb, Ne.symm hb]

theorem discard_cases {L : Lib} {m : Msg} (h : discard L m = true) : ∃ l, m = .meas l := by
  cases m <;> simp [discard] at h
  exact ⟨_, rfl⟩

theorem storeOk_other {mode : Mode} {hist : List In} {s : Store} (h : StoreOk mode hist s) (i : In) (hi : (∀ m, i ≠ .msg m) ∨ ∃ l, i = .msg (.meas l)) :
    StoreOk mode (hist ++ [i]) s := by
  obtain ⟨h1, h2, h3, h4, h5, h6, h7, h8⟩ := h
  have key : ∀ {α : Type} (f : Msg → Option α), (∀ l, f (.meas l) = none) → latest f (hist ++ [i]) = latest f hist := by
    intro α f hf
    rcases hi with hi | ⟨l, rfl⟩
    · exact latest_other f hist i hi
    · rw [latest_msg, hf]
  constructor <;> first | intro g | skip
  all_goals rw [key _ (fun l => rfl)]
  all_goals first | exact h1 g | exact h2 g | exact h3 g | exact h4 g | exact h5 | exact h6 | exact h7 | exact h8

theorem switched_snoc (mode : Mode) (hist : List In) (i : In) :
    switched mode (hist ++ [i]) = (switched mode hist || (decide (mode = .best) && decide (i = .msg .groupMeta))) := by
  unfold switched
  simp only [List.mem_append, List.mem_singleton]
  by_cases h : mode = .best <;> by_cases h2 : In.msg .groupMeta ∈ hist <;> by_cases h3 : i = .msg .groupMeta <;> simp [h, h2, h3, eq_comm]
  all_goals first | (exact fun hh => h3 hh.symm) | (subst h3; rfl) | skip

theorem recode_group (st : St) (m : Msg) : recode st m = .groupMeta ↔ m = .groupMeta := by
  unfold recode; split <;> cases m <;> simp

theorem absorb_ok {mode : Mode} {freq : ℚ} {L : Lib} {hist : List In} {st st' : St} {i : In} {b : Bool} (h : StOk mode freq hist st)
    (ha : absorb L st i = some (st', b)) : StOk mode freq (hist ++ [i]) st' := by
  obtain ⟨hr, hf, hact, hs⟩ := h
  cases i with
  | msg m =>
    have hu : (checkWagon (updateMode st (recode st m)) (recode st m)).actual = if switched mode (hist ++ [.msg m]) then .fused else .gnss := by
      have hw : ∀ s m, (checkWagon s m).actual = s.actual := by
        intro s m; unfold checkWagon; split
        · rfl
        · split <;> rfl
      rw [hw]
      unfold updateMode
      rw [switched_snoc]
      simp only [recode_group, hr]
      cases hsw : switched mode hist <;> rw [hsw] at hact <;> by_cases hb : mode = .best <;> by_cases hm : m = .groupMeta <;>
        simp [hb, hm, hact]
    have hst : ∃ a w, checkWagon (updateMode st (recode st m)) (recode st m) = { st with actual := a, wagonComplete := w } := by
      unfold checkWagon updateMode
      split_ifs
      all_goals first | exact ⟨_, _, rfl⟩ | (split <;> exact ⟨_, _, rfl⟩)
    obtain ⟨a, w, hw⟩ := hst
    simp only [absorb] at ha
    rw [hw] at ha hu
    by_cases hd : discard L (recode st m) = true
    · rw [if_pos hd] at ha
      obtain ⟨rfl, rfl⟩ := Prod.mk.inj (Option.some.inj ha)
      refine ⟨hr, hf, hu, storeOk_other hs _ (Or.inr ?_)⟩
      obtain ⟨l, hl⟩ := discard_cases hd
      refine ⟨l, ?_⟩
      unfold recode at hl
      split at hl <;> cases m <;> simp_all
    · rw [if_neg hd] at ha
      obtain ⟨rfl, rfl⟩ := Prod.mk.inj (Option.some.inj ha)
      exact ⟨hr, hf, hu, storeOk_set hs st hr m⟩
  | obs o =>
    obtain ⟨_, _, _, _, _, rfl, _⟩ := absorb_obs ha
    exact ⟨hr, hf, by rw [switched_snoc]; simpa using hact, storeOk_other hs _ (Or.inl (by simp))⟩
  | rate a b =>
    simp only [absorb, Option.some.injEq, Prod.mk.injEq] at ha
    obtain ⟨rfl, -⟩ := ha
    exact ⟨hr, hf, by rw [switched_snoc]; simpa using hact, storeOk_other hs _ (Or.inl (by simp))⟩
  | baseId a =>
    simp only [absorb, Option.some.injEq, Prod.mk.injEq] at ha
    obtain ⟨rfl, -⟩ := ha
    exact ⟨hr, hf, by rw [switched_snoc]; simpa using hact, storeOk_other hs _ (Or.inl (by simp))⟩
  | cogThreshold a =>
    simp only [absorb, Option.some.injEq, Prod.mk.injEq] at ha
    obtain ⟨rfl, -⟩ := ha
    exact ⟨hr, hf, by rw [switched_snoc]; simpa using hact, storeOk_other hs _ (Or.inl (by simp))⟩
  | cogStationary a =>
    simp only [absorb, Option.some.injEq, Prod.mk.injEq] at ha
    obtain ⟨rfl, -⟩ := ha
    exact ⟨hr, hf, by rw [switched_snoc]; simpa using hact, storeOk_other hs _ (Or.inl (by simp))⟩

theorem mark_ok {mode : Mode} {freq : ℚ} {L : Lib} {hist : List In} {st st' : St} {id : NmeaId} {ss : List Sentence} (h : StOk mode freq hist st)
    (hs : send L id st = some (st', ss)) : StOk mode freq hist (mark st st' id) := by
  have := send_state hs
  rw [this]
  exact ⟨h.requested, h.freq, h.actual, h.store⟩

/-- Invariant rule with the history. -/
theorem hist_inv {L : Lib} {P : List In → St → Prop}
    (habs : ∀ h st i st' b, P h st → absorb L st i = some (st', b) → P (h ++ [i]) st')
    (hsend : ∀ h st id st' ss, P h st → nmeaReady st id = true → checkRate (st.rate id) (st.towFor id) st.solnFreq = some true →
      send L id st = some (st', ss) → P h (mark st st' id)) :
    ∀ (is : List In) {h : List In} {st st' : St} {es : List Emit}, P h st → run L st is = some (st', es) → P (h ++ is) st' := by
  have hcs : ∀ h (ids : List NmeaId) (acc acc' : St × List Emit), P h acc.1 → ids.foldlM (sendOne L) acc = some acc' → P h acc'.1 := by
    intro h ids
    induction ids with
    | nil => intro acc acc' h1 h3; simp at h3; subst h3; exact h1
    | cons id ids ih =>
      intro acc acc' h1 h3
      simp only [List.foldlM_cons, Option.bind_eq_bind, Option.bind_eq_some_iff] at h3
      obtain ⟨a, ha, h3⟩ := h3
      rcases sendOne_cases ha with ⟨rfl, -⟩ | ⟨hr, hc, st1, ss, hs, rfl⟩
      · exact ih _ _ h1 h3
      · exact ih _ _ (hsend _ _ _ _ _ h1 hr hc hs) h3
  intro is
  induction is with
  | nil => intro h st st' es hP hr; simp [run] at hr; obtain ⟨rfl, rfl⟩ := hr; simpa using hP
  | cons i is ih =>
    intro h st st' es hP hr
    simp only [run, Option.bind_eq_bind, Option.bind_eq_some_iff] at hr
    obtain ⟨⟨s1, e1⟩, h1, ⟨s2, e2⟩, h2, h3⟩ := hr
    simp only [Option.some.injEq, Prod.mk.injEq] at h3
    obtain ⟨rfl, rfl⟩ := h3
    rw [step_absorb, Option.bind_eq_some_iff] at h1
    obtain ⟨⟨s0, b⟩, ha, hb⟩ := h1
    have hP0 := habs _ _ _ _ _ hP ha
    have : P (h ++ [i]) s1 := by
      cases b with
      | true => exact hcs _ _ _ _ hP0 hb
      | false => simp at hb; obtain ⟨rfl, rfl⟩ := hb; exact hP0
    have := ih this h2
    simpa using this

/-- one step: the state that was absorbed, and the property at every sending -/
theorem step_inv {L : Lib} {P : St → Prop} {st st' : St} {i : In} {es : List Emit}
    (hstep : step L st i = some (st', es)) (habs : ∀ st0 b, absorb L st i = some (st0, b) → P st0)
    (hsend : ∀ st id st' ss, P st → send L id st = some (st', ss) → P (mark st st' id)) : ∀ e ∈ es, SentFrom L P e := by
  rw [step_absorb, Option.bind_eq_some_iff] at hstep
  obtain ⟨⟨s0, b⟩, ha, hb⟩ := hstep
  have hP0 := habs _ _ ha
  cases b with
  | true => exact (checkSend_inv hsend hP0 hb).2
  | false => simp at hb; obtain ⟨rfl, rfl⟩ := hb; simp

end Verif.Nmea
