import Verif.Model.Nmea
/-
Invariants of histories of the SBP to NMEA converter.
-/
namespace Verif.Nmea

/-- the state after an input is stored, and whether sentences are then sent -/
def absorb (L : Lib) (st : St) : In → Option (St × Bool)
  | .msg m =>
    let m := recode st m
    let st := checkWagon (updateMode st m) m
    if discard L m then some (st, false) else some ({ st with store := st.store.set m }, true)
  | .obs o =>
    let st := { st with obsSeqTotal := o.seq / 16 }
    let count := o.seq % 16
    let st := if count = 0 then { st with numObs := 0 } else st
    if count ≠ 0 ∧ (o.t ≠ st.obsTime ∨ st.obsSeqCount + 1 ≠ count) then some (st, false)
    else
      let sids := st.navSids.take st.numObs ++ o.obs
      if sids.length > 255 then none
      else some ({ st with obsSeqCount := count, obsTime := o.t, navSids := sids, numObs := sids.length }, true)
  | .rate id r => some ({ st with rate := fun i => if i = id then r else st.rate i }, false)
  | .baseId n => some ({ st with baseId := n }, false)
  | .cogThreshold t => some ({ st with cogThreshold := Verif.Fp.f32 t }, false)
  | .cogStationary t => some ({ st with cogUpdateThreshold := Verif.Fp.f32 t }, false)

theorem step_absorb (L : Lib) (st : St) (i : In) :
    step L st i = (absorb L st i).bind fun r => if r.2 then checkSend L r.1 else some (r.1, []) := by
  cases i with
  | msg m =>
    simp only [step, absorb, sbp2nmea]
    split <;> rfl
  | obs o =>
    have key : ∀ (c d : Prop) [Decidable c] [Decidable d] (s s1 : St),
        (if c then some (s, []) else if d then none else checkSend L s1) =
        (if c then some (s, false) else if d then none else some (s1, true)).bind
          fun r => if r.2 then checkSend L r.1 else some (r.1, []) := by
      intro c d _ _ s s1
      by_cases hc : c
      · rw [if_pos hc, if_pos hc]; rfl
      · rw [if_neg hc, if_neg hc]
        by_cases hd : d
        · rw [if_pos hd, if_pos hd]; rfl
        · rw [if_neg hd, if_neg hd]; rfl
    exact key _ _ _ _
  | rate | baseId | cogThreshold | cogStationary => rfl

/-- an observation message changes only the record of observations -/
theorem absorb_obs {L : Lib} {st st' : St} {o : ObsMsg} {b : Bool} (h : absorb L st (.obs o) = some (st', b)) :
    ∃ n c t s ot, st' = { st with numObs := n, obsSeqCount := c, obsSeqTotal := t, navSids := s, obsTime := ot } ∧
      ∀ x ∈ s, x ∈ st.navSids ∨ x ∈ o.obs := by
  have key : ∀ (c d : Prop) [Decidable c] [Decidable d] (s s1 : St),
      (if c then some (s, false) else if d then none else some (s1, true)) = some (st', b) → st' = s ∨ st' = s1 := by
    intro c d _ _ s s1 h
    split_ifs at h
    · exact Or.inl (Prod.mk.inj (Option.some.inj h)).1.symm
    · exact Or.inr (Prod.mk.inj (Option.some.inj h)).1.symm
  have hm : ∀ n : Nat, ∀ x ∈ st.navSids.take n ++ o.obs, x ∈ st.navSids ∨ x ∈ o.obs := by
    intro n x hx
    rcases List.mem_append.1 hx with hx | hx
    · exact Or.inl (List.mem_of_mem_take hx)
    · exact Or.inr hx
  rcases key _ _ _ _ h with rfl | rfl
  · by_cases h0 : o.seq % 16 = 0
    · rw [if_pos h0]; exact ⟨_, _, _, _, _, rfl, fun x hx => Or.inl hx⟩
    · rw [if_neg h0]; exact ⟨_, _, _, _, _, rfl, fun x hx => Or.inl hx⟩
  · by_cases h0 : o.seq % 16 = 0
    · rw [if_pos h0]; exact ⟨_, _, _, _, _, rfl, hm 0⟩
    · rw [if_neg h0]; exact ⟨_, _, _, _, _, rfl, hm _⟩

/-- a message changes only the mode, the wagon and the store -/
theorem absorb_msg {L : Lib} {st st' : St} {m : Msg} {b : Bool} (h : absorb L st (.msg m) = some (st', b)) :
    ∃ a w, (st' = { st with actual := a, wagonComplete := w } ∨
      st' = { st with actual := a, wagonComplete := w, store := st.store.set (recode st m) }) := by
  have hu : ∀ m, ∃ a w, checkWagon (updateMode st m) m = { st with actual := a, wagonComplete := w } := by
    intro m
    unfold checkWagon updateMode
    split_ifs
    all_goals first | exact ⟨_, _, rfl⟩ | (split <;> exact ⟨_, _, rfl⟩)
  simp only [absorb] at h
  obtain ⟨a, w, hw⟩ := hu (recode st m)
  refine ⟨a, w, ?_⟩
  rw [hw] at h
  split at h
  · exact Or.inl (Prod.mk.inj (Option.some.inj h)).1.symm
  · exact Or.inr (Prod.mk.inj (Option.some.inj h)).1.symm

/-- the record of a sent sentence -/
def mark (st st' : St) (id : NmeaId) : St := { st' with lastTow := fun i => if i = id then st.towFor id else st'.lastTow i }

/-- where a sentence came from -/
def SentFrom (L : Lib) (P : St → Prop) (e : Emit) : Prop :=
  ∃ st, P st ∧ nmeaReady st e.id = true ∧ checkRate (st.rate e.id) (st.towFor e.id) st.solnFreq = some true ∧
    e.tow = st.towFor e.id ∧ ∃ st' ss, send L e.id st = some (st', ss) ∧ e.sentence ∈ ss

theorem sendOne_cases {L : Lib} {acc acc' : St × List Emit} {id : NmeaId} (h : sendOne L acc id = some acc') :
    (acc' = acc ∧ (nmeaReady acc.1 id = false ∨ checkRate (acc.1.rate id) (acc.1.towFor id) acc.1.solnFreq = some false)) ∨
    (nmeaReady acc.1 id = true ∧ checkRate (acc.1.rate id) (acc.1.towFor id) acc.1.solnFreq = some true ∧
      ∃ st' ss, send L id acc.1 = some (st', ss) ∧
        acc' = (mark acc.1 st' id, acc.2 ++ ss.map fun s => ⟨id, acc.1.towFor id, s⟩)) := by
  unfold sendOne at h
  simp only at h
  split at h
  · rename_i hr
    split at h
    · simp at h
    · rename_i hc
      left; exact ⟨(Option.some.inj h).symm, Or.inr hc⟩
    · rename_i hc
      right
      simp only [Option.bind_eq_bind, Option.bind_eq_some_iff, Option.some.injEq] at h
      obtain ⟨⟨st', ss⟩, hs, rfl⟩ := h
      exact ⟨hr, hc, st', ss, hs, rfl⟩
  · rename_i hr
    left; exact ⟨(Option.some.inj h).symm, Or.inl (by simpa using hr)⟩

theorem checkSend_inv {L : Lib} {P : St → Prop}
    (hsend : ∀ st id st' ss, P st → send L id st = some (st', ss) → P (mark st st' id)) {st st' : St} {es : List Emit}
    (hP : P st) (h : checkSend L st = some (st', es)) : P st' ∧ ∀ e ∈ es, SentFrom L P e := by
  have key : ∀ (ids : List NmeaId) (acc acc' : St × List Emit), P acc.1 → (∀ e ∈ acc.2, SentFrom L P e) →
      ids.foldlM (sendOne L) acc = some acc' → P acc'.1 ∧ ∀ e ∈ acc'.2, SentFrom L P e := by
    intro ids
    induction ids with
    | nil => intro acc acc' h1 h2 h3; simp at h3; subst h3; exact ⟨h1, h2⟩
    | cons id ids ih =>
      intro acc acc' h1 h2 h3
      simp only [List.foldlM_cons, Option.bind_eq_bind, Option.bind_eq_some_iff] at h3
      obtain ⟨a, ha, h3⟩ := h3
      rcases sendOne_cases ha with ⟨rfl, -⟩ | ⟨hr, hc, st1, ss, hs, rfl⟩
      · exact ih _ _ h1 h2 h3
      · refine ih _ _ (hsend _ _ _ _ h1 hs) ?_ h3
        intro e he
        rcases List.mem_append.1 he with he | he
        · exact h2 e he
        · obtain ⟨s, hss, rfl⟩ := List.mem_map.1 he
          exact ⟨acc.1, h1, hr, hc, rfl, st1, ss, hs, hss⟩
  exact key _ _ _ hP (by simp) h

/-- Invariant rule for histories: a property kept by storing an (allowed) input and by sending holds whenever a sentence
is sent. -/
theorem run_inv {L : Lib} {P : St → Prop} {I : In → Prop}
    (habs : ∀ st i st' b, P st → I i → absorb L st i = some (st', b) → P st')
    (hsend : ∀ st id st' ss, P st → send L id st = some (st', ss) → P (mark st st' id)) :
    ∀ (is : List In) {st st' : St} {es : List Emit}, P st → (∀ i ∈ is, I i) → run L st is = some (st', es) →
      P st' ∧ ∀ e ∈ es, SentFrom L P e := by
  intro is
  induction is with
  | nil => intro st st' es hP _ h; simp [run] at h; obtain ⟨rfl, rfl⟩ := h; exact ⟨hP, by simp⟩
  | cons i is ih =>
    intro st st' es hP hI h
    simp only [run, Option.bind_eq_bind, Option.bind_eq_some_iff] at h
    obtain ⟨⟨s1, e1⟩, h1, ⟨s2, e2⟩, h2, h3⟩ := h
    simp only [Option.some.injEq, Prod.mk.injEq] at h3
    obtain ⟨rfl, rfl⟩ := h3
    rw [step_absorb, Option.bind_eq_some_iff] at h1
    obtain ⟨⟨s0, b⟩, ha, hb⟩ := h1
    have hP0 := habs _ _ _ _ hP (hI i (by simp)) ha
    have h1' : P s1 ∧ ∀ e ∈ e1, SentFrom L P e := by
      cases b with
      | true => exact checkSend_inv hsend hP0 hb
      | false => simp at hb; obtain ⟨rfl, rfl⟩ := hb; exact ⟨hP0, by simp⟩
    have h2' := ih h1'.1 (fun j hj => hI j (by simp [hj])) h2
    refine ⟨h2'.1, ?_⟩
    intro e he
    rcases List.mem_append.1 he with he | he
    · exact h1'.2 e he
    · exact h2'.2 e he

theorem run_true {L : Lib} {is : List In} {st st' : St} {es : List Emit} (h : run L st is = some (st', es)) :
    ∀ e ∈ es, SentFrom L (fun _ => True) e :=
  (run_inv (P := fun _ => True) (I := fun _ => True) (by simp) (by simp) is trivial (by simp) h).2

/-- sending changes nothing but the remembered course -/
theorem send_state {L : Lib} {id : NmeaId} {st st' : St} {ss : List Sentence} (h : send L id st = some (st', ss)) :
    st' = { st with lastCog := st'.lastCog } := by
  cases id <;> simp only [send, Option.map_eq_some_iff, Option.some.injEq, Prod.mk.injEq] at h
  case gga | gll | gst => obtain ⟨_, _, rfl, _⟩ := h; rfl
  case hdt | zda | gsa | gsv | ths => obtain ⟨rfl, _⟩ := h; rfl
  case rmc =>
    obtain ⟨r, hr, rfl, -⟩ := h
    unfold sendRmc at hr
    simp only [Option.bind_eq_bind, Option.bind_eq_some_iff, Option.some.injEq] at hr
    obtain ⟨a, -, b, -, m, hm, s, hs, rfl⟩ := hr
    rfl
  case vtg =>
    obtain ⟨r, hr, rfl, -⟩ := h
    unfold sendVtg at hr
    simp only [Option.bind_eq_bind, Option.bind_eq_some_iff, Option.some.injEq] at hr
    obtain ⟨m, hm, rfl⟩ := hr
    rfl
  case pubx =>
    obtain ⟨r, hr, rfl, -⟩ := h
    unfold sendPubx at hr
    simp only [Option.bind_eq_bind, Option.bind_eq_some_iff, Option.some.injEq] at hr
    obtain ⟨a, -, b, -, m, hm, rfl⟩ := hr
    rfl

theorem send_cog {L : Lib} {id : NmeaId} {st st' : St} {ss : List Sentence} (h : send L id st = some (st', ss)) :
    st'.lastCog = st.lastCog ∨ st'.lastCog = calcCog L (st.store.vel st.src) st.cogUpdateThreshold st.lastCog := by
  cases id <;> simp only [send, Option.map_eq_some_iff, Option.some.injEq, Prod.mk.injEq] at h
  case gga | gll | gst => obtain ⟨_, _, rfl, _⟩ := h; exact Or.inl rfl
  case hdt | zda | gsa | gsv | ths => obtain ⟨rfl, _⟩ := h; exact Or.inl rfl
  case rmc =>
    obtain ⟨r, hr, rfl, -⟩ := h
    unfold sendRmc at hr
    simp only [Option.bind_eq_bind, Option.bind_eq_some_iff, Option.some.injEq] at hr
    obtain ⟨a, -, b, -, m, hm, s, hs, rfl⟩ := hr
    exact Or.inr rfl
  case vtg =>
    obtain ⟨r, hr, rfl, -⟩ := h
    unfold sendVtg at hr
    simp only [Option.bind_eq_bind, Option.bind_eq_some_iff, Option.some.injEq] at hr
    obtain ⟨m, hm, rfl⟩ := hr
    exact Or.inr rfl
  case pubx =>
    obtain ⟨r, hr, rfl, -⟩ := h
    unfold sendPubx at hr
    simp only [Option.bind_eq_bind, Option.bind_eq_some_iff, Option.some.injEq] at hr
    obtain ⟨a, -, b, -, m, hm, rfl⟩ := hr
    exact Or.inr rfl

end Verif.Nmea
