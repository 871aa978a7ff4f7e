import Verif.Spec.SbpRtcm
/-
C28: assembly of SBP observation messages.
-/
namespace Verif.SbpRtcm
open Verif.SbpRtcm.Spec
open Verif.RtcmSbp (SbpTime SbpObs)

theorem nMeas_wf {m : ObsIn} (h : WF m) : nMeas m.len = m.obs.length ∧ m.obs.length ≤ 14 := by
  have h1 := h.len
  have h2 := h.small
  unfold nMeas
  have h3 : (m.len + 2 ^ 64 - 11) % 2 ^ 64 = 17 * m.obs.length := by omega
  rw [h3, Nat.mul_div_cancel_left _ (by norm_num)]
  omega

theorem usable_le {m : ObsIn} (h : WF m) : (usable m).length ≤ 14 :=
  (List.length_filter_le _ _).trans (nMeas_wf h).2

/-- pushing into a buffer with room for everything appends all usable observations -/
theorem push_room (l buf : List SbpObs)
    (h : buf.length + (l.filter fun o => o.flags.testBit 0 && !o.flags.testBit 7).length ≤ 210) :
    push buf l = (buf ++ l.filter (fun o => o.flags.testBit 0 && !o.flags.testBit 7), false) := by
  induction l generalizing buf with
  | nil => simp [push]
  | cons o r ih =>
    unfold push
    have hs : skipObs o = !(o.flags.testBit 0 && !o.flags.testBit 7) := by
      unfold skipObs; cases o.flags.testBit 0 <;> cases o.flags.testBit 7 <;> rfl
    rw [List.filter_cons] at h ⊢
    cases hp : (o.flags.testBit 0 && !o.flags.testBit 7) with
    | false =>
      rw [hp] at h hs
      rw [hs]
      simp only [Bool.not_false, if_true, Bool.false_eq_true, if_false] at h ⊢
      exact ih buf h
    | true =>
      rw [hp] at h hs
      rw [hs]
      simp only [Bool.not_true, if_true, Bool.false_eq_true, if_false, List.length_cons] at h ⊢
      have hb : decide (buf.length ≥ maxObs) = false := by simp only [maxObs, decide_eq_false_iff_not]; omega
      rw [hb]
      by_cases hl : (buf ++ [o]).length = maxObs
      · rw [if_pos hl]
        simp only [maxObs, List.length_append, List.length_singleton] at hl
        have : (r.filter fun o => o.flags.testBit 0 && !o.flags.testBit 7) = [] :=
          List.length_eq_zero_iff.mp (by omega)
        rw [this]
      · rw [if_neg hl, ih (buf ++ [o]) (by simp only [List.length_append, List.length_singleton]; omega)]
        simp

/-- how full the buffer can be while a sequence is in progress -/
def room (n : Nat) : Nat := 14 * (seqCounter n - if seqSize n < seqCounter n then 1 else 0)

/-- invariant of the assembly -/
structure Inv (s : State) : Prop where
  fill : s.buf ≠ [] → s.buf.length ≤ room s.nObs ∧ seqCounter s.nObs ≠ seqSize s.nObs ∧ 1 ≤ seqSize s.nObs ∧ s.nObs < 256
  good : s.bad = false

theorem Inv.le {s : State} (h : Inv s) : s.buf.length ≤ 210 := by
  by_cases hb : s.buf = []
  · simp [hb]
  · obtain ⟨h1, h2, h3, h4⟩ := h.fill hb
    unfold room seqCounter seqSize at *
    split at h1 <;> omega

/-- may the message be appended to the pending sequence? -/
def Fits (s : State) (m : ObsIn) : Prop :=
  s.buf = [] ∨ (seqSize m.nObs = seqSize s.nObs ∧ seqCounter s.nObs < seqCounter m.nObs)

theorem fits_room {s : State} {m : ObsIn} (hi : Inv s) (hm : WF m) (hf : Fits s m) :
    s.buf.length + (usable m).length ≤ 210 ∧
      (seqCounter m.nObs ≠ seqSize m.nObs → s.buf.length + (usable m).length ≤ room m.nObs) := by
  have hu := usable_le hm
  have ha := hm.announced
  have hb := hm.byte
  by_cases he : s.buf = []
  · rw [he]
    simp only [List.length_nil, Nat.zero_add]
    refine ⟨by omega, fun hn => ?_⟩
    unfold room seqCounter seqSize at *
    split <;> omega
  · obtain ⟨h1, h2, h3, h4⟩ := hi.fill he
    obtain ⟨e1, e2⟩ := hf.resolve_left he
    unfold room seqCounter seqSize at *
    constructor
    · split at h1 <;> omega
    · intro hn
      split at h1 <;> split <;> omega

theorem accept_eq {s : State} {m : ObsIn} (hi : Inv s) (hm : WF m) (hf : Fits s m) :
    accept s m = (if seqCounter m.nObs = seqSize m.nObs
      then ({ s with buf := [], t := m.t, nObs := m.nObs }, [⟨s.cfg, s.sender, m.t, s.buf ++ usable m⟩])
      else ({ s with buf := s.buf ++ usable m, t := m.t, nObs := m.nObs }, [])) := by
  have hn := nMeas_wf hm
  have hp := push_room m.obs s.buf (fits_room hi hm hf).1
  have hb := hi.good
  unfold accept
  rw [hn.1, List.take_length]
  simp only [hp, hb, flush, Nat.lt_irrefl, decide_false, Bool.or_false]
  rfl

theorem accept_inv {s : State} {m : ObsIn} (hi : Inv s) (hm : WF m) (hf : Fits s m) : Inv (accept s m).1 := by
  rw [accept_eq hi hm hf]
  have hr := fits_room hi hm hf
  have ha := hm.announced
  have hb := hm.byte
  split
  · exact ⟨by simp, hi.good⟩
  · rename_i h
    refine ⟨fun _ => ⟨?_, h, ?_, hb⟩, hi.good⟩
    · simpa using hr.2 h
    · show 1 ≤ seqSize m.nObs
      unfold seqSize; omega

theorem Inv.cleared {s : State} (hi : Inv s) (c : Nat) : Inv { s with buf := [], sender := c } := ⟨by simp, hi.good⟩

theorem obsSeq_inv {s : State} {m : ObsIn} (hi : Inv s) (hm : WF m) : Inv (obsSeq s m).1 := by
  unfold obsSeq
  have hc : Inv { s with buf := [] } := hi.cleared s.sender
  by_cases h0 : s.buf.length > 0
  · rw [if_pos h0]
    simp only
    by_cases h1 : diffMs m.t s.t < 0
    · rw [if_pos h1]; exact hi
    · rw [if_neg h1]
      by_cases h2 : diffMs m.t s.t > 0
      · rw [if_pos h2]
        exact accept_inv hc hm (Or.inl rfl)
      · rw [if_neg h2]
        by_cases h3 : seqSize m.nObs ≠ seqSize s.nObs ∨ seqCounter m.nObs ≤ seqCounter s.nObs
        · rw [if_pos h3]; exact hc
        · rw [if_neg h3]
          exact accept_inv hi hm (Or.inr (by omega))
  · rw [if_neg h0]
    exact accept_inv hi hm (Or.inl (List.length_eq_zero_iff.mp (by omega)))

theorem obsCb_inv {s : State} {m : ObsIn} (hi : Inv s) (hm : WF m) : Inv (obsCb s m).1 := by
  unfold obsCb
  split
  · exact obsSeq_inv (s := { s with buf := [], sender := m.sender }) (hi.cleared _) hm
  · exact obsSeq_inv hi hm

theorem step_inv {s : State} {e : Event} (hi : Inv s) (he : ∀ m, e = .obs m → WF m) : Inv (step s e).1 := by
  cases e with
  | obs m => exact obsCb_inv hi (he m rfl)
  | other i => exact ⟨hi.fill, hi.good⟩
  | config c => exact ⟨hi.fill, hi.good⟩

theorem run_inv (evs : List Event) (s : State) (hi : Inv s) (hw : ∀ m, .obs m ∈ evs → WF m) : Inv (run s evs).1 := by
  induction evs generalizing s with
  | nil => exact hi
  | cons e r ih =>
    exact ih _ (step_inv hi (fun m hm => hw m (by simp [hm]))) (fun m hm => hw m (by simp [hm]))

theorem init_inv (sender : Nat) (t : SbpTime) (n : Nat) : Inv (State.init sender t n) := ⟨by simp [State.init], rfl⟩

/-! ### what a step does with the observations -/

theorem emitted_append (a b : List Epoch) : emitted (a ++ b) = emitted a ++ emitted b := by simp [emitted]
theorem tag_append (t : SbpTime) (i : Nat) (a b : List SbpObs) : tag t i (a ++ b) = tag t i a ++ tag t i b := by simp [tag]

theorem emitted_single (c : Config) (i : Nat) (t : SbpTime) (l : List SbpObs) : emitted [⟨c, i, t, l⟩] = tag t i l := by
  simp [emitted]

/-- accepting a message into a buffer whose content has the same time and sender -/
theorem accept_tags {s : State} {m : ObsIn} (hi : Inv s) (hm : WF m) (hf : Fits s m) (ht : s.buf = [] ∨ s.t = m.t) :
    emitted (accept s m).2 ++ pending (accept s m).1 = pending s ++ tag m.t s.sender (usable m) := by
  rw [accept_eq hi hm hf]
  have hp : tag m.t s.sender s.buf = pending s := by
    rcases ht with h | h
    · simp [pending, h, tag]
    · simp [pending, h]
  split
  · simp only [emitted_single, tag_append, hp, pending]; simp [tag]
  · simp only [pending, tag_append, hp]; simp [emitted]

theorem sbpTime_eq {a b : SbpTime} (h : diffMs a b = 0) (ha : a.tow < 604800000) (hb : b.tow < 604800000) : a = b := by
  obtain ⟨w, t⟩ := a
  obtain ⟨w', t'⟩ := b
  unfold diffMs at h
  simp only at h ha hb
  have : w = w' := by omega
  subst this
  have : t = t' := by omega
  rw [this]

theorem obsSeq_tags {s : State} {m : ObsIn} (hi : Inv s) (hm : WF m) (hs : s.sender = m.sender)
    (ht : s.buf ≠ [] → s.t.tow < 604800000) (htm : m.t.tow < 604800000) :
    emitted (obsSeq s m).2 ++ pending (obsSeq s m).1 =
      pending s ++ (if Rejected s m then [] else tag m.t m.sender (usable m)) := by
  have hc : Inv { s with buf := [] } := hi.cleared s.sender
  unfold obsSeq
  by_cases h0 : s.buf.length > 0
  · have hne : s.buf ≠ [] := by intro h; simp [h] at h0
    rw [if_pos h0]
    simp only
    by_cases h1 : diffMs m.t s.t < 0
    · rw [if_pos h1, if_pos ⟨hs, hne, Or.inl h1⟩]; simp [emitted]
    · rw [if_neg h1]
      by_cases h2 : diffMs m.t s.t > 0
      · rw [if_pos h2, if_neg (by rintro ⟨-, -, h | h⟩ <;> omega)]
        have := accept_tags (s := { s with buf := [] }) hc hm (Or.inl rfl) (Or.inl rfl)
        simp only [flush, emitted_append, List.append_assoc]
        rw [this, emitted_single]
        simp only [pending, hs, tag, List.map_nil, List.nil_append]
      · rw [if_neg h2]
        have hz : diffMs m.t s.t = 0 := by omega
        by_cases h3 : seqSize m.nObs ≠ seqSize s.nObs ∨ seqCounter m.nObs ≤ seqCounter s.nObs
        · rw [if_pos h3, if_pos ⟨hs, hne, Or.inr ⟨hz, by omega⟩⟩]
          simp only [flush, emitted_single, pending]
          simp [tag]
        · rw [if_neg h3, if_neg (by rintro ⟨-, -, h | h⟩ <;> omega), ← hs]
          exact accept_tags hi hm (Or.inr (by omega)) (Or.inr (sbpTime_eq hz htm (ht hne)).symm)
  · rw [if_neg h0]
    have he : s.buf = [] := List.length_eq_zero_iff.mp (by omega)
    rw [if_neg (by rintro ⟨-, h, -⟩; exact h he), ← hs]
    exact accept_tags hi hm (Or.inl he) (Or.inl he)

theorem obsCb_tags {s : State} {m : ObsIn} (hi : Inv s) (hm : WF m)
    (ht : s.buf ≠ [] → s.t.tow < 604800000) (htm : m.t.tow < 604800000) :
    emitted (obsCb s m).2 ++ pending (obsCb s m).1 =
      pending s ++ (if Rejected s m then [] else tag m.t m.sender (usable m)) := by
  unfold obsCb
  by_cases h : s.sender ≠ m.sender
  · rw [if_pos h]
    have := obsSeq_tags (s := { s with buf := [], sender := m.sender }) (m := m) (hi.cleared _) hm rfl (by simp) htm
    rw [if_neg (by rintro ⟨-, h, -⟩; exact h rfl)] at this
    simp only [flush, emitted_append, List.append_assoc]
    rw [this, emitted_single, if_neg (by rintro ⟨h', -⟩; exact h h')]
    simp [pending, tag]
  · rw [if_neg h]
    exact obsSeq_tags hi hm (by simpa using h) ht htm

/-- after an observation message: the sender is the message's sender; a nonempty buffer has a legal time -/
theorem accept_sender (s : State) (m : ObsIn) : (accept s m).1.sender = s.sender ∧ (accept s m).1.t = m.t := by
  unfold accept
  simp only
  split <;> exact ⟨rfl, rfl⟩

theorem obsSeq_sender (s : State) (m : ObsIn) : (obsSeq s m).1.sender = s.sender ∧
    ((obsSeq s m).1.t = m.t ∨ (obsSeq s m).1.t = s.t ∧ ((obsSeq s m).1.buf ≠ [] → s.buf ≠ [])) := by
  unfold obsSeq
  split
  · simp only
    split
    · exact ⟨rfl, Or.inr ⟨rfl, id⟩⟩
    · split
      · exact ⟨(accept_sender (flush s).1 m).1, Or.inl (accept_sender (flush s).1 m).2⟩
      · split
        · exact ⟨rfl, Or.inr ⟨rfl, by simp [flush]⟩⟩
        · exact ⟨(accept_sender s m).1, Or.inl (accept_sender s m).2⟩
  · exact ⟨(accept_sender s m).1, Or.inl (accept_sender s m).2⟩

theorem obsCb_sender (s : State) (m : ObsIn) : (obsCb s m).1.sender = m.sender ∧
    ((obsCb s m).1.t = m.t ∨ (obsCb s m).1.t = s.t ∧ ((obsCb s m).1.buf ≠ [] → s.buf ≠ [])) := by
  unfold obsCb
  split
  · obtain ⟨h1, h2⟩ := obsSeq_sender { (flush s).1 with sender := m.sender } m
    refine ⟨h1, ?_⟩
    rcases h2 with h | ⟨h, h'⟩
    · exact Or.inl h
    · exact Or.inr ⟨h, fun hb => absurd rfl (h' hb)⟩
  · rename_i h
    obtain ⟨h1, h2⟩ := obsSeq_sender s m
    exact ⟨h1.trans (by simpa using h), h2⟩

/-! ### C28 -/

/-- **C28** Whatever happened before (observation messages as the SBP framing delivers them and announcing at least one
message, other messages, configuration changes): no access outside the buffer or the message happens, and neither the
buffer nor any epoch handed on holds more than 210 observations. -/
theorem C28_bounded (sender : Nat) (t : SbpTime) (n : Nat) (evs : List Event) (hw : ∀ m, .obs m ∈ evs → WF m) :
    (run (State.init sender t n) evs).1.bad = false ∧ (run (State.init sender t n) evs).1.buf.length ≤ 210 ∧
      ∀ e ∈ (run (State.init sender t n) evs).2, e.obs.length ≤ 210 := by
  have hi := run_inv evs _ (init_inv sender t n) hw
  refine ⟨hi.good, hi.le, ?_⟩
  have key : ∀ (s : State), Inv s → ∀ evs : List Event, (∀ m, .obs m ∈ evs → WF m) →
      ∀ e ∈ (run s evs).2, e.obs.length ≤ 210 := by
    intro s hs evs
    induction evs generalizing s with
    | nil => intro _ e he; simp [run] at he
    | cons ev r ih =>
      intro hw e he
      unfold run at he
      simp only [List.mem_append] at he
      rcases he with he | he
      · cases ev with
        | other i => simp [step] at he
        | config c => simp [step] at he
        | obs m =>
          have hm := hw m (by simp)
          have hacc : ∀ (s : State), Inv s → Fits s m → ∀ e ∈ (accept s m).2, e.obs.length ≤ 210 := by
            intro s hs hf e he
            rw [accept_eq hs hm hf] at he
            have := (fits_room hs hm hf).1
            split at he
            · simp only [List.mem_singleton] at he
              subst he
              simpa using this
            · simp at he
          have hseq : ∀ (s : State), Inv s → ∀ e ∈ (obsSeq s m).2, e.obs.length ≤ 210 := by
            intro s hs e he
            unfold obsSeq at he
            by_cases h0 : s.buf.length > 0
            · rw [if_pos h0] at he
              simp only at he
              by_cases h1 : diffMs m.t s.t < 0
              · rw [if_pos h1] at he; simp at he
              · rw [if_neg h1] at he
                by_cases h2 : diffMs m.t s.t > 0
                · rw [if_pos h2] at he
                  simp only [List.mem_append] at he
                  rcases he with he | he
                  · simp only [flush, List.mem_singleton] at he
                    subst he
                    exact hs.le
                  · exact hacc { s with buf := [] } (hs.cleared s.sender) (Or.inl rfl) e he
                · rw [if_neg h2] at he
                  by_cases h3 : seqSize m.nObs ≠ seqSize s.nObs ∨ seqCounter m.nObs ≤ seqCounter s.nObs
                  · rw [if_pos h3] at he
                    simp only [flush, List.mem_singleton] at he
                    subst he
                    exact hs.le
                  · rw [if_neg h3] at he
                    exact hacc s hs (Or.inr (by omega)) e he
            · rw [if_neg h0] at he
              exact hacc s hs (Or.inl (List.length_eq_zero_iff.mp (by omega))) e he
          simp only [step] at he
          unfold obsCb at he
          split at he
          · simp only [List.mem_append] at he
            rcases he with he | he
            · simp only [flush, List.mem_singleton] at he
              subst he
              exact hs.le
            · exact hseq { s with buf := [], sender := m.sender } (hs.cleared m.sender) e he
          · exact hseq s hs e he
      · exact ih _ (step_inv hs (fun m hm => hw m (by simp [hm]))) (fun m hm => hw m (by simp [hm])) e he
  exact key _ (init_inv sender t n) evs hw

theorem run_tags (evs : List Event) (s : State) (hi : Inv s) (hw : ∀ m, .obs m ∈ evs → WF m ∧ m.t.tow < 604800000)
    (ht : s.buf ≠ [] → s.t.tow < 604800000) (last : Option Nat) (hl : s.buf ≠ [] → last = some s.sender)
    (hs : SameStation last evs) :
    emitted (run s evs).2 ++ pending (run s evs).1 = pending s ++ accepted s evs := by
  induction evs generalizing s last with
  | nil => simp [run, accepted, emitted]
  | cons e r ih =>
    have hw' : ∀ m, .obs m ∈ r → WF m ∧ m.t.tow < 604800000 := fun m hm => hw m (by simp [hm])
    have hi' : Inv (step s e).1 := step_inv hi (fun m hm => (hw m (by simp [hm])).1)
    unfold run
    simp only [emitted_append, List.append_assoc]
    cases e with
    | obs m =>
      obtain ⟨hm, htm⟩ := hw m (by simp)
      have hsd := obsCb_sender s m
      rw [ih (step s (.obs m)).1 hi' hw' (by
          intro hb
          rcases hsd.2 with h | ⟨h, h'⟩
          · simp only [step, h]; exact htm
          · simp only [step, h]; exact ht (h' hb)) (some m.sender) (fun _ => by simp only [step, hsd.1]) hs]
      rw [← List.append_assoc]
      simp only [step, accepted]
      rw [obsCb_tags hi hm ht htm, List.append_assoc]
    | other i =>
      obtain ⟨hs1, hs2⟩ := hs
      rw [ih (step s (.other i)).1 hi' hw' ht last (fun hb => by
          have := hl hb
          rw [this]; simp only [step, hs1 _ this]) hs2]
      simp only [step, accepted, emitted, List.flatMap_nil, List.nil_append]
      congr 1
      by_cases hb : s.buf = []
      · simp [pending, hb, tag]
      · simp [pending, hs1 _ (hl hb)]
    | config c =>
      rw [ih (step s (.config c)).1 hi' hw' ht last hl hs]
      simp only [step, accepted, emitted, List.flatMap_nil, List.nil_append]
      rfl

theorem accepted_sublist (evs : List Event) (s : State) : (accepted s evs).Sublist (received evs) := by
  induction evs generalizing s with
  | nil => simp [accepted]
  | cons e r ih =>
    cases e with
    | obs m =>
      simp only [accepted, received, List.flatMap_cons]
      apply List.Sublist.append
      · split
        · exact List.nil_sublist _
        · exact List.Sublist.refl _
      · exact ih _
    | other i => simpa [accepted, received] using ih _
    | config c => simpa [accepted, received] using ih _

/-- **C28** No fabrication, duplication, reordering or mixing: the observations handed on for encoding, each with the time
and the sender of its epoch, form a subsequence of the usable observations received, each with the time and the sender of
its own message.  (Assumes that other messages do not come from another station, see `C28_sender_mix_bug`.) -/
theorem C28_no_mixing (sender : Nat) (t : SbpTime) (n : Nat) (evs : List Event)
    (hw : ∀ m, .obs m ∈ evs → WF m ∧ m.t.tow < 604800000) (hs : SameStation none evs) :
    (emitted (run (State.init sender t n) evs).2).Sublist (received evs) := by
  have h := run_tags evs _ (init_inv sender t n) hw (by simp [State.init]) none (by simp [State.init]) hs
  have h0 : pending (State.init sender t n) = [] := by simp [pending, State.init, tag]
  rw [h0, List.nil_append] at h
  exact (List.sublist_append_left _ _).trans (h ▸ accepted_sublist evs _)

/-- **C28** Nothing is lost otherwise: what was emitted together with what is still pending is exactly what the messages
carried that were not rejected, and a message is rejected only if it is older than the pending epoch of its own station
or breaks its sequence (other total, or number not increasing). -/
theorem C28_conservation (sender : Nat) (t : SbpTime) (n : Nat) (evs : List Event)
    (hw : ∀ m, .obs m ∈ evs → WF m ∧ m.t.tow < 604800000) (hs : SameStation none evs) :
    emitted (run (State.init sender t n) evs).2 ++ pending (run (State.init sender t n) evs).1 =
      accepted (State.init sender t n) evs := by
  have h := run_tags evs _ (init_inv sender t n) hw (by simp [State.init]) none (by simp [State.init]) hs
  have h0 : pending (State.init sender t n) = [] := by simp [pending, State.init, tag]
  rwa [h0, List.nil_append] at h

/-! ### complete sequences -/

theorem seq_tail (k : Nat) (sender : Nat) (t : SbpTime) (evs : List Event) :
    ∀ (done : List ObsIn) (s : State), Inv s → Sequence sender t (done ++ obsOf evs) → (done ++ obsOf evs).length = k →
      done ≠ [] → obsOf evs ≠ [] → s.sender = sender → s.t = t → seqCounter s.nObs = done.length → seqSize s.nObs = k →
      s.buf = done.flatMap usable → (∀ i, Event.other i ∈ evs → i = sender) →
      ∃ e, (run s evs).2 = [e] ∧ e.sender = sender ∧ e.t = t ∧ e.obs = (done ++ obsOf evs).flatMap usable ∧
        (run s evs).1.buf = [] := by
  induction evs with
  | nil => intro done s _ _ _ _ h; simp [obsOf] at h
  | cons ev r ih =>
    intro done s hi hq hk hd he hss hst hsc hsz hb ho
    unfold run
    cases ev with
    | other i =>
      have : i = sender := ho i (by simp)
      subst this
      obtain ⟨e, h1, h2⟩ := ih done { s with sender := i } ⟨hi.fill, hi.good⟩ hq hk hd he rfl hst hsc hsz hb
        (fun j hj => ho j (by simp [hj]))
      exact ⟨e, by simpa [step] using h1, h2⟩
    | config c =>
      obtain ⟨e, h1, h2⟩ := ih done { s with cfg := c } ⟨hi.fill, hi.good⟩ hq hk hd he hss hst hsc hsz hb
        (fun j hj => ho j (by simp [hj]))
      exact ⟨e, by simpa [step] using h1, h2⟩
    | obs m =>
      have eobs : obsOf (.obs m :: r) = m :: obsOf r := rfl
      rw [eobs] at hq hk
      have hmem : m ∈ done ++ m :: obsOf r := by simp
      have hm := hq.wf m hmem
      obtain ⟨es, et⟩ := hq.same m hmem
      obtain ⟨n1, n2⟩ := hq.numbered done.length m (by simp)
      have hkc : seqCounter m.nObs = done.length + 1 := by unfold seqCounter; omega
      have hks : seqSize m.nObs = k := by unfold seqSize; omega
      have hfit : Fits s m := Or.inr ⟨by rw [hks, hsz], by omega⟩
      have hcb : obsCb s m = accept s m := by
        unfold obsCb
        rw [if_neg (by rw [hss, es]; simp)]
        unfold obsSeq
        split
        · have hz : diffMs m.t s.t = 0 := by rw [et, hst]; unfold diffMs; omega
          simp only
          rw [if_neg (by omega), if_neg (by omega), if_neg (by omega)]
        · rfl
      have hacc := accept_eq hi hm hfit
      simp only [step, hcb]
      have hlen : done.length + (obsOf r).length + 1 = k := by simp at hk; omega
      have happ : done ++ m :: obsOf r = (done ++ [m]) ++ obsOf r := by simp
      by_cases hr : obsOf r = []
      · have hl : (obsOf r).length = 0 := by simp [hr]
        rw [if_pos (by omega)] at hacc
        rw [hacc]
        have hquiet : ∀ (l : List Event) (s : State), obsOf l = [] → (run s l).2 = [] ∧ (run s l).1.buf = s.buf := by
          intro l
          induction l with
          | nil => intro s _; exact ⟨rfl, rfl⟩
          | cons e l ih =>
            intro s hl
            cases e with
            | obs m => simp [obsOf] at hl
            | other i => simpa [run, step] using ih { s with sender := i } hl
            | config c => simpa [run, step] using ih { s with cfg := c } hl
        obtain ⟨q1, q2⟩ := hquiet r { s with buf := [], t := m.t, nObs := m.nObs } hr
        refine ⟨_, by rw [q1, List.append_nil], hss, et, ?_, by simpa using q2⟩
        simp [eobs, hr, hb]
      · have hl : (obsOf r).length ≠ 0 := by simpa using hr
        rw [if_neg (by omega)] at hacc
        have hi' : Inv (accept s m).1 := accept_inv hi hm hfit
        rw [hacc] at hi' ⊢
        obtain ⟨e, h1, h2, h3, h4, h5⟩ := ih (done ++ [m]) _ hi' (by rw [← happ]; exact hq) (by rw [← happ]; exact hk)
          (by simp) hr hss et (by simp [hkc]) hks (by simp [hb]) (fun j hj => ho j (by simp [hj]))
        exact ⟨e, by simpa using h1, h2, h3, by rw [h4, eobs, happ], h5⟩

/-- the same from any state with the invariant -/
theorem complete_of_inv (sender : Nat) (t : SbpTime) (m : ObsIn) (evs : List Event) (hq : Sequence sender t (m :: obsOf evs))
    (ho : ∀ i, Event.other i ∈ evs → i = sender) (s : State) (hi : Inv s)
    (hp : s.buf = [] ∨ s.sender ≠ sender ∨ diffMs t s.t > 0) :
    ∃ pre e, (run s (.obs m :: evs)).2 = pre ++ [e] ∧ e.sender = sender ∧ e.t = t ∧
      e.obs = (m :: obsOf evs).flatMap usable ∧ (run s (.obs m :: evs)).1.buf = [] ∧ emitted pre = pending s := by
  have hmem : m ∈ m :: obsOf evs := by simp
  have hm := hq.wf m hmem
  obtain ⟨es, et⟩ := hq.same m hmem
  obtain ⟨n1, n2⟩ := hq.numbered 0 m (by simp)
  simp only [List.length_cons] at n2
  -- the first message
  have key : ∃ (s0 : State) (pre : List Epoch), Inv s0 ∧ s0.buf = [] ∧ s0.sender = sender ∧ emitted pre = pending s ∧
      obsCb s m = ((accept s0 m).1, pre ++ (accept s0 m).2) := by
    unfold obsCb
    by_cases h1 : s.sender ≠ m.sender
    · rw [if_pos h1]
      refine ⟨{ s with buf := [], sender := m.sender }, (flush s).2, hi.cleared _, rfl, es, emitted_single _ _ _ _, ?_⟩
      unfold obsSeq
      simp [flush]
    · rw [if_neg h1]
      have hse : s.sender = m.sender := by simpa using h1
      unfold obsSeq
      by_cases h2 : s.buf.length > 0
      · rw [if_pos h2]
        have h3 : diffMs m.t s.t > 0 := by
          rw [et]
          rcases hp with h | h | h
          · simp [h] at h2
          · exact absurd (hse.trans es) h
          · exact h
        simp only
        rw [if_neg (by omega), if_pos h3]
        exact ⟨{ s with buf := [] }, (flush s).2, hi.cleared s.sender, rfl, hse.trans es, emitted_single _ _ _ _, rfl⟩
      · rw [if_neg h2]
        have he : s.buf = [] := List.length_eq_zero_iff.mp (by omega)
        exact ⟨s, [], hi, he, hse.trans es, by simp [pending, he, tag, emitted], rfl⟩
  obtain ⟨s0, pre, hi0, hb0, hs0, hpre, hcb⟩ := key
  have hfit : Fits s0 m := Or.inl hb0
  have hacc := accept_eq hi0 hm hfit
  have hi1 := accept_inv hi0 hm hfit
  have hk1 : seqCounter m.nObs = 1 := by unfold seqCounter; omega
  have hk2 : seqSize m.nObs = (obsOf evs).length + 1 := n2
  unfold run
  simp only [step, hcb]
  by_cases hr : obsOf evs = []
  · have hl : (obsOf evs).length = 0 := by simp [hr]
    rw [if_pos (by omega)] at hacc
    rw [hacc]
    have hquiet : ∀ (l : List Event) (s : State), obsOf l = [] → (run s l).2 = [] ∧ (run s l).1.buf = s.buf := by
      intro l
      induction l with
      | nil => intro s _; exact ⟨rfl, rfl⟩
      | cons e l ih =>
        intro s hl
        cases e with
        | obs m => simp [obsOf] at hl
        | other i => simpa [run, step] using ih { s with sender := i } hl
        | config c => simpa [run, step] using ih { s with cfg := c } hl
    obtain ⟨q1, q2⟩ := hquiet evs { s0 with buf := [], t := m.t, nObs := m.nObs } hr
    refine ⟨pre, _, by rw [q1, List.append_nil], hs0, et, ?_, by simpa using q2, hpre⟩
    simp [hr, hb0]
  · have hl : (obsOf evs).length ≠ 0 := by simpa using hr
    rw [if_neg (by omega)] at hacc
    rw [hacc] at hi1 ⊢
    obtain ⟨e, h1, h2, h3, h4, h5⟩ := seq_tail ((obsOf evs).length + 1) sender t evs [m] _ hi1 (by simpa using hq)
      (by simp) (by simp) hr hs0 et (by simp [hk1]) hk2 (by simp [hb0]) ho
    exact ⟨pre, e, by simp [h1], h2, h3, by simpa using h4, h5, hpre⟩

/-- **C28** A complete sequence gives exactly one epoch with everything: in any state reached before, when the messages
0..k-1 of k of one station and one time arrive in order (with configuration changes and other messages of that station
between them), and what was pending belongs to another station or an older time, then the pending observations (if any)
are handed on first, followed by one epoch with exactly the usable observations of the sequence in order, and nothing
remains pending. -/
theorem C28_complete (init : Nat × SbpTime × Nat) (before : List Event) (hw : ∀ m, .obs m ∈ before → WF m)
    (sender : Nat) (t : SbpTime) (m : ObsIn) (evs : List Event) (hq : Sequence sender t (m :: obsOf evs))
    (ho : ∀ i, Event.other i ∈ evs → i = sender) (s : State) (hs : s = (run (State.init init.1 init.2.1 init.2.2) before).1)
    (hp : s.buf = [] ∨ s.sender ≠ sender ∨ diffMs t s.t > 0) :
    ∃ pre e, (run s (.obs m :: evs)).2 = pre ++ [e] ∧ e.sender = sender ∧ e.t = t ∧
      e.obs = (m :: obsOf evs).flatMap usable ∧ (run s (.obs m :: evs)).1.buf = [] ∧ emitted pre = pending s := by
  exact complete_of_inv sender t m evs hq ho s (by rw [hs]; exact run_inv before _ (init_inv _ _ _) hw) hp

/-! ### witnesses -/

def exObs (sat : Nat) (flags : Nat) : SbpObs := ⟨sat, .gps_l1ca, 1100000000, 5, 6, 7, 8, 160, 9, flags⟩
def exMsg (sender nObs : Nat) (tow : Nat) (obs : List SbpObs) : ObsIn :=
  ⟨sender, ⟨2100, tow⟩, nObs, 11 + 17 * obs.length, obs⟩
def exInit : State := State.init 0 ⟨0, 0⟩ 0

/-- the hypotheses are met: a sequence of two messages with an unusable observation in between -/
example : Sequence 7 ⟨2100, 5000⟩ [exMsg 7 0x20 5000 [exObs 1 15, exObs 2 14], exMsg 7 0x21 5000 [exObs 3 143, exObs 4 15]] := by
  refine ⟨?_, ?_, ?_⟩
  · intro m hm
    simp only [List.mem_cons, List.not_mem_nil, or_false] at hm
    rcases hm with rfl | rfl <;> exact ⟨by decide, by decide, by decide, by decide⟩
  · intro m hm
    simp only [List.mem_cons, List.not_mem_nil, or_false] at hm
    rcases hm with rfl | rfl <;> exact ⟨rfl, rfl⟩
  · intro i m hm
    match i, hm with
    | 0, hm => simp at hm; subst hm; decide
    | 1, hm => simp at hm; subst hm; decide
example : ((run exInit [.obs (exMsg 7 0x20 5000 [exObs 1 15, exObs 2 14]), .other 7,
    .obs (exMsg 7 0x21 5000 [exObs 3 143, exObs 4 15])]).2.filter (fun e => !e.obs.isEmpty)).map (fun e => (e.sender, e.t.tow, e.obs.map (·.sat))) =
    [(7, 5000, [1, 4])] := by decide +kernel
/-- an incomplete sequence is sent when the next epoch starts; an older message is dropped -/
example : ((run exInit [.obs (exMsg 7 0x20 5000 [exObs 1 15]), .obs (exMsg 7 0x20 4000 [exObs 2 15]),
    .obs (exMsg 7 0x20 6000 [exObs 3 15])]).2.filter (fun e => !e.obs.isEmpty)).map (fun e => (e.sender, e.t.tow, e.obs.map (·.sat))) =
    [(7, 5000, [1])] := by decide +kernel

/-- C28 does not hold in full: a base position message of another station, arriving while an epoch is pending, makes the
converter attribute the pending observations to that station and add that station's observations to the same epoch. -/
theorem C28_sender_mix_bug : ∃ a b, a.sender = 7 ∧ b.sender = 8 ∧ WF a ∧ WF b ∧
    ∃ e ∈ (run exInit [.obs a, .other 8, .obs b]).2, e.sender = 8 ∧ e.obs = a.obs ++ b.obs ∧ a.obs ≠ [] ∧ b.obs ≠ [] :=
  ⟨exMsg 7 0x20 5000 [exObs 1 15], exMsg 8 0x21 5000 [exObs 2 15], rfl, rfl, ⟨by decide, by decide, by decide, by decide⟩,
    ⟨by decide, by decide, by decide, by decide⟩, ⟨exInit.cfg, 8, ⟨2100, 5000⟩, [exObs 1 15, exObs 2 15]⟩, by decide +kernel, rfl, rfl, by simp [exMsg], by simp [exMsg]⟩

/-- C28 does not hold in full: a header announcing a sequence of zero messages (which never completes) lets the same
epoch grow to 16 messages of 14 observations and overruns the buffer of 210. -/
theorem C28_zero_size_bug : ∃ ms : List ObsIn, (∀ m ∈ ms, m.len = 11 + 17 * m.obs.length ∧ m.len ≤ 255 ∧ m.nObs < 16) ∧
    (run exInit (ms.map .obs)).1.bad = true ∧ 210 < (run exInit (ms.map .obs)).1.buf.length :=
  ⟨(List.range 16).map fun i => exMsg 7 i 5000 (List.replicate 14 (exObs 1 15)), by
    intro m hm
    simp only [List.mem_map, List.mem_range] at hm
    obtain ⟨i, hi, rfl⟩ := hm
    simp [exMsg, hi], by decide +kernel, by decide +kernel⟩

/-- C28 does not hold in full: the payload length is not checked; a payload shorter than the header is taken to contain
observations, which are read from beyond its end. -/
theorem C28_short_payload_bug : ∃ m : ObsIn, m.len = 10 ∧ m.obs = [] ∧ (run exInit [.obs m]).1.bad = true :=
  ⟨⟨7, ⟨2100, 5000⟩, 0x20, 10, []⟩, rfl, rfl, by decide +kernel⟩

end Verif.SbpRtcm
