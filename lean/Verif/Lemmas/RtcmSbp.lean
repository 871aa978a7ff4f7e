import Verif.Spec.RtcmSbp
import Verif.Lemmas.Num
import Mathlib.Tactic.Linarith
import Mathlib.Tactic.Ring
import Mathlib.Tactic.NormNum
import Mathlib.Data.List.Basic
/-! Lemmas on the observation buffer: every model function is a sequence of four elementary buffer operations. -/
namespace Verif.RtcmSbp
open Verif.RtcmSbp.Spec Verif.Time Verif.Msm

/-! ### the split -/

/-- messages sent for a buffer -/
def sendMsgs (s : State) : List ObsMsg :=
  let total := (1 + (if s.buf.length > 0 then (s.buf.length - 1) / obsPerMsg else 0)) % 256
  sendLoop s total total 0 0

theorem sendObservations_snd (s : State) : (sendObservations s).2 = (sendMsgs s).map .obs := rfl

theorem sendLoop_length (s : State) (total : Nat) (k m idx : Nat) : (sendLoop s total k m idx).length = k := by
  induction k generalizing m idx with
  | zero => rfl
  | succ k ih => simp [sendLoop, ih]

theorem sendLoop_get (s : State) (total : Nat) (k m idx i : Nat) (x : ObsMsg) (hidx : idx ≤ s.buf.length)
    (hx : (sendLoop s total k m idx)[i]? = some x) :
    x.sender = s.sender ∧ x.t = s.obsTime ∧ x.seq = ((total <<< 4) + (m + i)) % 256 ∧
    x.obs = (s.buf.drop (min (idx + 14 * i) s.buf.length)).take 14 := by
  induction k generalizing m idx i with
  | zero => simp [sendLoop] at hx
  | succ k ih =>
    cases i with
    | zero =>
      simp only [sendLoop, List.getElem?_cons_zero, Option.some.injEq] at hx
      subst hx
      refine ⟨rfl, rfl, rfl, ?_⟩
      simp only [obsPerMsg, Nat.mul_zero, Nat.add_zero, Nat.min_eq_left hidx]
      by_cases h : 14 ≤ s.buf.length - idx
      · rw [Nat.min_eq_left h]
      · rw [Nat.min_eq_right (by omega), List.take_of_length_le (by simp), List.take_of_length_le (by simp; omega)]
    | succ i =>
      simp only [sendLoop, List.getElem?_cons_succ] at hx
      obtain ⟨h1, h2, h3, h4⟩ := ih (m + 1) (idx + min obsPerMsg (s.buf.length - idx)) i (by omega) hx
      refine ⟨h1, h2, by rw [h3]; congr 2; omega, ?_⟩
      rw [h4]
      congr 2
      simp only [obsPerMsg]
      omega

theorem sendLoop_flat (s : State) (total : Nat) (k m idx : Nat) (h : s.buf.length - idx ≤ 14 * k) :
    (sendLoop s total k m idx).flatMap (·.obs) = s.buf.drop idx := by
  induction k generalizing m idx with
  | zero => simp only [sendLoop, List.flatMap_nil]; rw [List.drop_eq_nil_of_le (by omega)]
  | succ k ih =>
    simp only [sendLoop, List.flatMap_cons, obsPerMsg]
    rw [ih (m + 1) (idx + min 14 (s.buf.length - idx)) (by omega)]
    rw [← List.drop_drop, List.take_append_drop]

theorem wellSplit_sendMsgs (s : State) (h : s.buf.length ≤ 210) : WellSplit s.obsTime s.sender s.buf (sendMsgs s) := by
  obtain ⟨N, hN⟩ : ∃ N, N = (1 + (if s.buf.length > 0 then (s.buf.length - 1) / obsPerMsg else 0)) % 256 := ⟨_, rfl⟩
  have e : sendMsgs s = sendLoop s N N 0 0 := by rw [hN]; rfl
  have b1 : 1 ≤ N ∧ N ≤ 15 ∧ s.buf.length ≤ 14 * N ∧ (s.buf.length = 0 → N = 1) ∧ 14 * (N - 1) ≤ s.buf.length ∧
      (s.buf.length ≠ 0 → 14 * (N - 1) < s.buf.length) := by
    rw [hN]; simp only [obsPerMsg]; split <;> omega
  rw [e]
  have hl : (sendLoop s N N 0 0).length = N := sendLoop_length _ _ _ _ _
  refine ⟨?_, ?_, ?_, ?_, ?_, ?_, ?_⟩
  · rw [sendLoop_flat _ _ _ _ _ (by omega), List.drop_zero]
  · intro hn; rw [hn] at hl; simp at hl; omega
  · intro m hm
    obtain ⟨i, hi⟩ := List.mem_iff_getElem?.mp hm
    obtain ⟨-, -, -, ho⟩ := sendLoop_get s N N 0 0 i m (by omega) hi
    rw [ho, List.length_take]; omega
  · intro i m hm hlt
    obtain ⟨-, -, -, ho⟩ := sendLoop_get s N N 0 0 i m (by omega) hm
    rw [hl] at hlt
    rw [ho, List.length_take, List.length_drop]
    have : 14 * (i + 1) ≤ 14 * (N - 1) := by omega
    omega
  · intro m hm hne
    rw [hl] at hm
    obtain ⟨-, -, -, ho⟩ := sendLoop_get s N N 0 0 (N - 1) m (by omega) hm
    have hpos : s.buf.length ≠ 0 := by simpa using hne
    intro he
    have := congrArg List.length (ho.symm.trans he)
    rw [List.length_take, List.length_drop] at this
    simp at this; omega
  · intro i m hm
    obtain ⟨-, -, hs, -⟩ := sendLoop_get s N N 0 0 i m (by omega) hm
    have hi : i < N := by
      have := (List.getElem?_eq_some_iff.mp hm).1
      omega
    rw [hs, hl, Nat.shiftLeft_eq]
    omega
  · intro m hm
    obtain ⟨i, hi⟩ := List.mem_iff_getElem?.mp hm
    obtain ⟨h1, h2, -, -⟩ := sendLoop_get s N N 0 0 i m (by omega) hi
    exact ⟨h2, h1⟩

/-! ### elementary operations -/

/-- the part of the state the buffer operations touch -/
structure Core where
  buf : List SbpObs
  t : SbpTime
  sender : Nat

def State.core (s : State) : Core := ⟨s.buf, s.obsTime, s.sender⟩

def waitingC (c : Core) : List Tagged := c.buf.map fun o => ⟨c.t.tow, c.sender, o⟩

/-- A sequence of buffer operations from `c` to `c'`: `ps` are the observations appended (tagged with the time and sender in
force), `gs` the groups of messages sent.  `clr` tells whether dropping the buffer is allowed. -/
inductive Exec (clr : Prop) : Core → List Tagged → List (List ObsMsg) → Core → Prop
  | nil (c) : Exec clr c [] [] c
  | push {c ps gs c'} (o : SbpObs) (h : c.buf.length < 210) (r : Exec clr { c with buf := c.buf ++ [o] } ps gs c') :
      Exec clr c (⟨c.t.tow, c.sender, o⟩ :: ps) gs c'
  | send {c ps gs c'} (g : List ObsMsg) (h : WellSplit c.t c.sender c.buf g)
      (r : Exec clr { c with buf := [], t := ⟨0, 0⟩ } ps gs c') : Exec clr c ps (g :: gs) c'
  | clear {c ps gs c'} (h : clr) (r : Exec clr { c with buf := [], t := ⟨0, 0⟩ } ps gs c') : Exec clr c ps gs c'
  | retag {c ps gs c'} (t : SbpTime) (snd : Nat) (h : c.buf = [] ∨ (c.t.tow = t.tow ∧ c.sender = snd))
      (r : Exec clr { c with t := t, sender := snd } ps gs c') : Exec clr c ps gs c'

theorem Exec.trans {clr c ps gs c' ps' gs' c''} (h : Exec clr c ps gs c') (h' : Exec clr c' ps' gs' c'') :
    Exec clr c (ps ++ ps') (gs ++ gs') c'' := by
  induction h with
  | nil => exact h'
  | push o hb _ ih => exact .push o hb (ih h')
  | send g hg _ ih => exact .send g hg (ih h')
  | clear hc _ ih => exact .clear hc (ih h')
  | retag t s hr _ ih => exact .retag t s hr (ih h')

theorem Exec.mono {p q : Prop} (hpq : p → q) {c ps gs c'} (h : Exec p c ps gs c') : Exec q c ps gs c' := by
  induction h with
  | nil => exact .nil _
  | push o hb _ ih => exact .push o hb ih
  | send g hg _ ih => exact .send g hg ih
  | clear hc _ ih => exact .clear (hpq hc) ih
  | retag t s hr _ ih => exact .retag t s hr ih

theorem Exec.bounded {clr c ps gs c'} (h : Exec clr c ps gs c') (hb : c.buf.length ≤ 210) : c'.buf.length ≤ 210 := by
  induction h with
  | nil => exact hb
  | push o hl _ ih => exact ih (by simp; omega)
  | send g hg _ ih => exact ih (by simp)
  | clear hc _ ih => exact ih (by simp)
  | retag t s hr _ ih => exact ih hb

theorem tagsOf_append (a b : List ObsMsg) : tagsOf (a ++ b) = tagsOf a ++ tagsOf b := by simp [tagsOf]

theorem tagsOf_group {t snd obs g} (h : WellSplit t snd obs g) : tagsOf g = obs.map fun o => ⟨t.tow, snd, o⟩ := by
  rw [← h.complete]
  have : ∀ g' : List ObsMsg, (∀ m ∈ g', m.t = t ∧ m.sender = snd) →
      tagsOf g' = (g'.flatMap (·.obs)).map fun o => (⟨t.tow, snd, o⟩ : Tagged) := by
    intro g' hg
    induction g' with
    | nil => rfl
    | cons m r ih =>
      have hm := hg m (by simp)
      simp only [tagsOf, List.flatMap_cons, List.map_append] at ih ⊢
      rw [ih (fun x hx => hg x (by simp [hx])), hm.1, hm.2]
  exact this g h.tagged

theorem waitingC_retag {c : Core} {t : SbpTime} {snd : Nat} (h : c.buf = [] ∨ (c.t.tow = t.tow ∧ c.sender = snd)) :
    waitingC { c with t := t, sender := snd } = waitingC c := by
  rcases h with h | ⟨h1, h2⟩
  · simp [waitingC, h]
  · simp [waitingC, h1, h2]

/-- Nothing is invented, reordered or attributed to another time or station. -/
theorem Exec.sublist {clr c ps gs c'} (h : Exec clr c ps gs c') :
    (tagsOf gs.flatten ++ waitingC c').Sublist (waitingC c ++ ps) := by
  induction h with
  | nil => simp [tagsOf]
  | push o hb _ ih =>
    refine ih.trans ?_
    simp [waitingC]
  | @send c ps gs c' g hg _ ih =>
    rw [List.flatten_cons, tagsOf_append, tagsOf_group hg, List.append_assoc]
    exact List.Sublist.append (List.Sublist.refl _) (ih.trans (by simp [waitingC]))
  | clear hc _ ih =>
    exact ih.trans (by simp [waitingC])
  | retag t s hr _ ih => rwa [waitingC_retag hr] at ih

/-- Without buffer drops nothing is lost either. -/
theorem Exec.exact {c ps gs c'} (h : Exec False c ps gs c') :
    tagsOf gs.flatten ++ waitingC c' = waitingC c ++ ps := by
  induction h with
  | nil => simp [tagsOf]
  | push o hb _ ih => rw [ih]; simp [waitingC]
  | @send c ps gs c' g hg _ ih =>
    rw [List.flatten_cons, tagsOf_append, tagsOf_group hg, List.append_assoc, ih]
    simp [waitingC]
  | clear hc _ ih => exact hc.elim
  | retag t s hr _ ih => rwa [waitingC_retag hr] at ih

/-- every group is a correct split of some epoch -/
theorem Exec.groups {clr c ps gs c'} (h : Exec clr c ps gs c') : ∀ g ∈ gs, ∃ t snd obs, WellSplit t snd obs g := by
  induction h with
  | nil => simp
  | push o hb _ ih => exact ih
  | send g hg _ ih =>
    intro g' hg'
    rcases List.mem_cons.mp hg' with rfl | h
    · exact ⟨_, _, _, hg⟩
    · exact ih g' h
  | clear hc _ ih => exact ih
  | retag t s hr _ ih => exact ih

/-! ### model functions as executions -/

theorem obsOut_append (a b : List Out) : obsOut (a ++ b) = obsOut a ++ obsOut b := by simp [obsOut]
@[simp] theorem obsOut_map_obs (g : List ObsMsg) : obsOut (g.map .obs) = g := by
  induction g with
  | nil => rfl
  | cons m r ih => simp only [obsOut, List.map_cons, List.filterMap_cons] at ih ⊢; rw [ih]
@[simp] theorem obsOut_nil : obsOut [] = [] := rfl
@[simp] theorem obsOut_log (k r) : obsOut (.log k :: r) = obsOut r := rfl
@[simp] theorem obsOut_conv (k r) : obsOut (.converted k :: r) = obsOut r := rfl
@[simp] theorem obsOut_inv (k r) : obsOut (.baseObsInvalid k :: r) = obsOut r := rfl
theorem obsOut_validate (t r) : obsOut (validateBaseObs t r) = [] := by unfold validateBaseObs; split <;> rfl

/-- `s` goes to `s'` emitting the observation messages `out` by buffer operations appending `ps` -/
def Does (clr : Prop) (s : State) (ps : List Tagged) (out : List ObsMsg) (s' : State) : Prop :=
  ∃ gs, out = gs.flatten ∧ Exec clr s.core ps gs s'.core

theorem Does.refl {clr s s'} (h : s'.core = s.core) : Does clr s [] [] s' := ⟨[], rfl, h ▸ .nil _⟩
theorem Does.trans {clr s ps out s' ps' out' s''} (h : Does clr s ps out s') (h' : Does clr s' ps' out' s'') :
    Does clr s (ps ++ ps') (out ++ out') s'' := by
  obtain ⟨g, rfl, e⟩ := h
  obtain ⟨g', rfl, e'⟩ := h'
  exact ⟨g ++ g', by simp, e.trans e'⟩
theorem Does.congr {clr s ps out s' t t'} (h : Does clr s ps out s') (h1 : t.core = s.core) (h2 : t'.core = s'.core) :
    Does clr t ps out t' := by
  obtain ⟨g, rfl, e⟩ := h; exact ⟨g, rfl, h1 ▸ h2 ▸ e⟩
theorem Does.bounded {clr s ps out s'} (h : Does clr s ps out s') (hb : s.buf.length ≤ 210) : s'.buf.length ≤ 210 := by
  obtain ⟨g, -, e⟩ := h; exact e.bounded hb

theorem does_send (clr) (s : State) (h : s.buf.length ≤ 210) :
    Does clr s [] (obsOut (sendObservations s).2) (sendObservations s).1 :=
  ⟨[sendMsgs s], by rw [sendObservations_snd, obsOut_map_obs]; simp, .send _ (wellSplit_sendMsgs s h) (.nil _)⟩

theorem does_flush (clr) (s : State) (t : SbpTime) (snd : Nat) (w : List Out) (hw : obsOut w = [])
    (h : s.buf.length ≤ 210) :
    Does clr s [] (obsOut (flushIfOther t snd w s).2) { (flushIfOther t snd w s).1 with obsTime := t, sender := snd } := by
  unfold flushIfOther
  by_cases hc : s.buf.length ≠ 0 ∧ (s.obsTime.tow ≠ t.tow ∨ s.sender ≠ snd)
  · rw [if_pos hc]
    simp only [obsOut_append, hw, List.nil_append]
    have := (does_send clr s h).trans (ps' := []) (out' := [])
      (s'' := { (sendObservations s).1 with obsTime := t, sender := snd })
      ⟨[], rfl, .retag t snd (Or.inl rfl) (.nil _)⟩
    simpa using this
  · rw [if_neg hc]
    refine ⟨[], rfl, .retag t snd ?_ (.nil _)⟩
    by_cases hb : s.buf = []
    · exact Or.inl hb
    · refine Or.inr ?_
      have : s.buf.length ≠ 0 := by simpa using hb
      by_contra hx
      exact hc ⟨this, by simp only [State.core] at hx; tauto⟩

theorem warnCode_core (i s) : (warnCode i s).1.core = s.core := by unfold warnCode; split <;> rfl
theorem warnCode_out (i s) : obsOut (warnCode i s).2 = [] := by unfold warnCode; split <;> rfl
theorem legacyWarn_core (g a b c s) : (legacyWarn g a b c s).1.core = s.core := by
  unfold legacyWarn; split
  · exact warnCode_core _ _
  · rfl
theorem legacyWarn_out (g a b c s) : obsOut (legacyWarn g a b c s).2 = [] := by
  unfold legacyWarn; split
  · exact warnCode_out _ _
  · rfl

/-- the observations of a list of cells -/
def cellObs (env : Env) (glo : Bool) (l : List (Obs.Sat × Nat)) : List SbpObs := l.filterMap fun c =>
  if (freqOf c.1 c.2).vPr && (freqOf c.1 c.2).vCp then
    (legacySid glo c.1.svId c.2 (freqOf c.1 c.2).code).map fun x => packLegacy env x.1 x.2 (freqOf c.1 c.2)
  else none

theorem cellObs_cells (env glo m) : cellObs env glo (cells m) = legacyObs env glo m := by
  unfold cellObs cells legacyObs
  induction m.sats with
  | nil => rfl
  | cons s r ih =>
    rw [List.flatMap_cons, List.flatMap_cons, List.filterMap_append, ih]
    congr 1

def tagAs (c : Core) (l : List SbpObs) : List Tagged := l.map fun o => ⟨c.t.tow, c.sender, o⟩

/-- the loop appends a prefix of the convertible observations, all of them unless it stopped on a full buffer -/
theorem does_legacyLoop (clr env glo) (l : List (Obs.Sat × Nat)) (s : State) :
    ∃ k, Does clr s (tagAs s.core ((cellObs env glo l).take k)) (obsOut (legacyLoop env glo l s).2.1) (legacyLoop env glo l s).1 ∧
      (legacyLoop env glo l s).1.obsTime = s.obsTime ∧ (legacyLoop env glo l s).1.sender = s.sender ∧
      obsOut (legacyLoop env glo l s).2.1 = [] ∧
      ((legacyLoop env glo l s).2.2 = true → (cellObs env glo l).length ≤ k) ∧
      ((legacyLoop env glo l s).2.2 = false → (legacyLoop env glo l s).1.buf.length ≥ 210) := by
  induction l generalizing s with
  | nil => exact ⟨0, Does.refl rfl, rfl, rfl, rfl, by simp [cellObs], by simp [legacyLoop]⟩
  | cons c r ih =>
    obtain ⟨sat, f⟩ := c
    simp only [legacyLoop]
    by_cases hv : (freqOf sat f).vPr = true ∧ (freqOf sat f).vCp = true
    · rw [if_pos hv]
      have hv' : ((freqOf sat f).vPr && (freqOf sat f).vCp) = true := by simp [hv.1, hv.2]
      by_cases hf : s.buf.length ≥ maxObs
      · rw [if_pos hf]
        exact ⟨0, by simpa [tagAs] using Does.refl (clr := clr) rfl, rfl, rfl, rfl, by simp, fun _ => hf⟩
      · rw [if_neg hf]
        have hw := legacyWarn_core glo sat.svId f (freqOf sat f).code s
        have hwo := legacyWarn_out glo sat.svId f (freqOf sat f).code s
        have hwt : (legacyWarn glo sat.svId f (freqOf sat f).code s).1.obsTime = s.obsTime := congrArg Core.t hw
        have hws : (legacyWarn glo sat.svId f (freqOf sat f).code s).1.sender = s.sender := congrArg Core.sender hw
        have hwb : (legacyWarn glo sat.svId f (freqOf sat f).code s).1.buf = s.buf := congrArg Core.buf hw
        cases hsid : legacySid glo sat.svId f (freqOf sat f).code with
        | none =>
          simp only
          obtain ⟨k, h1, h2, h3, h4, h5, h6⟩ := ih (legacyWarn glo sat.svId f (freqOf sat f).code s).1
          have hce : cellObs env glo ((sat, f) :: r) = cellObs env glo r := by
            unfold cellObs; rw [List.filterMap_cons]; simp only [hv', hsid, if_true, Option.map_none]
          refine ⟨k, ?_, h2.trans hwt, h3.trans hws, by rw [obsOut_append, hwo, h4]; rfl, by rw [hce]; exact h5, h6⟩
          rw [obsOut_append, hwo, List.nil_append, hce]
          rw [hw] at h1
          exact h1.congr hw.symm rfl
        | some x =>
          obtain ⟨prn, code⟩ := x
          simp only
          obtain ⟨k, h1, h2, h3, h4, h5, h6⟩ := ih { (legacyWarn glo sat.svId f (freqOf sat f).code s).1 with
            buf := (legacyWarn glo sat.svId f (freqOf sat f).code s).1.buf ++ [packLegacy env prn code (freqOf sat f)] }
          have hce : cellObs env glo ((sat, f) :: r) = packLegacy env prn code (freqOf sat f) :: cellObs env glo r := by
            unfold cellObs; rw [List.filterMap_cons]; simp only [hv', hsid, if_true, Option.map_some]
          refine ⟨k + 1, ?_, h2.trans hwt, h3.trans hws, by rw [obsOut_append, hwo, h4]; rfl,
            by rw [hce]; intro h; have := h5 h; simp; omega, h6⟩
          rw [obsOut_append, hwo, List.nil_append, hce, List.take_succ_cons]
          obtain ⟨gs, e1, e2⟩ := h1
          refine ⟨gs, e1, ?_⟩
          have hc0 : ({ (legacyWarn glo sat.svId f (freqOf sat f).code s).1 with
              buf := (legacyWarn glo sat.svId f (freqOf sat f).code s).1.buf ++ [packLegacy env prn code (freqOf sat f)] } : State).core
              = { s.core with buf := s.core.buf ++ [packLegacy env prn code (freqOf sat f)] } := by
            simp only [State.core, hwt, hws, hwb]
          rw [hc0] at e2
          exact Exec.push (packLegacy env prn code (freqOf sat f))
            (by simp only [State.core, maxObs] at hf ⊢; omega) e2
    · rw [if_neg hv]
      have hv' : ((freqOf sat f).vPr && (freqOf sat f).vCp) = false := by
        cases h1 : (freqOf sat f).vPr <;> cases h2 : (freqOf sat f).vCp <;> simp_all
      have hce : cellObs env glo ((sat, f) :: r) = cellObs env glo r := by
        unfold cellObs; rw [List.filterMap_cons]; simp only [hv', Bool.false_eq_true, if_false]
      rw [hce]
      exact ih s


/-! ### epochs of legacy messages -/

theorem take_all {α} (l : List α) (k : Nat) (h : l.length ≤ k) : l.take k = l := List.take_of_length_le h

/-- adding a legacy message appends a prefix of its convertible observations, all of them unless the buffer fills up -/
theorem does_addObs (clr env glo m t) (s : State) (h : s.buf.length ≤ 210) :
    ∃ k, Does clr s (((legacyObs env glo m).take k).map fun o => ⟨(sbpTime t).tow, stnToSender m.header.stnId, o⟩)
        (obsOut (addObsToBuffer env glo m t s).2) (addObsToBuffer env glo m t s).1 ∧
      ((legacyObs env glo m).length ≤ k ∨ (addObsToBuffer env glo m t s).1.buf.length ≥ 210) := by
  have d1 := does_flush clr s (sbpTime t) (stnToSender m.header.stnId) [] rfl h
  obtain ⟨k, d2, -, -, ho, hk, hb⟩ := does_legacyLoop clr env glo (cells m)
    { (flushIfOther (sbpTime t) (stnToSender m.header.stnId) [] s).1 with
      obsTime := sbpTime t, sender := stnToSender m.header.stnId }
  rw [cellObs_cells] at d2 hk
  have d12 := d1.trans d2
  rw [List.nil_append] at d12
  refine ⟨k, ?_⟩
  unfold addObsToBuffer
  simp only
  split
  · rename_i hf
    refine ⟨?_, Or.inr (hb hf)⟩
    rw [obsOut_append]
    exact d12
  · rename_i hf
    have hf' := hk (by simpa using hf)
    split
    · refine ⟨?_, Or.inl hf'⟩
      have d3 := d12.trans (does_send clr _ (d12.bounded h))
      rw [List.append_nil] at d3
      rw [obsOut_append, obsOut_append]
      exact d3
    · refine ⟨?_, Or.inl hf'⟩
      rw [obsOut_append]
      exact d12

/-! ### MSM -/

theorem sidFromMsm_core (env h a b s) : (sidFromMsm env h a b s).2.1.core = s.core := by
  unfold sidFromMsm; simp only; split
  · rfl
  · split
    · exact warnCode_core _ _
    · rfl
theorem sidFromMsm_out (env h a b s) : obsOut (sidFromMsm env h a b s).2.2 = [] := by
  unfold sidFromMsm; simp only; split
  · rfl
  · split
    · exact warnCode_out _ _
    · rfl
theorem sidFromMsm_fcn (env h a b s) : (sidFromMsm env h a b s).2.1.fcn = s.fcn := by
  unfold sidFromMsm; simp only; split
  · rfl
  · split
    · unfold warnCode; split <;> rfl
    · rfl

/-- the observations of a list of MSM cells, with the channel table `fcn` -/
def msmCellObs (env : Env) (cons : Cons) (m : Msm.Msg) (s : State) (l : List (Nat × Nat × Nat)) : List SbpObs :=
  l.filterMap fun c =>
    let code := (signalToCode (hdrOf cons m.header) c.2.1).getD .invalid
    let prn := (satToPrn env.prn (hdrOf cons m.header) c.1).getD 0
    if code ≠ .invalid ∧ prn ≠ 0 ∧ env.masked cons = false ∧ unsupported code = false ∧ (m.sig c.2.2).vPr = true then
      some (packMsm env prn code (gloFcn cons prn (m.sat c.1).gloFcn s) (m.sig c.2.2))
    else none

theorem gloFcn_congr {s s' : State} (h : s'.fcn = s.fcn) (cons prn i) : gloFcn cons prn i s' = gloFcn cons prn i s := by
  unfold gloFcn; rw [h]

theorem msmCellObs_congr {s s' : State} (h : s'.fcn = s.fcn) (env cons m l) :
    msmCellObs env cons m s' l = msmCellObs env cons m s l := by
  unfold msmCellObs
  simp only [gloFcn_congr h]

theorem does_msmLoop (clr env cons m) (l : List (Nat × Nat × Nat)) (s : State) :
    ∃ k, Does clr s (tagAs s.core ((msmCellObs env cons m s l).take k)) (obsOut (msmLoop env cons m l s).2)
        (msmLoop env cons m l s).1 ∧ obsOut (msmLoop env cons m l s).2 = [] ∧
      ((msmCellObs env cons m s l).length ≤ k ∨ (msmLoop env cons m l s).1.buf.length ≥ 210) := by
  induction l generalizing s with
  | nil => exact ⟨0, Does.refl rfl, rfl, by simp [msmCellObs]⟩
  | cons c r ih =>
    obtain ⟨sat, sig, i⟩ := c
    have hw := sidFromMsm_core env (hdrOf cons m.header) sat sig s
    have hwo := sidFromMsm_out env (hdrOf cons m.header) sat sig s
    have hwf := sidFromMsm_fcn env (hdrOf cons m.header) sat sig s
    have hwt : (sidFromMsm env (hdrOf cons m.header) sat sig s).2.1.obsTime = s.obsTime := congrArg Core.t hw
    have hws : (sidFromMsm env (hdrOf cons m.header) sat sig s).2.1.sender = s.sender := congrArg Core.sender hw
    have hwb : (sidFromMsm env (hdrOf cons m.header) sat sig s).2.1.buf = s.buf := congrArg Core.buf hw
    have hskip : ∀ (he : msmCellObs env cons m s ((sat, sig, i) :: r) = msmCellObs env cons m s r)
        (res : State × List Out)
        (hl : res = ((msmLoop env cons m r (sidFromMsm env (hdrOf cons m.header) sat sig s).2.1).1,
          (sidFromMsm env (hdrOf cons m.header) sat sig s).2.2 ++
            (msmLoop env cons m r (sidFromMsm env (hdrOf cons m.header) sat sig s).2.1).2)),
        ∃ k, Does clr s (tagAs s.core ((msmCellObs env cons m s ((sat, sig, i) :: r)).take k)) (obsOut res.2) res.1 ∧
          obsOut res.2 = [] ∧
          ((msmCellObs env cons m s ((sat, sig, i) :: r)).length ≤ k ∨ res.1.buf.length ≥ 210) := by
      intro he res hl
      obtain ⟨k, h1, h2, h3⟩ := ih (sidFromMsm env (hdrOf cons m.header) sat sig s).2.1
      rw [msmCellObs_congr hwf, hw] at h1
      rw [msmCellObs_congr hwf] at h3
      subst hl
      refine ⟨k, ?_, by rw [obsOut_append, hwo, h2]; rfl, by rw [he]; exact h3⟩
      rw [obsOut_append, hwo, List.nil_append, he]
      exact h1.congr hw.symm rfl
    simp only [msmLoop]
    cases hsid : (sidFromMsm env (hdrOf cons m.header) sat sig s).1 with
    | none =>
      have hne : ¬ ((signalToCode (hdrOf cons m.header) sig).getD .invalid ≠ .invalid ∧
          (satToPrn env.prn (hdrOf cons m.header) sat).getD 0 ≠ 0) := by
        intro h
        unfold sidFromMsm at hsid
        simp only [if_pos h] at hsid
        exact absurd hsid (by simp)
      simp only
      refine hskip ?_ _ rfl
      unfold msmCellObs
      rw [List.filterMap_cons]
      rw [if_neg (fun h => hne ⟨h.1, h.2.1⟩)]
    | some x =>
      obtain ⟨prn, code⟩ := x
      have hcp : code ≠ .invalid ∧ prn ≠ 0 ∧ (signalToCode (hdrOf cons m.header) sig).getD .invalid = code ∧
          (satToPrn env.prn (hdrOf cons m.header) sat).getD 0 = prn := by
        unfold sidFromMsm at hsid
        simp only at hsid
        split at hsid
        · rename_i h
          simp only [Option.some.injEq, Prod.mk.injEq] at hsid
          obtain ⟨rfl, rfl⟩ := hsid
          exact ⟨h.1, h.2, rfl, rfl⟩
        · split at hsid <;> exact absurd hsid (by simp)
      obtain ⟨hc, hp, ec, ep⟩ := hcp
      simp only
      by_cases hok : env.masked cons = false ∧ unsupported code = false ∧ (m.sig i).vPr = true
      · rw [if_pos hok]
        have he : msmCellObs env cons m s ((sat, sig, i) :: r) =
            packMsm env prn code (gloFcn cons prn (m.sat sat).gloFcn s) (m.sig i) :: msmCellObs env cons m s r := by
          unfold msmCellObs
          rw [List.filterMap_cons]
          simp only [ec, ep]
          rw [if_pos ⟨hc, hp, hok⟩]
        by_cases hf : (sidFromMsm env (hdrOf cons m.header) sat sig s).2.1.buf.length ≥ maxObs
        · rw [if_pos hf]
          simp only [obsOut_append, hwo]
          exact ⟨0, Does.refl hw, rfl, Or.inr hf⟩
        · rw [if_neg hf]
          rw [gloFcn_congr hwf]
          obtain ⟨o, ho⟩ : ∃ o, o = packMsm env prn code (gloFcn cons prn (m.sat sat).gloFcn s) (m.sig i) := ⟨_, rfl⟩
          rw [← ho] at he ⊢
          obtain ⟨k, h1, h2, h3⟩ := ih { (sidFromMsm env (hdrOf cons m.header) sat sig s).2.1 with
            buf := (sidFromMsm env (hdrOf cons m.header) sat sig s).2.1.buf ++ [o] }
          have hff : ({ (sidFromMsm env (hdrOf cons m.header) sat sig s).2.1 with
            buf := (sidFromMsm env (hdrOf cons m.header) sat sig s).2.1.buf ++ [o] } : State).fcn = s.fcn := hwf
          rw [msmCellObs_congr hff] at h1 h3
          refine ⟨k + 1, ?_, by rw [obsOut_append, hwo, h2]; rfl, ?_⟩
          · rw [obsOut_append, hwo, List.nil_append, he, List.take_succ_cons]
            obtain ⟨gs, e1, e2⟩ := h1
            refine ⟨gs, e1, ?_⟩
            have hc0 : ({ (sidFromMsm env (hdrOf cons m.header) sat sig s).2.1 with
                buf := (sidFromMsm env (hdrOf cons m.header) sat sig s).2.1.buf ++ [o] } : State).core
                = { s.core with buf := s.core.buf ++ [o] } := by
              simp only [State.core, hwt, hws, hwb]
            rw [hc0] at e2
            exact Exec.push o (by simp only [State.core, maxObs] at hf ⊢; rw [hwb] at hf; omega) e2
          · rw [he]
            rcases h3 with h3 | h3
            · left; simpa using h3
            · right; exact h3
      · rw [if_neg hok]
        refine hskip ?_ _ rfl
        unfold msmCellObs
        rw [List.filterMap_cons]
        simp only [ec, ep]
        rw [if_neg (fun h => hok h.2.2)]


theorem core_clear (s : State) : ({ s with buf := [], obsTime := ⟨0, 0⟩ } : State).core = { s.core with buf := [], t := ⟨0, 0⟩ } := rfl

/-- an MSM message with a usable time -/
theorem does_addMsm_some (env cons m) (s : State) (h : s.buf.length ≤ 210) (t : GpsTime)
    (ht : (msmTime cons m.header.towMs s).1 = some t) :
    ∃ k, Does (¬ msmActive t s ∧ s.buf ≠ []) s
        (((msmObs env cons m s).take k).map fun o => ⟨(sbpTime t).tow, stnToSender m.header.stnId, o⟩)
        (obsOut (addMsm env cons m s).2) (addMsm env cons m s).1 ∧
      (¬ (¬ s.lastGps.valid ∧ |t.tow| ≤ 1 / 10 ^ 12) →
        (msmObs env cons m s).length ≤ k ∨ (addMsm env cons m s).1.buf.length ≥ 210) := by
  have htw : obsOut (msmTime cons m.header.towMs s).2 = [] := by
    unfold msmTime
    split
    · split
      · rfl
      · split
        · rfl
        · split <;> rfl
    · split
      · rfl
      · exact obsOut_validate _ _
  unfold addMsm
  simp only [ht]
  split
  · rename_i hz
    exact ⟨0, by simpa [htw] using Does.refl (s := s) rfl, fun hn => absurd hz hn⟩
  · obtain ⟨s0, hs0⟩ : ∃ s0, s0 = (if ¬ msmActive t s ∧ s.buf.length > 0 then { s with buf := [], obsTime := ⟨0, 0⟩ } else s) :=
      ⟨_, rfl⟩
    rw [← hs0]
    have d0 : Does (¬ msmActive t s ∧ s.buf ≠ []) s [] [] s0 := by
      rw [hs0]
      split
      · rename_i hc
        refine ⟨[], rfl, .clear ⟨hc.1, ?_⟩ (.nil _)⟩
        intro hb; rw [hb] at hc; simp at hc
      · exact Does.refl rfl
    have hf0 : s0.fcn = s.fcn := by rw [hs0]; split <;> rfl
    have hb0 := d0.bounded h
    obtain ⟨s1, hs1⟩ : ∃ s1 : State, s1 = { s0 with lastGps := t, lastGlo := t, lastMsm := t } := ⟨_, rfl⟩
    rw [← hs1]
    have d1 : Does (¬ msmActive t s ∧ s.buf ≠ []) s [] [] s1 := d0.congr rfl (by rw [hs1]; rfl)
    have hf1 : s1.fcn = s.fcn := by rw [hs1]; exact hf0
    have hb1 := d1.bounded h
    have d2 := does_flush (¬ msmActive t s ∧ s.buf ≠ []) s1 (sbpTime t) (stnToSender m.header.stnId) [.log .notEmpty] rfl hb1
    obtain ⟨a, ha⟩ : ∃ a, a = flushIfOther (sbpTime t) (stnToSender m.header.stnId) [.log .notEmpty] s1 := ⟨_, rfl⟩
    rw [← ha] at d2 ⊢
    have hf2 : a.1.fcn = s.fcn := by
      rw [ha]; unfold flushIfOther; split
      · exact hf1
      · exact hf1
    obtain ⟨k, d3, -, hk⟩ := does_msmLoop (¬ msmActive t s ∧ s.buf ≠ []) env cons m (msmCells m.header)
      { a.1 with obsTime := sbpTime t, sender := stnToSender m.header.stnId }
    have hfe : ({ a.1 with obsTime := sbpTime t, sender := stnToSender m.header.stnId } : State).fcn = s.fcn := hf2
    rw [msmCellObs_congr hfe] at d3 hk
    refine ⟨k, ?_, fun _ => hk⟩
    have := (d1.trans d2).trans d3
    simp only [List.nil_append] at this
    rw [obsOut_append, obsOut_append, htw, List.nil_append]
    exact this

theorem does_addMsm_none (clr env cons m) (s : State)
    (ht : (msmTime cons m.header.towMs s).1 = none) :
    Does clr s [] (obsOut (addMsm env cons m s).2) (addMsm env cons m s).1 := by
  have htw : obsOut (msmTime cons m.header.towMs s).2 = [] := by
    unfold msmTime
    split
    · split
      · rfl
      · split
        · rfl
        · split <;> rfl
    · split
      · rfl
      · exact obsOut_validate _ _
  unfold addMsm
  simp only [ht, htw]
  exact Does.refl rfl

/-! ### times -/

theorem crint_int (n : Int) : crint (n : ℚ) = n := by
  unfold crint
  rw [Int.floor_intCast, sub_self, if_pos (by norm_num)]

theorem gpsTime_tow {tow r t} (h : computeGpsTime tow r = some t) : (sbpTime t).tow = tow := by
  unfold computeGpsTime at h
  split at h
  · have e : t.tow = (tow : ℚ) / 1000 := by
      unfold computeGpsMessageTime at h
      simp only at h
      repeat' (split at h)
      all_goals first
        | (simp only [Option.some.injEq] at h; subst h; rfl)
        | exact absurd h (by simp)
    unfold sbpTime
    simp only [e]
    rw [div_mul_cancel₀ _ (by norm_num)]
    have := crint_int (tow : Int)
    rw [Int.cast_natCast] at this
    rw [this]; simp
  · exact absurd h (by simp)

theorem msmTime_tow {env cons tow s t} (hl : s.leap = some (env.utcOffset s.timeInput))
    (h : (msmTime cons tow s).1 = some t) : (sbpTime t).tow = towOf env cons tow s.timeInput := by
  unfold msmTime at h
  by_cases hg : cons = .glo
  · subst hg
    simp only [if_true, hl] at h
    unfold towOf
    cases hc : computeGloTime tow s.timeInput (some (env.utcOffset s.timeInput)) with
    | none => rw [hc] at h; exact absurd h (by simp)
    | some u =>
      rw [hc] at h
      simp only at h
      split at h
      · simp only [Option.some.injEq] at h; subst h; rfl
      · exact absurd h (by simp)
  · rw [if_neg hg] at h
    cases hc : computeGpsTime (if cons = .bds then beidouTowToGpsTow tow else tow) s.timeInput with
    | none => rw [hc] at h; exact absurd h (by simp)
    | some u =>
      rw [hc] at h
      simp only at h
      split at h
      · simp only [Option.some.injEq] at h; subst h
        rw [gpsTime_tow hc]
        cases cons <;> simp_all [towOf, beidouTowToGpsTow, weekMs]
        all_goals (split <;> split <;> omega)
      · exact absurd h (by simp)

theorem gloTime_tow {env tow} {s : State} {t} (hl : s.leap = some (env.utcOffset s.timeInput)) (leap)
    (hs : s.leap = some leap) (h : computeGloTime tow s.timeInput (some leap) = some t) :
    (sbpTime t).tow = towOf env .glo tow s.timeInput := by
  rw [hl] at hs
  simp only [Option.some.injEq] at hs
  subst hs
  unfold towOf
  simp only [h]
  rfl


/-! ### steps and histories -/

/-- the outcome of a step: a sublist of what is offered gets appended -/
def StepOk (_env : Env) (s : State) (off : List Tagged) (r : State × List Out) : Prop :=
  ∃ ps, ps.Sublist off ∧ Does True s ps (obsOut r.2) r.1

theorem StepOk.skip {env s off r} (h1 : obsOut r.2 = []) (h2 : r.1.core = s.core) : StepOk env s off r :=
  ⟨[], List.nil_sublist _, by rw [h1]; exact Does.refl h2⟩

theorem Does.toTrue {clr s ps out s'} (h : Does clr s ps out s') : Does True s ps out s' := by
  obtain ⟨g, e, x⟩ := h; exact ⟨g, e, x.mono fun _ => trivial⟩

theorem map_take_sublist {α β} (f : α → β) (l : List α) (k : Nat) : ((l.take k).map f).Sublist (l.map f) :=
  (List.take_sublist k l).map f

theorem stepOk_addGps (env m) (s : State) (h : s.buf.length ≤ 210) :
    StepOk env s ((legacyObs env false m).map fun o => ⟨m.header.towMs, m.header.stnId ||| 0xF080, o⟩) (addGps env m s) := by
  unfold addGps
  cases ht : computeGpsTime m.header.towMs s.timeInput with
  | none => exact .skip rfl rfl
  | some t =>
    simp only
    split
    · exact .skip (obsOut_validate _ _) rfl
    · split
      · exact .skip (obsOut_validate _ _) rfl
      · split
        · obtain ⟨k, d, -⟩ := does_addObs True env false m t { s with lastGps := t } h
          rw [gpsTime_tow ht] at d
          refine ⟨_, map_take_sublist _ _ k, ?_⟩
          rw [obsOut_append, obsOut_validate, List.nil_append]
          exact d.congr rfl rfl
        · exact .skip (obsOut_validate _ _) rfl

theorem stepOk_addGlo (env m) (s : State) (hl : s.leap = some (env.utcOffset s.timeInput)) (h : s.buf.length ≤ 210) :
    StepOk env s ((legacyObs env true m).map fun o => ⟨towOf env .glo m.header.towMs s.timeInput, m.header.stnId ||| 0xF080, o⟩)
      (addGlo env m s) := by
  unfold addGlo
  split
  · exact .skip rfl rfl
  · rename_i leap hs
    cases ht : computeGloTime m.header.towMs s.timeInput (some leap) with
    | none => exact .skip rfl rfl
    | some t =>
      simp only
      split
      · exact .skip rfl rfl
      · split
        · exact .skip rfl rfl
        · split
          · exact .skip rfl rfl
          · split
            · obtain ⟨k, d, -⟩ := does_addObs True env true m t { s with lastGlo := t } h
              rw [gloTime_tow hl leap hs ht] at d
              exact ⟨_, map_take_sublist _ _ k, d.congr rfl rfl⟩
            · exact .skip rfl rfl

theorem stepOk_addMsm (env cons m) (s : State) (hl : s.leap = some (env.utcOffset s.timeInput)) (h : s.buf.length ≤ 210) :
    StepOk env s ((msmObs env cons m s).map fun o => ⟨towOf env cons m.header.towMs s.timeInput, m.header.stnId ||| 0xF080, o⟩)
      (addMsm env cons m s) := by
  cases ht : (msmTime cons m.header.towMs s).1 with
  | none => exact ⟨[], List.nil_sublist _, does_addMsm_none True env cons m s ht⟩
  | some t =>
    obtain ⟨k, d, -⟩ := does_addMsm_some env cons m s h t ht
    rw [msmTime_tow hl ht] at d
    exact ⟨_, map_take_sublist _ _ k, d.toTrue⟩

theorem obsOut_converted (k n : Nat) : obsOut (List.replicate k (.converted n)) = [] := by
  induction k with
  | zero => rfl
  | succ k ih => rw [List.replicate_succ, obsOut_conv, ih]

theorem setGloFcn_core (a b s) : ((setGloFcn a b s).getD s).core = s.core := by
  unfold setGloFcn; split
  · rfl
  · split <;> rfl

theorem msmWarning_core (p s) : (msmWarning p s).1.core = s.core := by unfold msmWarning; split <;> rfl
theorem msmWarning_out (p s) : obsOut (msmWarning p s).2 = [] := by
  unfold msmWarning; split
  · rfl
  · simp only; split <;> rfl

theorem msmObs_congr {s s' : State} (h : s'.fcn = s.fcn) (env cons m) : msmObs env cons m s' = msmObs env cons m s :=
  msmCellObs_congr h env cons m _

theorem stepOk_dispatch (env) (inp : Input) (s0 s : State) (hf : s.fcn = s0.fcn) (h : s.buf.length ≤ 210)
    (ht : s.timeInput = inp.time)
    (hl : s.leap = some (env.utcOffset inp.time) ∨ messageType inp.payload ∈ whitelist) :
    StepOk env s (offered env s0 inp) (dispatch env inp (messageType inp.payload) s) := by
  obtain ⟨n, hn⟩ : ∃ n, n = messageType inp.payload := ⟨_, rfl⟩
  rw [← hn] at hl
  unfold dispatch offered
  simp only [← hn]
  by_cases h1 : n = 1002
  · rw [if_pos (Or.inl h1), if_pos h1, if_pos h1]
    cases hm : (Obs.decode .m1002).run inp.payload with
    | ok m => exact stepOk_addGps env m s h
    | error e => exact .skip rfl rfl
  by_cases h2 : n = 1004
  · rw [if_pos (Or.inr h2), if_neg h1, if_neg h1, if_pos h2]
    cases hm : (Obs.decode .m1004).run inp.payload with
    | ok m => exact stepOk_addGps env m s h
    | error e => exact .skip rfl rfl
  rw [if_neg (show ¬ (n = 1002 ∨ n = 1004) by omega), if_neg h1, if_neg h2]
  by_cases h3 : n = 1010 ∨ n = 1012
  · have hl' : s.leap = some (env.utcOffset s.timeInput) := by
      rw [ht]
      rcases hl with hl | hl
      · exact hl
      · rcases h3 with h3 | h3 <;> (rw [h3] at hl; exact absurd hl (by decide))
    rw [if_pos h3]
    by_cases h3' : n = 1010
    · rw [if_pos h3', if_pos h3']
      cases hm : (Obs.decode .m1010).run inp.payload with
      | ok m =>
        have := stepOk_addGlo env m s hl' h
        rw [ht] at this
        exact this
      | error e => exact .skip rfl rfl
    · rw [if_neg h3', if_neg h3', if_pos (by omega)]
      cases hm : (Obs.decode .m1012).run inp.payload with
      | ok m =>
        have := stepOk_addGlo env m s hl' h
        rw [ht] at this
        exact this
      | error e => exact .skip rfl rfl
  rw [if_neg h3, if_neg (show n ≠ 1010 by omega), if_neg (show n ≠ 1012 by omega)]
  by_cases h4 : n = 1020
  · rw [if_pos h4]
    cases inp.gloEph with
    | some x => exact .skip rfl (setGloFcn_core _ _ _)
    | none => exact .skip rfl rfl
  rw [if_neg h4]
  by_cases h5 : n = 1033
  · rw [if_pos h5]
    cases decode1033.run inp.payload with
    | ok x =>
      simp only
      by_cases hx : no1230 s
      · rw [if_pos hx]; exact .skip rfl rfl
      · rw [if_neg hx]; exact .skip rfl rfl
    | error e => exact .skip rfl rfl
  rw [if_neg h5]
  by_cases h6 : n = 1230
  · rw [if_pos h6]
    cases decode1230.run inp.payload <;> exact .skip rfl rfl
  rw [if_neg h6]
  by_cases h7 : n ∈ otherTypes
  · rw [if_pos h7]
    exact .skip (obsOut_converted _ _) rfl
  rw [if_neg h7]
  by_cases h8 : n ∈ msm13
  · rw [if_pos h8]
    exact .skip (msmWarning_out _ _) (msmWarning_core _ _)
  rw [if_neg h8]
  cases h9 : msmSupported n with
  | none => exact .skip rfl rfl
  | some x =>
    obtain ⟨ty, cons⟩ := x
    simp only
    cases hm : (decodeMsm ty).run inp.payload with
    | error e => exact .skip rfl rfl
    | ok m =>
      simp only
      have hl' : s.leap = some (env.utcOffset s.timeInput) := by
        rw [ht]
        rcases hl with hl | hl
        · exact hl
        · exfalso
          simp only [whitelist, List.mem_append] at hl
          rcases hl with (hl | hl) | hl
          · exact h7 (by revert hl; simp only [otherTypes, List.mem_cons, List.not_mem_nil, or_false]; omega)
          · exact h8 hl
          · exact h7 (by revert hl; simp only [otherTypes, List.mem_cons, List.not_mem_nil, or_false]; omega)
      have := stepOk_addMsm env cons m s hl' h
      rw [ht, msmObs_congr hf] at this
      exact this

theorem StepOk.congr {env s off r s'} (h : StepOk env s off r) (hc : s'.core = s.core) : StepOk env s' off r := by
  obtain ⟨ps, h1, h2⟩ := h
  exact ⟨ps, h1, h2.congr hc rfl⟩

theorem stepOk_step (env) (s : State) (inp : Input) (h : s.buf.length ≤ 210) :
    StepOk env s (offered env s inp) (step env s inp) := by
  unfold step
  split
  · exact .skip rfl rfl
  simp only
  split
  · exact .skip rfl rfl
  rename_i hg
  obtain ⟨s1, hs1⟩ : ∃ s1 : State, s1 = (if inp.solved then { ({ s with timeInput := inp.time } : State) with leap := some (env.utcOffset inp.time) }
      else { s with timeInput := inp.time }) := ⟨_, rfl⟩
  rw [← hs1]
  have hc : s1.core = s.core := by rw [hs1]; split <;> rfl
  have hb : s1.buf.length ≤ 210 := by
    have : s1.buf = s.buf := congrArg Core.buf hc
    rw [this]; exact h
  have hd := stepOk_dispatch env inp s s1 (by rw [hs1]; split <;> rfl) hb (by rw [hs1]; split <;> rfl) (by
    by_cases hsol : inp.solved = true
    · left; rw [hs1, if_pos hsol]
    · right
      by_contra hw
      exact hg ⟨hw, by simpa using hsol⟩)
  split
  · obtain ⟨ps, h1, h2⟩ := hd
    refine ⟨ps, h1, ?_⟩
    have := h2.trans (does_send True _ (h2.bounded hb))
    rw [List.append_nil] at this
    simp only [obsOut_append]
    exact this.congr hc.symm rfl
  · exact hd.congr hc.symm

theorem does_run (env) (is : List Input) (s : State) (h : s.buf.length ≤ 210) :
    ∃ ps, ps.Sublist (offeredRun env s is) ∧ Does True s ps (obsOut (run env s is).2) (run env s is).1 := by
  induction is generalizing s with
  | nil => exact ⟨[], List.nil_sublist _, Does.refl rfl⟩
  | cons i r ih =>
    obtain ⟨ps, h1, h2⟩ := stepOk_step env s i h
    obtain ⟨ps', h3, h4⟩ := ih (step env s i).1 (h2.bounded h)
    refine ⟨ps ++ ps', List.Sublist.append h1 h3, ?_⟩
    simp only [run, obsOut_append]
    exact h2.trans h4

end Verif.RtcmSbp
