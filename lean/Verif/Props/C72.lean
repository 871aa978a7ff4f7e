import Verif.Lemmas.ObsEpochs
import Verif.Props.C28
/-
C72: observations survive the RTCM stream.
-/
namespace Verif.ObsStream
open Verif.ObsStream.Spec Verif.SbpRtcm.Spec Verif.Msm.Spec
open Verif.Msm hiding Inv
open Verif.SbpRtcm Verif.Time
open Verif.Misc (blank)
open Verif.RtcmSbp (SbpTime SbpObs ObsMsg Out Input sbpTime stnToSender obsOut_append messageType endsEpoch dispatch sendObservations)
open Verif.RtcmSbp.Spec (notDelivered obsOut WellSplit)

/-! ### epochs -/

/-- the payloads of an epoch, and the lemmas about its messages -/
theorem epoch_payloads (env : Env) (ht : env.prn.WF) (table : List Nat) (e : Epoch) (he : EpochOk env table e) :
    ∃ (h1 h2 : Cons → Hdr) (b : Builds), (∀ c, ConsOk env e.cfg c e.obs (h1 c) (h2 c) (b c)) ∧
      epochPayloads env e = some ((sentCons env e).map fun c => msmPayload (finish e c (if (sentCons env e).getLast? = some c then 0 else 1) (b c))) ∧
      ∀ c ∈ sentCons env e, c ≠ .sbas ∧ obsFor env c e.obs ≠ [] ∧
        7 ≤ (msmPayload (finish e c (if (sentCons env e).getLast? = some c then 0 else 1) (b c))).length ∧
        (msmPayload (finish e c (if (sentCons env e).getLast? = some c then 0 else 1) (b c))).length ≤ 1017 := by
  obtain ⟨h1, h2, b, hok, hb⟩ := bufferToMsm_ok env ht e he.clean he.type
  have hall : ∀ c ∈ sentCons env e, c ≠ .sbas ∧ obsFor env c e.obs ≠ [] ∧
        7 ≤ (msmPayload (finish e c (if (sentCons env e).getLast? = some c then 0 else 1) (b c))).length ∧
        (msmPayload (finish e c (if (sentCons env e).getLast? = some c then 0 else 1) (b c))).length ≤ 1017 := by
    intro c hc
    unfold sentCons at hc
    rw [List.mem_filter] at hc
    have c1 : c ≠ .sbas := by
      have := hc.1
      revert this
      cases c <;> decide
    have c2 : obsFor env c e.obs ≠ [] := by
      have := hc.2
      simpa using this
    have hobs : ∀ o ∈ obsFor env c e.obs, ObsOk (freqOf env e.cfg c o) o := fun o ho => by
      have : o ∈ e.obs ∧ env.consOf o.code = some c := by simpa [obsFor] using ho
      exact he.obs o this.1 c this.2
    have hwf := msg_wf (mult := if (sentCons env e).getLast? = some c then 0 else 1) (hok c) he.type hobs (msmTow_lt he c c2) (by split <;> norm_num)
    have hp := payload_ok he.type hwf.header
    rw [msmPayload_eq he.type c1]
    exact ⟨c1, c2, hp.lo, hp.hi⟩
  refine ⟨h1, h2, b, hok, ?_, hall⟩
  unfold epochPayloads
  rw [he.msm.1, he.msm.2, hb]
  simp only [Bool.false_eq_true, if_false, if_true, Option.bind_eq_bind, Option.bind_some, Option.map_some, List.nil_append, List.map_map]
  congr 1
  refine (List.filter_eq_self.2 ?_).trans rfl
  intro p hp
  obtain ⟨c, hc, rfl⟩ := List.mem_map.1 hp
  have := (hall c hc).2.2.1
  simp only [Function.comp_apply, decide_eq_true_eq]
  omega

theorem sentCons_nil (env : Env) (e : Epoch) (hc : Clean env e.obs) : sentCons env e = [] ↔ e.obs = [] := by
  have := sent_length env e hc
  constructor
  · intro h; rw [h] at this; exact List.eq_nil_of_length_eq_zero this.symm
  · intro h
    unfold sentCons obsFor
    rw [h]
    simp

theorem sentCons_head (env : Env) (e : Epoch) (h : ∃ o ∈ e.obs, env.consOf o.code = some .gps) : (sentCons env e).head? = some .gps := by
  obtain ⟨o, ho, hc⟩ := h
  have : o ∈ obsFor env .gps e.obs := by simp [obsFor, ho, hc]
  unfold sentCons consOrder
  rw [List.filter_cons, if_pos]
  · rfl
  · cases h : obsFor env .gps e.obs with
    | nil => rw [h] at this; simp at this
    | cons => rfl

theorem epoch_back (env : Env) (env' : RtcmSbp.Env) (ht : env.prn.WF) (hm : Match env env') (table : List Nat) (e : Epoch)
    (he : EpochOk env table e) (hne : e.obs ≠ []) (xs : List Input) (hx : ∀ x ∈ xs, TimeOk env env' e x)
    (hp : epochPayloads env e = some (xs.map (·.payload))) (s : RtcmSbp.State) (hs : s.buf = []) (hf : s.fcn = table) :
    EpochBack env e (obsOut (RtcmSbp.run env' s xs).2) ∧ (RtcmSbp.run env' s xs).1.buf = [] ∧ (RtcmSbp.run env' s xs).1.fcn = table ∧
      ∀ pre x post, xs = pre ++ x :: post → obsOut (RtcmSbp.run env' s pre).2 = [] := by
  obtain ⟨h1, h2, b, hok, hpay, hall⟩ := epoch_payloads env ht table e he
  rw [hpay] at hp
  have hp := Option.some.inj hp
  have hfor : List.Forall₂ (fun c x => x.payload = msmPayload (finish e c (if (sentCons env e).getLast? = some c then 0 else 1) (b c)) ∧
      TimeOk env env' e x) (sentCons env e) xs := by
    rw [List.forall₂_iff_get]
    have hl : (sentCons env e).length = xs.length := by
      have := congrArg List.length hp
      simpa using this
    refine ⟨hl, ?_⟩
    intro i h1 h2
    refine ⟨?_, hx _ (List.get_mem _ _)⟩
    have := congrArg (fun l => l[i]?) hp
    simp only [List.getElem?_map, List.getElem?_eq_getElem h1, List.getElem?_eq_getElem h2, Option.map_some, Option.some.injEq] at this
    exact this.symm
  obtain ⟨L, R, r1, r2, r3, r4, r5, r6⟩ := epoch_run env env' ht hm table e he hok _ (sentCons env e) xs s
    (by rw [Ne, sentCons_nil env e he.clean]; exact hne) ((by decide : consOrder.Nodup).filter _)
    (fun c hc => ⟨(hall c hc).1, (hall c hc).2.1⟩) rfl hfor hf
    (by rw [sent_length env e he.clean, hs]; simpa using he.size) (Or.inl hs) (fun _ h => Or.inl (sentCons_head env e h)) (Or.inl (by
      obtain ⟨o, ho, hq⟩ := he.notOnlyQzss hne
      obtain ⟨c, k1, k2⟩ := clean_cons he.clean o ho
      refine ⟨c, ?_, by rintro rfl; exact hq k2⟩
      unfold sentCons
      rw [List.mem_filter]
      refine ⟨k1, ?_⟩
      have : o ∈ obsFor env c e.obs := by simp [obsFor, ho, k2]
      cases h : obsFor env c e.obs with
      | nil => rw [h] at this; simp at this
      | cons => rfl))
  rw [hs, List.nil_append] at r3
  refine ⟨⟨L.filter wanted, R, ?_, r2, r3⟩, r4, r5, r6⟩
  have := (r1.trans (sent_perm env e he.clean)).filter wanted
  rw [List.filter_filter] at this
  refine this.trans (List.Perm.of_eq (List.filter_congr ?_))
  intro o _
  unfold delivered wanted
  rw [Bool.and_comm]

/-! ### other messages -/

theorem set_same {l : List Nat} {i v : Nat} (h : l[i]? = some v) : l.set i v = l := by
  apply List.ext_getElem?
  intro j
  rw [List.getElem?_set]
  split
  · rename_i hij
    subst hij
    split
    · exact h.symm
    · rename_i hl
      rw [List.getElem?_eq_none (by omega)] at h
      cases h
  · rfl

theorem supported_range {n : Nat} {r} (h : RtcmSbp.msmSupported n = some r) : 1070 ≤ n ∧ n ≤ 1229 := by
  by_contra hh
  have : toMsmType n = .unknown := by
    unfold toMsmType
    rw [if_pos (by omega)]
  unfold RtcmSbp.msmSupported at h
  rw [this] at h
  cases h

theorem other_in (env' : RtcmSbp.Env) (table : List Nat) (x : Input)
    (h1 : messageType x.payload ∉ [1002, 1004, 1010, 1012]) (h2 : ¬ (1070 ≤ messageType x.payload ∧ messageType x.payload ≤ 1229))
    (h3 : ∀ sat fcn, x.gloEph = some (sat, fcn) → 1 ≤ sat → sat < table.length → table[sat]? = some (RtcmSbp.sbpFcnToRtcm fcn))
    (s : RtcmSbp.State) (hs : s.buf = []) (hf : s.fcn = table) :
    obsOut (RtcmSbp.step env' s x).2 = [] ∧ (RtcmSbp.step env' s x).1.buf = [] ∧ (RtcmSbp.step env' s x).1.fcn = table := by
  have key : ∀ s : RtcmSbp.State, s.buf = [] → s.fcn = table → obsOut (dispatch env' x (messageType x.payload) s).2 = [] ∧
      (dispatch env' x (messageType x.payload) s).1.buf = [] ∧ (dispatch env' x (messageType x.payload) s).1.fcn = table := by
    intro s hs hf
    generalize hn : messageType x.payload = n at *
    simp only [List.mem_cons, List.not_mem_nil, or_false, not_or] at h1
    unfold dispatch
    rw [if_neg (by tauto), if_neg (by tauto)]
    split
    · cases hg : x.gloEph with
      | none => exact ⟨rfl, hs, hf⟩
      | some p =>
        obtain ⟨sat, fcn⟩ := p
        have : (RtcmSbp.setGloFcn sat fcn s).getD s = s := by
          unfold RtcmSbp.setGloFcn
          split
          · rfl
          · split
            · rename_i a b
              simp only [Option.getD_some]
              rw [hf] at b ⊢
              rw [set_same (h3 sat fcn hg (by omega) b), ← hf]
            · rfl
        simp only [this]
        exact ⟨rfl, hs, hf⟩
    · split
      · cases decode1033.run x.payload with
        | error => exact ⟨rfl, hs, hf⟩
        | ok => simp only; split <;> exact ⟨rfl, hs, hf⟩
      · split
        · cases decode1230.run x.payload with
          | error => exact ⟨rfl, hs, hf⟩
          | ok => exact ⟨rfl, hs, hf⟩
        · split
          · exact ⟨RtcmSbp.obsOut_converted _ _, hs, hf⟩
          · rw [if_neg (by
              intro h
              apply h2
              revert h
              unfold RtcmSbp.msm13
              simp only [List.mem_cons, List.not_mem_nil, or_false]
              omega)]
            cases hm : RtcmSbp.msmSupported n with
            | none => exact ⟨rfl, hs, hf⟩
            | some r => exact absurd (supported_range hm) h2
  unfold RtcmSbp.step
  split
  · exact ⟨rfl, hs, hf⟩
  · simp only
    split
    · exact ⟨rfl, hs, hf⟩
    · rw [if_neg (fun h => h2 ⟨h.1, h.2.1⟩)]
      split
      · exact key _ hs hf
      · exact key _ hs hf

/-! ### streams -/

theorem run_append (env' : RtcmSbp.Env) (xs ys : List Input) (s : RtcmSbp.State) :
    RtcmSbp.run env' s (xs ++ ys) = ((RtcmSbp.run env' (RtcmSbp.run env' s xs).1 ys).1,
      (RtcmSbp.run env' s xs).2 ++ (RtcmSbp.run env' (RtcmSbp.run env' s xs).1 ys).2) := by
  induction xs generalizing s with
  | nil => simp [RtcmSbp.run]
  | cons x xs ih => simp [RtcmSbp.run, ih]

theorem ev_payloads (env : Env) (env' : RtcmSbp.Env) (ht : env.prn.WF) (table : List Nat) (v : Ev) (xs : List Input) (h : EvOk env env' table v xs) :
    ∃ ps : List Buf, evPayloads env v = some ps ∧ xs.length = ps.length ∧ ∀ p ∈ ps, 1 ≤ p.length ∧ p.length ≤ 1017 := by
  cases v with
  | epoch e =>
    obtain ⟨he, -, hl⟩ := h
    obtain ⟨h1, h2, b, -, hp, hall⟩ := epoch_payloads env ht table e he
    refine ⟨_, hp, hl _ hp, ?_⟩
    intro p hp
    obtain ⟨c, hc, rfl⟩ := List.mem_map.1 hp
    have := hall c hc
    exact ⟨by omega, this.2.2.2⟩
  | other p =>
    obtain ⟨a, b, -, -, x, rfl, -⟩ := h
    exact ⟨[p], rfl, rfl, by simpa using ⟨a, b⟩⟩

theorem ev_back (env : Env) (env' : RtcmSbp.Env) (ht : env.prn.WF) (hm : Match env env') (table : List Nat) (v : Ev) (xs : List Input)
    (h : EvOk env env' table v xs) (hp : evPayloads env v = some (xs.map (·.payload))) (s : RtcmSbp.State) (hs : s.buf = []) (hf : s.fcn = table) :
    ∃ gs : List (List ObsMsg), List.Forall₂ (EpochBack env) (evEpoch v).toList gs ∧ obsOut (RtcmSbp.run env' s xs).2 = gs.flatten ∧
      (RtcmSbp.run env' s xs).1.buf = [] ∧ (RtcmSbp.run env' s xs).1.fcn = table := by
  cases v with
  | epoch e =>
    obtain ⟨he, hx, -⟩ := h
    by_cases hne : e.obs = []
    · obtain ⟨h1, h2, b, -, hq, -⟩ := epoch_payloads env ht table e he
      rw [(sentCons_nil env e he.clean).2 hne] at hq
      have : some (xs.map (·.payload)) = some [] := hp.symm.trans hq
      have : xs = [] := by simpa using this
      subst this
      exact ⟨[], by simp [evEpoch, hne], rfl, hs, hf⟩
    · obtain ⟨r1, r2, r3, -⟩ := epoch_back env env' ht hm table e he hne xs hx hp s hs hf
      refine ⟨[_], ?_, by simp; rfl, r2, r3⟩
      simp only [evEpoch, if_neg hne, Option.toList_some]
      exact .cons r1 .nil
  | other p =>
    obtain ⟨-, -, h1, h2, x, rfl, h3⟩ := h
    have hp := Option.some.inj hp
    simp only [List.map_cons, List.map_nil, List.cons.injEq, and_true] at hp
    subst hp
    obtain ⟨r1, r2, r3⟩ := other_in env' table x h1 h2 h3 s hs hf
    refine ⟨[], by simp [evEpoch], ?_, r2, r3⟩
    simp [RtcmSbp.run, r1]

theorem run_evs (env : Env) (env' : RtcmSbp.Env) (ht : env.prn.WF) (hm : Match env env') (table : List Nat) {evs : List Ev} {xss : List (List Input)}
    (h : List.Forall₂ (EvOk env env' table) evs xss) (hp : evs.map (evPayloads env) = xss.map fun xs => some (xs.map (·.payload)))
    (s : RtcmSbp.State) (hs : s.buf = []) (hf : s.fcn = table) :
    ∃ gs : List (List ObsMsg), List.Forall₂ (EpochBack env) (evs.filterMap evEpoch) gs ∧
      obsOut (RtcmSbp.run env' s xss.flatten).2 = gs.flatten := by
  induction h generalizing s with
  | nil => exact ⟨[], .nil, rfl⟩
  | @cons v xs vs xss h1 h2 ih =>
    simp only [List.map_cons, List.cons.injEq] at hp
    obtain ⟨g1, a1, a2, a3, a4⟩ := ev_back env env' ht hm table v xs h1 hp.1 s hs hf
    obtain ⟨g2, b1, b2⟩ := ih hp.2 _ a3 a4
    refine ⟨g1 ++ g2, ?_, ?_⟩
    · have : (v :: vs).filterMap evEpoch = (evEpoch v).toList ++ vs.filterMap evEpoch := by
        rw [List.filterMap_cons]
        cases evEpoch v <;> rfl
      rw [this]
      exact forall₂_append a1 b1
    · rw [List.flatten_cons, run_append, obsOut_append, a2, b2, List.flatten_append]

theorem payloads_exist (env : Env) (env' : RtcmSbp.Env) (ht : env.prn.WF) (table : List Nat) {evs : List Ev} {xss : List (List Input)}
    (h : List.Forall₂ (EvOk env env' table) evs xss) :
    ∃ pss : List (List Buf), evs.map (evPayloads env) = pss.map some ∧ xss.map List.length = pss.map List.length ∧
      ∀ p ∈ pss.flatten, 1 ≤ p.length ∧ p.length ≤ 1017 := by
  induction h with
  | nil => exact ⟨[], rfl, rfl, by simp⟩
  | @cons v xs vs xss h1 h2 ih =>
    obtain ⟨ps, a, b, c⟩ := ev_payloads env env' ht table v xs h1
    obtain ⟨pss, a', b', c'⟩ := ih
    refine ⟨ps :: pss, by rw [List.map_cons, List.map_cons, a, a'], by rw [List.map_cons, List.map_cons, b, b'], ?_⟩
    intro q hq
    rw [List.flatten_cons, List.mem_append] at hq
    exact hq.elim (c q) (c' q)

theorem split_eq {α β} (f : α → β) : ∀ (xss : List (List α)) (pss : List (List β)), xss.map List.length = pss.map List.length →
    xss.flatten.map f = pss.flatten → xss.map (List.map f) = pss
  | [], [], _, _ => rfl
  | [], _ :: _, h, _ => by simp at h
  | _ :: _, [], h, _ => by simp at h
  | xs :: xss, ps :: pss, h, h' => by
    simp only [List.map_cons, List.cons.injEq] at h
    rw [List.flatten_cons, List.flatten_cons, List.map_append] at h'
    obtain ⟨e1, e2⟩ := List.append_inj h' (by rw [List.length_map]; exact h.1)
    rw [List.map_cons, e1, split_eq f xss pss h.2 e2]

/-- **C72** The sender can put every event on the stream. -/
theorem C72_sendable (crc : Buf → BitVec 24) (env : Env) (env' : RtcmSbp.Env) (ht : env.prn.WF) (table : List Nat) (evs : List Ev)
    (xss : List (List Input)) (h : List.Forall₂ (EvOk env env' table) evs xss) : ∃ bytes, SentAs crc env evs bytes := by
  obtain ⟨pss, h1, -, h2⟩ := payloads_exist env env' ht table h
  obtain ⟨fs, h3, -⟩ := Verif.Misc.frames_exist crc _ h2
  exact ⟨_, pss, fs, h1, h3, rfl⟩

/-- **C72** (partial: MSM only, and the epochs must satisfy `EvOk`, which leaves out what the defects below spoil) Epochs of observations of
any constellations and any other messages, mixed in any order on one byte stream that is cut into chunks in any way: the receiver outputs one
group of SBP observation messages for each epoch with observations, in the order sent, with the time and station of the epoch; the group
holds each delivered observation of the epoch exactly once, with the same pseudorange, carrier phase, Doppler and lock time. -/
theorem C72_stream_partial (crc : Buf → BitVec 24) (env : Env) (env' : RtcmSbp.Env) (ht : env.prn.WF) (hm : Match env env') (table : List Nat)
    (evs : List Ev) (xss : List (List Input)) (h : List.Forall₂ (EvOk env env' table) evs xss) (bytes : Buf) (hb : SentAs crc env evs bytes)
    (chunks : List Buf) (hc : Received crc bytes chunks xss.flatten) (s : RtcmSbp.State) (hs : s.buf = []) (hf : s.fcn = table) :
    ∃ groups : List (List ObsMsg), List.Forall₂ (EpochBack env) (evs.filterMap evEpoch) groups ∧
      obsOut (RtcmSbp.run env' s xss.flatten).2 = groups.flatten := by
  obtain ⟨pss, fs, h1, h2, rfl⟩ := hb
  obtain ⟨c1, c2, c3⟩ := hc
  obtain ⟨pss', a1, a3, a2⟩ := payloads_exist env env' ht table h
  obtain rfl : pss = pss' := List.map_injective_iff.2 (Option.some_injective _) (h1.symm.trans a1)
  obtain ⟨fs', b1, b2⟩ := Verif.Misc.frames_exist crc _ a2
  obtain rfl : fs = fs' := Option.some.inj (h2.symm.trans b1)
  have := RtcmFraming.C04_stream_roundtrip crc _ a2 fs b2 chunks c2 c1
  rw [c3] at this
  have inj : Function.Injective RtcmFraming.FrameCall.payload := fun a b h => by cases h; rfl
  have e : xss.flatten.map (·.payload) = pss.flatten := by
    apply List.map_injective_iff.2 inj
    rw [← this, List.map_map]
    rfl
  have e' := split_eq (fun x : Input => x.payload) xss pss a3 e
  refine run_evs env env' ht hm table h ?_ s hs hf
  rw [h1, ← e', List.map_map]
  rfl

/-! ### from SBP messages to SBP messages -/

theorem accept_cfg (s : State) (m : ObsIn) : (accept s m).1.cfg = s.cfg ∧ ∀ e ∈ (accept s m).2, e.cfg = s.cfg := by
  unfold accept
  generalize nMeas m.len = n
  simp only []
  by_cases h : seqCounter m.nObs = seqSize m.nObs
  · rw [if_pos h]
    refine ⟨rfl, ?_⟩
    intro e he
    rw [List.mem_singleton.1 he]
  · rw [if_neg h]
    exact ⟨rfl, fun e he => by cases he⟩

theorem obsSeq_cfg (s : State) (m : ObsIn) : (obsSeq s m).1.cfg = s.cfg ∧ ∀ e ∈ (obsSeq s m).2, e.cfg = s.cfg := by
  unfold obsSeq
  simp only
  split
  · split
    · exact ⟨rfl, by simp⟩
    · split
      · have := accept_cfg (flush s).1 m
        refine ⟨this.1, ?_⟩
        intro e he
        rw [List.mem_append] at he
        rcases he with he | he
        · simp only [flush, List.mem_singleton] at he; rw [he]
        · exact this.2 e he
      · split
        · refine ⟨rfl, ?_⟩
          intro e he
          simp only [flush, List.mem_singleton] at he
          rw [he]
        · exact accept_cfg s m
  · exact accept_cfg s m

theorem obsCb_cfg (s : State) (m : ObsIn) : (obsCb s m).1.cfg = s.cfg ∧ ∀ e ∈ (obsCb s m).2, e.cfg = s.cfg := by
  unfold obsCb
  split
  · have := obsSeq_cfg { (flush s).1 with sender := m.sender } m
    refine ⟨this.1, ?_⟩
    intro e he
    rw [List.mem_append] at he
    rcases he with he | he
    · simp only [flush, List.mem_singleton] at he; rw [he]
    · exact this.2 e he
  · exact obsSeq_cfg s m

theorem run_cfg (ms : List ObsIn) (s : State) : (SbpRtcm.run s (ms.map .obs)).1.cfg = s.cfg ∧ ∀ e ∈ (SbpRtcm.run s (ms.map .obs)).2, e.cfg = s.cfg := by
  induction ms generalizing s with
  | nil => exact ⟨rfl, by simp [SbpRtcm.run]⟩
  | cons m ms ih =>
    obtain ⟨a1, a2⟩ := obsCb_cfg s m
    obtain ⟨b1, b2⟩ := ih (obsCb s m).1
    rw [a1] at b1 b2
    refine ⟨b1, ?_⟩
    intro e he
    simp only [List.map_cons, SbpRtcm.run, SbpRtcm.step, List.mem_append] at he
    exact he.elim (a2 e) (b2 e)

theorem run_app (l l' : List Event) (s : State) : SbpRtcm.run s (l ++ l') =
    ((SbpRtcm.run (SbpRtcm.run s l).1 l').1, (SbpRtcm.run s l).2 ++ (SbpRtcm.run (SbpRtcm.run s l).1 l').2) := by
  induction l generalizing s with
  | nil => simp [SbpRtcm.run]
  | cons x xs ih => simp [SbpRtcm.run, ih]

theorem obsOf_map (ms : List ObsIn) : obsOf (ms.map .obs) = ms := by
  induction ms with
  | nil => rfl
  | cons m ms ih => simpa [obsOf] using ih

/-- the epoch that the SBP observation messages `g.2.2` of station `g.1` at time `g.2.1` stand for -/
def epochOf (cfg : Config) (g : Nat × SbpTime × List ObsIn) : Epoch := ⟨cfg, g.1, g.2.1, g.2.2.flatMap usable⟩

theorem epochs_of_groups (init : Nat × SbpTime × Nat) (gs : List (Nat × SbpTime × List ObsIn)) : ∀ (before : List Event),
    (∀ m, .obs m ∈ before → WF m) → (∀ g ∈ gs, g.2.2 ≠ [] ∧ Sequence g.1 g.2.1 g.2.2) → ∀ (s : State),
    s = (SbpRtcm.run (State.init init.1 init.2.1 init.2.2) before).1 → s.buf = [] →
    (SbpRtcm.run s ((gs.flatMap (·.2.2)).map .obs)).2.filter (fun e => !e.obs.isEmpty) =
      (gs.map (epochOf s.cfg)).filter fun e => !e.obs.isEmpty := by
  induction gs with
  | nil => intro _ _ _ _ _ _; rfl
  | cons g gs IH =>
    intro before hw hg s hs hb
    obtain ⟨hne, hq⟩ := hg g (by simp)
    obtain ⟨snd, t, ms⟩ := g
    cases ms with
    | nil => exact absurd rfl hne
    | cons m ms =>
      simp only at hq hne
      obtain ⟨pre, e, r1, r2, r3, r4, r5, r6⟩ := C28_complete init before hw snd t m (ms.map .obs) (by rw [obsOf_map]; exact hq)
        (by intro i hi; simp at hi) s hs (Or.inl hb)
      rw [obsOf_map] at r4
      have hcfg := run_cfg (m :: ms) s
      have hpre : pre.filter (fun e => !e.obs.isEmpty) = [] := by
        rw [List.filter_eq_nil_iff]
        intro e' he'
        have h0 : emitted pre = [] := by rw [r6]; simp [pending, hb, tag]
        unfold emitted at h0
        rw [List.flatMap_eq_nil_iff] at h0
        have := h0 e' he'
        unfold tag at this
        rw [List.map_eq_nil_iff] at this
        simp [this]
      have ih := IH (before ++ (m :: ms).map .obs) (by
          intro m' hm'
          rw [List.mem_append] at hm'
          rcases hm' with h | h
          · exact hw m' h
          · obtain ⟨m'', h1, h2⟩ := List.mem_map.1 h
            cases h2
            exact hq.wf _ h1) (fun g hg' => hg g (List.mem_cons_of_mem _ hg')) (SbpRtcm.run s ((m :: ms).map .obs)).1
        (by rw [run_app, hs]) r5
      rw [List.flatMap_cons, List.map_append, run_app]
      simp only
      rw [List.filter_append, ih, hcfg.1]
      rw [List.map_cons, r1, List.filter_append, hpre, List.nil_append]
      have he : e = epochOf s.cfg (snd, t, m :: ms) := by
        have := hcfg.2 e (by rw [show (m :: ms).map Event.obs = .obs m :: ms.map .obs from rfl, r1]; simp)
        cases e
        simp only at r2 r3 r4 this
        subst this
        rw [r2, r3, r4]
        rfl
      rw [he, ← List.filter_append]
      rfl

/-- the epochs among the events on the stream -/
def evEpochs (evs : List Ev) : List Epoch := evs.filterMap fun | .epoch e => some e | .other _ => none

theorem evEpoch_filter (evs : List Ev) : evs.filterMap evEpoch = (evEpochs evs).filter fun e => !e.obs.isEmpty := by
  unfold evEpochs
  induction evs with
  | nil => rfl
  | cons v evs ih =>
    cases v with
    | other p =>
      rw [List.filterMap_cons]
      exact ih
    | epoch e =>
      cases h : e.obs with
      | nil => simp [evEpoch, h, ih]
      | cons a r => simp [evEpoch, h, ih]

/-- **C72** (partial: as C72_stream_partial) From SBP to SBP: complete sequences `gs` of SBP observation messages of any stations go into the
converter to RTCM, whose epochs are sent mixed with other messages; then the converter from RTCM outputs one group of SBP observation messages
for each sequence that has usable observations, in order, holding each delivered one exactly once with its values, at the time of the sequence. -/
theorem C72_messages_partial (crc : Buf → BitVec 24) (env : Env) (env' : RtcmSbp.Env) (ht : env.prn.WF) (hm : Match env env') (table : List Nat)
    (init : Nat × SbpTime × Nat) (before : List Event) (hw : ∀ m, .obs m ∈ before → WF m) (s : State)
    (hs : s = (SbpRtcm.run (State.init init.1 init.2.1 init.2.2) before).1) (hb : s.buf = [])
    (gs : List (Nat × SbpTime × List ObsIn)) (hg : ∀ g ∈ gs, g.2.2 ≠ [] ∧ Sequence g.1 g.2.1 g.2.2)
    (evs : List Ev) (hev : evEpochs evs = (SbpRtcm.run s ((gs.flatMap (·.2.2)).map .obs)).2)
    (xss : List (List Input)) (h : List.Forall₂ (EvOk env env' table) evs xss) (bytes : Buf) (hbt : SentAs crc env evs bytes)
    (chunks : List Buf) (hc : Received crc bytes chunks xss.flatten) (r : RtcmSbp.State) (hr : r.buf = []) (hf : r.fcn = table) :
    ∃ groups : List (List ObsMsg),
      List.Forall₂ (EpochBack env) ((gs.map (epochOf s.cfg)).filter fun e => !e.obs.isEmpty) groups ∧
      obsOut (RtcmSbp.run env' r xss.flatten).2 = groups.flatten := by
  have := C72_stream_partial crc env env' ht hm table evs xss h bytes hbt chunks hc r hr hf
  rwa [evEpoch_filter, hev, epochs_of_groups init gs before hw hg s hs hb] at this

/-! ### a concrete stream, and defects -/

/-- example: five signals -/
def wEnv : Env where
  prn := exEnv.prn
  consOf := fun c => match c with
    | .gps_l1ca | .gps_l2cm => some .gps
    | .glo_l1of => some .glo
    | .qzs_l1ca => some .qzs
    | .gal_e1x => some .gal
    | _ => none
  freq := fun c ch => match c with
    | .gps_l1ca => some 1575420000
    | .gps_l2cm => some 1227600000
    | .gal_e1x => some 1575420000
    | .qzs_l1ca => some 1575420000
    | .glo_l1of => if ch ≤ 13 then some (1602000000 + ((ch : ℚ) - 7) * 562500) else none
    | _ => none
def wEnv' : RtcmSbp.Env where
  prn := wEnv.prn
  sigBias := fun _ => 0
  masked := fun _ => false
  freq := wEnv.freq
  gloBias := fun _ _ => (0, 0)
  utcOffset := fun _ => 18
def wCfg : Config := { leap := some 18, fcn := List.replicate 29 8, legacy := false, msm := true, msmType := .msm5 }
def wTable : List Nat := List.replicate 29 8
/-- range 22000 km -/
def wO (sat : Nat) (code : Code) (li : Int) (di : Int) : SbpObs := ⟨sat, code, 1100000000, li, 6, di, 8, 160, 9, 15⟩
def wL : List SbpObs := [wO 3 .gps_l1ca 115611310 100, wO 5 .glo_l1of 117603117 102, wO 3 .gps_l2cm 90086735 78, wO 193 .qzs_l1ca 115611310 100,
  wO 11 .gal_e1x 115611310 100]
def wEpoch (tow : Nat) (l : List SbpObs) : Epoch := ⟨wCfg, 4103, ⟨2100, tow⟩, l⟩
def wIn (p : Buf) : Input := ⟨true, ⟨2100, 7⟩, p, 0, none⟩
/-- what the receiver outputs for an epoch -/
def wOut (tow : Nat) (l : List SbpObs) : Option (List ObsMsg) :=
  (epochPayloads wEnv (wEpoch tow l)).map fun ps => obsOut (RtcmSbp.run wEnv' RtcmSbp.State.init (ps.map wIn)).2

theorem wMatch : Match wEnv wEnv' := ⟨rfl, rfl, fun _ => rfl, fun _ _ => rfl, fun _ => rfl⟩

theorem wClean : Clean wEnv wL := by
  refine ⟨?_, by decide, ?_, ?_⟩
  · intro o ho
    simp only [wL, List.mem_cons, List.not_mem_nil, or_false] at ho
    rcases ho with rfl | rfl | rfl | rfl | rfl
    · exact ⟨.gps, rfl, by decide, ⟨by decide, 2, by decide⟩, by decide⟩
    · exact ⟨.glo, rfl, by decide, ⟨by decide, 2, by decide⟩, by decide⟩
    · exact ⟨.gps, rfl, by decide, ⟨by decide, 15, by decide⟩, by decide⟩
    · exact ⟨.qzs, rfl, by decide, ⟨by decide, 2, by decide⟩, by decide⟩
    · exact ⟨.gal, rfl, by decide, ⟨by decide, 5, by decide⟩, by decide⟩
  · intro c; cases c <;> decide +kernel
  · intro c; cases c <;> decide +kernel

/-- the epoch of the example meets the hypotheses -/
theorem wEpochOk : EpochOk wEnv wTable (wEpoch 5000 wL) := by
  have hd : ∀ o ∈ wL, ∀ c, wEnv.consOf o.code = some c → (freqFor wEnv wCfg c o).all fun hz => decide (1 ≤ hz ∧ hz ≤ 2000000000 ∧
      |cycles o * 299792458 / hz - range o| ≤ 800 ∧ |rate hz o| ≤ 8191) := by
    intro o ho c hc
    simp only [wL, List.mem_cons, List.not_mem_nil, or_false] at ho
    rcases ho with rfl | rfl | rfl | rfl | rfl <;> cases c <;> first | (exfalso; revert hc; decide) | decide +kernel
  refine ⟨⟨rfl, rfl⟩, Or.inr rfl, wClean, by decide, ?_, ?_, ?_, ?_, ?_, by decide, by decide, ?_⟩
  · intro o ho c hc
    have h := hd o ho c hc
    have hp : o.P = 1100000000 ∧ o.flags = 15 ∧ o.Lf = 6 ∧ o.Df = 8 ∧ o.cn0 = 160 ∧ o.lock = 9 := by
      simp only [wEpoch, wL, List.mem_cons, List.not_mem_nil, or_false] at ho
      rcases ho with rfl | rfl | rfl | rfl | rfl <;> exact ⟨rfl, rfl, rfl, rfl, rfl, rfl⟩
    obtain ⟨p1, p2, p3, p4, p5, p6⟩ := hp
    have hz : ∀ hz, freqFor wEnv wCfg c o = some hz → 1 ≤ hz ∧ hz ≤ 2000000000 ∧ |cycles o * 299792458 / hz - range o| ≤ 800 ∧ |rate hz o| ≤ 8191 := by
      intro hz e
      rw [e] at h
      simpa using h
    refine ⟨by rw [p2]; decide, ?_, fun hz' e => ⟨(hz hz' e).1, (hz hz' e).2.1⟩, by omega, fun hz' e _ => (hz hz' e).2.2.1, by omega,
      fun hz' e _ => (hz hz' e).2.2.2, by omega, by omega⟩
    show (o.P : ℚ) / 50 < 76000000
    rw [p1]; norm_num
  · intro o ho o' ho' _ _
    have hp : ∀ o ∈ wL, o.P = 1100000000 := by decide
    unfold range
    rw [hp o ho, hp o' ho']
    norm_num
  · have hr : ∀ o ∈ wL, ∀ c, wEnv.consOf o.code = some c → ∀ hz, freqFor wEnv wCfg c o = some hz → |rate hz o + 191 / 10| ≤ 1 / 2 := by
      intro o ho c hc hz e
      have : ∀ o ∈ wL, ∀ c, wEnv.consOf o.code = some c → (freqFor wEnv wCfg c o).all fun hz => decide (|rate hz o + 191 / 10| ≤ 1 / 2) := by
        intro o ho c hc
        simp only [wL, List.mem_cons, List.not_mem_nil, or_false] at ho
        rcases ho with rfl | rfl | rfl | rfl | rfl <;> cases c <;> first | (exfalso; revert hc; decide) | decide +kernel
      have := this o ho c hc
      rw [e] at this
      simpa using this
    intro o ho o' ho' _ c hc hc' hz e hz' e' _ _
    have a := hr o ho c hc hz e
    have b := hr o' ho' c hc' hz' e'
    rw [abs_le] at a b ⊢
    constructor <;> linarith [a.1, a.2, b.1, b.2]
  · intro o ho hc
    have : o = wO 5 .glo_l1of 117603117 102 := by
      simp only [wEpoch, wL, List.mem_cons, List.not_mem_nil, or_false] at ho
      rcases ho with rfl | rfl | rfl | rfl | rfl <;> first | rfl | (exfalso; revert hc; decide)
    subst this
    decide +kernel
  · intro _
    exact ⟨_, List.mem_cons_self, by decide⟩
  · intro _
    exact ⟨18, rfl, by decide, by decide⟩

theorem wTimeOk (p : Buf) : TimeOk wEnv wEnv' (wEpoch 5000 wL) (wIn p) := by
  refine ⟨rfl, ?_, ?_, ?_, by show (0 : Int) < 2100; decide, ?_⟩
  · show GpsTime.valid ⟨2100, 7⟩; decide +kernel
  · show 259200 ≤ secs ⟨2100, 7⟩ ∧ secs ⟨2100, 7⟩ < 32767 * 604800 - 259200; decide +kernel
  · simp only [secs, epochTime, wEpoch, wIn]; norm_num
  · intro _
    refine ⟨rfl, ?_, Or.inl ?_⟩ <;> simp only [secs, epochTime, wEpoch, wIn, wEnv'] <;> norm_num

/-- the hypotheses of `C72_stream_partial` are met by an epoch of four constellations, then a text message -/
example : ∃ xss, List.Forall₂ (EvOk wEnv wEnv' wTable) [.epoch (wEpoch 5000 wL), .other [0x40, 0x50, 0, 0]] xss := by
  obtain ⟨h1, h2, b, -, hp, -⟩ := epoch_payloads wEnv exEnv_wf wTable _ wEpochOk
  generalize hq : (sentCons wEnv (wEpoch 5000 wL)).map _ = ps at hp
  refine ⟨[ps.map wIn, [wIn [0x40, 0x50, 0, 0]]], .cons ⟨wEpochOk, ?_, ?_⟩ (.cons ⟨by decide, by decide, by decide, by decide, _, rfl, ?_⟩ .nil)⟩
  · intro x hx
    obtain ⟨p, -, rfl⟩ := List.mem_map.1 hx
    exact wTimeOk _
  · intro ps' hps
    rw [hp] at hps
    rw [← Option.some.inj hps]
    simp
  · intro sat fcn h; cases h

/-- the epoch comes back in one message without the QZSS observation -/
example : wOut 5000 wL = some [⟨0xF087, ⟨2100, 5000⟩, 16, [wO 3 .gps_l1ca 115611310 100, wO 3 .gps_l2cm 90086735 78, wO 5 .glo_l1of 117603117 102,
    wO 11 .gal_e1x 115611310 100]⟩] := by decide +kernel

/-- **C72** Defect: the frame of an epoch with QZSS observations only makes the receiver output an SBP observation message without
observations and with time 0 of week 0. -/
theorem C72_qzss_bug : wOut 5000 [wO 193 .qzs_l1ca 115611310 100] = some [⟨0, ⟨0, 0⟩, 16, []⟩] := by decide +kernel

/-- **C72** Defect: of the first epoch after the receiver's start, if it is at the beginning of the week, an SBP observation message without
observations and with time 0 of week 0 is left. -/
theorem C72_week_start_bug : wOut 0 [wO 3 .gps_l1ca 115611310 100] = some [⟨0, ⟨0, 0⟩, 16, []⟩] := by decide +kernel

/-- **C72** Defect: a valid carrier phase that differs from the pseudorange by more than the range of the MSM field (190 m per 1000 cycles,
here 190 km) comes back as invalid: it is neither moved by whole cycles nor is the loss of lock marked. -/
theorem C72_far_phase_bug : (wOut 5000 [wO 3 .gps_l1ca 116611310 100]).map (fun ms => ms.flatMap fun m => m.obs.map fun o => (o.P, o.Li, o.Lf, o.lock, o.flags)) =
    some [(1100000000, 0, 0, 9, 9)] := by decide +kernel

end Verif.ObsStream
