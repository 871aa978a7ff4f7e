import Verif.Spec.Rtcm3ToSbp
import Verif.Props.C24
import Verif.Props.C71
import Verif.Props.C72
/-
C73: the steps of rtcm3tosbp.
-/
namespace Verif.Prog
open Verif.Prog.Spec Verif.Time
open Verif.RtcmSbp (ObsMsg Input messageType)
open Verif.RtcmSbp.Spec (obsOut WellSplit)
open Verif.EphStream (SbpEph Lib)
open Verif.SbpRtcm (Epoch)
open Verif.ObsStream.Spec (EpochOk TimeOk EpochBack epochTime secs Match)
open Verif.EphSbp.Spec
open Verif.Acc.Spec (LibOk)
open Verif.EphSbp

/-! ### whole seconds are exact -/

theorem f32_int {n : Nat} (h : n < 2 ^ 24) : TimeTruth.f32 (n : ℚ) = n := by
  apply le_antisymm
  · unfold TimeTruth.f32
    split
    · exact Nat.cast_nonneg n
    · rename_i hn
      have hn' : (0 : ℚ) < n := not_le.mp hn
      have h0 := TimeTruth.pow_exp_le hn' (by
        by_contra hh
        have h1 := TimeTruth.lt_pow_exp (n : ℚ)
        have h2 : (1 : ℚ) ≤ n := by
          have : 0 < n := by exact_mod_cast hn'
          exact_mod_cast this
        have h3 : (2 : ℚ) ^ (TimeTruth.f32exp n + 1) ≤ 2 ^ (0 : Int) := zpow_le_zpow_right₀ (by norm_num) (by omega)
        rw [zpow_zero] at h3
        linarith)
      generalize TimeTruth.f32exp (n : ℚ) = k at h0 ⊢
      have hk : k ≤ 23 := by
        by_contra hh
        have h1 : (2 : ℚ) ^ (24 : Int) ≤ 2 ^ k := zpow_le_zpow_right₀ (by norm_num) (by omega)
        have h2 : (n : ℚ) < 2 ^ (24 : Int) := by
          have : (n : ℚ) < ((2 ^ 24 : Nat) : ℚ) := by exact_mod_cast h
          refine lt_of_lt_of_eq this ?_
          norm_num
        linarith
      have e : (n : ℚ) / 2 ^ (k - 23) = (((n : Int) * 2 ^ (23 - k).toNat : Int) : ℚ) := by
        rw [div_eq_iff (ne_of_gt (TimeTruth.pow_pos' _))]
        push_cast
        rw [mul_assoc, ← zpow_natCast, Int.toNat_of_nonneg (by omega), ← zpow_add₀ (by norm_num)]
        simp
      have := TimeTruth.rne_hi (le_of_eq e)
      have h3 : (TimeTruth.rne ((n : ℚ) / 2 ^ (k - 23)) : ℚ) ≤ (n : ℚ) / 2 ^ (k - 23) := by
        rw [e]
        rw [e] at this
        exact_mod_cast this
      rwa [le_div_iff₀ (TimeTruth.pow_pos' _)] at h3
  · refine TimeTruth.f32_ge ⟨n, 23, by simp, by norm_num, by positivity, ?_⟩ (le_refl _) (Nat.cast_nonneg n)
    exact_mod_cast le_of_lt h

/-! ### the state of the program and what the receiver knows -/

/-- the program knows the time `clock` and the GLONASS channels `table`, and no observations are pending -/
structure Rel (obs : Bool) (clock : GpsTime) (table : List Nat) (st : State) : Prop where
  mode : st.obsMode = obs
  clk : obs = true → st.clock = clock
  truth : obs = false → st.truth = ⟨clock.wn, clock.tow, true⟩
  buf : st.conv.buf = []
  fcn : st.conv.fcn = table

theorem rel_time {obs clock table st} (h : Rel obs clock table st) : solved st = true ∧ time st = clock := by
  unfold solved time
  rw [h.mode]
  cases obs with
  | true => exact ⟨rfl, h.clk rfl⟩
  | false =>
    rw [h.truth rfl]
    exact ⟨rfl, rfl⟩

/-- the messages given to the callback change only the clock -/
theorem callback_conv (ref : Nat) (l : List Msg) (st : State) :
    (l.foldl (callback ref) st).conv = st.conv ∧ (l.foldl (callback ref) st).obsMode = st.obsMode := by
  induction l generalizing st with
  | nil => exact ⟨rfl, rfl⟩
  | cons m l ih =>
    rw [List.foldl_cons, (ih _).1, (ih _).2]
    unfold callback
    split
    · cases m <;> exact ⟨rfl, rfl⟩
    · split <;> exact ⟨rfl, rfl⟩

theorem callback_obs (ref : Nat) (g : List ObsMsg) (st : State) :
    (g.map Msg.obs).foldl (callback ref) st = { st with clock := if st.obsMode then g.foldl (fun c m => updateObsTime m c) st.clock else st.clock } := by
  induction g generalizing st with
  | nil => cases st; simp
  | cons m g ih =>
    rw [List.map_cons, List.foldl_cons, ih]
    unfold callback
    cases h : st.obsMode with
    | true => simp [h]
    | false => simp [h, sbpIn, TimeTruth.fromSbp]

theorem s16_id {w : Int} (h : 0 ≤ w ∧ w ≤ 32767) : (BitVec.ofInt 16 w).toInt = w := by
  rw [BitVec.toInt_ofInt]
  exact Int.bmod_eq_of_le (by omega) (by omega)

theorem updateObsTime_eq {m : ObsMsg} (c : GpsTime) (hw : 0 ≤ m.t.wn ∧ m.t.wn ≤ 32767) (ht : 0 < m.t.tow) :
    updateObsTime m c = epochTime m.t := by
  unfold updateObsTime epochTime
  simp only
  rw [s16_id hw, if_pos]
  have : (1 : ℚ) ≤ m.t.tow := by exact_mod_cast ht
  rw [gt_iff_lt, lt_abs]
  left
  have : (1 : ℚ) / 10 ^ 12 < 1 / 1000 := by norm_num
  linarith

theorem clock_of_group {e : Epoch} (hw : 0 ≤ e.t.wn ∧ e.t.wn ≤ 32767) (ht : 0 < e.t.tow) : ∀ (g : List ObsMsg) (c : GpsTime), g ≠ [] →
    (∀ m ∈ g, m.t = e.t) → g.foldl (fun c m => updateObsTime m c) c = epochTime e.t
  | [], _, h, _ => absurd rfl h
  | [m], c, _, h => by
    have := h m (by simp)
    rw [List.foldl_cons, List.foldl_nil, updateObsTime_eq c (by rw [this]; exact hw) (by rw [this]; exact ht), this]
  | m :: m' :: g, c, _, h => by
    rw [List.foldl_cons]
    exact clock_of_group hw ht (m' :: g) _ (by simp) fun x hx => h x (List.mem_cons_of_mem _ hx)

/-! ### epochs -/

theorem ephs_none (su : Setup) (st : State) (p : Buf) (h : messageType p ∉ EphStream.Spec.ephTypes) : ephs su st p = [] :=
  EphStream.other_none _ _ _ _ h

theorem unwrapped_nil (su : Setup) (p : Buf) (h : ¬ Spec.WrapsTime p) : unwrapped su p = [] := by
  unfold unwrapped
  split
  · rename_i h1
    cases hd : decode4062.run p with
    | error => rfl
    | ok m =>
      simp only
      rw [if_neg (fun h2 => h ⟨h1, m, hd, .inl h2⟩), if_neg (fun h2 => h ⟨h1, m, hd, .inr h2⟩)]
  · rfl

theorem unwrapped_type (su : Setup) (p : Buf) (h : messageType p ≠ 4062) : unwrapped su p = [] :=
  unwrapped_nil su p fun h' => h h'.1

/-- a message that is no ephemeris -/
theorem step_plain (su : Setup) (st : State) (p : Buf) (h : messageType p ∉ EphStream.Spec.ephTypes) (hw : unwrapped su p = []) :
    input su st p = ⟨solved st, time st, p, su.extra p, none⟩ ∧
    step su st p = (let r := RtcmSbp.step su.env st.conv ⟨solved st, time st, p, su.extra p, none⟩
      (((obsOut r.2).map Msg.obs).foldl (callback su.lib.weekRef) { st with conv := r.1 }, (obsOut r.2).map Msg.obs)) := by
  have e : input su st p = ⟨solved st, time st, p, su.extra p, none⟩ := by
    unfold input
    rw [ephs_none su st p h]
    rfl
  refine ⟨e, ?_⟩
  unfold step
  rw [e, ephs_none su st p h, hw]
  simp

theorem run_quiet (su : Setup) (ps : List Buf) : ∀ (st : State), (∀ p ∈ ps, messageType p ∉ EphStream.Spec.ephTypes ∧ messageType p ≠ 4062) →
    (∀ pre x post, ps.map (fun p => (⟨solved st, time st, p, su.extra p, none⟩ : Input)) = pre ++ x :: post →
      obsOut (RtcmSbp.run su.env st.conv pre).2 = []) →
    run su st ps =
      (let r := RtcmSbp.run su.env st.conv (ps.map fun p => ⟨solved st, time st, p, su.extra p, none⟩)
       (((obsOut r.2).map Msg.obs).foldl (callback su.lib.weekRef) { st with conv := r.1 }, (obsOut r.2).map Msg.obs)) := by
  induction ps with
  | nil => intro st _ _; rfl
  | cons p ps ih =>
    intro st ht hq
    simp only [run, List.map_cons, RtcmSbp.run]
    rw [(step_plain su st p (ht p (by simp)).1 (unwrapped_type su p (ht p (by simp)).2)).2]
    cases ps with
    | nil => simp [run, RtcmSbp.run]
    | cons p' ps =>
      have h0 : obsOut (RtcmSbp.step su.env st.conv ⟨solved st, time st, p, su.extra p, none⟩).2 = [] := by
        have := hq [⟨solved st, time st, p, su.extra p, none⟩] ⟨solved st, time st, p', su.extra p', none⟩ _ rfl
        simpa [RtcmSbp.run] using this
      simp only [h0, List.map_nil, List.foldl_nil, List.nil_append]
      rw [ih { st with conv := _ } (fun q hq => ht q (List.mem_cons_of_mem _ hq)) (by
        intro pre x post h
        have := hq (⟨solved st, time st, p, su.extra p, none⟩ :: pre) x post (by
          rw [List.map_cons, List.cons_append, ← h]
          rfl)
        simp only [RtcmSbp.run] at this
        rw [RtcmSbp.obsOut_append, h0, List.nil_append] at this
        exact this)]
      have e1 : ∀ c, solved { st with conv := c } = solved st := fun _ => rfl
      have e2 : ∀ c, time { st with conv := c } = time st := fun _ => rfl
      simp only [e1, e2]
      rw [RtcmSbp.obsOut_append, h0, List.nil_append]

/-- the messages of an epoch are MSM messages -/
theorem epoch_types (env : SbpRtcm.Env) (ht : env.prn.WF) (table : List Nat) (e : Epoch) (he : EpochOk env table e) (ps : List Buf)
    (hp : ObsStream.epochPayloads env e = some ps) : ∀ p ∈ ps, 1 ≤ p.length ∧ p.length ≤ 1017 ∧ messageType p ∉ EphStream.Spec.ephTypes ∧ messageType p ≠ 4062 := by
  obtain ⟨h1, h2, b, hok, hpay, hall⟩ := ObsStream.epoch_payloads env ht table e he
  rw [hp] at hpay
  obtain rfl := Option.some.inj hpay
  intro p hp
  obtain ⟨c, hc, rfl⟩ := List.mem_map.1 hp
  obtain ⟨a1, a2, a3, a4⟩ := hall c hc
  refine ⟨by omega, a4, ?_⟩
  have hobs : ∀ o ∈ SbpRtcm.Spec.obsFor env c e.obs, ObsStream.Spec.ObsOk (SbpRtcm.freqOf env e.cfg c o) o := fun o ho => by
    have : o ∈ e.obs ∧ env.consOf o.code = some c := by simpa [SbpRtcm.Spec.obsFor] using ho
    exact he.obs o this.1 c this.2
  have hwf := ObsStream.msg_wf (mult := if (ObsStream.sentCons env e).getLast? = some c then 0 else 1) (hok c) he.type hobs
    (ObsStream.msmTow_lt he c a2) (by split <;> norm_num)
  have hpo := ObsStream.payload_ok he.type hwf.header
  rw [ObsStream.msmPayload_eq he.type a1]
  rw [hpo.type]
  show Msm.toMsmMsgNum (some c) e.cfg.msmType ∉ _ ∧ Msm.toMsmMsgNum (some c) e.cfg.msmType ≠ _
  rcases he.type with h | h <;> rw [h] <;> revert a1 <;> cases c <;> decide

theorem timeOk_of (env : SbpRtcm.Env) (env' : RtcmSbp.Env) (e : Epoch) (x : Input) (hs : x.solved = true) (h : TimeOk env env' e (knows x.time)) :
    TimeOk env env' e x := ⟨hs, h.valid, h.middle, h.near, h.week, h.glo⟩

theorem epoch_prog (env : SbpRtcm.Env) (su : Setup) (ht : env.prn.WF) (hm : Match env su.env) {obs clock table} (e : Epoch)
    (h : EvFit env su clock table (.epoch e)) (ps : List Buf) (hp : evPayloads env su.lib (.epoch e) = some ps) (st : State)
    (hr : Rel obs clock table st) : EvBack env (.epoch e) (run su st ps).2 ∧
      Rel obs (clockAfter su.lib.weekRef obs clock (.epoch e)) (channelsAfter table (.epoch e)) (run su st ps).1 := by
  obtain ⟨he, hx⟩ := h
  have hp : ObsStream.epochPayloads env e = some ps := hp
  by_cases hne : e.obs = []
  · obtain ⟨h1, h2, b, -, hq, -⟩ := ObsStream.epoch_payloads env ht table e he
    rw [(ObsStream.sentCons_nil env e he.clean).2 hne] at hq
    have : ps = [] := by
      rw [hp] at hq
      exact Option.some.inj hq
    subst this
    refine ⟨by simp [EvBack, hne, run], ?_⟩
    simpa [clockAfter, channelsAfter, hne, run] using hr
  · obtain ⟨r1, r2⟩ := rel_time hr
    obtain ⟨b1, b2, b3, b4⟩ := ObsStream.epoch_back env su.env ht hm table e he hne (ps.map fun p => ⟨solved st, time st, p, su.extra p, none⟩) (by
        intro x hx'
        obtain ⟨p, -, rfl⟩ := List.mem_map.1 hx'
        refine timeOk_of _ _ _ _ r1 ?_
        rw [r2]
        exact hx hne) (by rw [List.map_map]; simpa [Function.comp_def] using hp) st.conv hr.buf hr.fcn
    rw [run_quiet su ps st (fun p h => (epoch_types env ht table e he ps hp p h).2.2) b4]
    simp only
    refine ⟨?_, ?_⟩
    · simp only [EvBack, if_neg hne]
      exact ⟨_, rfl, b1⟩
    · rw [callback_obs]
      obtain ⟨L, R, -, -, hws⟩ := b1
      have hclk := clock_of_group he.week he.tow.1 _ st.clock hws.nonempty fun m hm => (hws.tagged m hm).1
      refine ⟨hr.mode, ?_, ?_, b2, b3⟩
      · intro ho
        have : st.obsMode = true := hr.mode.trans ho
        simp only [this, if_true, clockAfter, ho, hclk, if_pos (show True ∧ e.obs ≠ [] from ⟨trivial, hne⟩)]
      · intro ho
        simp only [clockAfter, ho, Bool.false_eq_true, false_and, if_false]
        exact hr.truth ho

/-! ### other messages -/

theorem setGloFcn_eq (s : RtcmSbp.State) (sat fcn : Nat) (hl : fcn < 128) :
    ((RtcmSbp.setGloFcn sat fcn s).getD s).buf = s.buf ∧
    ((RtcmSbp.setGloFcn sat fcn s).getD s).fcn =
      if 1 ≤ sat ∧ sat ≤ 28 then s.fcn.set sat (if 1 ≤ fcn ∧ fcn ≤ 14 then fcn - 1 else 255) else s.fcn := by
  have e : RtcmSbp.sbpFcnToRtcm fcn = if 1 ≤ fcn ∧ fcn ≤ 14 then fcn - 1 else 255 := by
    unfold RtcmSbp.sbpFcnToRtcm
    revert hl
    revert fcn
    decide +kernel
  unfold RtcmSbp.setGloFcn
  by_cases hs : 1 ≤ sat ∧ sat ≤ 28
  · rw [if_pos hs, if_neg (by simp only [RtcmSbp.numSatsGlo]; omega)]
    split
    · rename_i h
      rw [e]
      exact ⟨rfl, rfl⟩
    · rename_i h
      refine ⟨rfl, ?_⟩
      simp only [Option.getD_none]
      rw [List.set_eq_of_length_le (by omega)]
  · rw [if_neg hs, if_pos (by simp only [RtcmSbp.numSatsGlo]; omega)]
    exact ⟨rfl, rfl⟩

/-- a message that is no observation message -/
theorem other_step (env' : RtcmSbp.Env) (x : Input) (hsol : x.solved = true) (hl : 2 ≤ x.payload.length)
    (h1 : messageType x.payload ∉ [1002, 1004, 1010, 1012]) (h2 : ¬ (1070 ≤ messageType x.payload ∧ messageType x.payload ≤ 1229))
    (h3 : ∀ sat fcn, x.gloEph = some (sat, fcn) → messageType x.payload = 1020 ∧ fcn < 128)
    (s : RtcmSbp.State) (hs : s.buf = []) :
    obsOut (RtcmSbp.step env' s x).2 = [] ∧ (RtcmSbp.step env' s x).1.buf = [] ∧
      (RtcmSbp.step env' s x).1.fcn = match x.gloEph with
        | some (sat, fcn) => if 1 ≤ sat ∧ sat ≤ 28 then s.fcn.set sat (if 1 ≤ fcn ∧ fcn ≤ 14 then fcn - 1 else 255) else s.fcn
        | none => s.fcn := by
  rw [ObsStream.step_solved env' s x hsol hl, if_neg (fun h => h2 ⟨h.1, h.2.1⟩)]
  have hb : (ObsStream.timed env' s x).buf = [] := hs
  have hf : (ObsStream.timed env' s x).fcn = s.fcn := rfl
  generalize ObsStream.timed env' s x = s' at *
  rw [← hf]
  by_cases h0 : messageType x.payload = 1020
  · rw [h0]
    unfold RtcmSbp.dispatch
    rw [if_neg (by decide), if_neg (by decide), if_pos rfl]
    cases hg : x.gloEph with
    | none => exact ⟨rfl, hb, rfl⟩
    | some p =>
      obtain ⟨sat, fcn⟩ := p
      obtain ⟨a, b⟩ := setGloFcn_eq s' sat fcn (h3 sat fcn hg).2
      exact ⟨rfl, a.trans hb, b⟩
  · have hn : x.gloEph = none := by
      cases hg : x.gloEph with
      | none => rfl
      | some p => exact absurd (h3 p.1 p.2 hg).1 h0
    rw [hn]
    simp only
    generalize hn : messageType x.payload = n at *
    simp only [List.mem_cons, List.not_mem_nil, or_false, not_or] at h1
    unfold RtcmSbp.dispatch
    rw [if_neg (by tauto), if_neg (by tauto), if_neg h0]
    split
    · cases decode1033.run x.payload with
      | error => exact ⟨rfl, hb, rfl⟩
      | ok => simp only; split <;> exact ⟨rfl, hb, rfl⟩
    · split
      · cases decode1230.run x.payload with
        | error => exact ⟨rfl, hb, rfl⟩
        | ok => exact ⟨rfl, hb, rfl⟩
      · split
        · exact ⟨RtcmSbp.obsOut_converted _ _, hb, rfl⟩
        · rw [if_neg (by
            intro h
            apply h2
            revert h
            unfold RtcmSbp.msm13
            simp only [List.mem_cons, List.not_mem_nil, or_false]
            omega)]
          cases hm : RtcmSbp.msmSupported n with
          | none => exact ⟨rfl, hb, rfl⟩
          | some r => exact absurd (ObsStream.supported_range hm) h2

theorem other_prog (env : SbpRtcm.Env) (su : Setup) {obs clock table} (p : Buf) (h : EvFit env su clock table (.other p)) (st : State)
    (hr : Rel obs clock table st) : EvBack env (.other p) (run su st [p]).2 ∧
      Rel obs (clockAfter su.lib.weekRef obs clock (.other p)) (channelsAfter table (.other p)) (run su st [p]).1 := by
  obtain ⟨l1, l2, h1, h2, h3, h4⟩ := h
  simp only [run, List.append_nil]
  rw [(step_plain su st p h3 (unwrapped_nil su p h4)).2]
  obtain ⟨r1, r2⟩ := rel_time hr
  simp only
  by_cases hl : 2 ≤ p.length
  · obtain ⟨a, b, c⟩ := other_step su.env ⟨solved st, time st, p, su.extra p, none⟩ r1 hl h1 h2 (by intro _ _ h; cases h) st.conv hr.buf
    rw [a]
    exact ⟨rfl, hr.mode, hr.clk, hr.truth, b, c.trans hr.fcn⟩
  · have : RtcmSbp.step su.env st.conv ⟨solved st, time st, p, su.extra p, none⟩ = (st.conv, []) := by
      unfold RtcmSbp.step
      rw [if_pos (by show p.length < 2; omega)]
    rw [this]
    exact ⟨rfl, hr⟩

/-! ### ephemerides -/

/-- an ephemeris comes from a message of its type -/
theorem out_type {env : RtcmSbp.Env} {K : Lib} {s : RtcmSbp.State} {x : Input} {n : Nat} {e : SbpEph} (h : EphStream.out env K s x = [(n, e)]) :
    2 ≤ x.payload.length ∧ messageType x.payload ∈ EphStream.Spec.ephTypes ∧ ((∃ g, e = .glo g) → messageType x.payload = 1020) := by
  refine ⟨?_, ?_, ?_⟩
  · by_contra hh
    unfold EphStream.out at h
    rw [if_pos (by omega)] at h
    cases h
  · by_contra hh
    rw [EphStream.other_none env K s x hh] at h
    cases h
  · rintro ⟨g, rfl⟩
    unfold EphStream.out at h
    split at h
    · cases h
    · simp only at h
      split at h
      · cases h
      · cases hc : EphStream.content K (messageType x.payload) x.payload x.time (if x.solved = true then some (env.utcOffset x.time) else s.leap) with
        | none => rw [hc] at h; cases h
        | some e =>
          rw [hc] at h
          simp only [Option.toList_some, List.map_cons, List.map_nil, List.cons.injEq, Prod.mk.injEq, and_true] at h
          rw [h.2] at hc
          by_contra hn
          unfold EphStream.content at hc
          rw [if_neg (c := messageType x.payload = 1020) hn] at hc
          split_ifs at hc
          · cases d : decode1019.run x.payload with
            | error => rw [d] at hc; cases hc
            | ok m => rw [d] at hc; simp at hc
          · cases d : decode1042.run x.payload with
            | error => rw [d] at hc; cases hc
            | ok m => rw [d] at hc; simp at hc
          · cases d : decode1044.run x.payload with
            | error => rw [d] at hc; cases hc
            | ok m => rw [d] at hc; simp at hc
          · cases d : decode1045.run x.payload with
            | error => rw [d] at hc; cases hc
            | ok m => rw [d] at hc; simp at hc
          · cases d : decode1046.run x.payload with
            | error => rw [d] at hc; cases hc
            | ok m => rw [d] at hc; simp at hc

theorem truth_after (ref : Nat) (clock : GpsTime) (e : SbpKep) (hv : GpsTime.valid ⟨e.toe.wn, e.toe.tow⟩) :
    updateTruth ref .ephGps ⟨e.toe.wn, e.toe.tow⟩ ⟨clock.wn, clock.tow, true⟩ =
      if ref ≤ e.toe.wn ∧ secs clock < secs ⟨e.toe.wn, e.toe.tow⟩ then ⟨e.toe.wn, e.toe.tow, true⟩ else ⟨clock.wn, clock.tow, true⟩ := by
  unfold updateTruth TimeTruth.accepts TimeTruth.decide'
  have ht : e.toe.tow < 2 ^ 24 := by
    have h := hv.2.2.2
    have : (e.toe.tow : ℚ) < ((604800 : Nat) : ℚ) := by
      refine lt_of_lt_of_eq h ?_
      norm_num
    have : e.toe.tow < 604800 := by exact_mod_cast this
    omega
  simp only
  by_cases hr : ref ≤ e.toe.wn
  · rw [if_pos ⟨hv, by omega⟩, if_neg (by decide), if_neg (by decide), f32_int ht, ObsStream.diff_secs]
    by_cases hs : secs clock < secs ⟨e.toe.wn, e.toe.tow⟩
    · rw [if_neg (by rw [not_le]; show 0 < _ - secs ⟨clock.wn, clock.tow⟩; linarith), if_pos ⟨hr, hs⟩]
      rfl
    · rw [if_pos (by show _ - secs ⟨clock.wn, clock.tow⟩ ≤ 0; linarith), if_neg (by tauto)]
      rfl
  · rw [if_neg (by rintro ⟨-, h⟩; apply h; omega), if_neg (by tauto)]

theorem eph_prog (env : SbpRtcm.Env) (su : Setup) (hl : LibOk su.lib.acc.eps su.lib.acc.log2f) (hK : su.lib.inav ≠ su.lib.fnav) {obs clock table}
    (leap : Option Int) (junk : Nat) (e : SbpEph) (h : EvFit env su clock table (.eph leap junk e)) (p : Buf)
    (hp : evPayloads env su.lib (.eph leap junk e) = some [p]) (st : State) (hr : Rel obs clock table st) :
    EvBack env (.eph leap junk e) (run su st [p]).2 ∧
      Rel obs (clockAfter su.lib.weekRef obs clock (.eph leap junk e)) (channelsAfter table (.eph leap junk e)) (run su st [p]).1 := by
  obtain ⟨r1, r2⟩ := rel_time hr
  have hx : EphStream.Spec.EvOk su.env su.lib (.eph leap junk e) ⟨solved st, time st, p, su.extra p, none⟩ := by
    have h : EphStream.Spec.EvOk su.env su.lib (.eph leap junk e) (knows clock) := h
    rw [← r2] at h
    cases e with
    | glo e => exact ⟨h.1, r1, h.2.2⟩
    | _ => exact h
  obtain ⟨p', q1, -, -, q2⟩ := EphStream.eph_back su.env su.lib hl hK leap junk e _ hx
  have : p' = p := by
    have hp : (EphStream.payload su.lib leap junk e).map (fun p => [p]) = some [p] := hp
    rw [q1] at hp
    simpa using hp
  obtain ⟨e', o1, o2⟩ := q2 this.symm st.conv
  have he : ephs su st p = [(0xF080, e')] := o1
  obtain ⟨t1, t2, t3⟩ := out_type o1
  have t4 : messageType p ∉ [1002, 1004, 1010, 1012] ∧ ¬ (1070 ≤ messageType p ∧ messageType p ≤ 1229) := by
    have t2 : messageType p ∈ EphStream.Spec.ephTypes := t2
    simp only [EphStream.Spec.ephTypes, List.mem_cons, List.not_mem_nil, or_false] at t2 ⊢
    omega
  have hgl : ∀ sat fcn, gloOf (ephs su st p) = some (sat, fcn) → ∃ g g', e = .glo g ∧ e' = .glo g' ∧ sat = g.sat ∧ fcn = g.fcn ∧ fcn < 128 := by
    intro sat fcn hg
    rw [he] at hg
    cases e' with
    | glo g' =>
      cases e with
      | glo g =>
        obtain ⟨l, -, o2⟩ := o2
        simp only [gloOf, Option.some.injEq, Prod.mk.injEq] at hg
        have hfc := hx.2.2.2.fcn.2
        refine ⟨g, g', rfl, rfl, hg.1.symm.trans o2.sat, hg.2.symm.trans o2.fcn, ?_⟩
        rw [← hg.2, o2.fcn]
        omega
      | _ => exact absurd o2 (by simp [EphStream.Spec.Same])
    | _ => simp [gloOf] at hg
  obtain ⟨a, b, c⟩ := other_step su.env (input su st p) r1 t1 t4.1 t4.2 (by
    intro sat fcn hg
    obtain ⟨g, g', -, k2, -, -, k5⟩ := hgl sat fcn hg
    exact ⟨t3 ⟨g', k2⟩, k5⟩) st.conv hr.buf
  have hc : (RtcmSbp.step su.env st.conv (input su st p)).1.fcn = channelsAfter table (.eph leap junk e) := by
    rw [c, ← hr.fcn]
    show (match gloOf (ephs su st p) with | some (sat, fcn) => _ | none => _) = _
    rw [he]
    cases e' with
    | glo g' =>
      cases e with
      | glo g =>
        obtain ⟨l, -, o2⟩ := o2
        simp only [gloOf, channelsAfter, o2.sat, o2.fcn]
      | _ => exact absurd o2 (by simp [EphStream.Spec.Same])
    | gps g' => cases e <;> first | rfl | exact absurd o2 id
    | qzss g' => cases e <;> first | rfl | exact absurd o2 id
    | gal g' => cases e <;> first | rfl | exact absurd o2 id
    | bds g' => cases e <;> first | rfl | exact absurd o2 id
  have hun : unwrapped su p = [] := unwrapped_type su p (by
    have t2 : messageType p ∈ EphStream.Spec.ephTypes := t2
    simp only [EphStream.Spec.ephTypes, List.mem_cons, List.not_mem_nil, or_false] at t2
    omega)
  simp only [run, List.append_nil, step, a, he, hun, List.map_nil, List.nil_append, List.map_cons, List.foldl_cons, List.foldl_nil]
  refine ⟨⟨e', rfl, o2⟩, ?_⟩
  unfold callback
  rw [hr.mode]
  cases obs with
  | true =>
    simp only [if_true]
    refine ⟨rfl, ?_, by simp, b, hc⟩
    intro _
    rw [hr.clk rfl]
    cases e <;> simp [clockAfter]
  | false =>
    simp only [Bool.false_eq_true, if_false]
    cases e with
    | gps g =>
      cases e' with
      | gps g' =>
        have htoe : g'.toe = g.toe := o2.rest.toe
        have hhe : g'.health = g.health := o2.rest.health
        have hv : GpsTime.valid ⟨g.toe.wn, g.toe.tow⟩ := by
          have h1 := hx.2.time.1
          refine ⟨Int.natCast_nonneg _, Int.ofNat_le.2 h1.2.1, Nat.cast_nonneg _, ?_⟩
          have := h1.1
          have : (g.toe.tow : ℚ) < 604800 := by exact_mod_cast this
          exact this
        have hs : (BitVec.ofNat 16 g.toe.wn).toInt = g.toe.wn := by
          have h1 := hx.2.time.1.2.1
          rw [BitVec.toInt_ofNat']
          exact Int.bmod_eq_of_le (by omega) (by omega)
        simp only [sbpIn, TimeTruth.fromSbp, hhe, htoe, hs]
        by_cases hh : g.health = 0
        · simp only [hh, if_true]
          refine ⟨rfl, by simp, ?_, b, hc⟩
          intro _
          rw [hr.truth rfl, truth_after _ _ _ hv]
          simp only [clockAfter, hh, true_and, Bool.false_eq_true, not_false_eq_true]
          split <;> rfl
        · simp only [hh, if_false]
          refine ⟨rfl, by simp, ?_, b, hc⟩
          intro _
          simp only [clockAfter, hh, false_and, and_false, if_false]
          exact hr.truth rfl
      | _ => exact absurd o2 (by simp [EphStream.Spec.Same])
    | glo g => cases e' <;> first | exact ⟨rfl, fun h => absurd h (by decide), hr.truth, b, hc⟩ | exact absurd o2 id
    | gal g => cases e' <;> first | exact ⟨rfl, fun h => absurd h (by decide), hr.truth, b, hc⟩ | exact absurd o2 id
    | bds g => cases e' <;> first | exact ⟨rfl, fun h => absurd h (by decide), hr.truth, b, hc⟩ | exact absurd o2 id
    | qzss g => exact absurd hx id

end Verif.Prog
