import Verif.Spec.Sbp2Rtcm
import Verif.Props.C28
import Verif.Props.C65
import Verif.Props.C66
import Verif.Props.C67
import Verif.Props.C73
/-
C74: sbp2rtcm and rtcm3tosbp connected by a pipe.
-/
namespace Verif.Pipe
open Verif.Pipe.Spec Verif.Time
open Verif.RtcmSbp (SbpTime messageType SbpObs)
open Verif.SbpRtcm (Env ObsIn Epoch)
open Verif.SbpRtcm.Spec (Sequence usable obsOf)
open Verif.EphStream (SbpEph Lib)
open Verif.Prog (Setup Out Rel outRun outStep fullMain)
open Verif.Prog.Spec (EvFit EvBack clockAfter channelsAfter gpsTime evPayloads)
open Verif.ObsStream.Spec (EpochOk Match)
open Verif.Acc.Spec (LibOk)

variable {W E : Type}

/-! ### sender -/

theorem run_append (env : Env) (K : Lib) (a b : List SbpMsg) (s s1 s2 : St) (p q : List Buf) (h1 : run env K s a = some (s1, p))
    (h2 : run env K s1 b = some (s2, q)) : run env K s (a ++ b) = some (s2, p ++ q) := by
  induction a generalizing s p with
  | nil =>
    obtain ⟨rfl, rfl⟩ := Prod.mk.inj (Option.some.inj h1)
    simpa using h2
  | cons m a ih =>
    simp only [run, Option.bind_eq_bind, Option.bind_eq_some_iff] at h1
    obtain ⟨⟨t, u⟩, e1, ⟨v, w⟩, e2, e3⟩ := h1
    obtain ⟨rfl, rfl⟩ := Prod.mk.inj (Option.some.inj e3)
    rw [List.cons_append]
    simp only [run, e1, ih t w e2, Option.bind_eq_bind, Option.bind_some, List.append_assoc]

theorem flush_cfg (s : SbpRtcm.State) : (SbpRtcm.flush s).1.cfg = s.cfg ∧ ∀ e ∈ (SbpRtcm.flush s).2, e.cfg = s.cfg := by
  refine ⟨rfl, fun e he => ?_⟩
  rw [List.mem_singleton.1 he]

theorem accept_cfg (s : SbpRtcm.State) (m : ObsIn) : (SbpRtcm.accept s m).1.cfg = s.cfg ∧ ∀ e ∈ (SbpRtcm.accept s m).2, e.cfg = s.cfg := by
  unfold SbpRtcm.accept
  generalize SbpRtcm.nMeas m.len = n
  simp only []
  by_cases h : SbpRtcm.seqCounter m.nObs = SbpRtcm.seqSize m.nObs
  · rw [if_pos h]; exact flush_cfg _
  · rw [if_neg h]; exact ⟨rfl, by simp⟩

theorem obsSeq_cfg (s : SbpRtcm.State) (m : ObsIn) : (SbpRtcm.obsSeq s m).1.cfg = s.cfg ∧ ∀ e ∈ (SbpRtcm.obsSeq s m).2, e.cfg = s.cfg := by
  unfold SbpRtcm.obsSeq
  split
  · simp only
    split
    · exact ⟨rfl, by simp⟩
    · split
      · obtain ⟨a, b⟩ := accept_cfg (SbpRtcm.flush s).1 m
        refine ⟨a, fun e he => ?_⟩
        rcases List.mem_append.1 he with h | h
        · exact (flush_cfg s).2 e h
        · exact b e h
      · split
        · exact flush_cfg s
        · exact accept_cfg s m
  · exact accept_cfg s m

theorem obsCb_cfg (s : SbpRtcm.State) (m : ObsIn) : (SbpRtcm.obsCb s m).1.cfg = s.cfg ∧ ∀ e ∈ (SbpRtcm.obsCb s m).2, e.cfg = s.cfg := by
  unfold SbpRtcm.obsCb
  split
  · obtain ⟨a, b⟩ := obsSeq_cfg { (SbpRtcm.flush s).1 with sender := m.sender } m
    refine ⟨a, fun e he => ?_⟩
    rcases List.mem_append.1 he with h | h
    · exact (flush_cfg s).2 e h
    · exact b e h
  · exact obsSeq_cfg s m

theorem run_cfg (ms : List ObsIn) (s : SbpRtcm.State) :
    (SbpRtcm.run s (ms.map .obs)).1.cfg = s.cfg ∧ ∀ e ∈ (SbpRtcm.run s (ms.map .obs)).2, e.cfg = s.cfg := by
  induction ms generalizing s with
  | nil => exact ⟨rfl, by simp [SbpRtcm.run]⟩
  | cons m ms ih =>
    obtain ⟨a, b⟩ := obsCb_cfg s m
    obtain ⟨c, d⟩ := ih (SbpRtcm.obsCb s m).1
    refine ⟨c.trans a, fun e he => ?_⟩
    simp only [List.map_cons, SbpRtcm.run, SbpRtcm.step, List.mem_append] at he
    rcases he with h | h
    · exact b e h
    · exact (d e h).trans a

theorem obsOf_map (ms : List ObsIn) : obsOf (ms.map .obs) = ms := by
  induction ms with
  | nil => rfl
  | cons m ms ih =>
    show m :: obsOf (ms.map .obs) = _
    rw [ih]

/-- an epoch without observations gives no message -/
theorem empty_payloads (env : Env) (e : Epoch) (h : e.obs = []) (hl : e.cfg.legacy = false) : ObsStream.epochPayloads env e = some [] := by
  have hm : SbpRtcm.bufferToMsm env e = some [] := by
    unfold SbpRtcm.bufferToMsm
    rw [h]
    simp only [SbpRtcm.pass1, SbpRtcm.pass2, SbpRtcm.pass3, Option.bind_eq_bind, Option.bind_some]
    have : (SbpRtcm.allCons.filter fun c => decide (Msm.numSats (SbpRtcm.Build.empty c).hdr > 0)) = [] := by decide
    rw [this]
    rfl
  unfold ObsStream.epochPayloads
  rw [hl, hm]
  simp only [Bool.false_eq_true, if_false, Option.map_some, List.map_nil, Option.bind_eq_bind, Option.bind_some, List.nil_append]
  split <;> rfl

theorem mapM_app {α β} (f : α → Option β) (a b : List α) (x y : List β) (h1 : a.mapM f = some x) (h2 : b.mapM f = some y) :
    (a ++ b).mapM f = some (x ++ y) := by
  rw [List.mapM_append, h1, h2]; rfl

/-- the observation callbacks of the program are those of Model/SbpRtcm -/
theorem run_obs (env : Env) (K : Lib) (ms : List ObsIn) : ∀ (s : St) (pss : List (List Buf)),
    (SbpRtcm.run s.obs (ms.map .obs)).2.mapM (ObsStream.epochPayloads env) = some pss →
    ∃ i, run env K s (ms.map .obs) = some (⟨(SbpRtcm.run s.obs (ms.map .obs)).1, { s.misc with sender := i }⟩, pss.flatten) := by
  induction ms with
  | nil =>
    intro s pss h
    obtain rfl : [] = pss := Option.some.inj h
    exact ⟨s.misc.sender, rfl⟩
  | cons m ms ih =>
    intro s pss h
    simp only [List.map_cons, SbpRtcm.run, SbpRtcm.step] at h
    rw [List.mapM_append] at h
    simp only [Option.bind_eq_bind, Option.bind_eq_some_iff] at h
    obtain ⟨p, h1, q, h2, h3⟩ := h
    obtain rfl := Option.some.inj h3
    obtain ⟨i, h4⟩ := ih ⟨(SbpRtcm.obsCb s.obs m).1, { s.misc with sender := (SbpRtcm.obsCb s.obs m).1.sender }⟩ q h2
    refine ⟨i, ?_⟩
    simp only [List.map_cons, run, step, h1, h4, SbpRtcm.run, SbpRtcm.step, Option.bind_eq_bind, Option.bind_some, List.flatten_append]

/-- between items; `known`: antenna settings were made, so that 1008 and 1033 messages follow a position -/
structure Idle (known : Bool) (leap : Int) (s : St) : Prop where
  inv : SbpRtcm.Inv s.obs
  buf : s.obs.buf = []
  cfg : s.obs.cfg = config leap
  ant : s.misc.antKnown = known
  desc : Misc.StOk s.misc

theorem send_epoch (env : Env) (K : Lib) (known : Bool) (leap : Int) (s : St) (hs : Idle known leap s) (sender : Nat) (t : SbpTime) (ms : List ObsIn) (hne : ms ≠ [])
    (hq : Sequence sender t ms) (ps : List Buf) (hp : ObsStream.epochPayloads env (epochOf leap sender t ms) = some ps) :
    ∃ s', run env K s (ms.map .obs) = some (s', ps) ∧ Idle known leap s' := by
  obtain ⟨m, ms, rfl⟩ := List.exists_cons_of_ne_nil hne
  obtain ⟨pre, e, h1, h2, h3, h4, h5, h6⟩ := SbpRtcm.complete_of_inv sender t m (ms.map .obs) (by rw [obsOf_map]; exact hq) (by simp) s.obs hs.inv (Or.inl hs.buf)
  have hmap : (SbpRtcm.Event.obs m :: ms.map .obs) = (m :: ms).map .obs := rfl
  rw [hmap] at h1 h5
  obtain ⟨c1, c2⟩ := run_cfg (m :: ms) s.obs
  have he : e = epochOf leap sender t (m :: ms) := by
    have := c2 e (by rw [h1]; simp)
    rw [hs.cfg] at this
    rw [obsOf_map] at h4
    obtain ⟨a, b, c, d⟩ := e
    simp only at this h2 h3 h4
    rw [this, h2, h3, h4]; rfl
  have hpre : pre.mapM (ObsStream.epochPayloads env) = some (pre.map fun _ => []) := by
    have hall : ∀ x ∈ pre, ObsStream.epochPayloads env x = some [] := by
      intro x hx
      refine empty_payloads env x ?_ ?_
      · have hz : SbpRtcm.Spec.emitted pre = [] := by
          rw [h6, SbpRtcm.Spec.pending, hs.buf]; rfl
        unfold SbpRtcm.Spec.emitted at hz
        rw [List.flatMap_eq_nil_iff] at hz
        simpa [SbpRtcm.Spec.tag] using hz x hx
      · rw [c2 x (by rw [h1]; simp [hx]), hs.cfg]; rfl
    clear h1 h6
    induction pre with
    | nil => rfl
    | cons x pre ih => rw [List.mapM_cons, hall x (by simp), ih fun y hy => hall y (by simp [hy])]; rfl
  obtain ⟨i, hi⟩ := run_obs env K (m :: ms) s (pre.map (fun _ => []) ++ [ps]) (by
    rw [h1]
    refine mapM_app _ _ _ _ _ hpre ?_
    rw [he, List.mapM_cons, hp]; rfl)
  have hfl : (pre.map (fun _ => ([] : List Buf)) ++ [ps]).flatten = ps := by
    simp
  rw [hfl] at hi
  refine ⟨_, hi, ?_, h5, c1.trans hs.cfg, hs.ant, hs.desc⟩
  refine SbpRtcm.run_inv _ _ hs.inv ?_
  intro x hx
  obtain ⟨y, hy, hxy⟩ := List.mem_map.1 hx
  obtain rfl := SbpRtcm.Event.obs.inj hxy
  exact hq.wf y hy

/-! ### receiver -/

theorem outRun_append (su : Setup) (L : Misc.Lib W E) (mem : Nat → Buf × Buf) (a b : List Buf) (n : Nat) (s s1 s2 : Prog.State) (p q : List (Out W E))
    (h1 : outRun su L mem n s a = some (s1, p)) (h2 : outRun su L mem (n + a.length) s1 b = some (s2, q)) :
    outRun su L mem n s (a ++ b) = some (s2, p ++ q) := by
  induction a generalizing s p n with
  | nil =>
    obtain ⟨rfl, rfl⟩ := Prod.mk.inj (Option.some.inj h1)
    simpa using h2
  | cons m a ih =>
    simp only [outRun, Option.bind_eq_bind, Option.bind_eq_some_iff] at h1
    obtain ⟨⟨t, u⟩, e1, ⟨v, w⟩, e2, e3⟩ := h1
    obtain ⟨rfl, rfl⟩ := Prod.mk.inj (Option.some.inj e3)
    rw [List.cons_append]
    have := ih (n + 1) t w e2 (by rw [List.length_cons] at h2; rw [show n + 1 + a.length = n + (a.length + 1) by omega]; exact h2)
    simp only [outRun, e1, this, Option.bind_eq_bind, Option.bind_some, List.append_assoc]

/-- messages with a case of Model/RtcmMisc -/
def miscTypes : List Nat := [1005, 1006, 1029, 1033, 1230, 4062, 4075] ++ RtcmSbp.msm13

theorem misc_none (env : RtcmSbp.Env) (L : Misc.Lib W E) (s : RtcmSbp.State) (x : Misc.MInput) (h : messageType x.inp.payload ∉ miscTypes) :
    Misc.miscOut env L s x = some [] := by
  simp only [miscTypes, List.mem_append, List.mem_cons, List.not_mem_nil, or_false, not_or] at h
  obtain ⟨⟨h1, h2, h3, h4, h5, h6, h7⟩, h8⟩ := h
  unfold Misc.miscOut
  split
  · rfl
  · simp only
    split
    · rfl
    · unfold Misc.content
      simp only
      rw [if_neg h1, if_neg h2, if_neg h3, if_neg h4, if_neg h5, if_neg h6, if_neg h7, if_neg h8]

theorem outRun_core (su : Setup) (L : Misc.Lib W E) (mem : Nat → Buf × Buf) (ps : List Buf) (h : ∀ p ∈ ps, messageType p ∉ miscTypes) :
    ∀ (n : Nat) (st : Prog.State), outRun su L mem n st ps = some ((Prog.run su st ps).1, (Prog.run su st ps).2.map .core) := by
  induction ps with
  | nil => intro n st; rfl
  | cons p ps ih =>
    intro n st
    have e : outStep su L (mem n) st p = some ((Prog.step su st p).1, (Prog.step su st p).2.map .core) := by
      unfold outStep
      rw [misc_none _ _ _ _ (by exact h p (by simp))]
      rfl
    simp only [outRun, e, ih (fun q hq => h q (by simp [hq])), Prog.run, Option.bind_eq_bind, Option.bind_some, List.map_append]

theorem epoch_types' (env : Env) (ht : env.prn.WF) (table : List Nat) (e : Epoch) (he : EpochOk env table e) (ps : List Buf)
    (hp : ObsStream.epochPayloads env e = some ps) : ∀ p ∈ ps, messageType p ∉ miscTypes := by
  obtain ⟨h1, h2, b, hok, hpay, hall⟩ := ObsStream.epoch_payloads env ht table e he
  rw [hp] at hpay
  obtain rfl := Option.some.inj hpay
  intro p hp
  obtain ⟨c, hc, rfl⟩ := List.mem_map.1 hp
  obtain ⟨a1, a2, a3, a4⟩ := hall c hc
  have hobs : ∀ o ∈ SbpRtcm.Spec.obsFor env c e.obs, ObsStream.Spec.ObsOk (SbpRtcm.freqOf env e.cfg c o) o := fun o ho => by
    have : o ∈ e.obs ∧ env.consOf o.code = some c := by simpa [SbpRtcm.Spec.obsFor] using ho
    exact he.obs o this.1 c this.2
  have hwf := ObsStream.msg_wf (mult := if (ObsStream.sentCons env e).getLast? = some c then 0 else 1) (hok c) he.type hobs
    (ObsStream.msmTow_lt he c a2) (by split <;> norm_num)
  have hpo := ObsStream.payload_ok he.type hwf.header
  rw [ObsStream.msmPayload_eq he.type a1, hpo.type]
  show Msm.toMsmMsgNum (some c) e.cfg.msmType ∉ _
  rcases he.type with h | h <;> rw [h] <;> revert a1 <;> cases c <;> decide

theorem eph_types {K : Lib} {env : RtcmSbp.Env} (hl : LibOk K.acc.eps K.acc.log2f) (hK : K.inav ≠ K.fnav) (leap : Option Int) (junk : Nat) (e : SbpEph)
    (t : GpsTime) (h : EphStream.Spec.EvOk env K (.eph leap junk e) (Prog.Spec.knows t)) (p : Buf) (hp : EphStream.payload K leap junk e = some p) :
    messageType p ∉ miscTypes := by
  obtain ⟨p', a, -, -, b⟩ := EphStream.eph_back env K hl hK leap junk e { Prog.Spec.knows t with payload := p } (by
    cases e <;> exact h)
  obtain rfl : p = p' := Option.some.inj (hp.symm.trans a)
  obtain ⟨e', c, -⟩ := b rfl .init
  have := (Prog.out_type c).2.1
  have key : ∀ n ∈ EphStream.Spec.ephTypes, n ∉ miscTypes := by decide
  exact key _ this

def miscNum : Misc.Sent → Nat
  | .m1006 _ => 1006 | .m1008 _ => 1008 | .m1033 _ => 1033 | .m1230 _ => 1230 | .m4062 _ => 4062 | .m1029 _ => 1029

theorem misc_type (m : Misc.Sent) (hw : m.WF) : messageType m.bytes = miscNum m := by
  have hb := Misc.blank_length
  cases m with
  | m1006 x =>
    obtain ⟨h, hd⟩ := Misc.dec1006 x hw
    exact (Misc.type_of_run (k := 1006) hd).2
  | m1008 x =>
    obtain ⟨h1, h2, h3, h4⟩ := hw
    exact (Misc.type_of_run (k := 1008) (C07_1008_roundtrip x h1 h2 h3 h4 Misc.blank (by omega))).2
  | m1033 x =>
    obtain ⟨h1, h2, h3, h4, h5, h6, h7⟩ := hw
    exact (Misc.type_of_run (k := 1033) (C07_1033_roundtrip x h1 h2 h3 h4 h5 h6 h7 Misc.blank (by omega))).2
  | m1230 x => exact (Misc.type_of_run (k := 1230) (Misc.dec1230 x hw.1)).2
  | m4062 x => exact (Misc.type_of_run (k := 4062) (C08_4062_roundtrip x hw.1 hw.2.1 hw.2.2 Misc.blank (by have := hw.2.2; omega))).2
  | m1029 x => exact (Misc.type_of_run (k := 1029) (Misc.dec1029 x hw.1 hw.2.1 hw.2.2.1 hw.2.2.2)).2

/-- one message of Model/RtcmMisc at the receiver -/
theorem misc_recv' (env : Env) (su : Setup) (L : Misc.Lib W E) (mem : Nat → Buf × Buf) (m : Misc.Sent) (hw : m.WF)
    (hun : ∀ x, m = .m4062 x → x.msgType ≠ 0x4A ∧ x.msgType ≠ 0x8A) {obs clock table} (n : Nat) (st : Prog.State)
    (hr : Rel obs clock table st) : ∃ st', outRun su L mem n st [m.bytes] = some (st',
        (m.back L (decide (RtcmSbp.no1230 { st.conv with timeInput := Prog.time st })) (mem n).2).map fun x => .misc x.1 x.2) ∧
      Rel obs clock table st' := by
  have hmt := misc_type m hw
  have hty : messageType m.bytes ∈ [1006, 1008, 1033, 1230, 4062, 1029] := by
    rw [hmt]; cases m <;> simp [miscNum]
  have hlen := Misc.bytes_length m hw
  have key : ∀ n ∈ [1006, 1008, 1033, 1230, 4062, 1029], n ∉ [1002, 1004, 1010, 1012] ∧ ¬ (1070 ≤ n ∧ n ≤ 1229) ∧ n ∉ EphStream.Spec.ephTypes := by decide
  obtain ⟨k1, k2, k3⟩ := key _ hty
  have k4 : ¬ Prog.Spec.WrapsTime m.bytes := by
    rintro ⟨h1, y, h2, h3⟩
    cases m with
    | m4062 x =>
      have hd := C08_4062_roundtrip x hw.1 hw.2.1 hw.2.2 Misc.blank (by rw [Misc.blank_length]; have := hw.2.2; omega)
      have : x = y := by
        have h2' := hd.symm.trans h2
        simpa using h2'
      subst this
      exact h3.elim (hun x rfl).1 (hun x rfl).2
    | _ => rw [hmt] at h1; exact absurd h1 (by simp [miscNum])
  obtain ⟨a, b⟩ := Prog.other_prog env su m.bytes (show EvFit env su clock table (.other m.bytes) from ⟨hlen.1, hlen.2, k1, k2, k3, k4⟩) st hr
  have ha : (Prog.step su st m.bytes).2 = [] := by
    have : (Prog.run su st [m.bytes]).2 = [] := a
    simpa [Prog.run] using this
  have hb : Rel obs clock table (Prog.step su st m.bytes).1 := b
  have hsol : (Prog.input su st m.bytes).solved = true := (Prog.rel_time hr).1
  have hmo := Misc.sent_back su.env L st.conv ⟨Prog.input su st m.bytes, (mem n).1, (mem n).2⟩ m hw rfl (fun _ => hsol)
  refine ⟨_, ?_, hb⟩
  simp only [outRun, outStep, hmo, Option.map_some, Option.bind_eq_bind, Option.bind_some, ha, List.map_nil, List.append_nil]
  rfl

theorem misc_recv (env : Env) (su : Setup) (L : Misc.Lib W E) (mem : Nat → Buf × Buf) (m : Misc.Sent) (hw : m.WF) (hun : ∀ x, m = .m4062 x → x.msgType ≠ 0x4A ∧ x.msgType ≠ 0x8A)
    (hm : ∀ x, m ≠ .m1033 x) {obs clock table} (n : Nat) (st : Prog.State)
    (hr : Rel obs clock table st) : ∃ st', outRun su L mem n st [m.bytes] = some (st', (m.back L true []).map fun x => .misc x.1 x.2) ∧
      Rel obs clock table st' := by
  obtain ⟨st', h1, h2⟩ := misc_recv' env su L mem m hw hun n st hr
  have hback : ∀ f j, m.back L f j = m.back L true [] := by
    intro f j
    cases m with
    | m1033 x => exact absurd rfl (hm x)
    | _ => rfl
  rw [hback] at h1
  exact ⟨st', h1, h2⟩

theorem idle_misc {known leap s} (h : Idle known leap s) (x : Misc.SbpIn) (hx : Misc.Spec.isAntenna x = false) : Idle known leap (miscStep s x).1 := by
  refine ⟨⟨h.inv.fill, h.inv.good⟩, h.buf, h.cfg, ?_, Misc.stOk_step _ _ h.desc⟩
  show (Misc.outStep s.misc x).1.antKnown = known
  cases x with
  | log s p => simp only [Misc.outStep]; split <;> exact h.ant
  | antHeight x => cases hx
  | descriptors x y => cases hx
  | _ => exact h.ant

theorem item_pipe (env : Env) (su : Setup) (L : Misc.Lib W E) (mem : Nat → Buf × Buf) (ht : env.prn.WF) (hm : Match env su.env)
    (hl : LibOk su.lib.acc.eps su.lib.acc.log2f) (hK : su.lib.inav ≠ su.lib.fnav) (known : Bool) (leap : Int) (obs : Bool) (clock : GpsTime) (table : List Nat)
    (it : Item) (hkn : known = true → ∀ sender p, it ≠ .msg (.basePos sender p)) (h : ItemFit env su leap clock table it) (s : St) (hs : Idle known leap s) :
    ∃ s' ps, run env su.lib s (messages it) = some (s', ps) ∧ Idle known leap s' ∧ (∀ p ∈ ps, 1 ≤ p.length ∧ p.length ≤ 1017) ∧
      (∀ p ∈ ps, messageType p = 1230 → ∃ sender b, it = .msg (.gloBias sender b)) ∧
      ∀ n st, Rel obs clock table st → ∃ st' out, outRun su L mem n st ps = some (st', out) ∧ ItemBack env L leap it out ∧
        Rel obs ((event leap it).elim clock (clockAfter su.lib.weekRef obs clock)) ((event leap it).elim table (channelsAfter table)) st' := by
  have single : ∀ (x : Misc.SbpIn) (m : SbpMsg) (y : Misc.Sent), (∀ s, step env su.lib s m = some (miscStep s x)) → Misc.sentStep s.misc x = [y] →
      Misc.Spec.isAntenna x = false → Misc.Spec.Fits x → (∀ x, y = .m4062 x → x.msgType ≠ 0x4A ∧ x.msgType ≠ 0x8A) →
      (∀ x, y ≠ .m1033 x) →
      ∃ s' ps, run env su.lib s [m] = some (s', ps) ∧ Idle known leap s' ∧ (∀ p ∈ ps, 1 ≤ p.length ∧ p.length ≤ 1017) ∧
      (∀ p ∈ ps, messageType p = 1230 → ∃ x, y = .m1230 x) ∧
      ∀ n st, Rel obs clock table st → ∃ st' out, outRun su L mem n st ps = some (st', out) ∧
        out = ((y.back L true []).map fun x => .misc x.1 x.2) ∧ Rel obs clock table st' := by
    intro x m y h1 h2 h3 h4 h6 h5
    have hb := Misc.sentStep_bytes s.misc x
    have hw := Misc.sentStep_wf s.misc x hs.desc h4 y (by rw [h2]; simp)
    refine ⟨(miscStep s x).1, [y.bytes], ?_, idle_misc hs x h3, by simpa using Misc.bytes_length y hw, ?_, ?_⟩
    · simp only [run, h1, Option.bind_eq_bind, Option.bind_some]
      rw [show (miscStep s x).2 = [y.bytes] from by rw [show (miscStep s x).2 = (Misc.outStep s.misc x).2 from rfl, hb, h2]; rfl]
      rfl
    · intro p hp h1230
      rw [List.mem_singleton.1 hp, misc_type y hw] at h1230
      cases y with
      | m1230 x => exact ⟨x, rfl⟩
      | _ => exact absurd h1230 (by simp [miscNum])
    · intro n st hr
      obtain ⟨st', a, b⟩ := misc_recv env su L mem y hw h6 h5 n st hr
      exact ⟨st', _, a, rfl, b⟩
  have quiet : ∀ (m : SbpMsg) (s' : St), step env su.lib s m = some (s', []) → Idle known leap s' →
      ∃ s' ps, run env su.lib s [m] = some (s', ps) ∧ Idle known leap s' ∧ (∀ p ∈ ps, 1 ≤ p.length ∧ p.length ≤ 1017) ∧
      (∀ p ∈ ps, messageType p = 1230 → ∃ sender b, it = .msg (.gloBias sender b)) ∧
      ∀ n st, Rel obs clock table st → ∃ st' out, outRun su L mem n st ps = some (st', out) ∧ out = [] ∧ Rel obs clock table st' := by
    intro m s' h1 h2
    refine ⟨s', [], by simp only [run, h1, Option.bind_eq_bind, Option.bind_some]; rfl, h2, by simp, by simp, fun n st hr => ⟨st, [], rfl, rfl, hr⟩⟩
  have no1230 : ∀ ps : List Buf, (∀ p ∈ ps, messageType p ∉ miscTypes) → ∀ p ∈ ps, messageType p = 1230 → ∃ sender b, it = .msg (.gloBias sender b) :=
    fun ps h p hp h1 => absurd (h1 ▸ by decide : messageType p ∈ miscTypes) (h p hp)
  have viaEv : ∀ (v : Prog.Spec.Ev) (ps : List Buf), EvFit env su clock table v → evPayloads env su.lib v = some ps → (∀ p ∈ ps, messageType p ∉ miscTypes) →
      ∀ n st, Rel obs clock table st → ∃ st' out, outRun su L mem n st ps = some (st', out) ∧ (∃ o, out = o.map .core ∧ EvBack env v o) ∧
        Rel obs (clockAfter su.lib.weekRef obs clock v) (channelsAfter table v) st' := by
    intro v ps h1 h2 h3 n st hr
    obtain ⟨a, b⟩ := Prog.ev_prog env su ht hm hl hK v h1 ps h2 st hr
    exact ⟨_, _, outRun_core su L mem ps h3 n st, ⟨_, rfl, a⟩, b⟩
  cases it with
  | epoch sender t ms =>
    obtain ⟨h1, h2, h3⟩ := h
    obtain ⟨ps, hp, hb⟩ := Prog.ev_payloads env su ht hl hK _ h3
    obtain ⟨s', h4, h5⟩ := send_epoch env su.lib known leap s hs sender t ms h1 h2 ps hp
    exact ⟨s', ps, h4, h5, hb, no1230 _ (epoch_types' env ht table _ h3.1 ps hp), viaEv _ ps h3 hp (epoch_types' env ht table _ h3.1 ps hp)⟩
  | msg m =>
    cases m with
    | obs m => exact absurd h id
    | eph junk e =>
      have core : ∀ e', e = e' → (∀ q, e' ≠ .qzss q) → EvFit env su clock table (.eph (some leap) junk e') →
          ∃ s' ps, run env su.lib s [.eph junk e'] = some (s', ps) ∧ Idle known leap s' ∧ (∀ p ∈ ps, 1 ≤ p.length ∧ p.length ≤ 1017) ∧
          (∀ p ∈ ps, messageType p = 1230 → ∃ sender b, (Item.msg (.eph junk e)) = .msg (.gloBias sender b)) ∧
          ∀ n st, Rel obs clock table st → ∃ st' out, outRun su L mem n st ps = some (st', out) ∧ (∃ o, out = o.map .core ∧ EvBack env (.eph (some leap) junk e') o) ∧
            Rel obs (clockAfter su.lib.weekRef obs clock (.eph (some leap) junk e')) (channelsAfter table (.eph (some leap) junk e')) st' := by
        intro e' _ hq hf
        obtain ⟨ps, hp, hb⟩ := Prog.ev_payloads env su ht hl hK _ hf
        obtain ⟨p, hp', rfl⟩ : ∃ p, EphStream.payload su.lib (some leap) junk e' = some p ∧ [p] = ps := by simpa [evPayloads] using hp
        refine ⟨s, [p], ?_, hs, hb, no1230 _ (by simpa using eph_types hl hK _ junk e' clock hf p hp'), viaEv _ [p] hf hp (by simpa using eph_types hl hK _ junk e' clock hf p hp')⟩
        have : step env su.lib s (.eph junk e') = some (s, [p]) := by
          have hc : s.obs.cfg.leap = some leap := by rw [hs.cfg]; rfl
          cases e' with
          | qzss q => exact absurd rfl (hq q)
          | _ => simp only [step, hc, hp', Option.map_some]
        simp only [run, this, Option.bind_eq_bind, Option.bind_some]
        rfl
      cases e with
      | qzss q => exact quiet _ s rfl hs
      | gps e => exact core _ rfl (by simp) h
      | glo e => exact core _ rfl (by simp) h
      | gal e => exact core _ rfl (by simp) h
      | bds e => exact core _ rfl (by simp) h
    | basePos sender p =>
      have hs_ant : s.misc.antKnown = false := by
        rw [hs.ant]
        cases known with
        | false => rfl
        | true => exact absurd rfl (hkn rfl sender p)
      obtain ⟨s', ps, a, b, c, c2, d⟩ := single (.basePos sender p) (.basePos sender p) (.m1006 (Misc.msg1006 { s.misc with sender := sender } p)) (fun _ => rfl)
        (by simp [Misc.sentStep, hs_ant]) rfl h (by simp) (by simp)
      refine ⟨s', ps, a, b, c, fun p hp e => absurd (c2 p hp e) (by simp), fun n st hr => ?_⟩
      obtain ⟨st', out, d1, d2, d3⟩ := d n st hr
      refine ⟨st', out, d1, ⟨_, _, d2, ?_⟩, d3⟩
      have := Misc.sent_pos [.basePos sender p] s.misc
      simp only [Misc.sent, Misc.sentStep, hs_ant, List.append_nil, List.filterMap_cons, List.filterMap_nil, Misc.posOfSent, Misc.Spec.sentPos,
        Bool.false_eq_true, if_false] at this
      cases this with
      | cons x _ => exact x
    | gloBias sender b =>
      obtain ⟨s', ps, a, b', c, c2, d⟩ := single (.gloBias sender b) (.gloBias sender b) (.m1230 (Misc.msg1230 { s.misc with sender := sender } b)) (fun _ => rfl)
        rfl rfl h (by simp) (by simp)
      refine ⟨s', ps, a, b', c, fun _ _ _ => ⟨sender, b, rfl⟩, fun n st hr => ?_⟩
      obtain ⟨st', out, d1, d2, d3⟩ := d n st hr
      refine ⟨st', out, d1, ?_, d3⟩
      have := Misc.sent_bias [.gloBias sender b] (by intro e he; rw [List.mem_singleton] at he; subst he; exact h) s.misc
      simp only [Misc.sent, Misc.sentStep, List.append_nil, List.filterMap_cons, List.filterMap_nil, Misc.biasOfSent, Misc.Spec.sentBias, List.map_cons,
        List.map_nil, List.cons.injEq, and_true, Prod.mk.injEq] at this
      rw [d2]
      simp only [Misc.Sent.back, List.map_cons, List.map_nil, ItemBack]
      rw [this.1, this.2]
    | wrapped type sender data =>
      obtain ⟨s', ps, a, b', c, c2, d⟩ := single (.wrapped type sender data) (.wrapped type sender data) (.m4062 ⟨type, sender, data⟩) (fun _ => rfl)
        rfl rfl h.1 (by rintro _ ⟨⟩; exact h.2) (by simp)
      refine ⟨s', ps, a, b', c, fun p hp e => absurd (c2 p hp e) (by simp), fun n st hr => ?_⟩
      obtain ⟨st', out, d1, d2, d3⟩ := d n st hr
      refine ⟨st', out, d1, ?_, d3⟩
      rw [d2]
      simp only [Misc.Sent.back, ItemBack]
      cases L.sbpDecode type data <;> rfl
    | log sender payload =>
      by_cases hlen : payload.length < 2
      · obtain ⟨s', ps, a, b, c, c2, d⟩ := quiet (.log sender payload) (miscStep s (.log sender payload)).1
          (by simp only [step, miscStep, Misc.outStep, if_pos hlen]) (idle_misc hs _ rfl)
        refine ⟨s', ps, a, b, c, c2, fun n st hr => ?_⟩
        obtain ⟨st', out, d1, d2, d3⟩ := d n st hr
        exact ⟨st', out, d1, by simpa [ItemBack, hlen] using d2, d3⟩
      · obtain ⟨s', ps, a, b', c, c2, d⟩ := single (.log sender payload) (.log sender payload) (.m1029 ⟨sender, 0, 0, 0, payload.drop 1⟩) (fun _ => rfl)
          (by simp [Misc.sentStep, hlen]) rfl h (by simp) (by simp)
        refine ⟨s', ps, a, b', c, fun p hp e => absurd (c2 p hp e) (by simp), fun n st hr => ?_⟩
        obtain ⟨st', out, d1, d2, d3⟩ := d n st hr
        refine ⟨st', out, d1, ?_, d3⟩
        simp only [ItemBack, if_neg hlen]
        refine ⟨_, _, by rw [d2]; simp only [Misc.Sent.back]; rw [Misc.sendLog_text _ _ _ (by omega)]; rfl, ?_⟩
        exact ⟨rfl, rfl, Misc.text_prefix _, Misc.text_length _, Misc.text_whole _, Misc.text_best _⟩
    | other => exact quiet _ s rfl hs

theorem items_pipe (env : Env) (su : Setup) (L : Misc.Lib W E) (mem : Nat → Buf × Buf) (ht : env.prn.WF) (hm : Match env su.env)
    (hl : LibOk su.lib.acc.eps su.lib.acc.log2f) (hK : su.lib.inav ≠ su.lib.fnav) (leap : Int) (obs : Bool) (its : List Item) :
    ∀ (clock : GpsTime) (table : List Nat) (s : St), Fits env su leap obs clock table its → Idle false leap s →
    ∃ s' ps, run env su.lib s (its.flatMap messages) = some (s', ps) ∧ (∀ p ∈ ps, 1 ≤ p.length ∧ p.length ≤ 1017) ∧
      ∀ n st, Rel obs clock table st → ∃ st' outs, List.Forall₂ (ItemBack env L leap) its outs ∧ outRun su L mem n st ps = some (st', outs.flatten) := by
  induction its with
  | nil => intro clock table s _ _; exact ⟨s, [], rfl, by simp, fun n st _ => ⟨st, [], .nil, rfl⟩⟩
  | cons it its ih =>
    intro clock table s h hs
    obtain ⟨s1, ps, a1, a2, a3, -, a4⟩ := item_pipe env su L mem ht hm hl hK false leap obs clock table it (by simp) h.1 s hs
    obtain ⟨s2, qs, b1, b2, b3⟩ := ih _ _ s1 h.2 a2
    refine ⟨s2, ps ++ qs, ?_, ?_, ?_⟩
    · rw [List.flatMap_cons]; exact run_append env su.lib _ _ s s1 s2 ps qs a1 b1
    · intro p hp
      rcases List.mem_append.1 hp with h | h
      · exact a3 p h
      · exact b2 p h
    · intro n st hr
      obtain ⟨st1, out, c1, c2, c3⟩ := a4 n st hr
      obtain ⟨st2, outs, d1, d2⟩ := b3 (n + ps.length) st1 c3
      exact ⟨st2, out :: outs, .cons c2 d1, by rw [List.flatten_cons]; exact outRun_append su L mem ps qs n st st1 st2 out _ c1 d2⟩

/-! ### the pipe -/

theorem start_idle (leap : Int) (a : Nat) (t : SbpTime) (n : Nat) : Idle false leap (start leap a t n) :=
  ⟨⟨by simp [start, SbpRtcm.State.init], rfl⟩, rfl, rfl, rfl, by simp [start, Misc.StOk, Misc.OutSt.init]⟩

theorem leapOf_eq (f : GpsTime → Int) (now leap : Int) (h : f (Prog.time2gps now) = leap) (hr : -128 ≤ leap ∧ leap ≤ 127) : leapOf f now = leap := by
  unfold leapOf
  rw [h, BitVec.toInt_ofInt, Int.bmod_def]
  norm_num
  split <;> omega

/-- **C74** (partial: the items must satisfy `Fits`, which leaves out what the defects of C71 to C73 spoil) `sbp2rtcm | rtcm3tosbp`, started at any
system time and with any start time, whatever the uninitialised memory of both programs, however the pipe cuts the stream: for SBP messages of any
number and kind in any order - complete epochs of observations, ephemerides, base positions, GLONASS biases, OSR and SSR messages, texts, others -
the first program writes an RTCM stream, and the second writes for each item, in order, exactly what `ItemBack` says and nothing else. -/
theorem C74_pipe_partial (crc : Buf → BitVec 24) (env : Env) (su : Setup) (L : Misc.Lib W E) (mem : Nat → Buf × Buf) (ht : env.prn.WF)
    (hm : Match env su.env) (hl : LibOk su.lib.acc.eps su.lib.acc.log2f) (hK : su.lib.inav ≠ su.lib.fnav)
    (now : Int) (uninit : Nat × SbpTime × Nat) (leap : Int) (hn : su.env.utcOffset (Prog.time2gps now) = leap)
    (unix : Int) (obs : Bool) (h0 : 315964800 ≤ unix) (hu : su.env.utcOffset (Prog.time2gps unix) = leap) (hr : 0 ≤ leap ∧ leap < 128)
    (h1 : su.lib.weekRef ≤ (gpsTime leap unix).wn) (h2 : (gpsTime leap unix).wn ≤ 32767) (its : List Item)
    (h : Fits env su leap obs (gpsTime leap unix) (List.replicate 29 255) its) :
    ∃ bytes, main crc env su.lib su.env.utcOffset now uninit (its.flatMap messages) = some bytes ∧
      ∀ reads : List Buf, reads.flatten = bytes → (∀ r ∈ reads, r ≠ [] ∧ r.length ≤ RtcmFraming.bufferSize) →
        ∃ outs, List.Forall₂ (ItemBack env L leap) its outs ∧ fullMain crc su L mem unix obs reads = some outs.flatten := by
  obtain ⟨st, a, hrel⟩ := Prog.start_rel su unix leap obs h0 hu ⟨hr.1, by omega⟩ h1 h2
  obtain ⟨s', ps, b1, b2, b3⟩ := items_pipe env su L mem ht hm hl hK leap obs its _ _ (start leap uninit.1 uninit.2.1 uninit.2.2) h (start_idle _ _ _ _)
  obtain ⟨fs, c1, c2⟩ := Misc.frames_exist crc ps b2
  refine ⟨fs.flatten, ?_, ?_⟩
  · unfold main
    rw [leapOf_eq _ _ leap hn ⟨by omega, by omega⟩]
    simp only [b1, c1, Option.bind_eq_bind, Option.bind_some]
  · intro reads hc hs
    have hrt := RtcmFraming.C04_stream_roundtrip crc ps b2 fs c2 reads (fun r hr => (hs r hr).2) hc
    have htw : reads.takeWhile (fun r => !r.isEmpty) = reads := by
      have : ∀ l : List Buf, (∀ r ∈ l, r ≠ []) → l.takeWhile (fun r => !r.isEmpty) = l := by
        intro l hl
        induction l with
        | nil => rfl
        | cons r l ih =>
          rw [List.takeWhile_cons, if_pos (by simpa using hl r (by simp)), ih fun r hr => hl r (List.mem_cons_of_mem _ hr)]
      exact this reads fun r hr => (hs r hr).1
    have hpay : Prog.payloads crc reads = ps := by
      unfold Prog.payloads
      rw [hrt, List.filterMap_map]
      exact List.filterMap_some
    obtain ⟨st', outs, o1, o2⟩ := b3 0 st hrel
    refine ⟨outs, o1, ?_⟩
    unfold fullMain
    rw [a, htw, hpay]
    simp only [Option.bind_eq_bind, Option.bind_some, o2]

/-! ### defects -/

theorem glo_lost (env : Env) (L : Misc.Lib W E) (leap : Int) (hf : ∀ c, env.consOf c = some .glo → env.freq c 255 = none) (it : Item) (out : List (Out W E))
    (h : ItemBack env L leap it out) (m : RtcmSbp.ObsMsg) (hm : .core (.obs m) ∈ out) (o : SbpObs) (ho : o ∈ m.obs) (hc : env.consOf o.code = some .glo) :
    o.flags.testBit 1 = false ∧ o.flags.testBit 3 = false ∧ (o.Li, o.Lf) = (0, 0) ∧ (o.Di, o.Df) = (0, 0) := by
  cases it with
  | epoch sender t ms =>
    obtain ⟨l, rfl, h⟩ := h
    unfold EvBack at h
    simp only at h
    split at h
    · subst h; simp at hm
    · obtain ⟨g, rfl, A, R, hp, hb, hw⟩ := h
      have hmg : m ∈ g := by simpa using hm
      have hoR : o ∈ R := by
        rw [← hw.complete]
        exact List.mem_flatMap.2 ⟨m, hmg, ho⟩
      obtain ⟨i, hi, rfl⟩ := List.getElem_of_mem hoR
      have hb' := (List.forall₂_iff_get.1 hb)
      have hi' : i < A.length := by rw [hb'.1]; exact hi
      have hB := hb'.2 i hi' hi
      simp only [List.get_eq_getElem] at hB
      have hk : ObsStream.Spec.known env (epochOf leap sender t ms) A[i] = false := by
        unfold ObsStream.Spec.known
        rw [hB.code] at hc
        rw [hc]
        simp only
        unfold ObsStream.Spec.freqFor SbpRtcm.Spec.channel
        have e : (epochOf leap sender t ms).cfg.fcn.getD A[i].sat 255 = 255 := by
          show (List.replicate 29 255).getD _ 255 = 255
          rw [List.getD_eq_getElem?_getD]
          cases hx : (List.replicate 29 255)[A[i].sat]? with
          | none => rfl
          | some v => exact List.eq_of_mem_replicate (List.mem_of_getElem? hx)
        rw [if_pos rfl, e, hf _ hc]
        rfl
      refine ⟨?_, ?_, ?_, ?_⟩
      · have := hB.flags 1; simpa [hk] using this
      · have := hB.flags 3; simpa [hk] using this
      · have := hB.L; simpa [hk] using this
      · have := hB.D; simpa [hk] using this
  | msg x =>
    cases x with
    | obs m => exact absurd h id
    | eph junk e =>
      cases e with
      | qzss e => rw [show out = [] from h] at hm; simp at hm
      | _ =>
        obtain ⟨l, rfl, e', rfl, -⟩ := h
        simp at hm
    | basePos s p => obtain ⟨s, q, rfl, -⟩ := h; simp at hm
    | gloBias s b => rw [show out = _ from h] at hm; simp at hm
    | wrapped t s d =>
      rw [show out = _ from h] at hm
      cases hx : L.sbpDecode t d <;> simp [hx] at hm
    | log s p =>
      simp only [ItemBack] at h
      split at h
      · subst h; simp at hm
      · obtain ⟨s, t, rfl, -⟩ := h; simp at hm
    | other => rw [show out = [] from h] at hm; simp at hm

/-- **C74** Defect: sbp2rtcm never learns a GLONASS channel - no program calls `sbp2rtcm_set_glo_fcn`, not even for the channels in the GLONASS
ephemerides it converts - so no GLONASS carrier frequency is known to it and no GLONASS observation ever comes out of the pipe with a carrier
phase or a Doppler, whatever went in. -/
theorem C74_glonass_phase_bug (crc : Buf → BitVec 24) (env : Env) (su : Setup) (L : Misc.Lib W E) (mem : Nat → Buf × Buf) (ht : env.prn.WF)
    (hm : Match env su.env) (hl : LibOk su.lib.acc.eps su.lib.acc.log2f) (hK : su.lib.inav ≠ su.lib.fnav)
    (now : Int) (uninit : Nat × SbpTime × Nat) (leap : Int) (hn : su.env.utcOffset (Prog.time2gps now) = leap)
    (unix : Int) (obs : Bool) (h0 : 315964800 ≤ unix) (hu : su.env.utcOffset (Prog.time2gps unix) = leap) (hr : 0 ≤ leap ∧ leap < 128)
    (h1 : su.lib.weekRef ≤ (gpsTime leap unix).wn) (h2 : (gpsTime leap unix).wn ≤ 32767) (its : List Item)
    (h : Fits env su leap obs (gpsTime leap unix) (List.replicate 29 255) its)
    (hf : ∀ c, env.consOf c = some .glo → env.freq c 255 = none) :
    ∃ bytes, main crc env su.lib su.env.utcOffset now uninit (its.flatMap messages) = some bytes ∧
      ∀ reads : List Buf, reads.flatten = bytes → (∀ r ∈ reads, r ≠ [] ∧ r.length ≤ RtcmFraming.bufferSize) →
        ∃ out, fullMain crc su L mem unix obs reads = some out ∧ ∀ m, .core (.obs m) ∈ out → ∀ o ∈ m.obs, env.consOf o.code = some .glo →
          o.flags.testBit 1 = false ∧ o.flags.testBit 3 = false ∧ (o.Li, o.Lf) = (0, 0) ∧ (o.Di, o.Df) = (0, 0) := by
  obtain ⟨bytes, a, b⟩ := C74_pipe_partial crc env su L mem ht hm hl hK now uninit leap hn unix obs h0 hu hr h1 h2 its h
  refine ⟨bytes, a, fun reads hc hs => ?_⟩
  obtain ⟨outs, c, d⟩ := b reads hc hs
  refine ⟨_, d, fun m hmo o ho hg => ?_⟩
  obtain ⟨out, e1, e2⟩ := List.mem_flatten.1 hmo
  obtain ⟨i, hi, rfl⟩ := List.getElem_of_mem e1
  have c' := List.forall₂_iff_get.1 c
  have hi' : i < its.length := by rw [c'.1]; exact hi
  exact glo_lost env L leap hf _ _ (c'.2 i hi' hi) m e2 o ho hg

/-! ### a concrete run -/

open Verif.ObsStream (wEnv wEnv' wL wO wEpoch wEpochOk)
open Verif.ObsStream.Spec (TimeOk epochTime secs ObsOk freqFor)

def wIn : ObsIn := ⟨4103, ⟨2100, 5000⟩, 16, 96, wL⟩

theorem wEpochEq : epochOf 18 4103 ⟨2100, 5000⟩ [wIn] = { wEpoch 5000 wL with cfg := config 18 } := by
  simp only [epochOf, wEpoch, config]
  congr 1

theorem wGloNone {o : SbpObs} (h : wEnv.consOf o.code = some .glo) (n : Nat) (hn : 13 < n) : wEnv.freq o.code n = none := by
  have key : ∀ c, wEnv.consOf c = some .glo → c = .glo_l1of := by intro c h; revert h; cases c <;> decide
  rw [key _ h]
  show (if n ≤ 13 then _ else none) = none
  rw [if_neg (by omega)]

theorem wFreq (o : SbpObs) (ho : o ∈ wL) (c : Msm.Cons) (hc : wEnv.consOf o.code = some c) :
    freqFor wEnv (config 18) c o = none ∨ freqFor wEnv (config 18) c o = freqFor wEnv ObsStream.wCfg c o := by
  by_cases h : c = .glo
  · left
    subst h
    refine wGloNone hc _ ?_
    have : ∀ o ∈ wL, 13 < SbpRtcm.Spec.channel (config 18) .glo o.sat := by decide
    exact this o ho
  · right
    unfold freqFor SbpRtcm.Spec.channel
    rw [if_neg h, if_neg h]

theorem wFit : EpochOk wEnv (List.replicate 29 255) (epochOf 18 4103 ⟨2100, 5000⟩ [wIn]) := by
  rw [wEpochEq]
  have h := wEpochOk
  refine ⟨⟨rfl, rfl⟩, Or.inr rfl, h.clean, h.size, ?_, h.ranges, ?_, ?_, h.notOnlyQzss, h.tow, h.week, fun _ => ⟨18, rfl, by decide⟩⟩
  · intro o ho c hc
    have hk := h.obs o ho c hc
    show ObsOk (freqFor wEnv (config 18) c o) o
    rcases wFreq o ho c hc with e | e
    · rw [e]
      exact ⟨hk.codeValid, hk.range, by simp, hk.Lf, by simp, hk.Df, by simp, hk.cn0, hk.lock⟩
    · rw [e]; exact hk
  · intro o ho o' ho' hs c hc hc' hz e hz' e' f f'
    have e : freqFor wEnv (config 18) c o = some hz := e
    have e' : freqFor wEnv (config 18) c o' = some hz' := e'
    rcases wFreq o ho c hc with x | x
    · rw [x] at e; cases e
    · rcases wFreq o' ho' c hc' with y | y
      · rw [y] at e'; cases e'
      · rw [x] at e; rw [y] at e'
        exact h.rates o ho o' ho' hs c hc hc' hz e hz' e' f f'
  · intro o ho hc
    have ho : o ∈ wL := ho
    show wEnv.freq o.code (ObsStream.Spec.chanBack (config 18).msmType _ (SbpRtcm.Spec.channel (config 18) .glo o.sat) o.sat) =
      wEnv.freq o.code (SbpRtcm.Spec.channel (config 18) .glo o.sat)
    have hch : ∀ o ∈ wL, 13 < SbpRtcm.Spec.channel (config 18) .glo o.sat := by decide
    rw [wGloNone hc (SbpRtcm.Spec.channel (config 18) .glo o.sat) (hch o ho)]
    refine wGloNone hc _ ?_
    have : ∀ o ∈ wL, 13 < ObsStream.Spec.chanBack (config 18).msmType (List.replicate 29 255) (SbpRtcm.Spec.channel (config 18) .glo o.sat) o.sat := by decide
    exact this o ho

/-- the hypotheses of `C74_pipe_partial` are met: an epoch of four constellations, a base position, GLONASS biases, an OSR message, a text, GPS and
QZSS ephemerides, a message without callback, and the epoch again -/
theorem wFits (obs : Bool) : Fits wEnv Prog.wSu 18 obs ⟨2100, 7⟩ (List.replicate 29 255)
    [.epoch 4103 ⟨2100, 5000⟩ [wIn], .msg (.basePos 66 ⟨-4000000, 3000000, 3700000⟩), .msg (.gloBias 66 ⟨15, -32768, 3, 4, 5⟩),
     .msg (.wrapped 1600 66 [1, 2, 3]), .msg (.log 66 [6, 0x61]), .msg (.eph 4 (.gps Prog.wKep)), .msg (.eph 99 (.qzss Prog.wKep)), .msg .other,
     .epoch 4103 ⟨2100, 5000⟩ [wIn]] := by
  have hseq : Sequence 4103 ⟨2100, 5000⟩ [wIn] := by
    refine ⟨?_, ?_, ?_⟩
    · intro m hm
      rw [List.mem_singleton.1 hm]
      exact ⟨by decide, by decide, by decide, by decide⟩
    · intro m hm
      rw [List.mem_singleton.1 hm]
      exact ⟨rfl, rfl⟩
    · intro i m hm
      match i, hm with
      | 0, hm => obtain rfl := Option.some.inj hm; decide
  have ht : ∀ t : GpsTime, t.valid → |secs t - 2100 * 604800| ≤ 7200 → 0 < t.wn → TimeOk wEnv wEnv' (epochOf 18 4103 ⟨2100, 5000⟩ [wIn]) (Prog.Spec.knows t) := by
    intro t hv h hw
    rw [abs_le] at h
    have e : secs (epochTime (epochOf 18 4103 ⟨2100, 5000⟩ [wIn]).t) = 2100 * 604800 + 5 := by
      simp only [secs, epochTime, epochOf]; norm_num
    have hd : |secs (epochTime (epochOf 18 4103 ⟨2100, 5000⟩ [wIn]).t) - secs t| < 43200 := by
      rw [e, abs_lt]
      constructor <;> linarith [h.1, h.2]
    refine ⟨rfl, hv, ?_, lt_trans hd (by norm_num), hw, fun _ => ⟨rfl, hd, Or.inr ⟨by show |(18 : Int)| ≤ 30; decide, wO 3 .gps_l1ca 115611310 100, by decide, by decide⟩⟩⟩
    show 259200 ≤ secs t ∧ secs t < _
    constructor <;> linarith [h.1, h.2]
  have hpos : Misc.Spec.Fits (.basePos 66 ⟨-4000000, 3000000, 3700000⟩) := by
    simp only [Misc.Spec.Fits, Misc.Spec.CoordFits]; norm_num [abs_of_neg, abs_of_pos]
  have hbias : Misc.Spec.Fits (.gloBias 66 ⟨15, -32768, 3, 4, 5⟩) := by
    simp only [Misc.Spec.Fits, Misc.Spec.S16]; norm_num
  have s5 : secs (epochTime ⟨2100, 5000⟩) = 2100 * 604800 + 5 := by simp only [secs, epochTime]; norm_num
  have t1 := ht ⟨2100, 7⟩ (by decide +kernel) (by simp only [secs]; norm_num) (by decide)
  have one : ∀ t, TimeOk wEnv wEnv' (epochOf 18 4103 ⟨2100, 5000⟩ [wIn]) (Prog.Spec.knows t) →
      ItemFit wEnv Prog.wSu 18 t (List.replicate 29 255) (.epoch 4103 ⟨2100, 5000⟩ [wIn]) := fun t h => ⟨by simp, hseq, wFit, fun _ => h⟩
  cases obs with
  | true =>
    have hk' : EphStream.Spec.EvOk Prog.wSu.env Prog.wSu.lib (.eph (some 18) 4 (.gps Prog.wKep)) (Prog.Spec.knows (epochTime ⟨2100, 5000⟩)) :=
      ⟨by decide +kernel, { Prog.wKepOk with
        time := ⟨by unfold EphStream.Spec.TimeOk EphSbp.Spec.NearRover EphSbp.Spec.secs Prog.wKep Prog.Spec.knows epochTime; norm_num, by decide⟩ }⟩
    have t2 := ht (epochTime ⟨2100, 5000⟩) (by decide +kernel) (by rw [s5]; norm_num) (by decide)
    exact ⟨one _ t1, hpos, hbias, ⟨⟨by decide, by decide, by decide⟩, by decide, by decide⟩, ⟨by decide, by decide⟩, hk', trivial, trivial, one _ t2, trivial⟩
  | false =>
    have hk : EphStream.Spec.EvOk Prog.wSu.env Prog.wSu.lib (.eph (some 18) 4 (.gps Prog.wKep)) (Prog.Spec.knows ⟨2100, 7⟩) := ⟨by decide +kernel, Prog.wKepOk⟩
    have t2 := ht ⟨2100, 7200⟩ (by decide +kernel) (by simp only [secs]; norm_num) (by decide)
    refine ⟨one _ t1, hpos, hbias, ⟨⟨by decide, by decide, by decide⟩, by decide, by decide⟩, ⟨by decide, by decide⟩, hk, trivial, trivial, ?_, trivial⟩
    have : clockAfter Prog.wSu.lib.weekRef false ⟨2100, 7⟩ (.eph (some 18) 4 (.gps Prog.wKep)) = ⟨2100, 7200⟩ := by decide +kernel
    have c := one _ t2
    rw [← this] at c
    exact c

/-- ... and no frequency is known for GLONASS without a channel -/
example (c : Msm.Code) (h : wEnv.consOf c = some .glo) : wEnv.freq c 255 = none := wGloNone (o := wO 1 c 0 0) h 255 (by decide)

end Verif.Pipe
