import Verif.Lemmas.ObsRecv
import Verif.Lemmas.RtcmMisc
/-
C72: the frames of an epoch, one after the other.
-/
namespace Verif.ObsStream
open Verif.ObsStream.Spec Verif.SbpRtcm.Spec Verif.Msm.Spec
open Verif.Msm hiding Inv
open Verif.SbpRtcm Verif.Time
open Verif.Misc (blank)
open Verif.RtcmSbp (SbpTime SbpObs ObsMsg Out Input crint msmCells hdrOf sidFromMsm packMsm gloFcn msmLoop msmTime addMsm sbpTime stnToSender
  flushIfOther msmActive gloPlausible computeGpsTime validateBaseObs obsOut_append messageType msmSupported endsEpoch dispatch sendObservations)
open Verif.RtcmSbp.Spec (positions notDelivered obsOut WellSplit)

/-! ### the payload of an MSM message -/

theorem msmPayload_eq {e : Epoch} {c : Cons} {mult : Nat} {b : Build} (hty : e.cfg.msmType = .msm4 ∨ e.cfg.msmType = .msm5) (hc : c ≠ .sbas) :
    msmPayload (finish e c mult b) = payloadOf (encodeMsm e.cfg.msmType (finish e c mult b) blank) := by
  unfold msmPayload
  have : (finish e c mult b).header.msgNum = toMsmMsgNum (some c) e.cfg.msmType := rfl
  rw [this]
  rcases hty with h | h <;> rw [h]
  · rw [if_pos (by revert hc; cases c <;> decide)]
  · rw [if_neg (by revert hc; cases c <;> decide)]

theorem drop_bits (a b : List Bool) (n : Nat) (h : a.length = n) : (a ++ b).drop n = b := by
  subst h; simp

structure PayloadOk (p : Buf) (n mult : Nat) : Prop where
  lo : 7 ≤ p.length
  hi : p.length ≤ 1017
  type : messageType p = n
  multiple : getbitu p 54 1 = mult

theorem payload_ok {ty : MsmType} {c : Cons} {m : Msg} (hty : ty = .msm4 ∨ ty = .msm5) (hw : WFHeader ty c m.header) :
    PayloadOk (payloadOf (encodeMsm ty m blank)) m.header.msgNum m.header.multiple := by
  have hb : blank.length = 1020 := Misc.blank_length
  have hlen := wlen_msm hw
  rw [encodeMsm_eq hty hw]
  generalize hws : wrSatData ty ((List.range (nSats m.header)).map m.sat) ++ wrSigData ty m = ws at *
  obtain ⟨pad, p1, -⟩ := payload_bits (wrMsmHeader c m.header ++ ws) blank (hws ▸ ok_msm ty c m _) (by omega)
  have p2 := payload_length (wrMsmHeader c m.header ++ ws) blank (by omega)
  have htl : wlen (wrMsmTow c m.header.towMs) = 30 := by unfold wrMsmTow; split <;> rfl
  have h55 : 55 ≤ wlen (wrMsmHeader c m.header ++ ws) := by
    simp only [wlen_append, wrMsmHeader, htl, wlen_cons, wlen_nil, Wr.len]
    omega
  generalize payloadOf (encodeWr (wrMsmHeader c m.header ++ ws) blank) = p at *
  have hn : m.header.msgNum < 4096 := by
    have h1 := hw.type
    have : m.header.msgNum ≤ 1127 := by
      by_contra hh
      unfold toMsmType at h1
      rw [if_pos (by omega)] at h1
      rcases hty with h | h <;> rw [h] at h1 <;> cases h1
    omega
  have hmu := hw.multiple
  refine ⟨by omega, by omega, ?_, ?_⟩
  · refine (Misc.type_of_getU (n := m.header.msgNum) (r := (bitsOf p).drop 12) ?_).2
    unfold Dec.getU
    rw [if_neg (by rw [bitsOf_length]; omega)]
    rw [p1]
    simp only [wrMsmHeader, wbits_append, wbits_cons, Wr.bits_u, List.append_assoc]
    congr 2
    rw [List.take_append_of_le_length (by simp), List.take_of_length_le (by simp)]
    exact ofBits_toBits_of_lt (by norm_num; omega)
  · rw [getbitu_eq _ _ _ (by omega) (by norm_num), p1]
    simp only [wrMsmHeader, wbits_append, wbits_cons, Wr.bits_u, List.append_assoc, wbits_nil, List.nil_append]
    rw [← List.append_assoc, ← List.append_assoc (toBits 12 _ ++ toBits 12 _)]
    rw [drop_bits _ _ 54 (by simp [wbits_length, htl])]
    rw [List.take_append_of_le_length (by simp), List.take_of_length_le (by simp)]
    exact ofBits_toBits_of_lt (by norm_num; omega)

/-! ### one frame -/

theorem supported_of {ty : MsmType} (hty : ty = .msm4 ∨ ty = .msm5) {c : Cons} (hc : c ≠ .sbas) :
    msmSupported (toMsmMsgNum (some c) ty) = if c = .qzs then none else some (ty, c) := by
  rcases hty with h | h <;> subst h <;> revert hc <;> cases c <;> decide

theorem dispatch_msm {ty : MsmType} (hty : ty = .msm4 ∨ ty = .msm5) {c : Cons} (hc : c ≠ .sbas) (env' : RtcmSbp.Env) (inp : Input)
    (s : RtcmSbp.State) : dispatch env' inp (toMsmMsgNum (some c) ty) s =
      if c = .qzs then (s, []) else match (decodeMsm ty).run inp.payload with
        | .ok m => addMsm env' c m s
        | .error _ => (s, []) := by
  have h := supported_of hty hc
  have hn : toMsmMsgNum (some c) ty ∉ [1002, 1004, 1010, 1012, 1020, 1033, 1230] ++ RtcmSbp.otherTypes ++ RtcmSbp.msm13 := by
    clear h
    rcases hty with h | h <;> subst h <;> revert hc <;> cases c <;> decide
  generalize toMsmMsgNum (some c) ty = n at *
  simp only [List.mem_append, not_or, List.mem_cons, List.not_mem_nil, or_false] at hn
  obtain ⟨⟨⟨a1, a2, a3, a4, a5, a6, a7⟩, a8⟩, a9⟩ := hn
  unfold dispatch
  rw [if_neg (by tauto), if_neg (by tauto), if_neg a5, if_neg a6, if_neg a7, if_neg a8, if_neg a9, h]
  by_cases hq : c = .qzs
  · rw [if_pos hq, if_pos hq]
  · rw [if_neg hq, if_neg hq]
    rfl

/-- the receiver's state with the time of the input -/
def timed (env' : RtcmSbp.Env) (s : RtcmSbp.State) (x : Input) : RtcmSbp.State :=
  { s with timeInput := x.time, leap := some (env'.utcOffset x.time) }

theorem step_solved (env' : RtcmSbp.Env) (s : RtcmSbp.State) (x : Input) (hx : x.solved = true) (hl : 2 ≤ x.payload.length) :
    RtcmSbp.step env' s x =
      if endsEpoch (messageType x.payload) x.payload then
        ((sendObservations (dispatch env' x (messageType x.payload) (timed env' s x)).1).1,
          (dispatch env' x (messageType x.payload) (timed env' s x)).2 ++
            (sendObservations (dispatch env' x (messageType x.payload) (timed env' s x)).1).2)
      else dispatch env' x (messageType x.payload) (timed env' s x) := by
  unfold RtcmSbp.step
  rw [if_neg (by omega)]
  simp only [hx]
  rw [if_neg (by simp)]
  rfl

/-- One MSM frame: the observations of the constellation are appended to the buffer (none for QZSS). -/
theorem frame_in (env : Env) (env' : RtcmSbp.Env) (ht : env.prn.WF) (hm : Match env env') (table : List Nat) (e : Epoch)
    (he : EpochOk env table e) {c : Cons} {h1 h2 : Hdr} {b : Build} {mult : Nat} (hok : ConsOk env e.cfg c e.obs h1 h2 b)
    (hcs : c ≠ .sbas) (hne : obsFor env c e.obs ≠ []) (hmu : mult < 2) (x : Input) (hx : TimeOk env env' e x)
    (hp : x.payload = msmPayload (finish e c mult b)) (s : RtcmSbp.State) (hf : s.fcn = table)
    (hlen : s.buf.length + (obsFor env c e.obs).length ≤ 210) (hfit : Fits (epochTime e.t) (stnToSender (e.sender % 4096)) s)
    (hgl : c = .glo → (∃ o ∈ e.obs, env.consOf o.code = some .gps) → s.lastGps = epochTime e.t) :
    7 ≤ x.payload.length ∧ messageType x.payload = toMsmMsgNum (some c) e.cfg.msmType ∧
    (endsEpoch (messageType x.payload) x.payload ↔ mult = 0) ∧
    ∃ (L R : List SbpObs), L.Perm (obsFor env c e.obs) ∧
      List.Forall₂ (fun o o' => Back e.cfg.msmType (known env e o) o o') (if c = .qzs then [] else L.filter wanted) R ∧
      obsOut (dispatch env' x (messageType x.payload) (timed env' s x)).2 = [] ∧
      (dispatch env' x (messageType x.payload) (timed env' s x)).1 =
        if c = .qzs then timed env' s x else after (timed env' s x) (epochTime e.t) (stnToSender (e.sender % 4096)) R := by
  have htow := msmTow_lt he c hne
  have hmem : ∀ o ∈ obsFor env c e.obs, o ∈ e.obs ∧ env.consOf o.code = some c := by
    intro o ho; simpa [obsFor] using ho
  have hobs : ∀ o ∈ obsFor env c e.obs, ObsOk (freqOf env e.cfg c o) o := fun o ho => he.obs o (hmem o ho).1 c (hmem o ho).2
  have hwf := msg_wf (mult := mult) hok he.type hobs htow hmu
  rw [msmPayload_eq he.type hcs] at hp
  have hpo := payload_ok he.type hwf.header
  rw [← hp] at hpo
  obtain ⟨q1, q2, q3, q4⟩ := hpo
  have q3' : messageType x.payload = toMsmMsgNum (some c) e.cfg.msmType := q3
  refine ⟨q1, q3', ?_, ?_⟩
  · unfold endsEpoch
    have : 1070 ≤ messageType x.payload ∧ messageType x.payload ≤ 1229 := by
      rw [q3']
      rcases he.type with h | h <;> rw [h] <;> cases c <;> decide
    rw [q4]
    constructor
    · exact fun h => h.2.2.2
    · intro h
      exact ⟨this.1, this.2, by omega, h⟩
  · obtain ⟨m', r1, r2, L, r3, r4⟩ := received env env' ht hm table e he hok htow hmu
    rw [q3', dispatch_msm he.type hcs, hp, r1]
    by_cases hq : c = .qzs
    · rw [if_pos hq]
      exact ⟨L, [], r3, by rw [if_pos hq]; exact .nil, rfl, by rw [if_pos hq]⟩
    · rw [if_neg hq]
      simp only
      have e1 : m'.header.stnId = e.sender % 4096 := by rw [r2]; rfl
      have e2 : m'.header.towMs = if c = .glo then msmTow e.cfg c e.t.tow % 86400000 else msmTow e.cfg c e.t.tow := by rw [r2]; rfl
      obtain ⟨v, t1, t2⟩ := msmTime_ok he hx c hne (timed env' s x) rfl rfl hgl
      rw [← e2] at t1
      have hLl : (L.filter wanted).length ≤ (obsFor env c e.obs).length := by
        rw [← r3.length_eq]; exact List.length_filter_le _ _
      have hpos : (1 : ℚ) / 1000 ≤ (epochTime e.t).tow := by
        show (1 : ℚ) / 1000 ≤ (e.t.tow : ℚ) / 1000
        have : (1 : ℚ) ≤ e.t.tow := by exact_mod_cast he.tow.1
        linarith
      obtain ⟨R, u1, u2, u3⟩ := addMsm_exact env' c (hm.masked c) e.cfg.msmType (known env e) m' table L (timed env' s x) (epochTime e.t) v r4 hf
        (by show s.buf.length + _ ≤ 210; omega) t1 t2 (epoch_valid he) hpos (by rw [e1]; exact hfit)
      rw [e1] at u1
      exact ⟨L, R, r3, by rw [if_neg hq]; exact u3, u2, by rw [if_neg hq]; exact u1⟩

end Verif.ObsStream
