import Verif.Lemmas.ObsWire
import Verif.Props.C20_C21
import Verif.Props.C22_C23
/-
C72: the receiver's state while it receives the MSM messages of an epoch.
-/
namespace Verif.ObsStream
open Verif.ObsStream.Spec Verif.SbpRtcm.Spec Verif.Msm.Spec
open Verif.Msm hiding Inv
open Verif.SbpRtcm Verif.Time
open Verif.Misc (blank)
open Verif.RtcmSbp (SbpTime SbpObs ObsMsg Out Input crint msmCells hdrOf sidFromMsm packMsm gloFcn msmLoop msmTime addMsm sbpTime stnToSender
  flushIfOther msmActive gloPlausible computeGpsTime validateBaseObs obsOut_append)
open Verif.RtcmSbp.Spec (positions notDelivered obsOut WellSplit)

/-- the signals of the constellations the receiver knows -/
def wanted (o : SbpObs) : Bool := decide (o.code ∉ notDelivered)

theorem msmLoop_exact (env' : RtcmSbp.Env) (c : Cons) (hmask : env'.masked c = false) (ty : MsmType) (kn : SbpObs → Bool) (m' : Msg)
    (table : List Nat) : ∀ (L : List SbpObs) (cells : List (Nat × Nat × Nat)) (s : RtcmSbp.State),
    List.Forall₂ (fun o cell => CellBack env' ty (kn o) c m' table o cell) L cells → s.fcn = table →
    s.buf.length + (L.filter wanted).length ≤ 210 →
    ∃ R, msmLoop env' c m' cells s = ({ s with buf := s.buf ++ R }, []) ∧
      List.Forall₂ (fun o o' => Back ty (kn o) o o') (L.filter wanted) R
  | _, _, s, .nil, hf, hl => ⟨[], by simp [msmLoop], by simp⟩
  | o :: L, (sat, sig, i) :: cells, s, .cons h hr, hf, hl => by
    obtain ⟨⟨h1, h2⟩, h3, h4, h5, h6⟩ := h
    have hsid : sidFromMsm env' (hdrOf c m'.header) sat sig s = (some (o.sat, o.code), s, []) := by
      unfold sidFromMsm
      simp only at h1 h2
      simp only [h1, h2, Option.getD_some]
      rw [if_pos ⟨h3, h4⟩]
    unfold msmLoop
    simp only [hsid, List.nil_append]
    by_cases hw : wanted o = true
    · have hun : RtcmSbp.unsupported o.code = false := (RtcmSbp.unsupported_iff _).2 (by simpa [wanted] using hw)
      rw [List.filter_cons, if_pos hw] at hl ⊢
      rw [List.length_cons] at hl
      rw [if_pos ⟨hmask, hun, h5⟩, if_neg (by simp only [RtcmSbp.maxObs]; omega)]
      obtain ⟨R, r1, r2⟩ := msmLoop_exact env' c hmask ty kn m' table L cells
        { s with buf := s.buf ++ [packMsm env' o.sat o.code (gloFcn c o.sat (m'.sat sat).gloFcn s) (m'.sig i)] } hr hf (by
          simp only [List.length_append, List.length_singleton]; omega)
      rw [r1]
      refine ⟨packMsm env' o.sat o.code (gloFcn c o.sat (m'.sat sat).gloFcn s) (m'.sig i) :: R, ?_, .cons (h6 s hf) r2⟩
      simp
    · have hun : ¬ RtcmSbp.unsupported o.code = false := by
        rw [RtcmSbp.unsupported_iff]; simpa [wanted] using hw
      rw [List.filter_cons, if_neg hw] at hl ⊢
      rw [if_neg (fun h => hun h.2.1)]
      obtain ⟨R, r1, r2⟩ := msmLoop_exact env' c hmask ty kn m' table L cells s hr hf hl
      rw [r1]
      exact ⟨R, rfl, r2⟩

/-! ### time -/

theorem sbpTime_epoch (t : SbpTime) : sbpTime (epochTime t) = t := by
  unfold sbpTime epochTime
  simp only
  rw [div_mul_cancel₀ _ (by norm_num)]
  have := RtcmSbp.crint_int (t.tow : Int)
  rw [Int.cast_natCast] at this
  rw [this]
  simp

theorem epoch_valid {env table e} (h : EpochOk env table e) : (epochTime e.t).valid := by
  obtain ⟨-, a⟩ := h.tow
  obtain ⟨b, c⟩ := h.week
  refine ⟨b, c, ?_, ?_⟩
  · unfold epochTime; positivity
  · show (e.t.tow : ℚ) / 1000 < 604800
    rw [div_lt_iff₀ (by norm_num)]
    have : (e.t.tow : ℚ) < ((604800000 : Nat) : ℚ) := by exact_mod_cast a
    push_cast at this
    linarith

theorem msmTow_lt {env table e} (h : EpochOk env table e) (c : Cons) (hc : obsFor env c e.obs ≠ []) : msmTow e.cfg c e.t.tow < 604800000 := by
  obtain ⟨-, a⟩ := h.tow
  unfold msmTow
  split
  · rename_i hg
    subst hg
    obtain ⟨l, l1, l2, l3⟩ := h.leap (by
      obtain ⟨o, ho⟩ := List.exists_mem_of_ne_nil _ hc
      exact ⟨o, by simpa [obsFor] using ho⟩)
    rw [l1]
    exact (C23_glo_tow _ _ a ⟨l2, l3⟩).1
  · split
    · exact (C23_bds _ a).2.2.2.1
    · exact a

theorem diff_secs (a b : GpsTime) : diff a b = secs a - secs b := by
  unfold diff secs
  simp only [weekSecs]
  push_cast
  ring

theorem msmTime_ok {env : Env} {env' : RtcmSbp.Env} {table} {e : Epoch} {x : Input} (he : EpochOk env table e)
    (h : TimeOk env env' e x) (c : Cons) (hc : obsFor env c e.obs ≠ []) (s : RtcmSbp.State) (hs : s.timeInput = x.time) (hl : s.leap = some (env'.utcOffset x.time))
    (hg : c = .glo → (∃ o ∈ e.obs, env.consOf o.code = some .gps) → s.lastGps = epochTime e.t) :
    ∃ v, msmTime c (if c = .glo then msmTow e.cfg c e.t.tow % 86400000 else msmTow e.cfg c e.t.tow) s = (some (epochTime e.t), v) ∧
      obsOut v = [] := by
  have hv := epoch_valid he
  have htow : (epochTime e.t).tow * 1000 = e.t.tow := by
    show (e.t.tow : ℚ) / 1000 * 1000 = _
    rw [div_mul_cancel₀ _ (by norm_num)]
  obtain ⟨-, ht⟩ := he.tow
  have hnear := h.near
  have hw : x.time.wn < 32767 := by
    by_contra hh
    have h1 := h.middle.2
    have h3 := h.valid.2.2.1
    have h2 : (32767 : ℚ) ≤ x.time.wn := by exact_mod_cast (by omega : (32767 : Int) ≤ x.time.wn)
    unfold secs at h1
    linarith
  have hgps : computeGpsTime e.t.tow x.time = some (epochTime e.t) := by
    unfold computeGpsTime
    rw [if_pos h.valid]
    exact C22_unique _ _ _ ht h.valid h.week hw htow (lt_of_lt_of_eq hnear (by norm_num))
  unfold msmTime
  by_cases hc' : c = .glo
  · subst hc'
    simp only [if_true, hl]
    have hex : ∃ o ∈ e.obs, env.consOf o.code = some .glo := by
      obtain ⟨o, ho⟩ := List.exists_mem_of_ne_nil _ hc
      exact ⟨o, by simpa [obsFor] using ho⟩
    obtain ⟨l1, l0, l4⟩ := h.glo hex
    obtain ⟨l, l1', l2, l3⟩ := he.leap hex
    obtain rfl : env'.utcOffset x.time = l := Option.some.inj (l1.symm.trans l1')
    have : computeGloTime (msmTow e.cfg .glo e.t.tow % 86400000) s.timeInput (some (env'.utcOffset x.time)) = some (epochTime e.t) := by
      rw [hs]
      unfold msmTow
      rw [if_pos rfl, l1]
      refine C23_glo_roundtrip _ _ _ _ ⟨l2, l3⟩ hv htow h.valid l0 h.middle.1 (lt_trans h.middle.2 (by norm_num))
    rw [this]
    simp only
    have hpl : gloPlausible (epochTime e.t) (env'.utcOffset x.time) s := by
      rcases l4 with l4 | ⟨l4, l5⟩
      · exact Or.inl (by rw [diff_secs, hs]; exact l4)
      · refine Or.inr ?_
        rw [hg rfl l5]
        refine ⟨hv, ?_⟩
        rw [diff_secs, sub_self, zero_sub, abs_neg]
        exact_mod_cast l4
    rw [if_pos ⟨hv, hpl⟩]
    exact ⟨_, rfl, rfl⟩
  · rw [if_neg hc', if_neg hc']
    have : computeGpsTime (if c = .bds then beidouTowToGpsTow (msmTow e.cfg c e.t.tow) else msmTow e.cfg c e.t.tow) s.timeInput =
        some (epochTime e.t) := by
      rw [hs]
      unfold msmTow
      rw [if_neg hc']
      split
      · rw [(C23_bds _ ht).2.1]; exact hgps
      · exact hgps
    rw [this]
    simp only
    rw [if_pos hv]
    exact ⟨_, rfl, RtcmSbp.obsOut_validate _ _⟩

/-! ### one message -/

/-- the buffer is empty or belongs to the epoch at time `t` from `sender` -/
def Fits (t : GpsTime) (sender : Nat) (s : RtcmSbp.State) : Prop :=
  s.buf = [] ∨ (s.lastMsm = t ∧ s.obsTime.tow = (sbpTime t).tow ∧ s.sender = sender)

/-- the state after the message: `s` with the observations appended -/
def after (s : RtcmSbp.State) (t : GpsTime) (sender : Nat) (R : List SbpObs) : RtcmSbp.State :=
  { s with lastGps := t, lastGlo := t, lastMsm := t, obsTime := sbpTime t, sender := sender, buf := s.buf ++ R }

theorem addMsm_exact (env' : RtcmSbp.Env) (c : Cons) (hmask : env'.masked c = false) (ty : MsmType) (kn : SbpObs → Bool) (m' : Msg)
    (table : List Nat) (L : List SbpObs) (s : RtcmSbp.State) (t : GpsTime) (v : List Out)
    (hL : List.Forall₂ (fun o cell => CellBack env' ty (kn o) c m' table o cell) L (msmCells m'.header)) (hf : s.fcn = table)
    (hlen : s.buf.length + (L.filter wanted).length ≤ 210)
    (ht : msmTime c m'.header.towMs s = (some t, v)) (hv : obsOut v = []) (hval : t.valid) (htow : 1 / 1000 ≤ t.tow)
    (hfit : Fits t (stnToSender m'.header.stnId) s) :
    ∃ R, (addMsm env' c m' s).1 = after s t (stnToSender m'.header.stnId) R ∧ obsOut (addMsm env' c m' s).2 = [] ∧
      List.Forall₂ (fun o o' => Back ty (kn o) o o') (L.filter wanted) R := by
  unfold addMsm
  simp only [ht]
  rw [if_neg (by
    rintro ⟨-, h⟩
    rw [abs_le] at h
    have : (1 : ℚ) / 10 ^ 12 < 1 / 1000 := by norm_num
    linarith [h.2])]
  have hclear : ¬ (¬ msmActive t s ∧ s.buf.length > 0) := by
    rintro ⟨h1, h2⟩
    rcases hfit with h | ⟨h, -, -⟩
    · rw [h] at h2; simp at h2
    · apply h1
      unfold msmActive
      rw [h, diff_secs, sub_self]
      exact ⟨hval, by norm_num⟩
  rw [if_neg hclear]
  have hfl : flushIfOther (sbpTime t) (stnToSender m'.header.stnId) [.log .notEmpty] { s with lastGps := t, lastGlo := t, lastMsm := t } =
      ({ s with lastGps := t, lastGlo := t, lastMsm := t }, []) := by
    unfold flushIfOther
    rw [if_neg]
    rintro ⟨h1, h2⟩
    rcases hfit with h | ⟨-, h, h'⟩
    · simp only [h] at h1; simp at h1
    · rcases h2 with h2 | h2
      · exact h2 h
      · exact h2 h'
  rw [hfl]
  obtain ⟨R, r1, r2⟩ := msmLoop_exact env' c hmask ty kn m' table L (msmCells m'.header)
    { s with lastGps := t, lastGlo := t, lastMsm := t, obsTime := sbpTime t, sender := stnToSender m'.header.stnId } hL hf hlen
  simp only at r1 ⊢
  rw [r1]
  refine ⟨R, rfl, ?_, r2⟩
  rw [obsOut_append, obsOut_append, hv]; rfl

end Verif.ObsStream
