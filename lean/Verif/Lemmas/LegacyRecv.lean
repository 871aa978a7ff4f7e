import Verif.Lemmas.LegacySat
/-
C78: the receiver and the messages of an epoch.
-/
namespace Verif.LegacyStream
open Verif.LegacyStream.Spec Verif.SbpRtcm.Spec Verif.Time
open Verif.SbpRtcm hiding legacyLoop
open Verif.Msm (Code)
open Verif.Obs (Kind mkSat rawOf)
open Verif.Obs.Spec (WFHeader)
open Verif.ObsStream.Spec (range cycles epochTime secs)
open Verif.ObsStream (epochPayloads legacyPayload timed step_solved sbpTime_epoch diff_secs send_ok)
open Verif.Misc (blank)
open Verif.RtcmSbp (SbpObs SbpTime ObsMsg Out Input addGps addGlo addObsToBuffer sbpTime stnToSender flushIfOther msmActive gloPlausible computeGpsTime
  messageType dispatch sendObservations endsEpoch obsOut_append validateBaseObs)
open Verif.RtcmSbp.Spec (obsOut WellSplit)

/-- the message of the epoch -/
def msgOf (e : Epoch) (glo : Bool) (sync : Nat) : Obs.Msg :=
  ⟨⟨(kind glo).num, e.sender % 4096, if glo then gloTodMs e.t.tow e.cfg.leap else e.t.tow, sync, (satsOf e.cfg glo e.obs).length, 0, 0⟩,
    satsOf e.cfg glo e.obs⟩

theorem consOk (e : Epoch) (h : EpochOk e) (glo : Bool) : ConsOk e.cfg glo e.obs := by
  cases glo
  · exact h.gps
  · exact h.glo

theorem sats_nil {e : Epoch} (h : EpochOk e) (glo : Bool) : satsOf e.cfg glo e.obs = [] ↔ inB (firstOf glo) e.obs = [] := by
  rw [sats_eq h.noP (consOk e h glo), List.map_eq_nil_iff]

theorem legacy_msgs {e : Epoch} (h : EpochOk e) : bufferToLegacy e = some
    ((if inB .gps1 e.obs = [] then [] else [msgOf e false (if inB .glo1 e.obs = [] then 0 else 1)]) ++
      (if inB .glo1 e.obs = [] then [] else [msgOf e true 0])) := by
  have hb : ∀ b l, inBand b e.obs = l → l = (inB b e.obs).map (·, 0) := fun b l hl => by rw [← hl]; exact inBand_eq b _ h.noP
  have hl := legacy_spec e.cfg e.obs [] [] (by rw [inBand_eq _ _ h.noP]; simpa [inB, Function.comp_def, firstOf] using h.gps.once1)
    (by rw [inBand_eq _ _ h.noP]; simpa [inB, Function.comp_def, firstOf] using h.glo.once1)
    (by rw [inBand_eq _ _ h.noP]; have : (inB .gps1 e.obs).length ≤ 31 := h.gps.count; simp; omega)
    (by rw [inBand_eq _ _ h.noP]; have : (inB .glo1 e.obs).length ≤ 31 := h.glo.count; simp; omega)
    (by
      rw [inBand_eq _ _ h.noP]
      intro p hp
      obtain ⟨o, ho, rfl⟩ := List.mem_map.1 hp
      unfold inB at ho
      rw [List.mem_filter] at ho
      exact (chan_known (h.glo.sats o ho.1 (Or.inl (by simpa [firstOf] using ho.2))).2.2).2)
  simp only [List.map_nil, List.nil_append] at hl
  unfold bufferToLegacy
  simp only [hl, Option.bind_eq_bind, Option.bind_some]
  have e1 : gpsSats e.obs = satsOf e.cfg false e.obs := rfl
  have e2 : gloSats e.cfg.fcn e.obs = satsOf e.cfg true e.obs := rfl
  have n1 := sats_nil h false
  have n2 := sats_nil h true
  rw [show firstOf false = .gps1 from rfl] at n1
  rw [show firstOf true = .glo1 from rfl] at n2
  rw [e1, e2]
  have t1 : (satsOf e.cfg false e.obs).length > 0 ↔ ¬ inB .gps1 e.obs = [] := by rw [← n1, gt_iff_lt, List.length_pos_iff]
  have t2 : (satsOf e.cfg true e.obs).length > 0 ↔ ¬ inB .glo1 e.obs = [] := by rw [← n2, gt_iff_lt, List.length_pos_iff]
  congr 1
  by_cases a : inB .gps1 e.obs = [] <;> by_cases b : inB .glo1 e.obs = []
  · rw [if_neg (fun h => t1.1 h a), if_neg (fun h => t2.1 h b), if_pos a, if_pos b]
  · rw [if_neg (fun h => t1.1 h a), if_pos (t2.2 b), if_pos a, if_neg b]; rfl
  · rw [if_pos (t1.2 a), if_neg (fun h => t2.1 h b), if_neg (fun h => t2.1 h b), if_pos b, if_neg a, if_pos b]; rfl
  · rw [if_pos (t1.2 a), if_pos (t2.2 b), if_pos (t2.2 b), if_neg b, if_neg a, if_neg b]; rfl

theorem header_wf {e : Epoch} (h : EpochOk e) (glo : Bool) {sync : Nat} (hs : sync < 2) (hne : inB (firstOf glo) e.obs ≠ []) :
    WFHeader (kind glo) (msgOf e glo sync).header := by
  refine ⟨rfl, Nat.mod_lt _ (by norm_num), ?_, hs, by show 0 < 2; norm_num, by show 0 < 2 ^ 3; norm_num⟩
  cases glo with
  | false => have := h.tow; show e.t.tow ≤ 604799999; omega
  | true =>
    obtain ⟨o, ho⟩ := List.exists_mem_of_ne_nil _ hne
    unfold inB at ho
    rw [List.mem_filter] at ho
    obtain ⟨l, hl, -, -⟩ := h.leap ⟨o, ho.1, by simpa [firstOf] using ho.2⟩
    show gloTodMs e.t.tow e.cfg.leap ≤ 86399999
    rw [hl]
    simp only [gloTodMs]
    omega

theorem sent_all {e : Epoch} (h : EpochOk e) (glo : Bool) (sync : Nat) : Obs.sent (kind glo) (msgOf e glo sync) = satsOf e.cfg glo e.obs ∧
    (satsOf e.cfg glo e.obs).length ≤ 31 := by
  have hl : (satsOf e.cfg glo e.obs).length ≤ 31 := by
    rw [sats_eq h.noP (consOk e h glo), List.length_map]; exact (consOk e h glo).count
  refine ⟨?_, hl⟩
  unfold Obs.sent
  show ((((satsOf e.cfg glo e.obs).take (satsOf e.cfg glo e.obs).length).filter _).take 32) = _
  rw [List.take_length, List.filter_eq_self.2, List.take_of_length_le (by omega)]
  intro s hs
  rw [sats_eq h.noP (consOk e h glo)] at hs
  obtain ⟨o, ho, rfl⟩ := List.mem_map.1 hs
  unfold inB at ho
  rw [List.mem_filter] at ho
  exact (sat_wf h.noP (consOk e h glo) ho.1 (by simpa using ho.2)).2

theorem legacyPayload_eq (e : Epoch) (glo : Bool) (sync : Nat) :
    legacyPayload (msgOf e glo sync) = payloadOf (Obs.encode (kind glo) (msgOf e glo sync) blank) := by
  unfold legacyPayload
  cases glo <;> rfl

theorem payload_ok {e : Epoch} (h : EpochOk e) (glo : Bool) {sync : Nat} (hs : sync < 2) (hne : inB (firstOf glo) e.obs ≠ []) :
    2 ≤ (legacyPayload (msgOf e glo sync)).length ∧ (legacyPayload (msgOf e glo sync)).length ≤ 1017 ∧
    messageType (legacyPayload (msgOf e glo sync)) = (kind glo).num ∧
    (Obs.decode (kind glo)).run (legacyPayload (msgOf e glo sync)) =
      .ok ⟨(msgOf e glo sync).header, (inB (firstOf glo) e.obs).map fun o => mkSat (kind glo) (rawOf (kind glo) (satOf e.cfg glo e.obs o))⟩ := by
  rw [legacyPayload_eq]
  have hb : blank.length = 1020 := Misc.blank_length
  obtain ⟨s1, s2⟩ := sent_all h glo sync
  have hw := header_wf h glo hs hne
  have hrun := Obs.run_msg (kind glo) (msgOf e glo sync) hw (by rw [s1]; omega) blank (by rw [hb]; norm_num)
  obtain ⟨k1, k2, k3⟩ := Obs.encode_splice (kind glo) (msgOf e glo sync) blank (by rw [hb]; norm_num)
  obtain ⟨⟨pad, hp, hpad⟩, hlen⟩ := payload_of_splice k1 k2 k3
  have hlow : 61 ≤ wlen (Obs.wrHeader (kind glo) (msgOf e glo sync).header (Obs.sent (kind glo) (msgOf e glo sync)).length) := by
    rw [Obs.wlen_header]; cases glo <;> decide
  have hhd : wlen (Obs.wrHeader (kind glo) (msgOf e glo sync).header (Obs.sent (kind glo) (msgOf e glo sync)).length) ≤ 64 := by
    rw [Obs.wlen_header]; cases glo <;> decide
  have hfl := Obs.wlen_flatMap_le (Obs.sent (kind glo) (msgOf e glo sync)) (Obs.wrSat (kind glo)) 130 (Obs.wlen_sat (kind glo))
  have hsl : (Obs.sent (kind glo) (msgOf e glo sync)).length ≤ 31 := by rw [s1]; exact s2
  have hl : (payloadOf (Obs.encode (kind glo) (msgOf e glo sync) blank)).length =
      (wlen (Obs.wrHeader (kind glo) (msgOf e glo sync).header (Obs.sent (kind glo) (msgOf e glo sync)).length ++
        (Obs.sent (kind glo) (msgOf e glo sync)).flatMap (Obs.wrSat (kind glo))) + 7) / 8 := by
    rw [hlen, wbits_length]
  refine ⟨?_, ?_, ?_, ?_⟩
  · rw [hl, wlen_append]; omega
  · rw [hl, wlen_append]; omega
  · refine (Misc.type_of_getU (n := (kind glo).num) (r := (bitsOf (payloadOf (Obs.encode (kind glo) (msgOf e glo sync) blank))).drop 12) ?_).2
    unfold Dec.getU
    rw [if_neg (by rw [bitsOf_length, hl, wlen_append]; omega), hp]
    simp only [Obs.wrHeader, wbits_append, wbits_cons, Wr.bits_u, List.append_assoc]
    congr 2
    rw [List.take_append_of_le_length (by simp), List.take_of_length_le (by simp)]
    exact ofBits_toBits_of_lt (by show (kind glo).num < _; cases glo <;> decide)
  · rw [hrun, s1]
    congr 2
    · show ({ (msgOf e glo sync).header with nSat := (Obs.sent (kind glo) (msgOf e glo sync)).length } : Obs.Header) = _
      rw [s1]; rfl
    · rw [sats_eq h.noP (consOk e h glo), List.map_map]; rfl

/-! ### time -/

theorem epoch_valid {e : Epoch} (h : EpochOk e) : (epochTime e.t).valid := by
  have a := h.tow
  obtain ⟨b, c⟩ := h.week
  refine ⟨b, c, ?_, ?_⟩
  · unfold epochTime; positivity
  · show (e.t.tow : ℚ) / 1000 < 604800
    rw [div_lt_iff₀ (by norm_num)]
    have : (e.t.tow : ℚ) < ((604800000 : Nat) : ℚ) := by exact_mod_cast a
    push_cast at this
    linarith

theorem epoch_tow (t : SbpTime) : (epochTime t).tow * 1000 = t.tow := by
  show (t.tow : ℚ) / 1000 * 1000 = _
  rw [div_mul_cancel₀ _ (by norm_num)]

theorem gps_time {env' : RtcmSbp.Env} {e : Epoch} {x : Input} (he : EpochOk e) (h : TimeOk env' e x) :
    computeGpsTime e.t.tow x.time = some (epochTime e.t) := by
  have hw : x.time.wn < 32767 := by
    by_contra hh
    have h1 := h.middle.2
    have h3 := h.valid.2.2.1
    have h2 : (32767 : ℚ) ≤ x.time.wn := by exact_mod_cast (by omega : (32767 : Int) ≤ x.time.wn)
    unfold secs at h1
    linarith
  unfold computeGpsTime
  rw [if_pos h.valid]
  exact C22_unique _ _ _ he.tow h.valid h.week hw (epoch_tow _) (lt_of_lt_of_eq h.near (by norm_num))

theorem glo_time {env' : RtcmSbp.Env} {e : Epoch} {x : Input} (he : EpochOk e) (h : TimeOk env' e x)
    (hex : ∃ o ∈ e.obs, band o.code = some .glo1) :
    computeGloTime (gloTodMs e.t.tow e.cfg.leap) x.time (some (env'.utcOffset x.time)) = some (epochTime e.t) := by
  obtain ⟨l1, l0, l4⟩ := h.glo hex
  obtain ⟨l, l1', l2, l3⟩ := he.leap hex
  obtain rfl : env'.utcOffset x.time = l := Option.some.inj (l1.symm.trans l1')
  rw [l1]
  exact C23_glo_roundtrip _ _ _ _ ⟨l2, l3⟩ (epoch_valid he) (epoch_tow _) h.valid l0 h.middle.1 (lt_trans h.middle.2 (by norm_num))

/-! ### one message -/

/-- the observations of the message have been added to the state -/
def added (s : RtcmSbp.State) (e : Epoch) (R : List SbpObs) : RtcmSbp.State :=
  { s with obsTime := e.t, sender := stnToSender (e.sender % 4096), buf := s.buf ++ R }

/-- the buffer is empty or belongs to the epoch -/
def Fits (e : Epoch) (s : RtcmSbp.State) : Prop := s.buf = [] ∨ (s.obsTime = e.t ∧ s.sender = stnToSender (e.sender % 4096))

theorem add_ok {e : Epoch} (h : EpochOk e) (glo : Bool) {sync : Nat} {env' : RtcmSbp.Env}
    (hbias : ∀ c, band c ≠ none → env'.sigBias c = 0) (s : RtcmSbp.State) (hf : Fits e s)
    (hl : s.buf.length + (listOf glo e.obs).length ≤ 210) (m' : Obs.Msg)
    (hm : m' = ⟨(msgOf e glo sync).header, (inB (firstOf glo) e.obs).map fun o => mkSat (kind glo) (rawOf (kind glo) (satOf e.cfg glo e.obs o))⟩) :
    ∃ R, List.Forall₂ Back (listOf glo e.obs) R ∧ addObsToBuffer env' glo m' (epochTime e.t) s =
      if sync = 0 then sendObservations (added s e R) else (added s e R, []) := by
  have hfl : flushIfOther (sbpTime (epochTime e.t)) (stnToSender m'.header.stnId) [] s = (s, []) := by
    unfold flushIfOther
    rw [if_neg]
    rintro ⟨h1, h2⟩
    rcases hf with h | ⟨h, h'⟩
    · rw [h] at h1; simp at h1
    · rw [sbpTime_epoch, hm] at h2
      rcases h2 with h2 | h2
      · exact h2 (by rw [h])
      · exact h2 h'
  obtain ⟨R, r1, r2⟩ := loop_ok h.noP (consOk e h glo) hbias (inB (firstOf glo) e.obs)
    { s with obsTime := e.t, sender := stnToSender (e.sender % 4096) } (by
      intro o ho
      unfold inB at ho
      rw [List.mem_filter] at ho
      exact ⟨ho.1, by simpa using ho.2⟩) hl
  refine ⟨R, r2, ?_⟩
  unfold addObsToBuffer
  rw [hfl, sbpTime_epoch]
  have hc : RtcmSbp.cells m' = ((inB (firstOf glo) e.obs).map fun o => mkSat (kind glo) (rawOf (kind glo) (satOf e.cfg glo e.obs o))).flatMap
      fun s => [(s, 0), (s, 1)] := by rw [hm]; rfl
  have hst : m'.header.stnId = e.sender % 4096 := by rw [hm]; rfl
  have hsy : m'.header.sync = sync := by rw [hm]; rfl
  simp only [hc, hst, r1, hsy, Bool.true_eq_false, if_false, List.nil_append]
  split <;> rfl

/-- One message of the epoch is received: `s` is the receiver's state before it. -/
theorem msg_in {e : Epoch} (h : EpochOk e) (glo : Bool) {sync : Nat} (hs : sync < 2) (hne : inB (firstOf glo) e.obs ≠ []) {env' : RtcmSbp.Env}
    (hbias : ∀ c, band c ≠ none → env'.sigBias c = 0) (x : Input) (hx : TimeOk env' e x) (hp : x.payload = legacyPayload (msgOf e glo sync))
    (s : RtcmSbp.State) (hf : Fits e s) (hl : s.buf.length + (listOf glo e.obs).length ≤ 210) (hmsm : ¬ s.lastMsm.valid)
    (hlast : (if glo then s.lastGlo else s.lastGps).valid → secs (if glo then s.lastGlo else s.lastGps) + 1 / 1000 ≤ secs (epochTime e.t))
    (hgps : glo = true → (∃ o ∈ e.obs, band o.code = some .gps1) → s.lastGps = epochTime e.t) :
    ∃ R v, List.Forall₂ Back (listOf glo e.obs) R ∧ obsOut v = [] ∧
      let s1 := added (if glo then { timed env' s x with lastGlo := epochTime e.t } else { timed env' s x with lastGps := epochTime e.t }) e R
      RtcmSbp.step env' s x = if sync = 0 then ((sendObservations s1).1, v ++ (sendObservations s1).2) else (s1, v) := by
  obtain ⟨p1, p2, p3, p4⟩ := payload_ok h glo hs hne
  rw [← hp] at p1 p3 p4
  have hends : ¬ endsEpoch (messageType x.payload) x.payload := by
    rintro ⟨h1, -, -⟩
    rw [p3] at h1
    revert h1
    cases glo <;> decide
  rw [step_solved env' s x hx.solved p1, if_neg hends, p3]
  have hv := epoch_valid h
  have hact : ∀ s' : RtcmSbp.State, s'.lastMsm = s.lastMsm → ¬ msmActive (epochTime e.t) s' := by
    intro s' e1 h1
    rw [← e1] at hmsm
    exact hmsm h1.1
  have hnew : ¬ (if glo then s.lastGlo else s.lastGps).valid ∨ diff (epochTime e.t) (if glo then s.lastGlo else s.lastGps) > 1 / 2000 := by
    by_cases hh : (if glo then s.lastGlo else s.lastGps).valid
    · refine Or.inr ?_
      have := hlast hh
      rw [diff_secs, gt_iff_lt]
      linarith
    · exact Or.inl hh
  cases glo with
  | false =>
    simp only [Bool.false_eq_true, if_false] at hnew ⊢
    obtain ⟨R, r1, r2⟩ := add_ok h false (sync := sync) hbias { timed env' s x with lastGps := epochTime e.t } hf hl _ rfl
    refine ⟨R, validateBaseObs (epochTime e.t) x.time, r1, RtcmSbp.obsOut_validate _ _, ?_⟩
    have hd : dispatch env' x (kind false).num (timed env' s x) = addGps env' ⟨(msgOf e false sync).header, (inB (firstOf false) e.obs).map fun o => mkSat (kind false) (rawOf (kind false) (satOf e.cfg false e.obs o))⟩ (timed env' s x) := by
      unfold dispatch
      rw [show (kind false).num = 1004 from rfl, if_pos (Or.inr rfl), if_neg (by norm_num)]
      rw [show (kind false) = .m1004 from rfl] at p4 ⊢
      rw [p4]
    rw [hd]
    unfold addGps
    have ht : computeGpsTime e.t.tow (timed env' s x).timeInput = some (epochTime e.t) := gps_time h hx
    rw [show (Obs.Msg.mk (msgOf e false sync).header ((inB (firstOf false) e.obs).map fun o => mkSat (kind false) (rawOf (kind false) (satOf e.cfg false e.obs o)))).header.towMs = e.t.tow from rfl, ht]
    simp only
    have hnew' : ¬ (timed env' s x).lastGps.valid ∨ diff (epochTime e.t) (timed env' s x).lastGps > 1 / 2000 := hnew
    rw [if_neg (not_not.2 hv), if_neg (hact (timed env' s x) rfl), if_pos hnew', r2]
    split <;> simp <;> rfl
  | true =>
    simp only [if_true] at hnew ⊢
    obtain ⟨R, r1, r2⟩ := add_ok h true (sync := sync) hbias { timed env' s x with lastGlo := epochTime e.t } hf hl _ rfl
    refine ⟨R, [], r1, rfl, ?_⟩
    have hd : dispatch env' x (kind true).num (timed env' s x) = addGlo env' ⟨(msgOf e true sync).header, (inB (firstOf true) e.obs).map fun o => mkSat (kind true) (rawOf (kind true) (satOf e.cfg true e.obs o))⟩ (timed env' s x) := by
      unfold dispatch
      rw [show (kind true).num = 1012 from rfl, if_neg (by norm_num), if_pos (Or.inr rfl), if_neg (by norm_num)]
      rw [show (kind true) = .m1012 from rfl] at p4 ⊢
      rw [p4]
    have hex : ∃ o ∈ e.obs, band o.code = some .glo1 := by
      obtain ⟨o, ho⟩ := List.exists_mem_of_ne_nil _ hne
      unfold inB at ho
      rw [List.mem_filter] at ho
      exact ⟨o, ho.1, by simpa [firstOf] using ho.2⟩
    rw [hd]
    unfold addGlo
    have ht : computeGloTime (gloTodMs e.t.tow e.cfg.leap) (timed env' s x).timeInput (some (env'.utcOffset x.time)) = some (epochTime e.t) :=
      glo_time h hx hex
    rw [show (timed env' s x).leap = some (env'.utcOffset x.time) from rfl]
    simp only
    rw [show (msgOf e true sync).header.towMs = gloTodMs e.t.tow e.cfg.leap from rfl, ht]
    simp only
    have hpl : gloPlausible (epochTime e.t) (env'.utcOffset x.time) (timed env' s x) := by
      obtain ⟨l1, l0, l4⟩ := hx.glo hex
      rcases l4 with l4 | ⟨l4, l5⟩
      · exact Or.inl (by rw [diff_secs]; exact l4)
      · refine Or.inr ?_
        rw [show (timed env' s x).lastGps = s.lastGps from rfl, hgps rfl l5]
        refine ⟨hv, ?_⟩
        rw [diff_secs, sub_self, zero_sub, abs_neg]
        exact_mod_cast l4
    have hnew' : ¬ (timed env' s x).lastGlo.valid ∨ diff (epochTime e.t) (timed env' s x).lastGlo > 1 / 2000 := hnew
    rw [if_neg (not_not.2 hv), if_neg (not_not.2 hpl), if_neg (hact (timed env' s x) rfl), if_pos hnew']
    refine Eq.trans r2 ?_
    split <;> rfl

end Verif.LegacyStream
