import Verif.Spec.SbpLegacy
import Verif.Props.C22_C23
/-
C49: the legacy observation messages of an epoch.
-/
namespace Verif.SbpRtcm
open Verif.SbpRtcm.Spec
open Verif.Msm
open Verif.RtcmSbp (SbpTime SbpObs)

theorem freqData_eq (o : SbpObs) (i : Nat) : freqData o i = freqOfObs o i := by
  simp only [freqData, freqOfObs, Nat.pos_iff_ne_zero, gt_iff_lt]

def upd (b : Band) (l : List SbpObs) (s : Obs.Sat) : Obs.Sat := { s with l2 := second b s.svId l s.l2 }

theorem inBand_cons (b : Band) (o : SbpObs) (l : List SbpObs) : inBand b (o :: l) =
    (match signal o.code with | some (b', i) => if b' = b then [(o, i)] else [] | none => []) ++ inBand b l := by
  unfold inBand
  rw [List.filterMap_cons]
  cases signal o.code with
  | none => rfl
  | some x => obtain ⟨b', i⟩ := x; by_cases h : b' = b <;> simp [h]

theorem upd_nil (b : Band) (s : Obs.Sat) : upd b [] s = s := by simp [upd, second, inBand]

theorem second_cons_same {b : Band} {o : SbpObs} {i : Nat} (h : signal o.code = some (b, i)) (sat : Nat) (l : List SbpObs) (d : Obs.Freq) :
    second b sat (o :: l) d = second b sat l (if o.sat = sat then freqOfObs o i else d) := by
  unfold second
  rw [inBand_cons, h]
  simp only [if_true, List.cons_append, List.nil_append, List.filter_cons]
  by_cases hs : o.sat = sat
  · simp only [hs, decide_true, if_true]
    rw [List.getLast?_cons]
    cases ((inBand b l).filter fun p => p.1.sat = sat).getLast? <;> rfl
  · simp [hs]

theorem second_cons_other {b : Band} {o : SbpObs} (h : ∀ i, signal o.code ≠ some (b, i)) (sat : Nat) (l : List SbpObs) (d : Obs.Freq) :
    second b sat (o :: l) d = second b sat l d := by
  have : inBand b (o :: l) = inBand b l := by
    rw [inBand_cons]
    cases hs : signal o.code with
    | none => rfl
    | some x =>
      obtain ⟨b', i⟩ := x
      by_cases hb : b' = b
      · subst hb; exact absurd hs (h i)
      · simp [hb]
  unfold second; rw [this]

theorem setL2_map (b : Band) (o : SbpObs) (i : Nat) (h : signal o.code = some (b, i)) (l : List SbpObs) (st : List Obs.Sat)
    (hn : (st.map (·.svId)).Nodup) :
    (setL2 o.sat (freqOfObs o i) st).map (upd b l) = st.map (upd b (o :: l)) ∧
      (setL2 o.sat (freqOfObs o i) st).map (·.svId) = st.map (·.svId) := by
  induction st with
  | nil => exact ⟨rfl, rfl⟩
  | cons s r ih =>
    simp only [List.map_cons, List.nodup_cons] at hn
    obtain ⟨ih1, ih2⟩ := ih hn.2
    unfold setL2
    by_cases hs : s.svId = o.sat
    · rw [if_pos hs]
      constructor
      · simp only [List.map_cons]
        congr 1
        · unfold upd; rw [second_cons_same h, if_pos hs.symm]
        · apply List.map_congr_left
          intro x hx
          unfold upd
          rw [second_cons_same h, if_neg]
          rintro he
          exact hn.1 (List.mem_map.mpr ⟨x, hx, by rw [hs, he]⟩)
      · rfl
    · rw [if_neg hs]
      simp only [List.map_cons, ih1, ih2]
      refine ⟨?_, trivial⟩
      congr 1
      unfold upd
      rw [second_cons_same h, if_neg (Ne.symm hs)]

theorem upd_other {b : Band} {o : SbpObs} (h : ∀ i, signal o.code ≠ some (b, i)) (l : List SbpObs) (st : List Obs.Sat) :
    st.map (upd b (o :: l)) = st.map (upd b l) := by
  apply List.map_congr_left
  intro s _
  unfold upd; rw [second_cons_other h]

/-- what one observation does, in terms of the signal table -/
theorem legacyStep_eq (cfg : Config) (st : List Obs.Sat × List Obs.Sat) (o : SbpObs) : legacyStep cfg st o =
    match signal o.code with
    | some (.gps1, i) => (addSat st.1 { svId := o.sat, fcn := 0, l1 := freqOfObs o i }).map (·, st.2)
    | some (.gps2, i) => some (setL2 o.sat (freqOfObs o i) st.1, st.2)
    | some (.glo1, i) => match cfg.fcn[o.sat]? with
      | none => none
      | some f => if f ≠ 255 then (addSat st.2 { svId := o.sat, fcn := f, l1 := freqOfObs o i }).map (st.1, ·) else some st
    | some (.glo2, i) => some (st.1, setL2 o.sat (freqOfObs o i) st.2)
    | none => some st := by
  unfold legacyStep
  cases o.code <;> simp only [signal, freqData_eq] <;> rfl

theorem legacy_spec (cfg : Config) (l : List SbpObs) : ∀ (a b : List Obs.Sat),
    (a.map (·.svId) ++ (inBand .gps1 l).map (·.1.sat)).Nodup → (b.map (·.svId) ++ (inBand .glo1 l).map (·.1.sat)).Nodup →
    a.length + (inBand .gps1 l).length ≤ 32 → b.length + (inBand .glo1 l).length ≤ 32 →
    (∀ p ∈ inBand .glo1 l, p.1.sat < cfg.fcn.length) →
    legacyLoop cfg (a, b) l = some (a.map (upd .gps2 l) ++ gpsSats l, b.map (upd .glo2 l) ++ gloSats cfg.fcn l) := by
  induction l with
  | nil =>
    intro a b _ _ _ _ _
    have h1 : a.map (upd .gps2 []) = a := by rw [show upd .gps2 [] = id from funext (upd_nil _)]; simp
    have h2 : b.map (upd .glo2 []) = b := by rw [show upd .glo2 [] = id from funext (upd_nil _)]; simp
    simp [legacyLoop, gpsSats, gloSats, h1, h2]
  | cons o r ih =>
    intro a b ha hb la lb ht
    unfold legacyLoop
    rw [legacyStep_eq]
    rw [inBand_cons] at ha hb la lb ht
    cases hs : signal o.code with
    | none =>
      rw [hs] at ha hb la lb ht
      simp only [List.nil_append] at ha hb la lb ht
      have hne : ∀ b i, signal o.code ≠ some (b, i) := by intro b i; rw [hs]; simp
      simp only [Option.bind_eq_bind, Option.bind_some]
      rw [ih a b ha hb la lb ht, upd_other (hne .gps2), upd_other (hne .glo2)]
      simp only [gpsSats, gloSats, hs]
    | some x =>
      obtain ⟨bd, i⟩ := x
      have hne : ∀ b', b' ≠ bd → ∀ i, signal o.code ≠ some (b', i) := by
        intro b' hb' j; rw [hs]; intro h; simp at h; exact hb' h.1.symm
      rw [hs] at ha hb la lb ht
      cases bd with
      | gps1 =>
        simp only [if_true, reduceCtorEq, if_false, List.nil_append, List.cons_append, List.map_cons, List.length_cons] at ha hb la lb ht
        simp only [Option.bind_eq_bind, addSat]
        rw [if_pos (by omega)]
        simp only [Option.map_some, Option.bind_some]
        rw [ih _ b (by simpa using ha) hb (by simpa using (by omega : a.length + 1 + (inBand .gps1 r).length ≤ 32)) lb ht,
          upd_other (hne .gps2 (by decide)), upd_other (hne .glo2 (by decide))]
        simp only [gpsSats, gloSats, hs, List.map_append, List.map_cons, List.map_nil, List.append_assoc, List.singleton_append]
        rfl
      | gps2 =>
        simp only [if_true, reduceCtorEq, if_false, List.nil_append] at ha hb la lb ht
        obtain ⟨h1, h2⟩ := setL2_map .gps2 o i hs r a (List.nodup_append.mp ha).1
        have hlen : (setL2 o.sat (freqOfObs o i) a).length = a.length := by
          have := congrArg List.length h2; simpa using this
        simp only [Option.bind_eq_bind, Option.bind_some]
        rw [ih _ b (by rw [h2]; exact ha) hb (by rw [hlen]; exact la) lb ht, h1, upd_other (hne .glo2 (by decide))]
        simp only [gpsSats, gloSats, hs]
      | glo1 =>
        simp only [if_true, reduceCtorEq, if_false, List.nil_append, List.cons_append, List.map_cons, List.length_cons] at ha hb la lb ht
        have hlt : o.sat < cfg.fcn.length := ht (o, i) (by simp)
        have hg : cfg.fcn[o.sat]? = some (cfg.fcn.getD o.sat 255) := by
          rw [List.getD_eq_getElem?_getD, List.getElem?_eq_getElem hlt]; rfl
        have ht' : ∀ p ∈ inBand .glo1 r, p.1.sat < cfg.fcn.length := fun p hp => ht p (by simp [hp])
        rw [hg]
        simp only
        by_cases hf : cfg.fcn.getD o.sat 255 ≠ 255
        · rw [if_pos hf]
          simp only [Option.bind_eq_bind, addSat]
          rw [if_pos (by omega)]
          simp only [Option.map_some, Option.bind_some]
          rw [ih a _ ha (by simpa using hb) la (by simpa using (by omega : b.length + 1 + (inBand .glo1 r).length ≤ 32)) ht',
            upd_other (hne .gps2 (by decide)), upd_other (hne .glo2 (by decide))]
          simp only [gpsSats, gloSats, hs, if_pos hf, List.map_append, List.map_cons, List.map_nil, List.append_assoc, List.singleton_append]
          rfl
        · rw [if_neg hf]
          simp only [Option.bind_eq_bind, Option.bind_some]
          rw [ih a b ha (List.Nodup.sublist (List.Sublist.append_left (List.sublist_cons_self _ _) _) hb) la (by omega) ht',
            upd_other (hne .gps2 (by decide)), upd_other (hne .glo2 (by decide))]
          simp only [gpsSats, gloSats, hs, if_neg hf]
      | glo2 =>
        simp only [if_true, reduceCtorEq, if_false, List.nil_append] at ha hb la lb ht
        obtain ⟨h1, h2⟩ := setL2_map .glo2 o i hs r b (List.nodup_append.mp hb).1
        have hlen : (setL2 o.sat (freqOfObs o i) b).length = b.length := by
          have := congrArg List.length h2; simpa using this
        simp only [Option.bind_eq_bind, Option.bind_some]
        rw [ih a _ ha (by rw [h2]; exact hb) la (by rw [hlen]; exact lb) ht, h1, upd_other (hne .gps2 (by decide))]
        simp only [gpsSats, gloSats, hs]

/-- **C49** For every epoch the legacy messages can carry, exactly the GPS message (if there is a GPS satellite) followed
by the GLONASS message (if there is a GLONASS satellite of known channel) is sent; they hold exactly the satellites with a
first-frequency observation, in order, with both frequencies as observed; the synchronous flag of each message is 1 iff
another one follows; station and time are those of the epoch. -/
theorem C49_legacy (e : Epoch) (h : LegacyOk e.cfg.fcn e.obs) :
    ∃ msgs, bufferToLegacy e = some msgs ∧
      msgs.map (fun m => (m.header.msgNum, m.sats)) =
        [(1004, gpsSats e.obs), (1012, gloSats e.cfg.fcn e.obs)].filter (fun p => !p.2.isEmpty) ∧
      (∀ (i : Nat) m, msgs[i]? = some m → m.header.sync = if i + 1 < msgs.length then 1 else 0) ∧
      ∀ m ∈ msgs, m.header.nSat = m.sats.length ∧ m.header.stnId = e.sender % 4096 ∧
        (m.header.msgNum = 1004 → m.header.towMs = e.t.tow) ∧
        (m.header.msgNum = 1012 → e.t.tow < 604800000 → ∀ leap, e.cfg.leap = some leap → -128 ≤ leap → leap ≤ 127 →
          (m.header.towMs : Int) = (e.t.tow + 10800000 - leap * 1000) % 86400000) := by
  have hl := legacy_spec e.cfg e.obs [] [] (by simpa using h.gps) (by simpa using h.glo) (by simpa using h.gpsN)
    (by simpa using h.gloN) h.table
  simp only [List.map_nil, List.nil_append] at hl
  have hglo : ∀ leap, e.t.tow < 604800000 → -128 ≤ leap → leap ≤ 127 →
      ((gloTodMs e.t.tow (some leap) : Nat) : Int) = (e.t.tow + 10800000 - leap * 1000) % 86400000 := by
    intro leap h1 h2 h3
    have := (Time.C23_glo_tow e.t.tow leap h1 ⟨h2, h3⟩).2
    simp only [gloTodMs]
    push_cast
    rw [this]
    omega
  unfold bufferToLegacy
  simp only [hl, Option.bind_eq_bind, Option.bind_some]
  refine ⟨_, rfl, ?_⟩
  cases hg : gpsSats e.obs <;> cases hr : gloSats e.cfg.fcn e.obs
  · simp
  · simp only [List.length_nil, gt_iff_lt, Nat.lt_irrefl, if_false, List.nil_append, List.length_cons, Nat.zero_lt_succ, if_true]
    refine ⟨by simp, ?_, ?_⟩
    · intro i m hm
      match i, hm with
      | 0, hm => simp at hm; subst hm; simp
    · intro m hm
      simp only [List.mem_singleton] at hm
      subst hm
      exact ⟨rfl, rfl, by simp, fun _ h1 leap h2 h3 h4 => by rw [h2]; exact hglo leap h1 h3 h4⟩
  · simp only [List.length_nil, gt_iff_lt, Nat.lt_irrefl, if_false, List.append_nil, List.length_cons, Nat.zero_lt_succ, if_true]
    refine ⟨by simp, ?_, ?_⟩
    · intro i m hm
      match i, hm with
      | 0, hm => simp at hm; subst hm; simp
    · intro m hm
      simp only [List.mem_singleton] at hm
      subst hm
      exact ⟨rfl, rfl, by simp, by simp⟩
  · simp only [gt_iff_lt, List.length_cons, Nat.zero_lt_succ, if_true, List.singleton_append]
    refine ⟨by simp, ?_, ?_⟩
    · intro i m hm
      match i, hm with
      | 0, hm => simp at hm; subst hm; simp
      | 1, hm => simp at hm; subst hm; simp
    · intro m hm
      simp only [List.mem_cons, List.not_mem_nil, or_false] at hm
      rcases hm with rfl | rfl
      · exact ⟨rfl, rfl, by simp, by simp⟩
      · exact ⟨rfl, rfl, by simp, fun _ h1 leap h2 h3 h4 => by rw [h2]; exact hglo leap h1 h3 h4⟩

/-! non-vacuity and the inputs outside `LegacyOk` -/

def exLO (sat : Nat) (code : Code) : SbpObs := ⟨sat, code, 1100000000, 100000, 128, 0, 0, 160, 7, 7⟩
def exLCfg : Config := { leap := some 18, fcn := (List.replicate 29 255).set 5 8, legacy := true, msm := false, msmType := .msm5 }
def exLE (l : List SbpObs) : Epoch := { cfg := exLCfg, sender := 4103, t := ⟨1000, 2000⟩, obs := l }
def exLL : List SbpObs := [exLO 3 .gps_l1ca, exLO 5 .glo_l1of, exLO 3 .gps_l2p, exLO 7 .glo_l1of, exLO 9 .gps_l1p, exLO 5 .glo_l2of]
example : LegacyOk (exLE exLL).cfg.fcn (exLE exLL).obs :=
  ⟨by decide +kernel, by decide +kernel, by decide +kernel, by decide +kernel, by decide +kernel⟩
example : (bufferToLegacy (exLE exLL)).map (fun l => l.map fun m => (m.header.msgNum, m.header.sync, m.sats.map (·.svId))) =
    some [(1004, 1, [3, 9]), (1012, 0, [5])] := by decide +kernel

/-- C49 does not hold without the bound on satellites: 33 GPS first-frequency observations in an epoch (at most 210 are
buffered) make the converter write outside the message. -/
theorem C49_33_sats_bug : ∃ l : List SbpObs, l.length = 33 ∧ ((inBand .gps1 l).map (·.1.sat)).Nodup ∧ bufferToLegacy (exLE l) = none :=
  ⟨(List.range 33).map fun i => exLO (i + 1) .gps_l1ca, by decide +kernel, by decide +kernel, by decide +kernel⟩

/-- C49 does not hold for GLONASS satellite numbers above 28: the channel table is read outside its bounds. -/
theorem C49_glo_sat_bug : bufferToLegacy (exLE [exLO 29 .glo_l1of]) = none := by decide +kernel

end Verif.SbpRtcm
