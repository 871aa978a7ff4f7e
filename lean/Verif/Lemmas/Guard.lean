import Verif.Spec.Guard
import Verif.Lemmas.Rtcm3ToSbp
import Verif.Props.C12_C13
import Verif.Props.C22_C23
import Verif.Props.C51
/- Lemmas for C75. -/
namespace Verif.Guard
open Verif.Time Verif.Msm Verif.Guard.Spec
open Verif.RtcmSbp (State Env Out SbpTime SbpObs ObsMsg Input maxObs obsPerMsg sbpTime stnToSender messageType numSatsGlo)
open Verif.RtcmSbp.Spec (obsOut)

theorem must_pos {c : Prop} [Decidable c] (h : c) : must c = some () := if_pos h

/-- a time that can be sent and read back -/
def TimeIn (t : SbpTime) : Prop := 0 ≤ t.wn ∧ t.wn ≤ 32767 ∧ t.tow < 604800000

structure Inv (s : State) : Prop where
  buf : s.buf.length ≤ 210
  codes : s.sentCode.length = 3
  fcn : s.fcn.length = 29
  time : TimeIn s.obsTime

theorem Inv.congr {s s' : State} (h : Inv s) (h1 : s'.buf = s.buf) (h2 : s'.sentCode = s.sentCode) (h3 : s'.fcn = s.fcn)
    (h4 : s'.obsTime = s.obsTime) : Inv s' := ⟨h1 ▸ h.buf, h2 ▸ h.codes, h3 ▸ h.fcn, h4 ▸ h.time⟩

/-- the observation messages among the outputs have such a time -/
def OutIn (l : List Out) : Prop := ∀ m ∈ obsOut l, TimeIn m.t

theorem OutIn.append {a b : List Out} (ha : OutIn a) (hb : OutIn b) : OutIn (a ++ b) := by
  intro m hm
  rw [RtcmSbp.obsOut_append, List.mem_append] at hm
  exact hm.elim (ha m) (hb m)
theorem OutIn.of_nil {l : List Out} (h : obsOut l = []) : OutIn l := by intro m hm; rw [h] at hm; cases hm
theorem OutIn.nil : OutIn [] := .of_nil rfl

/-- a checked function succeeds with the result of the unchecked one, which keeps the invariant -/
structure Fine (g : Option (State × List Out)) (r : State × List Out) : Prop where
  eq : g = some r
  inv : Inv r.1
  out : OutIn r.2

theorem fine_same {s : State} {o : List Out} (h : Inv s) (ho : obsOut o = []) : Fine (some (s, o)) (s, o) := ⟨rfl, h, .of_nil ho⟩

theorem send_fine {s : State} (h : Inv s) : Fine (send s) (RtcmSbp.sendObservations s) := by
  have hb := h.buf
  refine ⟨?_, ⟨by simp [RtcmSbp.sendObservations], h.codes, h.fcn, by simp [RtcmSbp.sendObservations, TimeIn]⟩, ?_⟩
  · unfold send
    rw [must_pos (by simpa [maxObs] using hb), must_pos]
    · rfl
    · split
      · have : (s.buf.length - 1) / 14 ≤ 14 := by omega
        show 1 + (s.buf.length - 1) / 14 ≤ 15
        omega
      · omega
  · intro m hm
    rw [RtcmSbp.sendObservations_snd, RtcmSbp.obsOut_map_obs] at hm
    have key : ∀ total k msgNum idx, m ∈ RtcmSbp.sendLoop s total k msgNum idx → m.t = s.obsTime := by
      intro total k
      induction k with
      | zero => intro a b hm; cases hm
      | succ k ih =>
        intro a b hm
        rcases List.mem_cons.mp hm with rfl | hm
        · rfl
        · exact ih _ _ hm
    rw [key _ _ _ _ hm]; exact h.time

theorem warnCode_fine {i : Nat} {s : State} (hi : i < 3) (h : Inv s) : Fine (warnCode i s) (RtcmSbp.warnCode i s) := by
  refine ⟨?_, ?_, .of_nil (RtcmSbp.warnCode_out _ _)⟩
  · unfold warnCode
    rw [must_pos ⟨hi, by rw [h.codes]; exact hi⟩]; rfl
  · unfold RtcmSbp.warnCode
    split
    · exact h
    · exact ⟨h.buf, by simp [h.codes], h.fcn, h.time⟩

theorem legacyWarn_fine {glo : Bool} {svId f code : Nat} {s : State} (hf : f < 2) (h : Inv s) :
    Fine (legacyWarn glo svId f code s) (RtcmSbp.legacyWarn glo svId f code s) := by
  unfold legacyWarn RtcmSbp.legacyWarn
  split
  · exact warnCode_fine (by omega) h
  · exact fine_same h rfl

theorem put_eq {o : SbpObs} {s : State} (h : s.buf.length < 210) : put o s = some { s with buf := s.buf ++ [o] } := by
  unfold put; rw [must_pos h]; rfl

theorem put_inv {o : SbpObs} {s : State} (h : Inv s) (hb : s.buf.length < 210) : Inv { s with buf := s.buf ++ [o] } :=
  ⟨by simp; omega, h.codes, h.fcn, h.time⟩

theorem legacyLoop_fine (env : Env) (glo : Bool) (l : List (Obs.Sat × Nat)) (hl : ∀ c ∈ l, c.2 < 2) :
    ∀ s, Inv s → legacyLoop env glo l s = some (RtcmSbp.legacyLoop env glo l s) ∧ Inv (RtcmSbp.legacyLoop env glo l s).1 ∧
      OutIn (RtcmSbp.legacyLoop env glo l s).2.1 := by
  induction l with
  | nil => intro s h; exact ⟨rfl, h, .nil⟩
  | cons c r ih =>
    intro s h
    obtain ⟨sat, f⟩ := c
    have hf : f < 2 := hl (sat, f) (by simp)
    have ih := ih fun c hc => hl c (by simp [hc])
    unfold legacyLoop RtcmSbp.legacyLoop
    simp only []
    by_cases hv : (RtcmSbp.freqOf sat f).vPr = true ∧ (RtcmSbp.freqOf sat f).vCp = true
    · rw [if_pos hv, if_pos hv]
      by_cases hb : s.buf.length ≥ maxObs
      · rw [if_pos hb, if_pos hb]
        exact ⟨rfl, h, .of_nil rfl⟩
      · rw [if_neg hb, if_neg hb]
        have hw := legacyWarn_fine (glo := glo) (svId := sat.svId) (code := (RtcmSbp.freqOf sat f).code) hf h
        have hwb : (RtcmSbp.legacyWarn glo sat.svId f (RtcmSbp.freqOf sat f).code s).1.buf.length < 210 := by
          have := RtcmSbp.legacyWarn_core glo sat.svId f (RtcmSbp.freqOf sat f).code s
          have e : (RtcmSbp.legacyWarn glo sat.svId f (RtcmSbp.freqOf sat f).code s).1.buf = s.buf := congrArg RtcmSbp.Core.buf this
          rw [e]; simpa [maxObs] using hb
        rw [hw.eq]
        generalize RtcmSbp.legacyWarn glo sat.svId f (RtcmSbp.freqOf sat f).code s = w at hw hwb
        cases hs : RtcmSbp.legacySid glo sat.svId f (RtcmSbp.freqOf sat f).code with
        | none =>
          obtain ⟨a, b, c⟩ := ih w.1 hw.inv
          refine ⟨?_, b, hw.out.append c⟩
          simp only [Option.bind_eq_bind, Option.bind_some, a]
        | some pc =>
          obtain ⟨a, b, c⟩ := ih { w.1 with buf := w.1.buf ++ [RtcmSbp.packLegacy env pc.1 pc.2 (RtcmSbp.freqOf sat f)] } (put_inv hw.inv hwb)
          refine ⟨?_, b, hw.out.append c⟩
          simp only [Option.bind_eq_bind, Option.bind_some, put_eq hwb, a]
    · rw [if_neg hv, if_neg hv]
      exact ih s h

theorem flush_fine {t : SbpTime} {sender : Nat} {warn : List Out} {s : State} (h : Inv s) (hw : obsOut warn = []) :
    Fine (flushIfOther t sender warn s) (RtcmSbp.flushIfOther t sender warn s) := by
  unfold flushIfOther RtcmSbp.flushIfOther
  split
  · have := send_fine h
    refine ⟨?_, this.inv, (OutIn.of_nil hw).append this.out⟩
    rw [this.eq]; rfl
  · exact fine_same h rfl

theorem cells_freq (m : Obs.Msg) : ∀ c ∈ RtcmSbp.cells m, c.2 < 2 := by
  intro c hc
  unfold RtcmSbp.cells at hc
  rw [List.mem_flatMap] at hc
  obtain ⟨s, -, hc⟩ := hc
  simp at hc
  rcases hc with rfl | rfl <;> simp

theorem addObs_fine {env : Env} {glo : Bool} {m : Obs.Msg} {t : GpsTime} {s : State} (h : Inv s) (hm : m.sats.length ≤ 32)
    (ht : TimeIn (sbpTime t)) : Fine (addObsToBuffer env glo m t s) (RtcmSbp.addObsToBuffer env glo m t s) := by
  have ha := flush_fine (t := sbpTime t) (sender := stnToSender m.header.stnId) (warn := []) h rfl
  unfold addObsToBuffer RtcmSbp.addObsToBuffer
  rw [must_pos (by simpa [maxSats] using hm), ha.eq]
  generalize RtcmSbp.flushIfOther (sbpTime t) (stnToSender m.header.stnId) [] s = a at ha
  obtain ⟨b1, b2, b3⟩ := legacyLoop_fine env glo (RtcmSbp.cells m) (cells_freq m)
    { a.1 with obsTime := sbpTime t, sender := stnToSender m.header.stnId } ⟨ha.inv.buf, ha.inv.codes, ha.inv.fcn, ht⟩
  simp only [Option.bind_eq_bind, Option.bind_some, b1]
  generalize RtcmSbp.legacyLoop env glo (RtcmSbp.cells m) { a.1 with obsTime := sbpTime t, sender := stnToSender m.header.stnId } = b at b2 b3
  split
  · exact ⟨rfl, b2, ha.out.append b3⟩
  · split
    · have hc := send_fine b2
      rw [hc.eq]
      exact ⟨rfl, hc.inv, (ha.out.append b3).append hc.out⟩
    · exact ⟨rfl, b2, ha.out.append b3⟩

/-! ### times -/

/-- a whole number of milliseconds -/
def Ms (t : GpsTime) : Prop := ∃ n : Int, t.tow * 1000 = n

theorem timeIn_of {t : GpsTime} (hv : t.valid) (hm : Ms t) : TimeIn (sbpTime t) := by
  obtain ⟨n, hn⟩ := hm
  obtain ⟨w0, w1, t0, t1⟩ := hv
  have a : (0 : ℚ) ≤ n := by rw [← hn]; linarith
  have b : (n : ℚ) < 604800000 := by rw [← hn]; simp only [weekSecs] at t1; linarith
  have a' : 0 ≤ n := by exact_mod_cast a
  have b' : n < 604800000 := by exact_mod_cast b
  refine ⟨w0, w1, ?_⟩
  show (RtcmSbp.crint (t.tow * 1000)).toNat < 604800000
  rw [hn, RtcmSbp.crint_int]
  omega

theorem normalize_ms {t u : GpsTime} (h : Time.normalize t = some u) (hm : Ms t) : Ms u := by
  obtain ⟨n, hn⟩ := hm
  unfold Time.normalize at h
  simp only at h
  split at h
  · simp only [Option.some.injEq] at h
    subst h
    refine ⟨n - ⌊t.tow / weekSecs⌋ * 604800000, ?_⟩
    simp only [weekSecs]
    push_cast
    linarith
  · cases h

theorem glo_ms {tod : Nat} {r : GpsTime} {leap : Int} {t : GpsTime} (h : computeGloTime tod r (some leap) = some t) : Ms t := by
  unfold computeGloTime at h
  simp only at h
  split at h
  · cases h
  split at h
  · cases h
  split at h
  · cases h
  rename_i t1 h1
  have m1 : Ms t1 := by
    refine normalize_ms h1 ?_
    split
    · exact ⟨_, div_mul_cancel₀ _ (by norm_num)⟩
    · exact ⟨_, div_mul_cancel₀ _ (by norm_num)⟩
  split at h
  · refine normalize_ms h ?_
    obtain ⟨n, hn⟩ := m1
    split
    · exact ⟨n + 86400000, by simp only [daySecs]; push_cast; linarith⟩
    · exact ⟨n - 86400000, by simp only [daySecs]; push_cast; linarith⟩
  · simp only [Option.some.injEq] at h
    exact h ▸ m1

theorem gps_ok {tow : Nat} {r t : GpsTime} (hr : r.valid) (h : computeGpsMessageTime tow r = some t) : t.valid ∧ Ms t := by
  obtain ⟨w0, w1, t0, t1⟩ := hr
  unfold computeGpsMessageTime at h
  simp only at h
  have hq : (0 : ℚ) ≤ (tow : ℚ) / 1000 := by positivity
  split at h
  · cases h
  rename_i ht
  have ht' : tow < 604800000 := by simpa [weekMs] using ht
  have hq' : (tow : ℚ) / 1000 < weekSecs := by
    rw [div_lt_iff₀ (by norm_num)]
    have : (tow : ℚ) < 604800000 := by exact_mod_cast ht'
    simp only [weekSecs]; linarith
  have hm : (tow : ℚ) / 1000 * 1000 = ((tow : Int) : ℚ) := by
    rw [div_mul_cancel₀ _ (by norm_num)]; simp
  split at h
  · rename_i hc
    simp only [Option.some.injEq] at h; subst h
    refine ⟨⟨?_, ?_, hq, hq'⟩, ⟨_, hm⟩⟩
    · show 0 ≤ r.wn + 1
      omega
    · show r.wn + 1 ≤ 32767
      have := hc.2; omega
  · split at h
    · rename_i hc
      simp only [Option.some.injEq] at h; subst h
      refine ⟨⟨?_, ?_, hq, hq'⟩, ⟨_, hm⟩⟩
      · show 0 ≤ r.wn - 1
        have := hc.2; omega
      · show r.wn - 1 ≤ 32767
        omega
    · simp only [Option.some.injEq] at h; subst h
      exact ⟨⟨w0, w1, hq, hq'⟩, ⟨_, hm⟩⟩

theorem computeGps_eq {tow : Nat} {r : GpsTime} (hr : r.valid) :
    computeGpsTime tow r = some (RtcmSbp.computeGpsTime tow r) := by
  unfold computeGpsTime RtcmSbp.computeGpsTime
  rw [if_pos hr]
  split
  · rename_i h
    unfold computeGpsMessageTime
    rw [if_pos h]
  · rw [must_pos hr]
    cases h : computeGpsMessageTime tow r with
    | none => rfl
    | some t =>
      simp only [Option.bind_eq_bind, Option.bind_some]
      rw [must_pos (gps_ok hr h).1]
      rfl

theorem computeGps_ok {tow : Nat} {r t : GpsTime} (hr : r.valid) (h : RtcmSbp.computeGpsTime tow r = some t) : t.valid ∧ Ms t := by
  unfold RtcmSbp.computeGpsTime at h
  rw [if_pos hr] at h
  exact gps_ok hr h

theorem validate_nil (t r : GpsTime) : obsOut (RtcmSbp.validateBaseObs t r) = [] := RtcmSbp.obsOut_validate t r

theorem addGps_fine {env : Env} {m : Obs.Msg} {s : State} (h : Inv s) (hm : m.sats.length ≤ 32) (ht : s.timeInput.valid) :
    Fine (addGps env m s) (RtcmSbp.addGps env m s) := by
  unfold addGps RtcmSbp.addGps
  rw [computeGps_eq ht]
  cases hc : RtcmSbp.computeGpsTime m.header.towMs s.timeInput with
  | none => exact fine_same h rfl
  | some t =>
    obtain ⟨v, ms⟩ := computeGps_ok ht hc
    simp only [Option.bind_eq_bind, Option.bind_some]
    split
    · exact fine_same h (validate_nil _ _)
    · split
      · exact fine_same h (validate_nil _ _)
      · split
        · have := addObs_fine (env := env) (glo := false) (m := m) (t := t) (s := { s with lastGps := t })
            (h.congr rfl rfl rfl rfl) hm (timeIn_of v ms)
          rw [this.eq]
          exact ⟨rfl, this.inv, (OutIn.of_nil (validate_nil _ _)).append this.out⟩
        · exact fine_same h (validate_nil _ _)

theorem addGlo_fine {env : Env} {m : Obs.Msg} {s : State} (h : Inv s) (hm : m.sats.length ≤ 32) :
    Fine (addGlo env m s) (RtcmSbp.addGlo env m s) := by
  unfold addGlo RtcmSbp.addGlo
  cases s.leap with
  | none => exact fine_same h rfl
  | some leap =>
    simp only
    cases hc : computeGloTime m.header.towMs s.timeInput (some leap) with
    | none => exact fine_same h rfl
    | some t =>
      simp only
      by_cases hv : t.valid
      · rw [if_neg (not_not.mpr hv), if_neg (not_not.mpr hv)]
        split
        · exact fine_same h rfl
        · split
          · exact fine_same h rfl
          · split
            · exact addObs_fine (h.congr rfl rfl rfl rfl) hm (timeIn_of hv (glo_ms hc))
            · exact fine_same h rfl
      · rw [if_pos hv, if_pos hv]
        exact fine_same h rfl

/-! ### MSM -/

theorem flatMap_length_le {α β : Type} (l : List α) (f : α → List β) (k : Nat) (h : ∀ x ∈ l, (f x).length ≤ k) :
    (l.flatMap f).length ≤ l.length * k := by
  induction l with
  | nil => simp
  | cons a l ih =>
    have h1 := h a (by simp)
    have h2 := ih fun x hx => h x (by simp [hx])
    simp only [List.flatMap_cons, List.length_append, List.length_cons]
    rw [Nat.add_mul]; omega

theorem setCells_length (h : Msm.Header) : (RtcmSbp.setCells h).length ≤ h.satMask.count true * h.sigMask.count true := by
  unfold RtcmSbp.setCells
  have := flatMap_length_le (List.range (h.satMask.count true)) (fun sat => (List.range (h.sigMask.count true)).flatMap fun sig =>
    if h.cellMask.getD (sat * h.sigMask.count true + sig) false then [(sat, sig)] else []) (h.sigMask.count true) (by
      intro x _
      have := flatMap_length_le (List.range (h.sigMask.count true)) (fun sig =>
        if h.cellMask.getD (x * h.sigMask.count true + sig) false then [(x, sig)] else []) 1 (by
          intro y _; split <;> simp)
      simpa using this)
  simpa using this

/-- what the loop over the cells may rely on -/
structure CellOk (m : Msm.Msg) (c : Nat × Nat × Nat) : Prop where
  row : c.1 < m.header.satMask.count true
  col : c.2.1 < m.header.sigMask.count true
  idx : c.2.2 < 64

theorem msmCells_ok {m : Msm.Msg} (h : m.header.satMask.count true * m.header.sigMask.count true ≤ 64) :
    ∀ c ∈ RtcmSbp.msmCells m.header, CellOk m c := by
  intro c hc
  have e1 : RtcmSbp.msmCells m.header = (RtcmSbp.setCells m.header).zipIdx.map fun p => (p.1.1, p.1.2, p.2) := rfl
  rw [e1, List.mem_map] at hc
  obtain ⟨⟨p, i⟩, hp, rfl⟩ := hc
  have hset := RtcmSbp.setCells_mem (List.fst_mem_of_mem_zipIdx hp)
  have hi := List.snd_lt_of_mem_zipIdx hp
  exact ⟨hset.1, hset.2, Nat.lt_of_lt_of_le (by simpa using hi) (Nat.le_trans (setCells_length _) h)⟩

/-- the masks of a decoded message that fits -/
structure MsmOk (m : Msm.Msg) : Prop where
  sat : m.header.satMask.length = 64
  sig : m.header.sigMask.length = 32
  cells : m.header.satMask.count true * m.header.sigMask.count true ≤ 64
  sats : m.header.satMask.count true ≤ 32

theorem sid_fine {env : Env} {cons : Cons} {m : Msm.Msg} {sat sig : Nat} {s : State} (hm : MsmOk m)
    (h1 : sat < m.header.satMask.count true) (h2 : sig < m.header.sigMask.count true) (h : Inv s) :
    sidFromMsm env (RtcmSbp.hdrOf cons m.header) sat sig s = some (RtcmSbp.sidFromMsm env (RtcmSbp.hdrOf cons m.header) sat sig s) ∧
    Inv (RtcmSbp.sidFromMsm env (RtcmSbp.hdrOf cons m.header) sat sig s).2.1 ∧
    (∀ prn code, (RtcmSbp.sidFromMsm env (RtcmSbp.hdrOf cons m.header) sat sig s).1 = some (prn, code) →
      prnValid env.prn cons prn) := by
  have hr : sat < (RtcmSbp.Spec.positions m.header.satMask).length := by rw [RtcmSbp.positions_length]; exact h1
  have hc : sig < (RtcmSbp.Spec.positions m.header.sigMask).length := by rw [RtcmSbp.positions_length]; exact h2
  have b2 : m.header.sigMask.count true ≤ 32 := by rw [← hm.sig]; exact List.count_le_length
  have b1 := hm.sats
  obtain ⟨code, ec⟩ : ∃ code, signalToCode (RtcmSbp.hdrOf cons m.header) sig = some code := by
    unfold signalToCode RtcmSbp.hdrOf
    simp only [sigMaskSize]
    rw [RtcmSbp.findNth_positions hm.sig, List.getElem?_eq_getElem hc]
    exact ⟨_, rfl⟩
  obtain ⟨prn, ep, hp⟩ : ∃ prn, satToPrn env.prn (RtcmSbp.hdrOf cons m.header) sat = some prn ∧ (prn ≠ 0 → prnValid env.prn cons prn) := by
    unfold satToPrn RtcmSbp.hdrOf
    simp only [satMaskSize]
    rw [RtcmSbp.findNth_positions hm.sat, List.getElem?_eq_getElem hr]
    refine ⟨_, rfl, ?_⟩
    simp only
    split
    · intro _; assumption
    · intro hh; exact absurd rfl hh
  unfold sidFromMsm RtcmSbp.sidFromMsm
  rw [must_pos ⟨by simp only [sigMaskSize]; omega, by simp only [satMaskSize]; omega⟩, ec, ep]
  simp only [Option.bind_eq_bind, Option.bind_some, Option.getD_some]
  by_cases hh : code ≠ .invalid ∧ prn ≠ 0
  · rw [if_pos hh, if_pos hh]
    refine ⟨rfl, h, ?_⟩
    intro p c e
    simp only [Option.some.injEq, Prod.mk.injEq] at e
    exact e.1 ▸ hp hh.2
  · rw [if_neg hh, if_neg hh]
    by_cases hi : code = .invalid
    · rw [if_pos hi, if_pos hi]
      have hw := warnCode_fine (i := 0) (by omega) h
      rw [hw.eq]
      exact ⟨rfl, hw.inv, fun _ _ e => by cases e⟩
    · rw [if_neg hi, if_neg hi]
      exact ⟨rfl, h, fun _ _ e => by cases e⟩

theorem gloFcn_eq {env : Env} {cons : Cons} {prn info : Nat} {s : State} (ht : GloTable env) (hp : prnValid env.prn cons prn)
    (hf : s.fcn.length = 29) : gloFcn cons prn info s = some (RtcmSbp.gloFcn cons prn info s) := by
  unfold gloFcn RtcmSbp.gloFcn
  by_cases hc : cons = .glo
  · rw [if_neg (not_not.mpr hc), if_neg (not_not.mpr hc)]
    split
    · have : prn < s.fcn.length := by
        subst hc
        have := hp.2
        unfold GloTable at ht
        omega
      rw [List.getD_eq_getElem?_getD, List.getElem?_eq_getElem this]; rfl
    · rfl
  · rw [if_pos hc, if_pos hc]

theorem msmLoop_fine {env : Env} (ht : GloTable env) {cons : Cons} {m : Msm.Msg} (hm : MsmOk m) (l : List (Nat × Nat × Nat))
    (hl : ∀ c ∈ l, CellOk m c) : ∀ s, Inv s → Fine (msmLoop env cons m l s) (RtcmSbp.msmLoop env cons m l s) := by
  induction l with
  | nil => intro s h; exact fine_same h rfl
  | cons c r ih =>
    intro s h
    obtain ⟨sat, sig, i⟩ := c
    have hc := hl (sat, sig, i) (by simp)
    have ih := ih fun c hc => hl c (by simp [hc])
    obtain ⟨x1, x2, x3⟩ := sid_fine (env := env) (cons := cons) hm hc.row hc.col h
    have x4 := RtcmSbp.sidFromMsm_out env (RtcmSbp.hdrOf cons m.header) sat sig s
    unfold msmLoop RtcmSbp.msmLoop
    rw [must_pos (by simpa [maxCells] using hc.idx), x1]
    simp only [Option.bind_eq_bind, Option.bind_some]
    generalize RtcmSbp.sidFromMsm env (RtcmSbp.hdrOf cons m.header) sat sig s = x at x2 x3 x4
    obtain ⟨o, s1, w⟩ := x
    cases o with
    | none =>
      have := ih s1 x2
      simp only [this.eq]
      exact ⟨rfl, this.inv, (OutIn.of_nil x4).append this.out⟩
    | some pc =>
      obtain ⟨prn, code⟩ := pc
      simp only
      by_cases hv : env.masked cons = false ∧ RtcmSbp.unsupported code = false ∧ (m.sig i).vPr = true
      · rw [if_pos hv, if_pos hv]
        by_cases hb : s1.buf.length ≥ maxObs
        · rw [if_pos hb, if_pos hb]
          exact ⟨rfl, x2, (OutIn.of_nil x4).append (.of_nil rfl)⟩
        · rw [if_neg hb, if_neg hb]
          have hb' : s1.buf.length < 210 := by simpa [maxObs] using hb
          rw [must_pos (Nat.lt_of_lt_of_le hc.row hm.sats), gloFcn_eq ht (x3 _ _ rfl) x2.fcn]
          simp only [Option.bind_some, put_eq hb']
          have := ih _ (put_inv (o := RtcmSbp.packMsm env prn code (RtcmSbp.gloFcn cons prn (m.sat sat).gloFcn s1) (m.sig i)) x2 hb')
          rw [this.eq]
          exact ⟨rfl, this.inv, (OutIn.of_nil x4).append this.out⟩
      · rw [if_neg hv, if_neg hv]
        have := ih s1 x2
        simp only [this.eq]
        exact ⟨rfl, this.inv, (OutIn.of_nil x4).append this.out⟩

theorem msmTime_fine {cons : Cons} {tow : Nat} {s : State} (ht : s.timeInput.valid) :
    msmTime cons tow s = some (RtcmSbp.msmTime cons tow s) ∧ obsOut (RtcmSbp.msmTime cons tow s).2 = [] ∧
    ∀ t, (RtcmSbp.msmTime cons tow s).1 = some t → TimeIn (sbpTime t) := by
  unfold msmTime RtcmSbp.msmTime
  by_cases hc : cons = .glo
  · rw [if_pos hc, if_pos hc]
    cases s.leap with
    | none => exact ⟨rfl, rfl, fun _ h => by cases h⟩
    | some leap =>
      simp only
      cases hg : computeGloTime tow s.timeInput (some leap) with
      | none => exact ⟨rfl, rfl, fun _ h => by cases h⟩
      | some t =>
        simp only
        split
        · rename_i hv
          refine ⟨rfl, rfl, ?_⟩
          intro u hu
          cases hu
          exact timeIn_of hv.1 (glo_ms hg)
        · exact ⟨rfl, rfl, fun _ h => by cases h⟩
  · rw [if_neg hc, if_neg hc, computeGps_eq ht]
    simp only [Option.bind_eq_bind, Option.bind_some]
    cases hg : RtcmSbp.computeGpsTime (if cons = .bds then beidouTowToGpsTow tow else tow) s.timeInput with
    | none => exact ⟨rfl, rfl, fun _ h => by cases h⟩
    | some t =>
      refine ⟨rfl, validate_nil _ _, ?_⟩
      intro u hu
      obtain ⟨v, ms⟩ := computeGps_ok ht hg
      simp only [if_pos v, Option.some.injEq] at hu
      exact hu ▸ timeIn_of v ms

theorem addMsm_fine {env : Env} (hg : GloTable env) {cons : Cons} {m : Msm.Msg} (hm : MsmOk m) {s : State} (h : Inv s)
    (ht : s.timeInput.valid) : Fine (addMsm env cons m s) (RtcmSbp.addMsm env cons m s) := by
  obtain ⟨t1, t2, t3⟩ := msmTime_fine (cons := cons) (tow := m.header.towMs) ht
  unfold addMsm RtcmSbp.addMsm
  rw [t1]
  simp only [Option.bind_eq_bind, Option.bind_some]
  generalize RtcmSbp.msmTime cons m.header.towMs s = tt at t2 t3
  obtain ⟨o, w⟩ := tt
  cases o with
  | none => exact fine_same h t2
  | some t =>
    simp only
    by_cases hz : ¬ s.lastGps.valid ∧ |t.tow| ≤ 1 / 10 ^ 12
    · rw [if_pos hz, if_pos hz]; exact fine_same h t2
    · rw [if_neg hz, if_neg hz]
      have h0 : Inv (if ¬ RtcmSbp.msmActive t s ∧ s.buf.length > 0 then { s with buf := [], obsTime := ⟨0, 0⟩ } else s) := by
        split
        · exact ⟨by simp, h.codes, h.fcn, by simp [TimeIn]⟩
        · exact h
      generalize (if ¬ RtcmSbp.msmActive t s ∧ s.buf.length > 0 then { s with buf := [], obsTime := ⟨0, 0⟩ } else s) = s0 at h0
      have ha := flush_fine (t := sbpTime t) (sender := stnToSender m.header.stnId) (warn := [.log .notEmpty])
        (s := { s0 with lastGps := t, lastGlo := t, lastMsm := t }) (h0.congr rfl rfl rfl rfl) rfl
      rw [ha.eq, must_pos (by simpa [maxCells] using hm.cells)]
      simp only [Option.bind_some]
      generalize RtcmSbp.flushIfOther (sbpTime t) (stnToSender m.header.stnId) [.log .notEmpty]
        { s0 with lastGps := t, lastGlo := t, lastMsm := t } = a at ha
      have hb := msmLoop_fine hg (cons := cons) hm (RtcmSbp.msmCells m.header) (msmCells_ok hm.cells)
        { a.1 with obsTime := sbpTime t, sender := stnToSender m.header.stnId } ⟨ha.inv.buf, ha.inv.codes, ha.inv.fcn, t3 t rfl⟩
      rw [hb.eq]
      exact ⟨rfl, hb.inv, ((OutIn.of_nil t2).append ha.out).append hb.out⟩

/-! ### decoders -/

theorem getU_rest {n v : Nat} {s r : List Bool} (h : Dec.getU n s = (.ok v, r)) : r = s.drop n := by
  unfold Dec.getU at h
  split at h
  · cases h
  · exact (Prod.mk.inj h).2.symm

theorem getBool_one {b : Bool} {s r : List Bool} (h : getBool s = (.ok b, r)) : s = b :: r := by
  unfold getBool at h
  obtain ⟨v, s1, h1, h⟩ := bind_ok h
  rw [Dec.pure_def] at h
  have e := getU_rest h1
  have l := (getU_ok h1).2
  unfold Dec.getU at h1
  rw [if_neg (by omega)] at h1
  cases s with
  | nil => simp at l
  | cons x s =>
    have h' := Prod.mk.inj h
    have hb : decide (ofBits [x] ≠ 0) = b := Except.ok.inj h'.1
    have e' : r = s := by rw [← h'.2]; rfl
    rw [e']
    have : b = x := by rw [← hb]; cases x <;> decide
    rw [this]

theorem manyBool {k : Nat} : ∀ {s r l : List Bool}, Dec.many getBool k s = (.ok l, r) → l = s.take k ∧ r = s.drop k := by
  induction k with
  | zero =>
    intro s r l h
    unfold Dec.many at h
    rw [Dec.pure_def] at h
    obtain ⟨a, b⟩ := Prod.mk.inj h
    cases a
    exact ⟨by simp, by simpa using b.symm⟩
  | succ k ih =>
    intro s r l h
    unfold Dec.many at h
    obtain ⟨a, s1, h1, h⟩ := bind_ok h
    obtain ⟨as, s2, h2, h⟩ := bind_ok h
    rw [Dec.pure_def] at h
    obtain ⟨e1, e2⟩ := Prod.mk.inj h
    cases e1
    obtain ⟨i1, i2⟩ := ih h2
    rw [getBool_one h1, i1, ← e2, i2]
    exact ⟨by simp, by simp⟩

theorem readTow_rest {cons : Cons} {v : Nat} {s r : List Bool} (h : readMsmTow cons s = (.ok v, r)) : r = s.drop 30 := by
  unfold readMsmTow at h
  split at h
  · obtain ⟨_, s1, h1, h⟩ := bind_ok h
    have : s1 = s.drop 3 := by
      unfold Dec.skip at h1; exact (Prod.mk.inj h1).2.symm
    rw [getU_rest h, this, List.drop_drop]
  · split at h
    · obtain ⟨t, s1, h1, h⟩ := bind_ok h
      rw [Dec.pure_def] at h
      rw [← (Prod.mk.inj h).2, getU_rest h1]
    · exact getU_rest h

theorem header_masks {num : Nat} {cons : Cons} {s r : List Bool} {h : Msm.Header} (hx : readMsmHeader num cons s = (.ok h, r)) :
    h.satMask = (s.drop 61).take 64 ∧ h.sigMask = (s.drop 125).take 32 := by
  unfold readMsmHeader at hx
  obtain ⟨_, _, h1, hx⟩ := bind_ok hx
  obtain ⟨_, _, h2, hx⟩ := bind_ok hx
  obtain ⟨_, _, h3, hx⟩ := bind_ok hx
  obtain ⟨_, _, h4, hx⟩ := bind_ok hx
  obtain ⟨_, _, h5, hx⟩ := bind_ok hx
  obtain ⟨_, _, h6, hx⟩ := bind_ok hx
  obtain ⟨_, _, h7, hx⟩ := bind_ok hx
  obtain ⟨_, _, h8, hx⟩ := bind_ok hx
  obtain ⟨_, _, h9, hx⟩ := bind_ok hx
  obtain ⟨a, _, h10, hx⟩ := bind_ok hx
  obtain ⟨b, _, h11, hx⟩ := bind_ok hx
  obtain ⟨c, _, h12, hx⟩ := bind_ok hx
  rw [Dec.pure_def] at hx
  obtain ⟨e, -⟩ := Prod.mk.inj hx
  cases e
  obtain ⟨i1, i2⟩ := manyBool h10
  obtain ⟨i3, -⟩ := manyBool h11
  have e := getU_rest h9
  rw [getU_rest h8, getU_rest h7, getU_rest h6, getU_rest h5, getU_rest h4, getU_rest h3, readTow_rest h2, getU_rest h1] at e
  simp only [List.drop_drop] at e
  refine ⟨?_, ?_⟩
  · rw [i1, e]
  · rw [i3, i2, e, List.drop_drop]

theorem msmHeader_masks {p : Buf} {h : Msm.Header} (hx : msmHeader.run p = .ok h) :
    h.satMask.count true = satellites p ∧ h.sigMask.count true = signals p := by
  obtain ⟨r, hx⟩ := run_ok hx
  unfold msmHeader at hx
  obtain ⟨n, s1, h1, hx⟩ := bind_ok hx
  cases hc : toConstellation n with
  | none => rw [hc] at hx; simp [Dec.fail] at hx
  | some cons =>
    rw [hc] at hx
    obtain ⟨a, b⟩ := header_masks hx
    rw [getU_rest h1, List.drop_drop] at a b
    exact ⟨by rw [a]; rfl, by rw [b]; rfl⟩

theorem decoded_masks {ty : MsmType} {p : Buf} {m : Msm.Msg} (hx : (Msm.decodeMsm ty).run p = .ok m) :
    m.header.satMask.count true = satellites p ∧ m.header.sigMask.count true = signals p := by
  obtain ⟨r, hx⟩ := run_ok hx
  unfold Msm.decodeMsm at hx
  obtain ⟨-, hx⟩ := guard_ok hx
  obtain ⟨num, _, hn, hx⟩ := bind_ok hx
  obtain ⟨-, hx⟩ := guard_ok hx
  cases hc : toConstellation num with
  | none => rw [hc] at hx; simp [Dec.fail] at hx
  | some cons =>
    rw [hc] at hx
    obtain ⟨h, _, hh, hx⟩ := bind_ok hx
    obtain ⟨-, hx⟩ := guard_ok hx
    obtain ⟨-, hx⟩ := guard_ok hx
    obtain ⟨rs, _, _, hx⟩ := bind_ok hx
    obtain ⟨rg, _, _, hx⟩ := bind_ok hx
    rw [Dec.pure_def] at hx
    obtain ⟨e, -⟩ := Prod.mk.inj hx
    cases e
    obtain ⟨a, b⟩ := header_masks hh
    rw [getU_rest hn, List.drop_drop] at a b
    exact ⟨by show h.satMask.count true = _; rw [a]; rfl, by show h.sigMask.count true = _; rw [b]; rfl⟩

theorem decodeMsm_eq {ty : MsmType} {p : Buf} (h1 : satellites p ≤ 32) (h2 : satellites p * signals p ≤ 64) :
    decodeMsm ty p = some ((Msm.decodeMsm ty).run p) ∧ ∀ m, (Msm.decodeMsm ty).run p = .ok m → MsmOk m := by
  have hok : ∀ m, (Msm.decodeMsm ty).run p = .ok m → MsmOk m := by
    intro m hm
    obtain ⟨a, b, -, d, -, -⟩ := C12_accepted_consistent ty p m hm
    exact ⟨a, b, d, by rw [(decoded_masks hm).1]; exact h1⟩
  refine ⟨?_, hok⟩
  unfold decodeMsm
  have e : msmHeaderOk (msmHeader.run p) = some () := by
    cases hh : msmHeader.run p with
    | error e => rfl
    | ok h =>
      obtain ⟨a, b⟩ := msmHeader_masks hh
      unfold msmHeaderOk
      simp only
      rw [a, b, must_pos]
      simp only [maxCells]
      omega
  rw [e]
  simp only [Option.bind_eq_bind, Option.bind_some]
  cases hd : (Msm.decodeMsm ty).run p with
  | error e => rfl
  | ok m =>
    obtain ⟨a, b, c, d, e1, e2⟩ := C12_accepted_consistent ty p m hd
    have := hok m hd
    simp only
    rw [must_pos]
    · rfl
    · refine ⟨by rw [e1]; exact this.sats, ?_⟩
      rw [e2]
      refine Nat.le_trans ?_ d
      rw [← c]
      exact List.count_le_length

theorem header_nSat {k : Obs.Kind} {s r : List Bool} {h : Obs.Header} (hx : Obs.readHeader k s = (.ok h, r)) : h.nSat ≤ 31 := by
  unfold Obs.readHeader at hx
  obtain ⟨_, _, h1, hx⟩ := bind_ok hx
  obtain ⟨_, _, h2, hx⟩ := bind_ok hx
  obtain ⟨_, _, h3, hx⟩ := bind_ok hx
  obtain ⟨_, _, h4, hx⟩ := bind_ok hx
  obtain ⟨n, _, h5, hx⟩ := bind_ok hx
  obtain ⟨_, _, h6, hx⟩ := bind_ok hx
  obtain ⟨_, _, h7, hx⟩ := bind_ok hx
  rw [Dec.pure_def] at hx
  obtain ⟨e, -⟩ := Prod.mk.inj hx
  cases e
  have := (getU_ok h5).1
  show n ≤ 31
  omega

theorem obsHeaderOk_eq (k : Obs.Kind) (p : Buf) : obsHeaderOk ((Obs.readHeader k).run p) = some () := by
  cases hh : (Obs.readHeader k).run p with
  | error e => rfl
  | ok h =>
    obtain ⟨r, hx⟩ := run_ok hh
    have := header_nSat hx
    exact must_pos (by simp only [maxSats]; omega)

theorem decodeObs_eq (k : Obs.Kind) (p : Buf) :
    decodeObs k p = some ((Obs.decode k).run p) ∧ ∀ m, (Obs.decode k).run p = .ok m → m.sats.length ≤ 32 := by
  refine ⟨?_, ?_⟩
  · unfold decodeObs
    rw [obsHeaderOk_eq]; rfl
  · intro m hm
    obtain ⟨r, hx⟩ := run_ok hm
    unfold Obs.decode at hx
    obtain ⟨h, _, h1, hx⟩ := bind_ok hx
    obtain ⟨-, hx⟩ := guard_ok hx
    obtain ⟨-, hx⟩ := guard_ok hx
    obtain ⟨l, _, h2, hx⟩ := bind_ok hx
    rw [Dec.pure_def] at hx
    obtain ⟨e, -⟩ := Prod.mk.inj hx
    cases e
    have := header_nSat h1
    have := many_ok_length h2
    show l.length ≤ 32
    omega

/-! ### dispatch -/

theorem msmSupported_types {n : Nat} {x : MsmType × Cons} (h : RtcmSbp.msmSupported n = some x) : n ∈ msmTypes := by
  have hr : 1071 ≤ n ∧ n ≤ 1127 := by
    by_contra hh
    unfold RtcmSbp.msmSupported at h
    have : toMsmType n = .unknown := by unfold toMsmType; rw [if_pos (by omega)]
    rw [this] at h
    cases h
  obtain ⟨a, b⟩ := hr
  by_contra hh
  revert h
  have key : ∀ k : Fin 57, 1071 + k.val ∉ msmTypes → RtcmSbp.msmSupported (1071 + k.val) = none := by decide +kernel
  have := key ⟨n - 1071, by omega⟩
  simp only [show 1071 + (n - 1071) = n by omega] at this
  rw [this hh]
  simp

theorem setGlo_fine {sat fcn : Nat} {s : State} (h : Inv s) :
    ∃ s', RtcmSbp.setGloFcn sat fcn s = some s' ∧ Inv s' := by
  unfold RtcmSbp.setGloFcn
  split
  · exact ⟨s, rfl, h⟩
  · rename_i hs
    rw [if_pos (by rw [h.fcn]; simp only [numSatsGlo] at hs; omega)]
    exact ⟨_, rfl, ⟨h.buf, h.codes, by simp [h.fcn], h.time⟩⟩

theorem msmWarning_fine {p : Buf} {s : State} (h : Inv s) : Fine (some (RtcmSbp.msmWarning p s)) (RtcmSbp.msmWarning p s) := by
  refine ⟨rfl, ?_, .of_nil (RtcmSbp.msmWarning_out _ _)⟩
  unfold RtcmSbp.msmWarning
  split
  · exact h
  · exact h.congr rfl rfl rfl rfl

theorem dispatch_fine {env : Env} (hg : GloTable env) {inp : Input} (hf : MasksFit inp.payload) {s : State} (h : Inv s)
    (ht : messageType inp.payload ∉ RtcmSbp.whitelist → s.timeInput.valid) :
    Fine (dispatch env inp (messageType inp.payload) s) (RtcmSbp.dispatch env inp (messageType inp.payload) s) := by
  unfold MasksFit at hf
  generalize messageType inp.payload = n at hf ht
  unfold dispatch RtcmSbp.dispatch
  by_cases h1 : n = 1002 ∨ n = 1004
  · rw [if_pos h1, if_pos h1]
    have hv : s.timeInput.valid := ht (by rcases h1 with rfl | rfl <;> decide)
    obtain ⟨e, hm⟩ := decodeObs_eq (if n = 1002 then .m1002 else .m1004) inp.payload
    rw [e]
    simp only [Option.bind_eq_bind, Option.bind_some]
    cases hd : (Obs.decode (if n = 1002 then .m1002 else .m1004)).run inp.payload with
    | error e => exact fine_same h rfl
    | ok m => exact addGps_fine h (hm m hd) hv
  rw [if_neg h1, if_neg h1]
  by_cases h2 : n = 1010 ∨ n = 1012
  · rw [if_pos h2, if_pos h2]
    obtain ⟨e, hm⟩ := decodeObs_eq (if n = 1010 then .m1010 else .m1012) inp.payload
    rw [e]
    simp only [Option.bind_eq_bind, Option.bind_some]
    cases hd : (Obs.decode (if n = 1010 then .m1010 else .m1012)).run inp.payload with
    | error e => exact fine_same h rfl
    | ok m => exact addGlo_fine h (hm m hd)
  rw [if_neg h2, if_neg h2]
  by_cases h3 : n = 1020
  · rw [if_pos h3, if_pos h3]
    cases inp.gloEph with
    | none => exact fine_same h rfl
    | some x =>
      obtain ⟨s', e, hi⟩ := setGlo_fine (sat := x.1) (fcn := x.2) h
      simp only [e, Option.bind_eq_bind, Option.bind_some, Option.getD_some]
      exact fine_same hi rfl
  rw [if_neg h3, if_neg h3]
  by_cases h4 : n = 1033
  · rw [if_pos h4, if_pos h4]
    cases decode1033.run inp.payload with
    | error e => exact fine_same h rfl
    | ok m =>
      simp only
      split
      · exact fine_same h rfl
      · exact fine_same h rfl
  rw [if_neg h4, if_neg h4]
  by_cases h5 : n = 1230
  · rw [if_pos h5, if_pos h5]
    cases decode1230.run inp.payload with
    | error e => exact fine_same h rfl
    | ok m => exact fine_same (h.congr rfl rfl rfl rfl) rfl
  rw [if_neg h5, if_neg h5]
  by_cases h6 : n ∈ RtcmSbp.otherTypes
  · rw [if_pos h6, if_pos h6]
    exact fine_same h (RtcmSbp.obsOut_converted _ _)
  rw [if_neg h6, if_neg h6]
  by_cases h7 : n ∈ RtcmSbp.msm13
  · rw [if_pos h7, if_pos h7]
    exact msmWarning_fine h
  rw [if_neg h7, if_neg h7]
  cases hs : RtcmSbp.msmSupported n with
  | none => exact fine_same h rfl
  | some x =>
    obtain ⟨ty, cons⟩ := x
    have hn := msmSupported_types hs
    obtain ⟨f1, f2⟩ := hf hn
    have hv : s.timeInput.valid := ht (by
      revert hn; unfold msmTypes
      simp only [List.mem_cons, List.not_mem_nil, or_false]
      rintro (rfl | rfl | rfl | rfl | rfl | rfl | rfl | rfl | rfl | rfl | rfl | rfl | rfl | rfl | rfl | rfl) <;> decide)
    obtain ⟨e, hm⟩ := decodeMsm_eq (ty := ty) f1 f2
    simp only [e, Option.bind_eq_bind, Option.bind_some]
    cases hd : (Msm.decodeMsm ty).run inp.payload with
    | error e => exact fine_same h rfl
    | ok m => exact addMsm_fine hg (hm m hd) h hv

theorem endsEpoch_eq (n : Nat) (p : Buf) : endsEpoch n p = some (decide (RtcmSbp.endsEpoch n p)) := by
  unfold endsEpoch RtcmSbp.endsEpoch
  by_cases h1 : 1070 ≤ n ∧ n ≤ 1229
  · rw [if_pos h1]
    by_cases h2 : 8 * p.length < 54
    · rw [if_pos h2]; simp [h2]
    · rw [if_neg h2, must_pos (by omega)]
      simp [h1.1, h1.2, h2]
  · rw [if_neg h1]
    exact congrArg some (decide_eq_false (fun h => h1 ⟨h.1, h.2.1⟩)).symm

theorem step_fine {env : Env} (hg : GloTable env) {inp : Input} (hf : MasksFit inp.payload) {s : State} (h : Inv s)
    (ht : inp.solved = true → inp.time.valid) : Fine (step env s inp) (RtcmSbp.step env s inp) := by
  unfold step RtcmSbp.step
  by_cases h1 : inp.payload.length < 2
  · rw [if_pos h1, if_pos h1]; exact fine_same h rfl
  rw [if_neg h1, if_neg h1, must_pos (by omega)]
  simp only [Option.bind_eq_bind, Option.bind_some]
  by_cases h2 : messageType inp.payload ∉ RtcmSbp.whitelist ∧ inp.solved = false
  · rw [if_pos h2, if_pos h2]; exact fine_same (h.congr rfl rfl rfl rfl) rfl
  rw [if_neg h2, if_neg h2]
  have hi : Inv (if inp.solved then { ({ s with timeInput := inp.time } : State) with leap := some (env.utcOffset inp.time) }
      else { s with timeInput := inp.time }) := by
    split <;> exact h.congr rfl rfl rfl rfl
  have hv : messageType inp.payload ∉ RtcmSbp.whitelist →
      (if inp.solved then { ({ s with timeInput := inp.time } : State) with leap := some (env.utcOffset inp.time) }
        else { s with timeInput := inp.time }).timeInput.valid := by
    intro hn
    have : inp.solved = true := by
      cases hs : inp.solved with
      | true => rfl
      | false => exact absurd ⟨hn, hs⟩ h2
    rw [if_pos this]
    exact ht this
  have ha := dispatch_fine hg hf hi hv
  rw [ha.eq, endsEpoch_eq]
  simp only [Option.bind_some]
  generalize RtcmSbp.dispatch env inp (messageType inp.payload) (if inp.solved then { ({ s with timeInput := inp.time } : State) with leap := some (env.utcOffset inp.time) }
      else { s with timeInput := inp.time }) = a at ha
  by_cases h3 : RtcmSbp.endsEpoch (messageType inp.payload) inp.payload
  · rw [if_pos h3, if_pos (by simpa using h3)]
    have hb := send_fine ha.inv
    rw [hb.eq]
    exact ⟨rfl, hb.inv, ha.out.append hb.out⟩
  · rw [if_neg h3, if_neg (by simpa using h3)]
    exact ⟨rfl, ha.inv, ha.out⟩

/-! ### the program -/

structure PInv (st : Prog.State) : Prop where
  conv : Inv st.conv
  clock : st.obsMode = true → st.clock.valid
  truth : st.truth.solved = true → GpsTime.valid ⟨st.truth.wn, st.truth.tow⟩

theorem time_valid {st : Prog.State} (h : PInv st) (hs : Prog.solved st = true) : (Prog.time st).valid := by
  unfold Prog.solved at hs
  unfold Prog.time
  cases hm : st.obsMode with
  | true => simpa [hm] using h.clock hm
  | false => rw [hm] at hs; simpa using h.truth (by simpa using hs)

theorem updateObs_valid {m : ObsMsg} {c : GpsTime} (hm : TimeIn m.t) (hc : c.valid) : (Prog.updateObsTime m c).valid := by
  unfold Prog.updateObsTime
  simp only
  split
  · obtain ⟨a, b, d⟩ := hm
    rw [Prog.s16_id ⟨a, b⟩]
    refine ⟨a, b, by positivity, ?_⟩
    simp only [weekSecs]
    rw [div_lt_iff₀ (by norm_num)]
    have : (m.t.tow : ℚ) < 604800000 := by exact_mod_cast d
    linarith
  · exact hc

theorem updateTruth_valid {ref : Nat} {src : TimeTruth.Source} {wn : Int} {tow : Nat} {tr : TimeTruth.TT}
    (h : tr.solved = true → GpsTime.valid ⟨tr.wn, tr.tow⟩) :
    (Prog.updateTruth ref src ⟨wn, tow⟩ tr).solved = true →
      GpsTime.valid ⟨(Prog.updateTruth ref src ⟨wn, tow⟩ tr).wn, (Prog.updateTruth ref src ⟨wn, tow⟩ tr).tow⟩ := by
  unfold Prog.updateTruth
  by_cases ha : TimeTruth.accepts ref ⟨wn, tow⟩
  · rw [if_pos ha]
    have hv := ha.1
    have ht : tow < 604800 := by
      have := hv.2.2.2
      simp only [weekSecs] at this
      exact_mod_cast this
    have hnew : GpsTime.valid ⟨wn, TimeTruth.f32 (tow : ℚ)⟩ := by rw [Prog.f32_int (by omega)]; exact hv
    unfold TimeTruth.decide'
    split
    · exact h
    · split
      · intro _; exact hnew
      · split
        · exact h
        · intro _; exact hnew
  · rw [if_neg ha]; exact h

theorem callback_inv {ref : Nat} {st : Prog.State} {m : Prog.Msg} (h : PInv st)
    (hm : st.obsMode = true → ∀ o, m = .obs o → TimeIn o.t) : PInv (Prog.callback ref st m) := by
  unfold Prog.callback
  by_cases hc : st.obsMode = true
  · rw [if_pos hc]
    cases m with
    | obs o => exact ⟨h.conv, fun _ => updateObs_valid (hm hc o rfl) (h.clock hc), h.truth⟩
    | eph => exact h
  · rw [if_neg hc]
    cases hs : TimeTruth.fromSbp (Prog.sbpIn m) with
    | none => exact h
    | some x =>
      refine ⟨h.conv, fun hh => absurd hh hc, ?_⟩
      unfold TimeTruth.fromSbp at hs
      split at hs
      · split at hs
        · simp only [Option.some.injEq] at hs
          subst hs
          exact updateTruth_valid h.truth
        · cases hs
      · cases hs

theorem fold_inv {ref : Nat} : ∀ (l : List Prog.Msg) (st : Prog.State), PInv st →
    (st.obsMode = true → ∀ o, Prog.Msg.obs o ∈ l → TimeIn o.t) → PInv (l.foldl (Prog.callback ref) st) := by
  intro l
  induction l with
  | nil => intro st h _; exact h
  | cons m l ih =>
    intro st h hm
    have e : (Prog.callback ref st m).obsMode = st.obsMode := (Prog.callback_conv ref [m] st).2
    refine ih _ (callback_inv h fun hc o ho => hm hc o (by simp [ho])) ?_
    rw [e]
    intro hc o ho
    exact hm hc o (by simp [ho])

theorem progStep_fine {su : Prog.Setup} (hg : GloTable su.env) {p : Buf} (hf : MasksFit p) {st : Prog.State} (h : PInv st)
    (hw : st.obsMode = true → ¬ Prog.Spec.WrapsTime p) :
    progStep su st p = some (Prog.step su st p) ∧ PInv (Prog.step su st p).1 ∧ (Prog.step su st p).1.obsMode = st.obsMode := by
  have hs := step_fine (env := su.env) hg (inp := Prog.input su st p) hf h.conv (fun hh => time_valid h hh)
  unfold progStep Prog.step
  rw [hs.eq]
  refine ⟨rfl, ?_, (Prog.callback_conv _ _ _).2⟩
  refine fold_inv _ _ ⟨hs.inv, h.clock, h.truth⟩ ?_
  intro hc o ho
  rw [Prog.unwrapped_nil su p (hw hc), List.append_nil, List.mem_append] at ho
  rcases ho with ho | ho
  · rw [List.mem_map] at ho
    obtain ⟨o', h1, h2⟩ := ho
    cases h2
    exact hs.out _ h1
  · rw [List.mem_map] at ho
    obtain ⟨o', h1, h2⟩ := ho
    cases h2

theorem progRun_fine {su : Prog.Setup} (hg : GloTable su.env) : ∀ (ps : List Buf) (st : Prog.State), PInv st →
    (∀ p ∈ ps, MasksFit p) → (st.obsMode = true → ∀ p ∈ ps, ¬ Prog.Spec.WrapsTime p) →
    progRun su st ps = some (Prog.run su st ps) := by
  intro ps
  induction ps with
  | nil => intro st _ _ _; rfl
  | cons p ps ih =>
    intro st h hf hw
    obtain ⟨a, b, c⟩ := progStep_fine hg (hf p (by simp)) h fun hh => hw hh p (by simp)
    have := ih (Prog.step su st p).1 b (fun q hq => hf q (by simp [hq])) (by rw [c]; exact fun hh q hq => hw hh q (by simp [hq]))
    unfold progRun Prog.run
    rw [a]
    simp only [Option.bind_eq_bind, Option.bind_some, this]

theorem init_inv : Inv RtcmSbp.State.init := ⟨by simp [RtcmSbp.State.init], rfl, by simp [RtcmSbp.State.init, numSatsGlo],
  by simp [RtcmSbp.State.init, TimeIn]⟩

end Verif.Guard
