import Verif.Lemmas.Rtcm3ToSbp
import Verif.Props.C25_C48
/-
C73: rtcm3tosbp keeps track of time and converts streams of any length.
-/
namespace Verif.Prog
open Verif.Prog.Spec Verif.Time
open Verif.RtcmSbp (ObsMsg Input messageType SbpObs)
open Verif.RtcmSbp.Spec (obsOut WellSplit)
open Verif.EphStream (SbpEph Lib)
open Verif.SbpRtcm (Epoch)
open Verif.ObsStream.Spec (EpochOk TimeOk EpochBack epochTime secs Match)
open Verif.Acc.Spec (LibOk)
open Verif.EphSbp

/-! ### start -/

theorem time2gps_eq {t : Int} (h : 315964800 ≤ t) : time2gps t = ⟨(t - 315964800) / 604800, ((t - 315964800) % 604800 : Int)⟩ := by
  unfold time2gps
  rw [Int.tdiv_eq_ediv_of_nonneg (by omega), Int.tmod_eq_emod_of_nonneg (by omega)]

theorem start_eq (su : Setup) (unix leap : Int) (obs : Bool) (h0 : 315964800 ≤ unix) (hl : su.env.utcOffset (time2gps unix) = leap)
    (hr : 0 ≤ leap ∧ leap < 256) (h1 : su.lib.weekRef ≤ (gpsTime leap unix).wn) (h2 : (gpsTime leap unix).wn ≤ 32767) :
    start su unix obs = some ⟨RtcmSbp.State.init, obs, gpsTime leap unix, ⟨(gpsTime leap unix).wn, (gpsTime leap unix).tow, true⟩⟩ := by
  have e : time2gpsOffset su.env.utcOffset unix = gpsTime leap unix := by
    unfold time2gpsOffset gpsTime
    rw [hl, Int.emod_eq_of_lt hr.1 hr.2, time2gps_eq (by omega)]
  have hn : (gpsTime leap unix).tow = (((unix + leap - 315964800) % 604800).toNat : ℚ) := by
    unfold gpsTime
    simp only
    have : (((unix + leap - 315964800) % 604800).toNat : Int) = (unix + leap - 315964800) % 604800 := Int.toNat_of_nonneg (by omega)
    exact_mod_cast this.symm
  have hlt : ((unix + leap - 315964800) % 604800).toNat < 604800 := by omega
  have hv : (gpsTime leap unix).valid := by
    refine ⟨?_, h2, ?_, ?_⟩
    · unfold gpsTime
      simp only
      omega
    · rw [hn]; exact Nat.cast_nonneg _
    · rw [hn]
      have : (((unix + leap - 315964800) % 604800).toNat : ℚ) < ((604800 : Nat) : ℚ) := by exact_mod_cast hlt
      refine lt_of_lt_of_eq this ?_
      norm_num
  have ht : updateTruth su.lib.weekRef .ephGal (time2gpsOffset su.env.utcOffset unix) .init = ⟨(gpsTime leap unix).wn, (gpsTime leap unix).tow, true⟩ := by
    unfold updateTruth
    rw [e, if_pos (show TimeTruth.accepts su.lib.weekRef (gpsTime leap unix) from ⟨hv, by omega⟩)]
    unfold TimeTruth.decide'
    rw [if_neg (by decide), if_pos (show TimeTruth.TT.init.solved = false from rfl)]
    simp only [Option.getD_some]
    rw [hn, f32_int (by omega)]
  unfold start
  simp only
  rw [if_neg (by omega), if_pos (by omega), ht]

theorem start_rel (su : Setup) (unix leap : Int) (obs : Bool) (h0 : 315964800 ≤ unix) (hl : su.env.utcOffset (time2gps unix) = leap)
    (hr : 0 ≤ leap ∧ leap < 256) (h1 : su.lib.weekRef ≤ (gpsTime leap unix).wn) (h2 : (gpsTime leap unix).wn ≤ 32767) :
    ∃ st, start su unix obs = some st ∧ Rel obs (gpsTime leap unix) (List.replicate 29 255) st :=
  ⟨_, start_eq su unix leap obs h0 hl hr h1 h2, rfl, fun _ => rfl, fun _ => rfl, rfl, rfl⟩

/-- **C73** Started with a time (options -w, -d, -s: Unix time `unix`) not before the reference week, the program assumes that time, in GPS
time, with or without -o. -/
theorem C73_start (su : Setup) (unix leap : Int) (obs : Bool) (h0 : 315964800 ≤ unix) (hl : su.env.utcOffset (time2gps unix) = leap)
    (hr : 0 ≤ leap ∧ leap < 256) (h1 : su.lib.weekRef ≤ (gpsTime leap unix).wn) (h2 : (gpsTime leap unix).wn ≤ 32767) :
    ∃ st, start su unix obs = some st ∧ solved st = true ∧ time st = gpsTime leap unix ∧ secs (time st) = unix - 315964800 + leap := by
  obtain ⟨st, a, b⟩ := start_rel su unix leap obs h0 hl hr h1 h2
  obtain ⟨c, d⟩ := rel_time b
  refine ⟨st, a, c, d, ?_⟩
  rw [d]
  unfold secs gpsTime
  simp only
  have := Int.emod_add_mul_ediv (unix + leap - 315964800) 604800
  have : (((unix + leap - 315964800) % 604800 : Int) : ℚ) + 604800 * (((unix + leap - 315964800) / 604800 : Int) : ℚ) =
      unix + leap - 315964800 := by exact_mod_cast this
  linarith

/-! ### the stream -/

theorem run_append (su : Setup) (ps qs : List Buf) (st : State) :
    run su st (ps ++ qs) = ((run su (run su st ps).1 qs).1, (run su st ps).2 ++ (run su (run su st ps).1 qs).2) := by
  induction ps generalizing st with
  | nil => simp [run]
  | cons p ps ih => simp [run, ih]

theorem ev_payloads (env : SbpRtcm.Env) (su : Setup) (ht : env.prn.WF) (hl : LibOk su.lib.acc.eps su.lib.acc.log2f)
    (hK : su.lib.inav ≠ su.lib.fnav) {clock table} (v : Ev) (h : EvFit env su clock table v) :
    ∃ ps : List Buf, evPayloads env su.lib v = some ps ∧ ∀ p ∈ ps, 1 ≤ p.length ∧ p.length ≤ 1017 := by
  cases v with
  | epoch e =>
    obtain ⟨h1, h2, b, -, hp, -⟩ := ObsStream.epoch_payloads env ht table e h.1
    exact ⟨_, hp, fun p hq => by
      have := epoch_types env ht table e h.1 _ hp p hq
      exact ⟨this.1, this.2.1⟩⟩
  | eph leap junk e =>
    obtain ⟨p, a, b, c, -⟩ := EphStream.eph_back su.env su.lib hl hK leap junk e _ h
    exact ⟨[p], by simp [evPayloads, a], by simpa using ⟨b, c⟩⟩
  | other p => exact ⟨[p], rfl, by simpa using ⟨h.1, h.2.1⟩⟩

theorem payloads_exist (env : SbpRtcm.Env) (su : Setup) (ht : env.prn.WF) (hl : LibOk su.lib.acc.eps su.lib.acc.log2f)
    (hK : su.lib.inav ≠ su.lib.fnav) (obs : Bool) (evs : List Ev) : ∀ clock table, Fits env su obs clock table evs →
    ∃ pss : List (List Buf), evs.map (evPayloads env su.lib) = pss.map some ∧ ∀ p ∈ pss.flatten, 1 ≤ p.length ∧ p.length ≤ 1017 := by
  induction evs with
  | nil => intro _ _ _; exact ⟨[], rfl, by simp⟩
  | cons v vs ih =>
    intro clock table h
    obtain ⟨h1, h2⟩ := h
    obtain ⟨ps, a, b⟩ := ev_payloads env su ht hl hK v h1
    obtain ⟨pss, c, d⟩ := ih _ _ h2
    refine ⟨ps :: pss, by rw [List.map_cons, List.map_cons, a, c], ?_⟩
    intro p hp
    rw [List.flatten_cons, List.mem_append] at hp
    exact hp.elim (b p) (d p)

theorem ev_prog (env : SbpRtcm.Env) (su : Setup) (ht : env.prn.WF) (hm : Match env su.env) (hl : LibOk su.lib.acc.eps su.lib.acc.log2f)
    (hK : su.lib.inav ≠ su.lib.fnav) {obs clock table} (v : Ev) (h : EvFit env su clock table v) (ps : List Buf)
    (hp : evPayloads env su.lib v = some ps) (st : State) (hr : Rel obs clock table st) :
    EvBack env v (run su st ps).2 ∧ Rel obs (clockAfter su.lib.weekRef obs clock v) (channelsAfter table v) (run su st ps).1 := by
  cases v with
  | epoch e => exact epoch_prog env su ht hm e h ps hp st hr
  | eph leap junk e =>
    obtain ⟨p, -, rfl⟩ : ∃ p, EphStream.payload su.lib leap junk e = some p ∧ [p] = ps := by simpa [evPayloads] using hp
    exact eph_prog env su hl hK leap junk e h p hp st hr
  | other p =>
    obtain rfl : [p] = ps := Option.some.inj hp
    exact other_prog env su p h st hr

theorem evs_prog (env : SbpRtcm.Env) (su : Setup) (ht : env.prn.WF) (hm : Match env su.env) (hl : LibOk su.lib.acc.eps su.lib.acc.log2f)
    (hK : su.lib.inav ≠ su.lib.fnav) (obs : Bool) (evs : List Ev) : ∀ clock table (pss : List (List Buf)) (st : State),
    Fits env su obs clock table evs → evs.map (evPayloads env su.lib) = pss.map some → Rel obs clock table st →
    ∃ outs : List (List Msg), List.Forall₂ (EvBack env) evs outs ∧ (run su st pss.flatten).2 = outs.flatten := by
  induction evs with
  | nil =>
    intro _ _ pss st _ hp _
    cases pss with
    | nil => exact ⟨[], .nil, rfl⟩
    | cons => simp at hp
  | cons v vs ih =>
    intro clock table pss st h hp hr
    cases pss with
    | nil => simp at hp
    | cons ps pss =>
      simp only [List.map_cons, List.cons.injEq] at hp
      obtain ⟨a, b⟩ := ev_prog env su ht hm hl hK v h.1 ps hp.1 st hr
      obtain ⟨outs, c, d⟩ := ih _ _ pss _ h.2 hp.2 b
      refine ⟨_ :: outs, .cons a c, ?_⟩
      rw [List.flatten_cons, run_append, d, List.flatten_cons]

/-- **C73** The sender can put every event on the stream. -/
theorem C73_sendable (crc : Buf → BitVec 24) (env : SbpRtcm.Env) (su : Setup) (ht : env.prn.WF) (hl : LibOk su.lib.acc.eps su.lib.acc.log2f)
    (hK : su.lib.inav ≠ su.lib.fnav) (obs : Bool) (clock : GpsTime) (table : List Nat) (evs : List Ev) (h : Fits env su obs clock table evs) :
    ∃ bytes, SentAs crc env su.lib evs bytes := by
  obtain ⟨pss, h1, h2⟩ := payloads_exist env su ht hl hK obs evs _ _ h
  obtain ⟨fs, h3, -⟩ := Verif.Misc.frames_exist crc _ h2
  exact ⟨_, pss, fs, h1, h3, rfl⟩

/-- **C73** (partial: the events must satisfy `Fits`, which leaves out what the defects of C71 and C72 and those below spoil; legacy observation
messages are left out) The program is started with a time, with or without -o, and reads a stream of any length in reads of any size: epochs of
observations of any constellations, ephemerides and other messages in any order.  It writes exactly: for each epoch its group of SBP observation
messages with its exact time and values (`EpochBack`); for each ephemeris one SBP ephemeris with the same values to the resolution of RTCM; in
the order sent.  Each event must be near the program's own clock at that point: with -o, the time of the epoch before; else the latest healthy
GPS ephemeris before it. -/
theorem C73_program_partial (crc : Buf → BitVec 24) (env : SbpRtcm.Env) (su : Setup) (ht : env.prn.WF) (hm : Match env su.env)
    (hl : LibOk su.lib.acc.eps su.lib.acc.log2f) (hK : su.lib.inav ≠ su.lib.fnav) (unix leap : Int) (obs : Bool)
    (h0 : 315964800 ≤ unix) (hu : su.env.utcOffset (time2gps unix) = leap) (hr : 0 ≤ leap ∧ leap < 256)
    (h1 : su.lib.weekRef ≤ (gpsTime leap unix).wn) (h2 : (gpsTime leap unix).wn ≤ 32767) (evs : List Ev)
    (h : Fits env su obs (gpsTime leap unix) (List.replicate 29 255) evs) (bytes : Buf) (hb : SentAs crc env su.lib evs bytes) (reads : List Buf)
    (hc : reads.flatten = bytes) (hs : ∀ r ∈ reads, r ≠ [] ∧ r.length ≤ RtcmFraming.bufferSize) :
    ∃ outs : List (List Msg), List.Forall₂ (EvBack env) evs outs ∧ main crc su unix obs reads = some outs.flatten := by
  obtain ⟨st, a, hrel⟩ := start_rel su unix leap obs h0 hu hr h1 h2
  obtain ⟨pss, fs, b1, b2, rfl⟩ := hb
  obtain ⟨pss', c1, c2⟩ := payloads_exist env su ht hl hK obs evs _ _ h
  obtain rfl : pss = pss' := List.map_injective_iff.2 (Option.some_injective _) (b1.symm.trans c1)
  obtain ⟨fs', d1, d2⟩ := Verif.Misc.frames_exist crc pss.flatten c2
  obtain rfl : fs = fs' := Option.some.inj (b2.symm.trans d1)
  have hrt := RtcmFraming.C04_stream_roundtrip crc pss.flatten c2 fs d2 reads (fun r hr => (hs r hr).2) hc
  have htw : reads.takeWhile (fun r => !r.isEmpty) = reads := by
    have : ∀ l : List Buf, (∀ r ∈ l, r ≠ []) → l.takeWhile (fun r => !r.isEmpty) = l := by
      intro l hl
      induction l with
      | nil => rfl
      | cons r l ih =>
        rw [List.takeWhile_cons, if_pos (by simpa using hl r (by simp)), ih fun r hr => hl r (List.mem_cons_of_mem _ hr)]
    exact this reads fun r hr => (hs r hr).1
  obtain ⟨outs, o1, o2⟩ := evs_prog env su ht hm hl hK obs evs _ _ pss st h b1 hrel
  refine ⟨outs, o1, ?_⟩
  unfold main
  rw [a, Option.map_some, htw]
  congr 1
  have : payloads crc reads = pss.flatten := by
    unfold payloads
    rw [hrt, List.filterMap_map]
    exact List.filterMap_some
  rw [this, o2]

/-! ### with -o, for as long as one wants -/

/-- consecutive epochs are less than half a day apart -/
def Steady : GpsTime → List Epoch → Prop
  | _, [] => True
  | clock, e :: es => |secs (epochTime e.t) - secs clock| < 43200 ∧ Steady (epochTime e.t) es

/-- **C73** With -o no ephemerides are needed: if each epoch has GPS observations and is less than half a day from the one before (the first
from the given time), every epoch of a stream of any length is converted, however far it leads from the given time (within the weeks of GPS
time).  This is the hypothesis of `C73_program_partial`. -/
theorem C73_steady (env : SbpRtcm.Env) (su : Setup) (leap : Int) (hu : ∀ t, su.env.utcOffset t = leap) (hr : |leap| ≤ 30) (es : List Epoch) :
    ∀ (clock : GpsTime) (table : List Nat), clock.valid → 1 ≤ clock.wn → clock.wn < 32766 → Steady clock es →
    (∀ e ∈ es, EpochOk env table e ∧ (∃ o ∈ e.obs, env.consOf o.code = some .gps) ∧ e.cfg.leap = some leap ∧ 1 ≤ e.t.wn ∧ e.t.wn < 32766) →
    Fits env su true clock table (es.map .epoch) := by
  induction es with
  | nil => intro _ _ _ _ _ _ _; trivial
  | cons e es ih =>
    intro clock table hv hw1 hw2 hst he
    obtain ⟨a1, a2, a3, a4, a5⟩ := he e (by simp)
    have hne : e.obs ≠ [] := by
      obtain ⟨o, ho, -⟩ := a2
      exact List.ne_nil_of_mem ho
    refine ⟨⟨a1, fun _ => ⟨rfl, hv, ?_, lt_trans hst.1 (by norm_num), by show 0 < clock.wn; omega, fun _ => ⟨?_, hst.1, Or.inr ⟨?_, a2⟩⟩⟩⟩, ?_⟩
    · have b1 : (1 : ℚ) ≤ clock.wn := by exact_mod_cast hw1
      have b2 : (clock.wn : ℚ) ≤ 32765 := by exact_mod_cast (by omega : clock.wn ≤ 32765)
      have b3 := hv.2.2.1
      have b4 := hv.2.2.2
      unfold weekSecs at b4
      show 259200 ≤ secs clock ∧ secs clock < _
      unfold secs
      constructor <;> linarith
    · rw [hu]; exact a3
    · rw [hu]; exact hr
    · show Fits env su true (if true = true ∧ e.obs ≠ [] then epochTime e.t else clock) table _
      rw [if_pos ⟨rfl, hne⟩]
      exact ih _ _ (ObsStream.epoch_valid a1) a4 a5 hst.2 fun e' h' => he e' (List.mem_cons_of_mem _ h')

/-! ### defects -/

/-- what the program does as long as it has no time -/
structure Lost (st : State) : Prop where
  mode : st.obsMode = false
  truth : st.truth = .init
  buf : st.conv.buf = []

/-- messages of no use to learn the time or a position from: an observation message without observations, or a BeiDou ephemeris -/
def Poor (m : Msg) : Prop := (∃ o : ObsMsg, m = .obs o ∧ o.obs = []) ∨ ∃ s e, m = .eph s (.bds e)

theorem poor_callback (ref : Nat) (l : List Msg) (h : ∀ m ∈ l, Poor m) (st : State) (hm : st.obsMode = false) : l.foldl (callback ref) st = st := by
  induction l generalizing st with
  | nil => rfl
  | cons m l ih =>
    have e : callback ref st m = st := by
      unfold callback
      rw [if_neg (by rw [hm]; decide)]
      rcases h m (by simp) with ⟨o, rfl, -⟩ | ⟨s, e, rfl⟩ <;> rfl
    rw [List.foldl_cons, e]
    exact ih (fun m' h' => h m' (List.mem_cons_of_mem _ h')) st hm

theorem lost_content (su : Setup) (n : Nat) (p : Buf) (leap : Option Int) (hn : n ∈ RtcmSbp.whitelist) (e : SbpEph)
    (h : EphStream.content su.lib n p ⟨-1, -1⟩ leap = some e) : ∃ b, e = .bds b := by
  have bad : ∀ tow, timeSecMatch tow ⟨-1, -1⟩ = none := by
    intro tow
    unfold timeSecMatch matchWeeks
    rw [if_pos (by rintro ⟨h, -⟩; exact absurd h (by decide))]
  have g : ∀ m, gpsToSbp m ⟨-1, -1⟩ = none := by intro m; unfold gpsToSbp; rw [bad]
  have g' : ∀ m s, galToSbp m s ⟨-1, -1⟩ = none := by intro m s; unfold galToSbp; rw [bad]
  unfold EphStream.content at h
  split at h
  · split at h
    · rw [g] at h; simp at h
    · simp at h
  split at h
  · subst_vars; exact absurd hn (by decide)
  split at h
  · split at h
    · exact ⟨_, (Option.some.inj h).symm⟩
    · simp at h
  split at h
  · subst_vars; exact absurd hn (by decide)
  split at h
  · split at h
    · rw [g'] at h; simp at h
    · simp at h
  split at h
  · split at h
    · rw [g'] at h; simp at h
    · simp at h
  · simp at h

theorem lost_step (su : Setup) (st : State) (hl : Lost st) (p : Buf) (hun : ¬ WrapsTime p) : Lost (step su st p).1 ∧ ∀ m ∈ (step su st p).2, Poor m := by
  have hs : solved st = false := by unfold solved; rw [hl.mode, hl.truth]; rfl
  have ht : time st = ⟨-1, -1⟩ := by unfold time; rw [hl.mode, hl.truth]; rfl
  obtain ⟨h1, -⟩ := RtcmSbp.C25_no_observation su.env st.conv (input su st p) (by rw [hl.buf]; simp) hs
  have hw : RtcmSbp.Spec.waiting st.conv = [] := by simp [RtcmSbp.Spec.waiting, hl.buf]
  rw [hw, List.append_eq_nil_iff] at h1
  have hb' : (RtcmSbp.step su.env st.conv (input su st p)).1.buf = [] := by
    have := h1.2; simpa [RtcmSbp.Spec.waiting] using this
  have hout : ∀ m ∈ (step su st p).2, Poor m := by
    intro m hm
    unfold step at hm
    simp only [List.mem_append, List.mem_map] at hm
    rcases hm with ⟨o, ho, rfl⟩ | ⟨e, he, rfl⟩
    · left
      refine ⟨o, rfl, ?_⟩
      have := h1.1
      unfold RtcmSbp.Spec.tagsOf at this
      rw [List.flatMap_eq_nil_iff] at this
      simpa using this o ho
    · right
      unfold ephs EphStream.out at he
      split at he
      · simp at he
      simp only at he
      split at he
      · simp at he
      rename_i hx
      have hn : messageType p ∈ RtcmSbp.whitelist := by
        by_contra hh
        exact hx ⟨hh, hs⟩
      rw [List.mem_map] at he
      obtain ⟨e', he', rfl⟩ := he
      rw [Option.mem_toList, ht] at he'
      obtain ⟨b, rfl⟩ := lost_content su _ p _ hn e' he'
      exact ⟨_, b, rfl⟩
  refine ⟨?_, hout⟩
  have e : (step su st p).1 = { st with conv := (RtcmSbp.step su.env st.conv (input su st p)).1 } := by
    unfold step
    simp only [unwrapped_nil su p hun, List.append_nil]
    exact poor_callback _ _ hout _ hl.mode
  rw [e]
  exact ⟨hl.mode, hl.truth, hb'⟩

/-- **C73** Started in the default mode without a start time (-w, -d, -s), the program converts no observation and no ephemeris but those of
BeiDou, whatever it reads (short of SBP messages wrapped in 4062): the time is to be learnt from GPS ephemerides, whose conversion needs the time. -/
theorem C73_no_time_bug (crc : Buf → BitVec 24) (su : Setup) (reads : List Buf) (hun : ∀ p ∈ payloads crc (reads.takeWhile fun r => !r.isEmpty), ¬ WrapsTime p) :
    ∃ out, main crc su 0 false reads = some out ∧
      ∀ m ∈ out, (∃ o : ObsMsg, m = .obs o ∧ o.obs = []) ∨ ∃ s e, m = .eph s (.bds e) := by
  have key : ∀ (ps : List Buf) (st : State), (∀ p ∈ ps, ¬ WrapsTime p) → Lost st → ∀ m ∈ (run su st ps).2, Poor m := by
    intro ps
    induction ps with
    | nil => intro st _ _ m hm; simp [run] at hm
    | cons p ps ih =>
      intro st hq hl m hm
      obtain ⟨a, b⟩ := lost_step su st hl p (hq p (by simp))
      simp only [run, List.mem_append] at hm
      exact hm.elim (b m) (ih _ (fun q h => hq q (List.mem_cons_of_mem _ h)) a m)
  refine ⟨_, by unfold main start; simp only; rw [if_neg (by decide), if_neg (by decide), Option.map_some], ?_⟩
  exact key _ _ hun ⟨rfl, rfl, rfl⟩

/-- **C73** With -o and a start time before the reference week the program works with week -1 and second -1 as if they were known: no test
notices it, and the assertion that computes the time of the first observation message (C72) fails. -/
theorem C73_old_week_bug (su : Setup) (unix leap : Int) (h0 : 315964800 ≤ unix) (hl : su.env.utcOffset (time2gps unix) = leap)
    (hr : 0 ≤ leap ∧ leap < 256) (h1 : (gpsTime leap unix).wn < su.lib.weekRef) :
    ∃ st, start su unix true = some st ∧ solved st = true ∧ ¬ (time st).valid := by
  have e : time2gpsOffset su.env.utcOffset unix = gpsTime leap unix := by
    unfold time2gpsOffset gpsTime
    rw [hl, Int.emod_eq_of_lt hr.1 hr.2, time2gps_eq (by omega)]
  refine ⟨_, by unfold start; simp only; rw [if_neg (by omega), if_pos (by omega)], rfl, ?_⟩
  unfold time updateTruth
  rw [e, if_neg (show ¬ TimeTruth.accepts su.lib.weekRef (gpsTime leap unix) from by rintro ⟨-, hh⟩; exact hh h1)]
  rintro ⟨h, -⟩
  exact absurd h (by decide)

/-! ### a concrete run -/

def wSu : Setup := ⟨ObsStream.wEnv', EphStream.exK, fun _ => 0, fun _ => none, fun _ => none⟩
/-- the Unix time of second 7 of GPS week 2100 -/
def wUnix : Int := 315964800 + 2100 * 604800 + 7 - 18
/-- the observation messages written for the events -/
def wRun (st : State) (evs : List Ev) : Option (List ObsMsg) :=
  (evs.mapM (evPayloads ObsStream.wEnv EphStream.exK)).map fun pss =>
    (run wSu st pss.flatten).2.filterMap fun m => match m with
      | .obs o => some o
      | .eph _ _ => none
def wGlo (tow : Nat) : Epoch := ObsStream.wEpoch tow [ObsStream.wO 5 .glo_l1of 117603117 102]

/-- **C73** Defect: with -o, of GLONASS epochs a minute apart the second is lost (an observation message without observations and with time 0 of
week 0 is written): the plausibility check compares its distance from the clock with the leap seconds, and the clock is the epoch before.  At
30 s it is written. -/
theorem C73_glonass_minute_bug : ∃ st, start wSu wUnix true = some st ∧
    wRun st [.epoch (wGlo 5000), .epoch (wGlo 65000)] =
      some [⟨0xF087, ⟨2100, 5000⟩, 16, [ObsStream.wO 5 .glo_l1of 117603117 102]⟩, ⟨0xF087, ⟨0, 0⟩, 16, []⟩] ∧
    wRun st [.epoch (wGlo 5000), .epoch (wGlo 35000)] =
      some [⟨0xF087, ⟨2100, 5000⟩, 16, [ObsStream.wO 5 .glo_l1of 117603117 102]⟩, ⟨0xF087, ⟨2100, 35000⟩, 16, [ObsStream.wO 5 .glo_l1of 117603117 102]⟩] := by
  refine ⟨_, start_eq wSu wUnix 18 true (by decide) rfl (by decide) (by decide) (by decide), ?_⟩
  rw [show gpsTime 18 wUnix = ⟨2100, 7⟩ by decide +kernel]
  constructor <;> decide +kernel

def wKep : EphSbp.SbpKep := { EphStream.exKep with toe := ⟨2100, 7200⟩, toc := ⟨2100, 7200⟩ }
theorem wKepOk : EphStream.Spec.GpsOk ⟨2100, 7⟩ wKep where
  orbit := EphStream.exOrbit rfl (by simp only [EphStream.exKep, EphSbp.Spec.gps, EphStream.Spec.gpsW, EphStream.Spec.Fits, EphStream.Spec.FitsUnit]; norm_num [abs_of_nonneg, abs_of_neg])
  tgd1 := rfl
  time := by unfold EphStream.Spec.TimeOk EphSbp.Spec.NearRover EphSbp.Spec.secs wKep; norm_num
  oneTime := rfl
  sat := by decide
  health := by decide
  iode := by decide
  iodc := by decide
  ura := ⟨2, by decide +kernel, by decide +kernel⟩
  fit := ⟨false, rfl⟩
  source := rfl

theorem wEpochFit : EpochOk ObsStream.wEnv (List.replicate 29 255) (ObsStream.wEpoch 5000 ObsStream.wL) :=
  { ObsStream.wEpochOk with
    channels := by
      intro o ho hc
      have : o = ObsStream.wO 5 .glo_l1of 117603117 102 := by
        simp only [ObsStream.wEpoch, ObsStream.wL, List.mem_cons, List.not_mem_nil, or_false] at ho
        rcases ho with rfl | rfl | rfl | rfl | rfl <;> first | rfl | (exfalso; revert hc; decide)
      subst this
      decide +kernel }

/-- the hypotheses of `C73_program_partial` are met: an epoch of four constellations, a GPS ephemeris that sets the clock two hours ahead, a text
message and the epoch again -/
example (obs : Bool) : Fits ObsStream.wEnv wSu obs ⟨2100, 7⟩ (List.replicate 29 255)
    [.epoch (ObsStream.wEpoch 5000 ObsStream.wL), .eph none 99 (.gps wKep), .other [0x40, 0x50, 0, 0], .epoch (ObsStream.wEpoch 5000 ObsStream.wL)] := by
  have ht : ∀ t : GpsTime, t.valid → |secs t - 2100 * 604800| ≤ 7200 → 0 < t.wn → TimeOk ObsStream.wEnv ObsStream.wEnv' (ObsStream.wEpoch 5000 ObsStream.wL) (knows t) := by
    intro t hv h hw
    rw [abs_le] at h
    have e : secs (epochTime (ObsStream.wEpoch 5000 ObsStream.wL).t) = 2100 * 604800 + 5 := by
      simp only [secs, epochTime, ObsStream.wEpoch]; norm_num
    have hd : |secs (epochTime (ObsStream.wEpoch 5000 ObsStream.wL).t) - secs t| < 43200 := by
      rw [e, abs_lt]
      constructor <;> linarith [h.1, h.2]
    refine ⟨rfl, hv, ?_, lt_trans hd (by norm_num), hw, fun _ => ⟨rfl, hd, Or.inr ⟨by show |(18 : Int)| ≤ 30; decide, _, List.mem_cons_self, by decide⟩⟩⟩
    show 259200 ≤ secs t ∧ secs t < _
    constructor <;> linarith [h.1, h.2]
  have hk : EphStream.Spec.EvOk wSu.env wSu.lib (.eph none 99 (.gps wKep)) (knows ⟨2100, 7⟩) := ⟨by decide +kernel, wKepOk⟩
  have s5 : secs (epochTime ⟨2100, 5000⟩) = 2100 * 604800 + 5 := by simp only [secs, epochTime]; norm_num
  have t1 := ht ⟨2100, 7⟩ (by decide +kernel) (by simp only [secs]; norm_num) (by decide)
  cases obs with
  | true =>
    have hk' : EphStream.Spec.EvOk wSu.env wSu.lib (.eph none 99 (.gps wKep)) (knows (epochTime ⟨2100, 5000⟩)) :=
      ⟨by decide +kernel, { wKepOk with
        time := ⟨by unfold EphStream.Spec.TimeOk EphSbp.Spec.NearRover EphSbp.Spec.secs wKep knows epochTime; norm_num, by decide⟩ }⟩
    have t2 := ht (epochTime ⟨2100, 5000⟩) (by decide +kernel) (by rw [s5]; norm_num) (by decide)
    exact ⟨⟨wEpochFit, fun _ => t1⟩, hk', ⟨by decide, by decide, by decide, by decide, by decide, fun h => absurd h.1 (by decide)⟩, ⟨wEpochFit, fun _ => t2⟩, trivial⟩
  | false =>
    have t2 := ht ⟨2100, 7200⟩ (by decide +kernel) (by simp only [secs]; norm_num) (by decide)
    refine ⟨⟨wEpochFit, fun _ => t1⟩, hk, ⟨by decide, by decide, by decide, by decide, by decide, fun h => absurd h.1 (by decide)⟩, ⟨wEpochFit, fun _ => ?_⟩, trivial⟩
    have : clockAfter wSu.lib.weekRef false ⟨2100, 7⟩ (.eph none 99 (.gps wKep)) = ⟨2100, 7200⟩ := by decide +kernel
    exact (show clockAfter wSu.lib.weekRef false (clockAfter wSu.lib.weekRef false (clockAfter wSu.lib.weekRef false ⟨2100, 7⟩ (.epoch (ObsStream.wEpoch 5000 ObsStream.wL)))
      (.eph none 99 (.gps wKep))) (.other [0x40, 0x50, 0, 0]) = ⟨2100, 7200⟩ from this) ▸ t2

/-- ... and the start time is second 7 of week 2100 -/
example : 315964800 ≤ wUnix ∧ gpsTime 18 wUnix = ⟨2100, 7⟩ ∧ wSu.env.utcOffset (time2gps wUnix) = 18 ∧ (wSu.lib.weekRef : Int) ≤ 2100 := by decide +kernel
/-- the hypotheses of `C73_steady` -/
example : Steady ⟨2100, 7⟩ [ObsStream.wEpoch 5000 ObsStream.wL, ObsStream.wEpoch 36000000 ObsStream.wL] := by
  refine ⟨?_, ?_, trivial⟩ <;> simp only [secs, epochTime, ObsStream.wEpoch] <;> norm_num [abs_of_neg]
/-- a time before the reference week 2000 -/
example : (gpsTime 18 (wUnix - 200 * 604800)).wn < wSu.lib.weekRef := by decide +kernel

end Verif.Prog
