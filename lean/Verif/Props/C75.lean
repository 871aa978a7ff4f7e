import Verif.Lemmas.Guard
import Verif.Props.C73
/-
C75: whatever bytes it reads, rtcm3tosbp fails no assertion and stays within its arrays.
-/
namespace Verif.Guard
open Verif.Time Verif.Guard.Spec
open Verif.Prog.Spec (WrapsTime gpsTime)
open Verif.RtcmSbp (ObsMsg)

/-! ### start -/

theorem time2gps_int (t : Int) : ∃ n : Int, (Prog.time2gps t).tow = n := ⟨_, rfl⟩

theorem start_truth (su : Prog.Setup) (unix : Int) (tr : TimeTruth.TT)
    (h : tr = if unix > 0 then Prog.updateTruth su.lib.weekRef .ephGal (Prog.time2gpsOffset su.env.utcOffset unix) .init else .init) :
    tr.solved = true → GpsTime.valid ⟨tr.wn, tr.tow⟩ := by
  subst h
  split
  · have hi : TimeTruth.TT.init.solved = true → GpsTime.valid ⟨TimeTruth.TT.init.wn, TimeTruth.TT.init.tow⟩ := fun h => absurd h (by decide)
    generalize hg : Prog.time2gpsOffset su.env.utcOffset unix = g
    obtain ⟨n, hn⟩ : ∃ n : Int, g.tow = n := by rw [← hg]; exact time2gps_int _
    obtain ⟨wn, tow⟩ := g
    simp only at hn
    subst hn
    by_cases ha : TimeTruth.accepts su.lib.weekRef ⟨wn, (n : ℚ)⟩
    · have h0 : (0 : ℚ) ≤ n := ha.1.2.2.1
      obtain ⟨k, rfl⟩ := Int.eq_ofNat_of_zero_le (show 0 ≤ n by exact_mod_cast h0)
      have := updateTruth_valid (ref := su.lib.weekRef) (src := .ephGal) (wn := wn) (tow := k) hi
      exact this
    · unfold Prog.updateTruth
      rw [if_neg ha]
      exact hi
  · exact fun h => absurd h (by decide)

theorem start_inv {su : Prog.Setup} {unix : Int} {obs : Bool} {st : Prog.State} (h : Prog.start su unix obs = some st)
    (hc : obs = true → st.clock.valid) : PInv st ∧ st.obsMode = obs := by
  unfold Prog.start at h
  simp only at h
  split at h
  · cases h
  · simp only [Option.some.injEq] at h
    subst h
    exact ⟨⟨init_inv, hc, start_truth su unix _ rfl⟩, rfl⟩

/-! ### the program -/

/-- **C75** Without option -o: whatever bytes the program reads, in reads of any size, started with any time or none, no assertion of the
observation path fails and no access leaves an array, and what it writes is what the unchecked model says; provided no MSM message announces
more than 32 satellites or 64 cells (partial: that is a condition on the input, see the defects below). -/
theorem C75_no_abort_partial (crc : Buf → BitVec 24) (su : Prog.Setup) (hg : GloTable su.env) (unix : Int) (reads : List Buf)
    (hf : ∀ p ∈ Prog.payloads crc (reads.takeWhile fun r => !r.isEmpty), MasksFit p) :
    main crc su unix false reads = some (Prog.main crc su unix false reads) := by
  unfold main Prog.main
  cases hs : Prog.start su unix false with
  | none => rfl
  | some st =>
    obtain ⟨hi, ho⟩ := start_inv hs (by simp)
    simp only [Option.map_some]
    rw [progRun_fine hg _ st hi hf (by rw [ho]; simp)]
    rfl

/-- **C75** With option -o and a start time that is not before the reference week the same holds, provided also that no 4062 message with an
observation or ephemeris message in it is read. -/
theorem C75_obs_mode_partial (crc : Buf → BitVec 24) (su : Prog.Setup) (hg : GloTable su.env) (unix leap : Int)
    (h0 : 315964800 ≤ unix) (hl : su.env.utcOffset (Prog.time2gps unix) = leap) (hr : 0 ≤ leap ∧ leap < 256)
    (h1 : su.lib.weekRef ≤ (gpsTime leap unix).wn) (h2 : (gpsTime leap unix).wn ≤ 32767) (reads : List Buf)
    (hf : ∀ p ∈ Prog.payloads crc (reads.takeWhile fun r => !r.isEmpty), MasksFit p ∧ ¬ WrapsTime p) :
    main crc su unix true reads = some (Prog.main crc su unix true reads) := by
  have hs := Prog.start_eq su unix leap true h0 hl hr h1 h2
  have hsolved := start_truth su unix _ rfl
  have hv : (gpsTime leap unix).valid := by
    unfold Prog.start at hs
    simp only at hs
    rw [if_neg (by omega)] at hs
    simp only [Option.some.injEq, Prog.State.mk.injEq, true_and] at hs
    rw [hs.2] at hsolved
    exact hsolved rfl
  unfold main Prog.main
  obtain ⟨hi, ho⟩ := start_inv hs (fun _ => hv)
  rw [hs]
  simp only [Option.map_some]
  rw [progRun_fine hg _ _ hi (fun p hp => (hf p hp).1) (fun _ p hp => (hf p hp).2)]
  rfl

/-! ### defects -/

theorem main_of_payloads (crc : Buf → BitVec 24) (su : Prog.Setup) (unix : Int) (obs : Bool) (ps : List Buf)
    (hp : ∀ p ∈ ps, 1 ≤ p.length ∧ p.length ≤ 1017) (st : Prog.State) (hs : Prog.start su unix obs = some st) (hn : progRun su st ps = none) :
    ∃ reads : List Buf, (∀ r ∈ reads, r ≠ [] ∧ r.length ≤ 1) ∧ main crc su unix obs reads = none := by
  obtain ⟨fs, -, d2⟩ := Verif.Misc.frames_exist crc ps hp
  have hrt := RtcmFraming.C04_stream_roundtrip crc ps hp fs d2 (fs.flatten.map fun b => [b]) (by
    intro r hr
    obtain ⟨b, -, rfl⟩ := List.mem_map.1 hr
    exact (by decide : 1 ≤ RtcmFraming.bufferSize)) (by
      induction fs.flatten with
      | nil => rfl
      | cons b l ih => simpa using ih)
  refine ⟨fs.flatten.map fun b => [b], ?_, ?_⟩
  · intro r hr
    obtain ⟨b, -, rfl⟩ := List.mem_map.1 hr
    simp
  · unfold main
    rw [hs]
    have htw : ∀ l : Buf, (l.map fun b => [b]).takeWhile (fun r => !r.isEmpty) = l.map fun b => [b] := by
      intro l
      induction l with
      | nil => rfl
      | cons r l ih => simp [ih]
    rw [htw]
    have : Prog.payloads crc (fs.flatten.map fun b => [b]) = ps := by
      unfold Prog.payloads
      rw [hrt, List.filterMap_map]
      exact List.filterMap_some
    simp only
    rw [this, hn]
    rfl

def z (n : Nat) : Buf := List.replicate n 0
def wSt : Prog.State := ⟨RtcmSbp.State.init, false, ⟨2100, 7⟩, ⟨2100, 7, true⟩⟩
theorem wStart (obs : Bool) : Prog.start Prog.wSu Prog.wUnix obs = some { wSt with obsMode := obs } := by
  have := Prog.start_eq Prog.wSu Prog.wUnix 18 obs (by decide) rfl (by decide) (by decide) (by decide)
  rw [show gpsTime 18 Prog.wUnix = ⟨2100, 7⟩ by decide +kernel] at this
  exact this

/-- a 1074 message that announces 33 satellites, one signal and no observation -/
def manySats : Buf := [0x43, 0x20, 0, 0, 0, 0, 0, 0, 0, 0x7F, 0xFF, 0xFF, 0xFF, 0xC0, 0, 0, 0, 0x40] ++ z 83

/-- a 1074 message that announces 33 satellites and 2 signals -/
def manyCells : Buf := [0x43, 0x20, 0, 0, 0, 0, 0, 0, 0, 0x7F, 0xFF, 0xFF, 0xFF, 0xC0, 0, 0, 0, 0x60] ++ z 83

/-- **C75** Defect: there is input that makes the program write outside an array, in its default mode of operation: an MSM message with 33
satellites and one signal (elements of the array of satellites), or with 33 satellites and two signals (of the cell mask). -/
theorem C75_masks_bug (crc : Buf → BitVec 24) : ∀ p ∈ [manySats, manyCells], RtcmSbp.messageType p = 1074 ∧ satellites p = 33 ∧
    progRun Prog.wSu wSt [p] = none ∧
    ∃ reads : List Buf, (∀ r ∈ reads, r ≠ [] ∧ r.length ≤ 1) ∧ main crc Prog.wSu Prog.wUnix false reads = none := by
  intro p hp
  simp only [List.mem_cons, List.not_mem_nil, or_false] at hp
  have key : RtcmSbp.messageType p = 1074 ∧ satellites p = 33 ∧ p.length = 101 := by
    rcases hp with rfl | rfl <;> decide +kernel
  have hn : progRun Prog.wSu wSt [p] = none := by
    have : ∀ x : Option (Prog.State × List Prog.Msg), x.isNone = true → x = none := by intro x; cases x <;> simp
    apply this
    rcases hp with rfl | rfl <;> decide +kernel
  refine ⟨key.1, key.2.1, hn, main_of_payloads crc _ _ _ [p] ?_ _ (wStart false) hn⟩
  simp [key.2.2]

/-- a GPS observation message (1002) -/
def gpsObs : Buf := [62, 160, 1, 0, 0, 156, 64, 16, 20, 0, 7, 208, 0, 0, 162, 145, 168, 0]
/-- a 4062 message with an SBP message of type 0x4A in it -/
def wrapped : Buf := [0xFD, 0xE0, 0, 0x4A, 0x12, 0x34, 1, 0]

/-- **C75** Defect: with -o a wrapped SBP observation message sets the clock to any value of its fields; with week 65535 (week -1), or a time of
week past the end of the week, the next GPS observation message fails an assertion. -/
theorem C75_wrapped_clock_bug (crc : Buf → BitVec 24) : ∀ t ∈ [(⟨65535, 5000⟩ : RtcmSbp.SbpTime), ⟨2100, 604800000⟩],
    let su : Prog.Setup := { Prog.wSu with obsOf := fun _ => some ⟨4096, t, 16, []⟩ }
    ∃ reads : List Buf, (∀ r ∈ reads, r ≠ [] ∧ r.length ≤ 1) ∧ main crc su Prog.wUnix true reads = none := by
  intro t ht su
  have hs : Prog.start su Prog.wUnix true = some { wSt with obsMode := true } := wStart true
  have hn : progRun su { wSt with obsMode := true } [wrapped, gpsObs] = none := by
    have : ∀ x : Option (Prog.State × List Prog.Msg), x.isNone = true → x = none := by intro x; cases x <;> simp
    apply this
    simp only [List.mem_cons, List.not_mem_nil, or_false] at ht
    rcases ht with rfl | rfl <;> decide +kernel
  exact main_of_payloads crc su _ _ [wrapped, gpsObs] (by decide) _ hs hn

/-- **C75** Defect: with -o and a start time before the reference week the first GPS observation message fails an assertion. -/
theorem C75_old_week_bug (crc : Buf → BitVec 24) (su : Prog.Setup) (unix leap : Int) (h0 : 315964800 ≤ unix)
    (hl : su.env.utcOffset (Prog.time2gps unix) = leap) (hr : 0 ≤ leap ∧ leap < 256) (h1 : (gpsTime leap unix).wn < su.lib.weekRef) :
    ∃ reads : List Buf, (∀ r ∈ reads, r ≠ [] ∧ r.length ≤ 1) ∧ main crc su unix true reads = none := by
  obtain ⟨st, a, b, c⟩ := Prog.C73_old_week_bug su unix leap h0 hl hr h1
  refine main_of_payloads crc su _ _ [gpsObs] (by decide) st a ?_
  unfold progRun progStep step
  have hp : (Prog.input su st gpsObs).payload = gpsObs := rfl
  rw [hp, if_neg (show ¬ gpsObs.length < 2 by decide), must_pos (show 1 < gpsObs.length by decide)]
  simp only [Option.bind_eq_bind, Option.bind_some]
  have hst : (Prog.input su st gpsObs).solved = true := b
  rw [if_neg (by rw [hst]; decide)]
  have hx : dispatch su.env (Prog.input su st gpsObs) (RtcmSbp.messageType gpsObs)
      (if (Prog.input su st gpsObs).solved then { ({ st.conv with timeInput := (Prog.input su st gpsObs).time } : RtcmSbp.State) with leap := some (su.env.utcOffset (Prog.input su st gpsObs).time) }
        else { st.conv with timeInput := (Prog.input su st gpsObs).time }) = none := by
    rw [if_pos hst]
    rw [show RtcmSbp.messageType gpsObs = 1002 by decide]
    unfold dispatch
    rw [if_pos (by decide), hp, (decodeObs_eq _ _).1]
    simp only [Option.bind_eq_bind, Option.bind_some, if_true]
    obtain ⟨m, hm, ht⟩ : ∃ m, (Obs.decode .m1002).run gpsObs = .ok m ∧ m.header.towMs = 10000 := by
      have : (match (Obs.decode .m1002).run gpsObs with | .ok m => m.header.towMs | .error _ => 0) = 10000 := by decide +kernel
      cases h : (Obs.decode .m1002).run gpsObs with
      | error e => rw [h] at this; simp at this
      | ok m => rw [h] at this; exact ⟨m, rfl, this⟩
    rw [hm]
    simp only
    unfold addGps computeGpsTime
    rw [ht, if_neg (by decide)]
    have : must (GpsTime.valid (Prog.input su st gpsObs).time) = none := if_neg c
    simp only [this]
    rfl
  rw [hx]
  rfl

/-! ### witnesses -/

/-- the conditions of the theorems hold of a run that writes an observation message -/
example : GloTable Prog.wSu.env := by unfold GloTable; decide
example : MasksFit gpsObs ∧ ¬ WrapsTime gpsObs := ⟨by decide +kernel, fun h => absurd h.1 (by decide)⟩
example : (progRun Prog.wSu wSt [gpsObs]).map (fun r => r.2.length) = some 1 := by decide +kernel
/-- a full MSM message within the limits -/
example : MasksFit ([0x43, 0x20, 0, 0, 0, 0, 0, 0, 0, 0x7F, 0xFF, 0xFF, 0xFF, 0x80, 0, 0, 0, 0x60] ++ z 83) := by decide +kernel
example : satellites ([0x43, 0x20, 0, 0, 0, 0, 0, 0, 0, 0x7F, 0xFF, 0xFF, 0xFF, 0x80, 0, 0, 0, 0x60] ++ z 83) = 32 := by decide +kernel

end Verif.Guard
