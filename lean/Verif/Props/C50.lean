import Verif.Lemmas.EphSbp
import Verif.Spec.Eph
import Verif.Spec.Accuracy
import Verif.Props.C10
import Verif.Props.C22_C23
import Verif.Props.C30
/-! C50: ephemerides survive the conversion to SBP and back. -/
namespace Verif.EphSbp
open Verif.Spec Verif.EphSbp.Spec Verif.Time Verif.Fp
open Verif.Acc.Spec (LibOk)

theorem exact_scF {n : Nat} {x : Int} (hn : n ≤ 100 := by norm_num) (hx : |x| ≤ 16777216 := by rw [abs_le]; omega) :
    scF n x = (x : ℚ) / 2 ^ n := scF_eq n x hn hx
theorem exact_scD {n : Nat} {x : Int} (hn : n ≤ 100 := by norm_num) (hx : |x| ≤ 9007199254740992 := by rw [abs_le]; omega) :
    scD n x = (x : ℚ) / 2 ^ n := scD_eq n x hn hx
theorem rt_scF {n : Nat} {x : Int} (hn : n ≤ 100 := by norm_num) (hx : |x| ≤ 16777216 := by rw [abs_le]; omega) :
    unsc n (scF n x) = x := unsc_scF n x hn hx
theorem rt_scD {n : Nat} {x : Int} (hn : n ≤ 100 := by norm_num) (hx : |x| ≤ 9007199254740992 := by rw [abs_le]; omega) :
    unsc n (scD n x) = x := unsc_scD n x hn hx
theorem rt_scA {n : Nat} {x : Int} (hn : n ≤ 50 := by norm_num) (hx : |x| ≤ 4294967296 := by rw [abs_le]; omega) :
    unscA n (scA n x) = x := unscA_scA n x hn hx
theorem rad_scA {n : Nat} {x : Int} (hn : n ≤ 50 := by norm_num) (hx : |x| ≤ 4294967296 := by rw [abs_le]; omega) :
    Radians ((x : ℚ) / 2 ^ n) (scA n x) := scA_radians n x hn hx

theorem tgd_exact (x : Int) (n : Nat) (y : ℚ) (h : y = (x : ℚ) / 2 ^ n) :
    |y - x * (1 / 2 ^ n)| ≤ |(x : ℚ) * (1 / 2 ^ n)| / 10 ^ 7 := by
  rw [h, show (x : ℚ) / 2 ^ n - x * (1 / 2 ^ n) = 0 by ring, abs_zero]; positivity

theorem tgd_none (x : Int) (hx : x = 0) (d : ℚ) : |(0 : ℚ) - x * d| ≤ |(x : ℚ) * d| / 10 ^ 7 := by
  rw [hx]; simp

theorem natAbs_le {x : Nat} (h : x < 2 ^ 32) : |((x : Nat) : Int)| ≤ 9007199254740992 := by
  rw [abs_of_nonneg (by positivity)]; omega

/-- a library with the assumed properties -/
def okEnv : Acc.Env := ⟨1 / 10, fun q => Int.log 2 q⟩
theorem okEnv_ok : LibOk okEnv.eps okEnv.log2f := by
  refine ⟨by norm_num [okEnv], by norm_num [okEnv], fun k _ => ?_⟩
  have := Int.log_zpow (R := ℚ) (b := 2) (by norm_num) (k : Int)
  simp only [okEnv]
  rw [← zpow_natCast]
  push_cast at this
  rw [this]
  simp

theorem timeSecMatch_near {rover : GpsTime} {wn tow : Nat} (hr : rover.valid) (hw : wn ≤ 32767) (h : NearRover rover wn tow)
    (ht : tow < 604800) : ∃ t, timeSecMatch tow rover = some t ∧ t.wn = wn := by
  cases hm : matchWeeks tow rover with
  | none => unfold matchWeeks at hm; rw [if_neg (not_not.mpr hr)] at hm; simp at hm
  | some w =>
    have hb := (matchWeeks_some ht hm).2
    have hwq : w = wn := by
      unfold NearRover at h
      unfold secs at h hb
      rw [abs_le] at hb
      rw [abs_lt] at h
      have e1 : (w : ℚ) < ((wn : Int) : ℚ) + 1 := by linarith [hb.2, h.1]
      have e2 : ((wn : Int) : ℚ) < (w : ℚ) + 1 := by linarith [hb.1, h.2]
      have e1' : w < (wn : Int) + 1 := by exact_mod_cast e1
      have e2' : (wn : Int) < w + 1 := by exact_mod_cast e2
      omega
    have hv : GpsTime.valid ⟨w, tow⟩ := by
      refine ⟨by simp only; omega, by simp only; omega, by positivity, ?_⟩
      simp only [weekSecs]; exact_mod_cast ht
    refine ⟨⟨w.toNat, tow⟩, ?_, by simp only; omega⟩
    unfold timeSecMatch
    rw [hm]
    simp only
    rw [if_pos hv]

/-- the times of a GPS ephemeris in SBP -/
theorem gps_inv {m : KepEph} {rover : GpsTime} {e : SbpKep} (h : gpsToSbp m rover = some e) :
    ∃ toe toc, timeSecMatch (m.toe * 16) rover = some toe ∧ timeSecMatch (m.toc * 16) rover = some toc ∧
      e.toe = toe ∧ e.toc = toc := by
  unfold gpsToSbp at h
  cases h1 : timeSecMatch (m.toe * 16) rover with
  | none => rw [h1] at h; simp at h
  | some toe =>
    cases h2 : timeSecMatch (m.toc * 16) rover with
    | none => rw [h1, h2] at h; simp at h
    | some toc =>
      rw [h1, h2] at h
      simp only [Option.some.injEq] at h
      exact ⟨toe, toc, rfl, rfl, by rw [← h], by rw [← h]⟩

/-- **C50** (GPS to SBP) A GPS ephemeris becomes the SBP ephemeris with the same orbit, clock, satellite, issue and nominal
accuracy; it is marked valid iff IODE is the low byte of IODC; its times of week are kept and the weeks are those nearest to
the rover's time. -/
theorem C50_gps_to_sbp (m : KepEph) (hm : WF1019 m) (rover : GpsTime) (e : SbpKep) (h : gpsToSbp m rover = some e) :
    SameOrbit gps m e ∧ e.sat = m.satId ∧ e.iodc = m.iodc ∧ (e.valid = true ↔ m.iodc % 256 = m.iode) ∧
    |e.ura - Acc.Spec.gpsNominal.getD m.ura 0| ≤ 1 / 1000000 ∧
    e.fit = Acc.Spec.fitHours (decide (m.fitInterval = 1)) m.iodc * 3600 ∧
    e.toe.tow = m.toe * 16 ∧ e.toc.tow = m.toc * 16 ∧
    |secs e.toe.wn e.toe.tow - secs rover.wn rover.tow| ≤ 302400 ∧ |secs e.toc.wn e.toc.tow - secs rover.wn rover.tow| ≤ 302400 := by
  obtain ⟨toe, toc, h1, h2, rfl, rfl⟩ := gps_inv h
  have t1 := timeSecMatch_some h1
  have t2 := timeSecMatch_some h2
  obtain ⟨c1, c2, c3, c4, c5, c6, c7, c8, c9, c10, c11, c12, c13, c14, c15, c16, c17, c18, c19, c20, c21, c22, c23, c24, c25, c26, c27, c28, c29, c30, c31⟩ := hm
  unfold gpsToSbp at h
  rw [h1, h2] at h
  simp only [Option.some.injEq] at h
  have hf : decide (m.fitInterval = 1) = true ∧ m.fitInterval = 1 ∨ decide (m.fitInterval = 1) = false ∧ m.fitInterval = 0 := by
    by_cases hx : m.fitInterval = 1
    · exact Or.inl ⟨by simp [hx], hx⟩
    · exact Or.inr ⟨by simp [hx], by omega⟩
  have et1 : e.toe.tow = m.toe * 16 := t1.1
  have et2 : e.toc.tow = m.toc * 16 := t2.1
  refine ⟨?_, by rw [← h], by rw [← h], ?_, ?_, ?_, et1, et2, by rw [et1]; exact t1.2.2.2.1, by rw [et2]; exact t2.2.2.2.1⟩
  · rw [← h]
    exact ⟨exact_scF, exact_scF, exact_scF, exact_scF, exact_scF, exact_scF, rad_scA, rad_scA,
      exact_scD (hx := natAbs_le (by assumption)), exact_scD (hx := natAbs_le (by assumption)), rad_scA, rad_scA, rad_scA, rad_scA, rad_scA,
      exact_scF, exact_scF, exact_scF, tgd_exact _ _ _ exact_scF, tgd_none _ c31 _, rfl, rfl⟩
  · rw [← h]
    simp only [decide_eq_true_eq]
    rw [show (0xFF : Nat) = 2 ^ 8 - 1 by rfl, Nat.and_two_pow_sub_one_eq_mod]
  · rw [← h]
    exact (Acc.C30_gps_ura okEnv okEnv_ok m.ura (by omega)).2
  · have := fun b => (Acc.C30_fit_gps b m.iodc).1
    rw [← h]
    rcases hf with ⟨a, b⟩ | ⟨a, b⟩
    · rw [a]; simp only [b]; exact this true
    · rw [a]; simp only [b]; exact this false

/-- **C50** (GPS, there and back) Converting a GPS ephemeris to SBP and back gives the ephemeris, except for the two L2 fields
SBP does not have, and for the week, which is that of the time of clock. -/
theorem C50_gps_back (env : Acc.Env) (hl : LibOk env.eps env.log2f) (m : KepEph) (hm : WF1019 m) (rover : GpsTime) (e : SbpKep)
    (h : gpsToSbp m rover = some e) :
    sbpToGps env e = { m with codeL2 := 1, l2DataBit := 0, wn := e.toc.wn % 1024 } := by
  obtain ⟨toe, toc, h1, h2, rfl, rfl⟩ := gps_inv h
  have et1 : e.toe.tow = m.toe * 16 := (timeSecMatch_some h1).1
  have et2 : e.toc.tow = m.toc * 16 := (timeSecMatch_some h2).1
  obtain ⟨c1, c2, c3, c4, c5, c6, c7, c8, c9, c10, c11, c12, c13, c14, c15, c16, c17, c18, c19, c20, c21, c22, c23, c24, c25, c26, c27, c28, c29, c30, c31⟩ := hm
  have hu : Acc.gpsUriToUra env (Acc.uraToUri m.ura) = m.ura := (Acc.C30_gps_ura env hl m.ura (by omega)).1
  have hfi : Acc.encodeFitGps (Acc.decodeFitGps m.fitInterval m.iodc) = m.fitInterval := by
    have := fun b => (Acc.C30_fit_gps b m.iodc).2
    rcases (by omega : m.fitInterval = 0 ∨ m.fitInterval = 1) with b | b
    · rw [b]; exact this false
    · rw [b]; exact this true
  have e1 : e.toe.tow / 16 = m.toe := by rw [et1]; omega
  have e2 : e.toc.tow / 16 = m.toc := by rw [et2]; omega
  unfold gpsToSbp at h
  rw [h1, h2] at h
  simp only [Option.some.injEq] at h
  unfold sbpToGps
  rw [e1, e2]
  generalize e.toc = toc at *
  generalize e.toe = toe at *
  subst h
  simp only
  rw [hu, hfi, rt_scF, rt_scF, rt_scF, rt_scF, rt_scF, rt_scF, rt_scF, rt_scF, rt_scF, rt_scF, rt_scA, rt_scA, rt_scA, rt_scA,
    rt_scA, rt_scA, rt_scA, rt_scD (hx := natAbs_le (by assumption)), rt_scD (hx := natAbs_le (by assumption)), Int.toNat_natCast, Int.toNat_natCast]
  cases m
  simp only at c31
  subst c31
  rfl

/-- **C50** (GPS, there and back) ... and the week is kept too if the message's week is that of a time of clock less than half a
week from the rover's time. -/
theorem C50_gps_roundtrip (env : Acc.Env) (hl : LibOk env.eps env.log2f) (m : KepEph) (hm : WF1019 m) (rover : GpsTime)
    (hr : rover.valid) (wn : Nat) (hw : wn % 1024 = m.wn) (hwe : wn ≤ 32767)
    (h1 : NearRover rover wn (m.toc * 16)) (h2 : ∃ w ≤ 32767, NearRover rover w (m.toe * 16))
    (h3 : m.toc * 16 < 604800 ∧ m.toe * 16 < 604800) :
    ∃ e, gpsToSbp m rover = some e ∧ sbpToGps env e = { m with codeL2 := 1, l2DataBit := 0 } := by
  obtain ⟨t1, k1, q1⟩ := timeSecMatch_near hr hwe h1 h3.1
  obtain ⟨w, hw2, hw3⟩ := h2
  obtain ⟨t2, k2, q2⟩ := timeSecMatch_near hr hw2 hw3 h3.2
  have hs : ∃ e, gpsToSbp m rover = some e := by
    unfold gpsToSbp; rw [k1, k2]; exact ⟨_, rfl⟩
  obtain ⟨e, he⟩ := hs
  refine ⟨e, he, ?_⟩
  rw [C50_gps_back env hl m hm rover e he]
  obtain ⟨toe, toc, g1, g2, -, g4⟩ := gps_inv he
  rw [k1] at g2
  simp only [Option.some.injEq] at g2
  rw [g4, ← g2, q1, hw]

/-! ### QZSS (to SBP only) -/

/-- **C50** (QZSS to SBP) A QZSS ephemeris becomes the SBP ephemeris with the same orbit, clock, satellite, issue, accuracy and
times of week; the week is the first from the reference week on with the transmitted low ten bits. -/
theorem C50_qzss_to_sbp (ref first : Nat) (hf : 0 < first) (m : KepEph) (hm : WF1044 m) :
    SameOrbit gps m (qzssToSbp ref first m) ∧ (qzssToSbp ref first m).sat + 1 = m.satId + first ∧
    (qzssToSbp ref first m).iodc = m.iodc ∧
    |(qzssToSbp ref first m).ura - Acc.Spec.gpsNominal.getD m.ura 0| ≤ 1 / 1000000 ∧
    (qzssToSbp ref first m).toe.tow = m.toe * 16 ∧ (qzssToSbp ref first m).toc.tow = m.toc * 16 ∧
    (qzssToSbp ref first m).toc.wn = (qzssToSbp ref first m).toe.wn ∧
    (qzssToSbp ref first m).toe.wn % 1024 = m.wn ∧ (ref ≤ 1024 + m.wn → ref ≤ (qzssToSbp ref first m).toe.wn) := by
  obtain ⟨c1, c2, c3, c4, c5, c6, c7, c8, c9, c10, c11, c12, c13, c14, c15, c16, c17, c18, c19, c20, c21, c22, c23, c24, c25, c26, c27, c28, c29, c30, c31⟩ := hm
  refine ⟨?_, ?_, rfl, (Acc.C30_gps_ura okEnv okEnv_ok m.ura (by omega)).2, rfl, rfl, rfl, ?_, ?_⟩
  · exact ⟨exact_scF, exact_scF, exact_scF, exact_scF, exact_scF, exact_scF, rad_scA, rad_scA,
      exact_scD (hx := natAbs_le (by assumption)), exact_scD (hx := natAbs_le (by assumption)), rad_scA, rad_scA, rad_scA, rad_scA, rad_scA,
      exact_scF, exact_scF, exact_scF, tgd_exact _ _ _ exact_scF, tgd_none _ c29 _, rfl, rfl⟩
  · simp only [qzssToSbp]; omega
  · simp only [qzssToSbp, adjustWeek]; split <;> omega
  · simp only [qzssToSbp, adjustWeek]; intro _; split <;> omega

/-- a QZSS ephemeris whose IODE is the low byte of its IODC is marked invalid whenever the IODC does not fit a byte (GPS
compares the low byte) -/
theorem C50_qzss_valid_bug : ∃ m, WF1044 m ∧ m.iodc % 256 = m.iode ∧ ∀ ref first, (qzssToSbp ref first m).valid = false := by
  refine ⟨{ satId := 1, iodc := 257, iode := 1 }, ?_, rfl, fun _ _ => rfl⟩
  constructor <;> decide

/-! ### Galileo -/

theorem gal_inv {m : KepEph} {src : Nat} {rover : GpsTime} {e : SbpKep} (h : galToSbp m src rover = some e) :
    ∃ toe toc, timeSecMatch (m.toe * 60) rover = some toe ∧ timeSecMatch (m.toc * 60) rover = some toc ∧
      e.toe = toe ∧ e.toc = toc := by
  unfold galToSbp at h
  cases h1 : timeSecMatch (m.toe * 60) rover with
  | none => rw [h1] at h; simp at h
  | some toe =>
    cases h2 : timeSecMatch (m.toc * 60) rover with
    | none => rw [h1, h2] at h; simp at h
    | some toc =>
      rw [h1, h2] at h
      simp only [Option.some.injEq] at h
      exact ⟨toe, toc, rfl, rfl, by rw [← h], by rw [← h]⟩

/-- **C50** (Galileo to SBP) -/
theorem C50_gal_to_sbp (m : KepEph) (hm : WFGal m) (src : Nat) (rover : GpsTime) (e : SbpKep) (h : galToSbp m src rover = some e) :
    SameOrbit gal m e ∧ e.sat = m.satId ∧ e.iodc = m.iode ∧ e.source = src ∧
    (m.ura ≤ 125 → |e.ura - Acc.Spec.sisaNominal m.ura| ≤ 1 / 1000000) ∧
    e.toe.tow = m.toe * 60 ∧ e.toc.tow = m.toc * 60 ∧
    |secs e.toe.wn e.toe.tow - secs rover.wn rover.tow| ≤ 302400 ∧ |secs e.toc.wn e.toc.tow - secs rover.wn rover.tow| ≤ 302400 := by
  obtain ⟨toe, toc, h1, h2, rfl, rfl⟩ := gal_inv h
  have t1 := timeSecMatch_some h1
  have t2 := timeSecMatch_some h2
  obtain ⟨c1, c2, c3, c4, c5, c6, c7, c8, c9, c10, c11, c12, c13, c14, c15, c16, c17, c18, c19, c20, c21, c22, c23, c24, c25, c26, c27⟩ := hm
  unfold galToSbp at h
  rw [h1, h2] at h
  simp only [Option.some.injEq] at h
  have et1 : e.toe.tow = m.toe * 60 := t1.1
  have et2 : e.toc.tow = m.toc * 60 := t2.1
  refine ⟨?_, by rw [← h], by rw [← h], by rw [← h], ?_, et1, et2, by rw [et1]; exact t1.2.2.2.1, by rw [et2]; exact t2.2.2.2.1⟩
  · rw [← h]
    exact ⟨exact_scF, exact_scF, exact_scF, exact_scF, exact_scF, exact_scF, rad_scA, rad_scA,
      exact_scD (hx := natAbs_le (by assumption)), exact_scD (hx := natAbs_le (by assumption)), rad_scA, rad_scA, rad_scA, rad_scA, rad_scA,
      exact_scD, exact_scD, exact_scF, tgd_exact _ _ _ exact_scF, tgd_exact _ _ _ exact_scF, rfl, rfl⟩
  · rw [← h]
    exact (Acc.C30_sisa m.ura (by omega)).2

/-- **C50** (Galileo, there and back) Converting a Galileo ephemeris to SBP and back gives the ephemeris, except for the week,
which is that of the reference time, and except that spare accuracy indices (126 to 254) become "no prediction" (255). -/
theorem C50_gal_back (m : KepEph) (hm : WFGal m) (src : Nat) (rover : GpsTime) (e : SbpKep) (h : galToSbp m src rover = some e) :
    sbpToGal e = { m with ura := if m.ura ≤ 125 then m.ura else 255, wn := (e.toe.wn + 65536 - 1024) % 65536 } := by
  obtain ⟨toe, toc, h1, h2, rfl, rfl⟩ := gal_inv h
  have et1 : e.toe.tow = m.toe * 60 := (timeSecMatch_some h1).1
  have et2 : e.toc.tow = m.toc * 60 := (timeSecMatch_some h2).1
  obtain ⟨c1, c2, c3, c4, c5, c6, c7, c8, c9, c10, c11, c12, c13, c14, c15, c16, c17, c18, c19, c20, c21, c22, c23, c24, c25, c26, c27, c28, c29, c30⟩ := hm
  have hu := (Acc.C30_sisa m.ura (by omega)).1
  have e1 : e.toe.tow / 60 = m.toe := by rw [et1]; omega
  have e2 : e.toc.tow / 60 = m.toc := by rw [et2]; omega
  unfold galToSbp at h
  rw [h1, h2] at h
  simp only [Option.some.injEq] at h
  unfold sbpToGal
  rw [e1, e2]
  generalize e.toc = toc at *
  generalize e.toe = toe at *
  subst h
  simp only
  rw [hu, rt_scF, rt_scF, rt_scF, rt_scF, rt_scF, rt_scF, rt_scF, rt_scF, rt_scF, rt_scA, rt_scA, rt_scA, rt_scA,
    rt_scA, rt_scA, rt_scA, rt_scD (hx := natAbs_le (by assumption)), rt_scD (hx := natAbs_le (by assumption)), rt_scD, rt_scD, Int.toNat_natCast, Int.toNat_natCast]
  cases m
  simp only at c27 c28 c29 c30
  subst c27 c28 c29 c30
  rfl

/-- **C50** (Galileo, there and back) ... and the week too if it is that of a reference time less than half a week from the
rover's time. -/
theorem C50_gal_roundtrip (m : KepEph) (hm : WFGal m) (hu : m.ura ≤ 125 ∨ m.ura = 255) (src : Nat) (rover : GpsTime) (hr : rover.valid)
    (h1 : NearRover rover (m.wn + 1024) (m.toe * 60)) (h2 : ∃ w ≤ 32767, NearRover rover w (m.toc * 60))
    (h3 : m.toc * 60 < 604800 ∧ m.toe * 60 < 604800) :
    ∃ e, galToSbp m src rover = some e ∧ sbpToGal e = m := by
  have hwn := hm.wn
  obtain ⟨t1, k1, q1⟩ := timeSecMatch_near hr (by omega) h1 h3.2
  obtain ⟨w, hw2, hw3⟩ := h2
  obtain ⟨t2, k2, q2⟩ := timeSecMatch_near hr hw2 hw3 h3.1
  have hs : ∃ e, galToSbp m src rover = some e := by
    unfold galToSbp; rw [k1, k2]; exact ⟨_, rfl⟩
  obtain ⟨e, he⟩ := hs
  refine ⟨e, he, ?_⟩
  rw [C50_gal_back m hm src rover e he]
  obtain ⟨toe, toc, g1, g2, g3, -⟩ := gal_inv he
  rw [k1] at g1
  simp only [Option.some.injEq] at g1
  rw [g3, ← g1, q1, show (m.wn + 1024 + 65536 - 1024) % 65536 = m.wn by omega]
  have : (if m.ura ≤ 125 then m.ura else 255) = m.ura := by split <;> omega
  rw [this]

/-! ### BeiDou -/

theorem bdsTime_back (ref wn tow : Nat) (hw : wn < 8192) (hr : ref ≤ wn + 1356) (h0 : 0 < tow) (ht : tow < 75600) :
    getBdsWnTow (bdsTime ref wn tow) = (wn, tow) := by
  have key : ∀ a : Int, |a| ≤ 9007199254740992 → (cround (f64 ((a : ℚ) * 8 / 8))).toNat = a.toNat := by
    intro a ha
    rw [show (a : ℚ) * 8 / 8 = a by ring, f64_int a ha, cround_int]
  unfold getBdsWnTow bdsTime
  have e : adjustWeek ref (wn + 1356 + (tow * 8 + 14) / 604800) = wn + 1356 + (tow * 8 + 14) / 604800 := by
    unfold adjustWeek; rw [if_pos (by omega)]
  simp only [e]
  by_cases hlt : tow * 8 + 14 < 604800
  · have e1 : (tow * 8 + 14) % 604800 = tow * 8 + 14 := by omega
    have e2 : (tow * 8 + 14) / 604800 = 0 := by omega
    rw [e1, e2, if_pos (by omega)]
    have := key tow (by rw [abs_of_nonneg (by positivity)]; omega)
    have e3 : (((tow * 8 + 14 : Nat) : ℚ) - 14) / 8 = (((tow : Nat) : Int) : ℚ) * 8 / 8 := by push_cast; ring
    rw [e3, this]
    simp only [Int.toNat_natCast, Prod.mk.injEq, and_true]
    omega
  · have e1 : (tow * 8 + 14) % 604800 = tow * 8 + 14 - 604800 := by omega
    have e2 : (tow * 8 + 14) / 604800 = 1 := by omega
    rw [e1, e2, if_neg (by omega)]
    have := key tow (by rw [abs_of_nonneg (by positivity)]; omega)
    have e3 : (((tow * 8 + 14 - 604800 : Nat) : ℚ) - 14 + 604800) / 8 = (((tow : Nat) : Int) : ℚ) * 8 / 8 := by
      rw [Nat.cast_sub (by omega)]; push_cast; ring
    rw [e3, this]
    simp only [Int.toNat_natCast, Prod.mk.injEq, and_true]
    omega

/-- **C50** (BeiDou to SBP) The times are the BeiDou times: week numbers start at GPS week 1356, GPS time is 14 s ahead. -/
theorem C50_bds_to_sbp (ref : Nat) (m : KepEph) (hm : WF1042 m) (hr : ref ≤ m.wn + 1356) :
    SameOrbit bds m (bdsToSbp ref m) ∧ (bdsToSbp ref m).sat = m.satId ∧ (bdsToSbp ref m).iodc = m.iodc ∧
    |(bdsToSbp ref m).ura - Acc.Spec.bdsNominal.getD m.ura 0| ≤ 1 / 1000000 ∧
    secs (bdsToSbp ref m).toe.wn (bdsToSbp ref m).toe.tow = secs (m.wn + 1356) (m.toe * 8 + 14) ∧
    secs (bdsToSbp ref m).toc.wn (bdsToSbp ref m).toc.tow = secs (m.wn + 1356) (m.toc * 8 + 14) ∧
    (bdsToSbp ref m).toe.tow < 604800 ∧ (bdsToSbp ref m).toc.tow < 604800 := by
  have hu := (Acc.C30_bds_ura okEnv okEnv_ok m.ura (by have := hm.ura; omega)).2
  have ht : ∀ t, secs (bdsTime ref m.wn t).wn (bdsTime ref m.wn t).tow = secs (m.wn + 1356) (t * 8 + 14) ∧
      (bdsTime ref m.wn t).tow < 604800 := by
    intro t
    unfold bdsTime adjustWeek secs
    rw [if_pos (by omega)]
    simp only
    refine ⟨?_, by omega⟩
    have h1 := Nat.div_add_mod (t * 8 + 14) 604800
    have h2 : ((t * 8 + 14 : Nat) : ℚ) = 604800 * (((t * 8 + 14) / 604800 : Nat) : ℚ) + (((t * 8 + 14) % 604800 : Nat) : ℚ) := by
      exact_mod_cast h1.symm
    generalize (t * 8 + 14) / 604800 = q at *
    generalize (t * 8 + 14) % 604800 = r at *
    push_cast at h2 ⊢
    linarith
  obtain ⟨c1, c2, c3, c4, c5, c6, c7, c8, c9, c10, c11, c12, c13, c14, c15, c16, c17, c18, c19, c20, c21, c22, c23, c24, c25, c26, c27, c28, c29, c30⟩ := hm
  refine ⟨?_, rfl, rfl, hu, (ht m.toe).1, (ht m.toc).1, (ht m.toe).2, (ht m.toc).2⟩
  exact ⟨exact_scF, exact_scF, exact_scF, exact_scF, exact_scF, exact_scF, rad_scA, rad_scA,
      exact_scD (hx := natAbs_le (by assumption)), exact_scD (hx := natAbs_le (by assumption)), rad_scA, rad_scA, rad_scA, rad_scA, rad_scA,
      exact_scD, exact_scF, exact_scF, (scT_ok _ (by omega)).2, (scT_ok _ (by omega)).2, rfl, rfl⟩

/-- **C50** (BeiDou, there and back) Converting a BeiDou ephemeris to SBP and back gives the ephemeris, if its times are not at
the very start of the week and the week is not before the reference week. -/
theorem C50_bds_roundtrip_partial (env : Acc.Env) (hl : LibOk env.eps env.log2f) (ref : Nat) (m : KepEph) (hm : WF1042 m)
    (hr : ref ≤ m.wn + 1356) (h1 : 0 < m.toe ∧ m.toe < 75600) (h2 : 0 < m.toc ∧ m.toc < 75600) :
    sbpToBds env (bdsToSbp ref m) = m := by
  obtain ⟨c1, c2, c3, c4, c5, c6, c7, c8, c9, c10, c11, c12, c13, c14, c15, c16, c17, c18, c19, c20, c21, c22, c23, c24, c25, c26, c27, c28, c29, c30, c31, c32⟩ := hm
  have hu := (Acc.C30_bds_ura env hl m.ura (by omega)).1
  unfold sbpToBds bdsToSbp
  simp only
  rw [bdsTime_back ref m.wn m.toe c2 hr h1.1 h1.2, bdsTime_back ref m.wn m.toc c2 hr h2.1 h2.2, hu, rt_scF, rt_scF, rt_scF, rt_scF, rt_scF, rt_scF, rt_scF, rt_scF,
    rt_scA, rt_scA, rt_scA, rt_scA, rt_scA, rt_scA, rt_scA, rt_scD (hx := natAbs_le (by assumption)), rt_scD (hx := natAbs_le (by assumption)), rt_scD,
    (scT_ok _ (by omega)).1, (scT_ok _ (by omega)).1, Int.toNat_natCast, Int.toNat_natCast]
  cases m
  simp only at c30 c31 c32
  subst c30 c31 c32
  rfl

/-- at the very start of the BeiDou week (GPS time of week 14 s) the reference time comes back as the end of the week (75600 is
not a legal value), the week as the previous one -/
theorem C50_bds_week_start_bug (ref wn : Nat) (hw : 0 < wn ∧ wn < 8192) (hr : ref ≤ wn + 1356) :
    getBdsWnTow (bdsTime ref wn 0) = (wn - 1, 75600) := by
  have e : bdsTime ref wn 0 = ⟨wn + 1356, 14⟩ := by
    unfold bdsTime adjustWeek
    simp [hr]
  rw [e]
  unfold getBdsWnTow
  rw [if_neg (by simp)]
  have e3 : ((((⟨wn + 1356, 14⟩ : TimeSec).tow : Nat) : ℚ) - 14 + 604800) / 8 = ((75600 : Int) : ℚ) := by norm_num
  rw [e3, f64_int _ (by norm_num), cround_int]
  simp only [Prod.mk.injEq]
  constructor
  · omega
  · rfl

/-! ### GLONASS -/

/-- the time of a GLONASS ephemeris in SBP, as whole seconds -/
theorem glo_time {m : GloEph} {rover : GpsTime} {leap : Int} {e : SbpGlo} (hl : -128 ≤ leap ∧ leap ≤ 127)
    (h : gloToSbp m rover (some leap) = some e) :
    ∃ t, computeGloTime (m.tB * 15 * 60 * 1000) rover (some leap) = some t ∧ m.satId ≠ 0 ∧ (e.toe.wn : Int) = t.wn ∧ (e.toe.tow : ℚ) = t.tow ∧
      e.toe.tow < 604800 ∧ ∃ k : Int, (e.toe.wn : Int) * 604800 + e.toe.tow = m.tB * 900 - 10800 + leap + 86400 * k := by
  unfold gloToSbp at h
  cases hc : computeGloTime (m.tB * 15 * 60 * 1000) rover (some leap) with
  | none => rw [hc] at h; simp at h
  | some t =>
    rw [hc] at h
    simp only at h
    by_cases hs : m.satId = 0
    · rw [if_pos hs] at h; simp at h
    rw [if_neg hs] at h
    simp only [Option.some.injEq] at h
    obtain ⟨hv, hnear, k, hk⟩ := C23_glo_time _ rover leap hl t hc
    obtain ⟨v0, v1, v2, v3⟩ := hv
    have hint : ∃ z : Int, t.tow = z := by
      refine ⟨m.tB * 900 - 10800 + leap + 86400 * k - t.wn * 604800, ?_⟩
      unfold Time.Spec.seconds at hk
      push_cast at hk ⊢
      linarith
    obtain ⟨z, hz⟩ := hint
    have z0 : 0 ≤ z := by rw [hz] at v2; exact_mod_cast v2
    have ert : (Fp.rne t.tow).toNat = z.toNat := by rw [hz, Fp.rne_int]
    refine ⟨t, rfl, hs, ?_, ?_, ?_, k, ?_⟩
    · rw [← h]; simp only; omega
    · rw [← h]; simp only; rw [ert, hz]
      have := Int.toNat_of_nonneg z0
      exact_mod_cast this
    · rw [← h]; simp only; rw [ert]
      have : z < 604800 := by rw [hz] at v3; exact_mod_cast v3
      omega
    · rw [← h]; simp only; rw [ert, Int.toNat_of_nonneg z0, Int.toNat_of_nonneg v0]
      unfold Time.Spec.seconds at hk
      rw [hz] at hk
      have : ((t.wn * 604800 + z : Int) : ℚ) = ((m.tB * 900 - 10800 + leap + 86400 * k : Int) : ℚ) := by
        push_cast at hk ⊢; linarith
      exact_mod_cast this

/-- the time of day found again -/
theorem tod_back (leap : Int) (hl : -128 ≤ leap ∧ leap ≤ 127) (wn tow tB : Nat) (ht : tow < 604800) (hb : tB ≤ 96) (k : Int)
    (h : (wn : Int) * 604800 + tow = tB * 900 - 10800 + leap + 86400 * k) :
    gloTimeOfDay tow (some leap) = some (if tB = 0 then 96 else tB) := by
  unfold gloTimeOfDay
  simp only [Option.some.injEq]
  have hx : (tow : Int) - leap = tB * 900 - 10800 + 86400 * (k - 7 * wn) := by omega
  generalize hj : k - 7 * (wn : Int) = j at hx
  have h0 : 0 ≤ (tow : Int) - leap := by omega
  rw [Int.tmod_eq_emod_of_nonneg h0]
  generalize (tow : Int) - leap = x at *
  have hmod : (x % 86400 = tB * 900 - 10800 ∧ 12 ≤ tB ∧ tB < 96 + 12) ∨ (x % 86400 = tB * 900 + 75600 ∧ tB < 12) := by
    by_cases h12 : 12 ≤ tB
    · left; refine ⟨?_, h12, by omega⟩; omega
    · right; refine ⟨?_, by omega⟩; omega
  rcases hmod with ⟨e, h12, -⟩ | ⟨e, h12⟩
  · rw [e]
    by_cases hz : (tB : Int) * 900 - 10800 + 3 * 3600 > 86400
    · omega
    · rw [if_neg hz, Int.tdiv_eq_ediv_of_nonneg (by omega), if_neg (by omega)]
      omega
  · rw [e]
    by_cases hz : (tB : Int) * 900 + 75600 + 3 * 3600 > 86400
    · rw [if_pos hz, Int.tdiv_eq_ediv_of_nonneg (by omega), if_neg (by omega),
        show (tB : Int) * 900 + 75600 + 3 * 3600 - 86400 = tB * 900 by ring, Int.mul_ediv_cancel _ (by norm_num)]
      omega
    · rw [if_neg hz, Int.tdiv_eq_ediv_of_nonneg (by omega), if_pos (by omega)]
      omega

/-- **C50** (GLONASS to SBP) -/
theorem C50_glo_to_sbp (m : GloEph) (hm : WF1020 m) (rover : GpsTime) (leap : Int) (hl : -128 ≤ leap ∧ leap ≤ 127) (e : SbpGlo)
    (h : gloToSbp m rover (some leap) = some e) :
    SameGlo m e ∧ e.ura = Acc.Spec.gloNominal.getD m.ura 0 ∧ e.toe.tow < 604800 ∧
    |secs e.toe.wn e.toe.tow - secs rover.wn rover.tow| ≤ 43200 ∧
    ∃ k : Int, (e.toe.wn : Int) * 604800 + e.toe.tow = m.tB * 900 - 3 * 3600 + leap + 86400 * k := by
  obtain ⟨t, hc, hs, e1, e2, e3, k, hk⟩ := glo_time hl h
  have hnear := (C23_glo_time _ rover leap hl t hc).2.1
  obtain ⟨c1, c2, c3, c4, c5, c6, ⟨c7, c8, c9⟩, ⟨c10, c11, c12⟩, ⟨c13, c14, c15⟩, c16, c17, c18⟩ := hm
  refine ⟨?_, ?_, e3, ?_, k, by linarith⟩
  · unfold gloToSbp at h
    rw [hc] at h
    simp only [if_neg hs, Option.some.injEq] at h
    rw [← h]
    refine ⟨rfl, rfl, exact_scF, exact_scF, exact_scF, ⟨?_, ?_, ?_⟩, ⟨?_, ?_, ?_⟩, ⟨?_, ?_, ?_⟩, ?_⟩
    all_goals first
      | exact scK_eq _ _ (by norm_num) (by rw [abs_le]; omega)
      | exact accF_eq _ (by rw [abs_le]; omega)
      | (simp only; omega)
  · unfold gloToSbp at h
    rw [hc] at h
    simp only [if_neg hs, Option.some.injEq] at h
    rw [← h]
    exact (Acc.C30_glo_ura okEnv okEnv_ok m.ura (by omega)).2
  · unfold secs
    unfold Time.Spec.seconds at hnear
    rw [e1, e2]
    exact hnear

/-- **C50** (GLONASS, there and back) Converting a GLONASS ephemeris to SBP and back, with the same leap second, gives the
ephemeris, for all intervals of the day except the first. -/
theorem C50_glo_roundtrip_partial (env : Acc.Env) (hl : LibOk env.eps env.log2f) (junk : Nat) (m : GloEph) (hm : WF1020 m)
    (hb : 0 < m.tB ∧ m.tB ≤ 96) (hf : m.fitInterval < 3) (rover : GpsTime) (leap : Int) (hle : -128 ≤ leap ∧ leap ≤ 127) (e : SbpGlo)
    (h : gloToSbp m rover (some leap) = some e) : sbpToGlo env junk (some leap) e = m := by
  obtain ⟨t, hc, hs, e1, e2, e3, k, hk⟩ := glo_time hle h
  have ht := tod_back leap hle e.toe.wn e.toe.tow m.tB e3 hb.2 k hk
  rw [if_neg (by omega)] at ht
  obtain ⟨c1, c2, c3, c4, c5, c6, ⟨c7, c8, c9⟩, ⟨c10, c11, c12⟩, ⟨c13, c14, c15⟩, c16, c17, c18⟩ := hm
  have hu := (Acc.C30_glo_ura env hl m.ura (by omega)).1
  have hfi := (Acc.C30_fit_glo m.fitInterval).2 hf
  have hK : ∀ n x, n ≤ 100 → |x| ≤ 134217728 → unscK n (scK n x) = x := fun n x a b => by rw [scK_eq n x a b, unscK_eq n x b]
  have hA : ∀ x, |x| ≤ 16 → unscK 30 (f32 (scK 30 x)) = x := fun x b => by rw [accF_eq x b, unscK_eq 30 x (by omega)]
  unfold sbpToGlo
  rw [ht]
  unfold gloToSbp at h
  rw [hc] at h
  simp only [if_neg hs, Option.some.injEq] at h
  subst h
  simp only [Option.isNone_some, Option.getD_some]
  rw [hu, hfi, rt_scF, rt_scF, rt_scF, hK, hK, hK, hK, hK, hK, hA, hA, hA, show ((m.fcn + 1) % 256 + 256 - 1) % 256 = m.fcn by omega]
  all_goals first
    | rfl
    | (rw [abs_le]; omega)
    | norm_num

/-- the first interval of the GLONASS day comes back as the 97th -/
theorem C50_glo_midnight_bug (env : Acc.Env) (junk : Nat) (m : GloEph) (hb : m.tB = 0)
    (rover : GpsTime) (leap : Int) (hle : -128 ≤ leap ∧ leap ≤ 127) (e : SbpGlo)
    (h : gloToSbp m rover (some leap) = some e) : (sbpToGlo env junk (some leap) e).tB = 96 := by
  obtain ⟨t, hc, hs, e1, e2, e3, k, hk⟩ := glo_time hle h
  have ht := tod_back leap hle e.toe.wn e.toe.tow m.tB e3 (by omega) k hk
  rw [if_pos hb] at ht
  unfold sbpToGlo
  rw [ht]
  rfl

/-- without a known leap second the ephemeris is sent as unhealthy -/
theorem C50_glo_no_leap (env : Acc.Env) (junk : Nat) (e : SbpGlo) : (sbpToGlo env junk none e).healthBits = 1 := rfl

/-! ### on the wire -/

/-- **C50** A BeiDou ephemeris converted to SBP, back, and encoded, is decoded as the original. -/
theorem C50_bds_wire_partial (env : Acc.Env) (hl : LibOk env.eps env.log2f) (ref : Nat) (m : KepEph) (hm : WF1042 m)
    (hr : ref ≤ m.wn + 1356) (h1 : 0 < m.toe ∧ m.toe < 75600) (h2 : 0 < m.toc ∧ m.toc < 75600) (buf : Buf) (hb : 64 ≤ buf.length) :
    decode1042.run (payloadOf (encode1042 (sbpToBds env (bdsToSbp ref m)) buf)) = .ok m := by
  rw [C50_bds_roundtrip_partial env hl ref m hm hr h1 h2, C10_1042_roundtrip m hm buf hb]

/-- **C50** A GLONASS ephemeris converted to SBP, back, and encoded, is decoded as the original. -/
theorem C50_glo_wire_partial (env : Acc.Env) (hl : LibOk env.eps env.log2f) (junk : Nat) (m : GloEph) (hm : WF1020 m)
    (hb : 0 < m.tB ∧ m.tB ≤ 96) (hf : m.fitInterval < 3) (rover : GpsTime) (leap : Int) (hle : -128 ≤ leap ∧ leap ≤ 127) (e : SbpGlo)
    (h : gloToSbp m rover (some leap) = some e) (buf : Buf) (hbuf : 45 ≤ buf.length) :
    decode1020.run (payloadOf (encode1020 (sbpToGlo env junk (some leap) e) buf)) = .ok m := by
  rw [C50_glo_roundtrip_partial env hl junk m hm hb hf rover leap hle e h, C10_1020_roundtrip m hm buf hbuf]

/-- **C50** A Galileo I/NAV ephemeris (health bits below 32, see C10) converted to SBP, back, and encoded, is decoded as the
original. -/
theorem C50_gal_wire_partial (m : KepEph) (hm : WFGal m) (hu : m.ura ≤ 125 ∨ m.ura = 255) (hh : m.healthBits < 32) (src : Nat)
    (rover : GpsTime) (hr : rover.valid)
    (h1 : NearRover rover (m.wn + 1024) (m.toe * 60)) (h2 : ∃ w ≤ 32767, NearRover rover w (m.toc * 60))
    (h3 : m.toc * 60 < 604800 ∧ m.toe * 60 < 604800) (buf : Buf) (hb : 63 ≤ buf.length) :
    ∃ e, galToSbp m src rover = some e ∧ decode1046.run (payloadOf (encode1046 (sbpToGal e) buf)) = .ok m := by
  obtain ⟨e, he, hb2⟩ := C50_gal_roundtrip m hm hu src rover hr h1 h2 h3
  exact ⟨e, he, by rw [hb2, C10_1046_roundtrip_partial m hm hh buf hb]⟩

/-! ### the hypotheses are met -/

/-- the GPS ephemeris of satellite 32 in week 2100 (52 modulo 1024) for the last two hours of the week, early the next week -/
def exGps : KepEph := { satId := 32, wn := 52, toe := 37350, toc := 37350, ura := 3, fitInterval := 1, iodc := 0x3FD, iode := 0xFD, tgd0 := -11, crs := -32768, dn := 12345, m0 := -2147483648, ecc := 4294967295, sqrta := 2702016955, omegadot := -8388608, af0 := -2097152 }
example : WF1019 exGps := by constructor <;> decide
example : NearRover ⟨2101, 100.5⟩ 2100 (exGps.toc * 16) ∧ (2100 % 1024 = exGps.wn) ∧ exGps.toc * 16 < 604800 := by
  refine ⟨?_, by decide, by decide⟩
  unfold NearRover secs exGps; norm_num
example : (gpsToSbp exGps ⟨2101, 100.5⟩).map (fun e => (e.toe, e.valid, e.ura, e.fit)) = some (⟨2100, 597600⟩, true, f32 5.7, 26 * 3600) := by
  decide +kernel
example : (gpsToSbp exGps ⟨2101, 100.5⟩).map (fun e => sbpToGps okEnv e) = some { exGps with codeL2 := 1 } := by
  have hm : WF1019 exGps := by constructor <;> decide
  cases h : gpsToSbp exGps ⟨2101, 100.5⟩ with
  | none => exact absurd h (by decide +kernel)
  | some e =>
    have hw : (gpsToSbp exGps ⟨2101, 100.5⟩).map (fun e => e.toc.wn) = some 2100 := by decide +kernel
    rw [h] at hw
    simp only [Option.map_some, Option.some.injEq] at hw ⊢
    rw [C50_gps_back okEnv okEnv_ok exGps hm _ e h, hw]
    rfl

def exGal : KepEph := { satId := 36, wn := 1076, toe := 9960, toc := 9959, ura := 107, iode := 1023, tgd0 := -512, tgd1 := 511, af0 := -1073741824, af2 := -32 }
example : WFGal exGal := by constructor <;> decide
example : NearRover ⟨2100, 604000⟩ (exGal.wn + 1024) (exGal.toe * 60) := by unfold NearRover secs exGal; norm_num

def exBds : KepEph := { satId := 6, wn := 800, toe := 75599, toc := 1, ura := 5, iode := 31, tgd0 := -512, tgd1 := 511, crs := -131072, af1 := -2097152, af2 := 1023 }
example : WF1042 exBds := by constructor <;> decide
example : (bdsToSbp 2000 exBds).toe = ⟨2157, 6⟩ := by decide +kernel

def exGlo : GloEph := { satId := 24, fcn := 13, fitInterval := 2, healthBits := 0, tB := 95, vel0 := -8388607, pos0 := 67108863, acc0 := -15, vel1 := 1, pos1 := -2, acc1 := 3, vel2 := -4, pos2 := 5, acc2 := -6, gamma := 1023, tau := -2097151, dTau := -15, ura := 2 }
example : WF1020 exGlo := by constructor <;> decide
example : (gloToSbp exGlo ⟨2100, 76000⟩ (some 18)).map (fun e => e.toe) = some ⟨2100, 74718⟩ := by decide +kernel
example : (gloToSbp { exGlo with tB := 0 } ⟨2100, 76000⟩ (some 18)).map (fun e => e.toe) = some ⟨2100, 75618⟩ := by decide +kernel

end Verif.EphSbp
