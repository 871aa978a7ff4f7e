import Verif.Spec.GpsTime
import Verif.Lemmas.Num
import Mathlib.Tactic.Linarith
import Mathlib.Tactic.Push
import Mathlib.Tactic.FieldSimp
import Mathlib.Tactic.Ring
import Mathlib.Tactic.NormNum
import Mathlib.Tactic.IntervalCases
/-! C22 (GPS time reconstruction) and C23 (GLONASS and BeiDou times). -/
namespace Verif.Time
open Verif.Time.Spec

theorem diff_seconds (a b : GpsTime) : diff a b = seconds a - seconds b := by
  unfold diff seconds weekSecs; push_cast; ring

/-- C22: for a time of week below one week and a rover time not in the first or last representable week, the computed
time has exactly that time of week, is a legal time and is within half a week of the rover time. -/
theorem C22_nearest_week (towMs : Nat) (rover : GpsTime) (h : towMs < 604800000) (hr : Valid rover)
    (h0 : 0 < rover.wn) (h1 : rover.wn < 32767) :
    ∃ t, computeGpsMessageTime towMs rover = some t ∧ Valid t ∧ t.tow * 1000 = towMs ∧
      |seconds t - seconds rover| ≤ 302400 := by
  obtain ⟨r0, r1, r2, r3⟩ := hr
  have hq : ((towMs : ℚ)) < 604800000 := by exact_mod_cast h
  have hp : (0 : ℚ) ≤ towMs := by positivity
  unfold computeGpsMessageTime
  simp only [weekMs, weekSecs, diff, sub_self, Int.cast_zero, zero_mul, add_zero]
  rw [if_neg (by omega)]
  split
  · refine ⟨_, rfl, ⟨by simp; omega, by simp; omega, by simp; positivity, by simp; linarith⟩, by simp, ?_⟩
    rename_i hc
    simp only [seconds]; push_cast
    rw [abs_le]; constructor <;> linarith [hc.1]
  · split
    · refine ⟨_, rfl, ⟨by simp; omega, by simp; omega, by simp; positivity, by simp; linarith⟩, by simp, ?_⟩
      rename_i hc
      simp only [seconds]; push_cast
      rw [abs_le]; constructor <;> linarith [hc.1]
    · refine ⟨_, rfl, ⟨by simp; omega, by simp; omega, by simp; positivity, by simp; linarith⟩, by simp, ?_⟩
      rename_i hc1 hc2
      simp only [seconds]
      have a1 : ¬ (towMs : ℚ) / 1000 - rover.tow < -604800 / 2 := fun hh => hc1 ⟨hh, by omega⟩
      have a2 : ¬ (towMs : ℚ) / 1000 - rover.tow > 604800 / 2 := fun hh => hc2 ⟨hh, by omega⟩
      rw [abs_le]; constructor <;> linarith

/-- C22: it is the only such time: any legal time with this time of week less than half a week away is the result. -/
theorem C22_unique (towMs : Nat) (rover t : GpsTime) (h : towMs < 604800000) (hr : Valid rover)
    (h0 : 0 < rover.wn) (h1 : rover.wn < 32767) (ht : t.tow * 1000 = towMs)
    (hd : |seconds t - seconds rover| < 302400) : computeGpsMessageTime towMs rover = some t := by
  obtain ⟨u, hu, -, hut, hud⟩ := C22_nearest_week towMs rover h hr h0 h1
  rw [hu]; congr 1
  have e : u.tow = t.tow := by linarith
  have : (u.wn : ℚ) = t.wn := by
    rw [abs_lt] at hd; rw [abs_le] at hud
    simp only [seconds] at hd hud
    have l1 : (u.wn : ℚ) - t.wn < 1 := by linarith
    have l2 : (-1 : ℚ) < (u.wn : ℚ) - t.wn := by linarith
    have l1' : u.wn - t.wn < 1 := by exact_mod_cast l1
    have l2' : -1 < u.wn - t.wn := by exact_mod_cast l2
    have : u.wn = t.wn := by omega
    rw [this]
  have : u.wn = t.wn := by exact_mod_cast this
  cases u; cases t; simp_all

/-- C22, first and last representable week: still a legal time with the given time of week, never wrapping the week
counter. -/
theorem C22_edge_weeks (towMs : Nat) (rover : GpsTime) (h : towMs < 604800000) (hr : Valid rover) :
    ∃ t, computeGpsMessageTime towMs rover = some t ∧ Valid t ∧ t.tow * 1000 = towMs ∧ |t.wn - rover.wn| ≤ 1 := by
  obtain ⟨r0, r1, r2, r3⟩ := hr
  have hq : ((towMs : ℚ)) < 604800000 := by exact_mod_cast h
  have hp : (0 : ℚ) ≤ towMs := by positivity
  unfold computeGpsMessageTime
  simp only [weekMs, weekSecs, diff, sub_self, Int.cast_zero, zero_mul, add_zero]
  rw [if_neg (by omega)]
  split
  · rename_i hc
    refine ⟨_, rfl, ⟨by simp; omega, by simp; omega, by simp; positivity, by simp; linarith⟩, by simp, by simp⟩
  · split
    · rename_i hc
      refine ⟨_, rfl, ⟨by simp; omega, by simp; omega, by simp; positivity, by simp; linarith⟩, by simp, by simp⟩
    · refine ⟨_, rfl, ⟨by simp; omega, by simp; omega, by simp; positivity, by simp; linarith⟩, by simp, by simp⟩

/-- C22: a time of week of one week or more is refused. -/
theorem C22_rejects (towMs : Nat) (rover : GpsTime) (h : 604800000 ≤ towMs) : computeGpsMessageTime towMs rover = none := by
  unfold computeGpsMessageTime; rw [if_pos (by simpa [weekMs] using h)]

example : computeGpsMessageTime 1000 ⟨2100, 604790⟩ = some ⟨2101, 1⟩ := by decide +kernel
example : computeGpsMessageTime 604790000 ⟨2100, 3⟩ = some ⟨2099, 604790⟩ := by decide +kernel

/-! ### GLONASS -/

theorem normalize_some {t t' : GpsTime} (h : normalize t = some t') : Valid t' ∧ seconds t' = seconds t := by
  unfold normalize at h
  simp only [weekSecs] at h
  split at h
  · rename_i hc
    simp only [Option.some.injEq] at h
    subst h
    have f1 := Int.floor_le (t.tow / 604800)
    have f2 := Int.lt_floor_add_one (t.tow / 604800)
    rw [le_div_iff₀ (by norm_num)] at f1
    rw [div_lt_iff₀ (by norm_num)] at f2
    refine ⟨⟨hc.1, hc.2, by simp; linarith, by simp; linarith⟩, ?_⟩
    simp only [seconds]; push_cast; ring
  · simp at h

theorem normalize_total {t : GpsTime} (h0 : 0 ≤ seconds t) (h1 : seconds t < 32768 * 604800) :
    ∃ t', normalize t = some t' := by
  unfold normalize
  simp only [weekSecs]
  have f1 := Int.floor_le (t.tow / 604800)
  have f2 := Int.lt_floor_add_one (t.tow / 604800)
  rw [le_div_iff₀ (by norm_num)] at f1
  rw [div_lt_iff₀ (by norm_num)] at f2
  simp only [seconds] at h0 h1
  have a : (-1 : ℚ) < ((t.wn + ⌊t.tow / 604800⌋ : Int) : ℚ) := by push_cast; linarith
  have b : ((t.wn + ⌊t.tow / 604800⌋ : Int) : ℚ) < 32768 := by push_cast; linarith
  have a' : -1 < t.wn + ⌊t.tow / 604800⌋ := by exact_mod_cast a
  have b' : t.wn + ⌊t.tow / 604800⌋ < 32768 := by exact_mod_cast b
  exact ⟨_, if_pos ⟨by omega, by omega⟩⟩

/-- two legal times with the same number of seconds are equal -/
theorem valid_ext {a b : GpsTime} (ha : Valid a) (hb : Valid b) (h : seconds a = seconds b) : a = b := by
  obtain ⟨-, -, a0, a1⟩ := ha
  obtain ⟨-, -, b0, b1⟩ := hb
  simp only [seconds] at h
  have l1 : (a.wn : ℚ) - b.wn < 1 := by linarith
  have l2 : (-1 : ℚ) < (a.wn : ℚ) - b.wn := by linarith
  have l1' : a.wn - b.wn < 1 := by exact_mod_cast l1
  have l2' : -1 < a.wn - b.wn := by exact_mod_cast l2
  have e : a.wn = b.wn := by omega
  rw [e] at h
  cases a; cases b; simp_all

/-- the value before the day-rollover correction -/
theorem glo_t0 (todMs : Nat) (rover : GpsTime) (leap : Int) :
    let towMs : Int := ⌊rover.tow / daySecs⌋ * dayMs + ((todMs : Int) - 3 * 3600 * 1000) + leap * 1000
    seconds (if towMs < 0 then ⟨rover.wn - 1, ((towMs + weekMs : Int) : ℚ) / 1000⟩ else ⟨rover.wn, (towMs : ℚ) / 1000⟩)
      = (rover.wn : ℚ) * 604800 + (⌊rover.tow / 86400⌋ : ℚ) * 86400 + (todMs : ℚ) / 1000 - 10800 + leap := by
  intro towMs
  have e : (towMs : ℚ) / 1000 = (⌊rover.tow / 86400⌋ : ℚ) * 86400 + (todMs : ℚ) / 1000 - 10800 + leap := by
    simp only [towMs, daySecs, dayMs]; push_cast; ring
  split
  · simp only [seconds]; push_cast [weekMs]; linarith
  · simp only [seconds]; linarith

/-- C23: a GLONASS time of day is converted to a legal GPS time within twelve hours of the reference, equal to the time
of day minus three hours plus the leap seconds up to a whole number of days. -/
theorem C23_glo_time (todMs : Nat) (rover : GpsTime) (leap : Int) (hl : -128 ≤ leap ∧ leap ≤ 127) (t : GpsTime)
    (h : computeGloTime todMs rover (some leap) = some t) :
    Valid t ∧ |seconds t - seconds rover| ≤ 43200 ∧
      ∃ k : Int, seconds t = (todMs : ℚ) / 1000 - 3 * 3600 + leap + 86400 * k := by
  unfold computeGloTime at h
  simp only at h
  split at h
  · simp at h
  split at h
  · simp at h
  rename_i htod hr
  have hr : rover.valid := not_not.mp hr
  obtain ⟨r0, r1, r2, r3⟩ := hr
  have h0 := glo_t0 todMs rover leap
  simp only at h0
  split at h
  · simp at h
  rename_i t1 ht1
  obtain ⟨hv, hs⟩ := normalize_some ht1
  rw [h0] at hs
  have f1 := Int.floor_le (rover.tow / 86400)
  have f2 := Int.lt_floor_add_one (rover.tow / 86400)
  rw [le_div_iff₀ (by norm_num)] at f1
  rw [div_lt_iff₀ (by norm_num)] at f2
  have q1 : (todMs : ℚ) < 86401000 := by
    have : todMs < 86401000 := by omega
    exact_mod_cast this
  have q0 : (0 : ℚ) ≤ todMs := by positivity
  have l0 : (-128 : ℚ) ≤ leap := by exact_mod_cast hl.1
  have l1 : (leap : ℚ) ≤ 127 := by exact_mod_cast hl.2
  rw [diff_seconds] at h
  have hsr : seconds rover = (rover.wn : ℚ) * 604800 + rover.tow := rfl
  split at h
  · rename_i hbig
    obtain ⟨hv', hs'⟩ := normalize_some h
    refine ⟨hv', ?_, ?_⟩
    · rw [hs']
      have e : seconds ⟨t1.wn, t1.tow + (if seconds t1 - seconds rover < 0 then 1 else -1) * daySecs⟩
          = seconds t1 + (if seconds t1 - seconds rover < 0 then 1 else -1) * 86400 := by
        simp only [seconds, daySecs]; ring
      rw [e]
      split
      · rename_i hneg
        rw [abs_of_neg hneg] at hbig
        simp only [daySecs] at hbig
        rw [abs_le]; constructor <;> linarith
      · rename_i hpos
        rw [abs_of_nonneg (not_lt.mp hpos)] at hbig
        simp only [daySecs] at hbig
        rw [abs_le]; constructor <;> linarith
    · refine ⟨rover.wn * 7 + ⌊rover.tow / 86400⌋ + (if seconds t1 - seconds rover < 0 then 1 else -1), ?_⟩
      rw [hs']
      have e : seconds ⟨t1.wn, t1.tow + (if seconds t1 - seconds rover < 0 then 1 else -1) * daySecs⟩
          = seconds t1 + (if seconds t1 - seconds rover < 0 then 1 else -1) * 86400 := by
        simp only [seconds, daySecs]; ring
      rw [e, hs]
      split <;> (push_cast; ring)
  · rename_i hsmall
    simp only [Option.some.injEq] at h
    subst h
    refine ⟨hv, by simpa [daySecs] using (not_lt.mp hsmall).trans (by norm_num [daySecs]), rover.wn * 7 + ⌊rover.tow / 86400⌋, ?_⟩
    rw [hs]; push_cast; ring

/-- C23: the conversion succeeds for every legal time of day whenever the leap seconds are known and the reference is
neither in the first nor in the last three days of the representable range. -/
theorem C23_glo_total (todMs : Nat) (rover : GpsTime) (leap : Int) (hl : -128 ≤ leap ∧ leap ≤ 127)
    (ht : todMs < 86401000) (hr : Valid rover) (h0 : 259200 ≤ seconds rover) (h1 : seconds rover < 32768 * 604800 - 259200) :
    ∃ t, computeGloTime todMs rover (some leap) = some t := by
  obtain ⟨r0, r1, r2, r3⟩ := hr
  unfold computeGloTime
  simp only
  rw [if_neg (by omega), if_neg (not_not.mpr ⟨r0, r1, r2, r3⟩)]
  have hs0 := glo_t0 todMs rover leap
  simp only at hs0
  have f1 := Int.floor_le (rover.tow / 86400)
  have f2 := Int.lt_floor_add_one (rover.tow / 86400)
  rw [le_div_iff₀ (by norm_num)] at f1
  rw [div_lt_iff₀ (by norm_num)] at f2
  have q1 : (todMs : ℚ) < 86401000 := by exact_mod_cast ht
  have q0 : (0 : ℚ) ≤ todMs := by positivity
  have l0 : (-128 : ℚ) ≤ leap := by exact_mod_cast hl.1
  have l1 : (leap : ℚ) ≤ 127 := by exact_mod_cast hl.2
  have hsr : seconds rover = (rover.wn : ℚ) * 604800 + rover.tow := rfl
  obtain ⟨t1, e1⟩ := normalize_total (t := _) (by rw [hs0]; linarith) (by rw [hs0]; linarith)
  rw [e1]
  simp only
  obtain ⟨hv, hs⟩ := normalize_some e1
  rw [hs0] at hs
  split
  · apply normalize_total
    · have e : seconds ⟨t1.wn, t1.tow + (if diff t1 rover < 0 then 1 else -1) * daySecs⟩
          = seconds t1 + (if diff t1 rover < 0 then 1 else -1) * 86400 := by simp only [seconds, daySecs]; ring
      rw [e, hs]; split <;> linarith
    · have e : seconds ⟨t1.wn, t1.tow + (if diff t1 rover < 0 then 1 else -1) * daySecs⟩
          = seconds t1 + (if diff t1 rover < 0 then 1 else -1) * 86400 := by simp only [seconds, daySecs]; ring
      rw [e, hs]; split <;> linarith
  · exact ⟨_, rfl⟩

/-- C23: without a known leap second count no GLONASS time is produced. -/
theorem C23_glo_needs_leap (todMs : Nat) (rover : GpsTime) : computeGloTime todMs rover none = none := rfl

theorem cround_int (n : Int) : cround (n : ℚ) = n := by
  unfold cround
  split
  · rw [Int.floor_eq_iff]; constructor <;> linarith
  · rw [neg_eq_iff_eq_neg, Int.floor_eq_iff]; push_cast; constructor <;> linarith

/-- C23: the GLONASS time of week sent for a GPS time of week is that time plus three hours minus the leap seconds,
modulo one week, and lies within one week. -/
theorem C23_glo_tow (gpsTowMs : Nat) (leap : Int) (h : gpsTowMs < 604800000) (hl : -128 ≤ leap ∧ leap ≤ 127) :
    computeGloTowMs gpsTowMs (some leap) < 604800000 ∧
      ((computeGloTowMs gpsTowMs (some leap) : Int) = (gpsTowMs + 3 * 3600 * 1000 - leap * 1000) % 604800000) := by
  unfold computeGloTowMs
  simp only [weekSecs, weekMs]
  refine ⟨Nat.mod_lt _ (by norm_num), ?_⟩
  have e0 : (gpsTowMs : ℚ) / 1000 + 3 * 3600 - leap = (((gpsTowMs : Int) + 10800000 - leap * 1000 : Int) : ℚ) / 1000 := by
    push_cast; ring
  rw [e0]
  generalize hg : ((gpsTowMs : Int) + 10800000 - leap * 1000 : Int) = g
  have hg' : ((gpsTowMs : Int) + 3 * 3600 * 1000 - leap * 1000 : Int) = g := by omega
  rw [hg']
  have c1 : ((g : ℚ) / 1000 < 0) ↔ g < 0 := by
    rw [div_neg_iff]; simp [not_lt.mpr]; 
  by_cases hn : g < 0
  · rw [if_pos (c1.mpr hn)]
    have : ¬ ((g : ℚ) / 1000 + 604800 ≥ 604800) := by
      have := c1.mpr hn
      linarith
    rw [if_neg this]
    have e : ((g : ℚ) / 1000 + 604800) * 1000 = ((g + 604800000 : Int) : ℚ) := by push_cast; ring
    rw [e, cround_int]; omega
  · rw [if_neg (fun hh => hn (c1.mp hh))]
    by_cases hb : g < 604800000
    · have : ¬ ((g : ℚ) / 1000 ≥ 604800) := by
        have : (g : ℚ) < 604800000 := by exact_mod_cast hb
        linarith
      rw [if_neg this]
      have e : (g : ℚ) / 1000 * 1000 = (g : ℚ) := by ring
      rw [e, cround_int]; omega
    · have : ((g : ℚ) / 1000 ≥ 604800) := by
        have : (604800000 : ℚ) ≤ g := by exact_mod_cast (not_lt.mp hb)
        linarith
      rw [if_pos this]
      have e : ((g : ℚ) / 1000 - 604800) * 1000 = ((g - 604800000 : Int) : ℚ) := by push_cast; ring
      rw [e, cround_int]; omega

/-- C23: a GPS time sent as a GLONASS time of day (the time of week modulo one day) by this software and read back with
the same leap seconds and a reference less than twelve hours away is the same GPS time. -/
theorem C23_glo_roundtrip (t rover : GpsTime) (towMs : Nat) (leap : Int) (hl : -128 ≤ leap ∧ leap ≤ 127)
    (ht : Valid t) (htow : t.tow * 1000 = towMs) (hr : Valid rover) (hd : |seconds t - seconds rover| < 43200)
    (h0 : 259200 ≤ seconds rover) (h1 : seconds rover < 32768 * 604800 - 259200) :
    computeGloTime (computeGloTowMs towMs (some leap) % 86400000) rover (some leap) = some t := by
  have hlt : towMs < 604800000 := by
    have := ht.2.2.2
    have : (towMs : ℚ) < 604800000 := by linarith
    exact_mod_cast this
  obtain ⟨-, hg⟩ := C23_glo_tow towMs leap hlt hl
  obtain ⟨u, hu⟩ := C23_glo_total (computeGloTowMs towMs (some leap) % 86400000) rover leap hl
    (by have := Nat.mod_lt (computeGloTowMs towMs (some leap)) (show 86400000 > 0 by norm_num); omega) hr h0 h1
  obtain ⟨hv, hn, k, hk⟩ := C23_glo_time _ rover leap hl u hu
  rw [hu]; congr 1
  apply valid_ext hv ht
  -- both are congruent modulo one day and less than a day apart
  obtain ⟨q, hq⟩ : ∃ q : Int, ((computeGloTowMs towMs (some leap) % 86400000 : Nat) : Int)
      = (towMs : Int) + 10800000 - leap * 1000 + 86400000 * q := by
    refine ⟨-(7 * ((towMs + 3 * 3600 * 1000 - leap * 1000) / 604800000) + ((computeGloTowMs towMs (some leap) : Int) / 86400000)), ?_⟩
    push_cast; omega
  have hq' : ((computeGloTowMs towMs (some leap) % 86400000 : Nat) : ℚ) = (towMs : ℚ) + 10800000 - leap * 1000 + 86400000 * q := by
    have := congrArg (fun z : Int => (z : ℚ)) hq
    push_cast at this ⊢
    exact this
  rw [hq'] at hk
  have e : seconds u - seconds t = 86400 * ((k + q - 7 * t.wn : Int) : ℚ) := by
    rw [hk]; simp only [seconds]; push_cast; linarith
  rw [abs_lt] at hd
  rw [abs_le] at hn
  have l1 : ((k + q - 7 * t.wn : Int) : ℚ) < 1 := by linarith
  have l2 : (-1 : ℚ) < ((k + q - 7 * t.wn : Int) : ℚ) := by linarith
  have l1' : (k + q - 7 * t.wn : Int) < 1 := by exact_mod_cast l1
  have l2' : -1 < (k + q - 7 * t.wn : Int) := by exact_mod_cast l2
  have z : k + q - 7 * t.wn = 0 := by omega
  rw [z] at e
  simpa [sub_eq_zero] using e

/-- C23 (bug): with unknown leap seconds the sender still produces a time of week, `(uint32_t)-1`, which is beyond one
week (gnss_converters_extra/src/sbp_rtcm3.c:481-483 and its caller at :516-519 does not test for it). -/
theorem C23_glo_tow_unknown_leap_bug (t : Nat) : ¬ computeGloTowMs t none < 604800000 := by
  simp [computeGloTowMs]

/-- C23: BeiDou and GPS times of week convert into each other: both directions are inverse and stay within one week. -/
theorem C23_bds (t : Nat) (h : t < 604800000) :
    gpsTowToBeidouTow (beidouTowToGpsTow t) = t ∧ beidouTowToGpsTow (gpsTowToBeidouTow t) = t ∧
      beidouTowToGpsTow t < 604800000 ∧ gpsTowToBeidouTow t < 604800000 ∧
      beidouTowToGpsTow t = (t + 14000) % 604800000 := by
  unfold gpsTowToBeidouTow beidouTowToGpsTow
  simp only [weekMs]
  refine ⟨?_, ?_, ?_, ?_, ?_⟩ <;> split_ifs <;> omega

example : computeGloTime 10818000 ⟨2100, 5⟩ (some 18) = some ⟨2100, 36⟩ := by decide +kernel
example : computeGloTime 86000000 ⟨2100, 86405⟩ (some 18) = some ⟨2100, 75218⟩ := by decide +kernel
example : ∃ t rover : GpsTime, Valid t ∧ Valid rover ∧ t.tow * 1000 = (36000 : Nat) ∧ t.wn ≠ rover.wn ∧
    |seconds t - seconds rover| < 43200 ∧ 259200 ≤ seconds rover ∧ seconds rover < 32768 * 604800 - 259200 ∧
    computeGloTime (computeGloTowMs 36000 (some 18) % 86400000) rover (some 18) = some t :=
  ⟨⟨2100, 36⟩, ⟨2099, 604700⟩, by norm_num [Valid], by norm_num [Valid], by norm_num, by decide,
    by norm_num [seconds, abs_lt], by norm_num [seconds], by norm_num [seconds], by decide +kernel⟩
example : computeGloTowMs 36000 (some 18) = 10818000 := by decide +kernel

end Verif.Time
