import Verif.Model.Num
/-
GPS time (libswiftnav `gps_time_t`, not in the tree) and the time reconstruction functions of
gnss_converters/src/rtcm3_sbp.c:1185-1268 and gnss_converters_extra/src/sbp_rtcm3.c:397-403,479-501.
Assumptions on libswiftnav (DESIGN.md): `gps_time_valid`, `gpsdifftime` and `normalize_gps_time_safe` are as modelled.
`double` seconds are exact rationals.
-/
namespace Verif.Time

/-- WEEK_SECS, DAY_SECS -/
abbrev weekSecs : ℚ := 604800
abbrev daySecs : ℚ := 86400
abbrev weekMs : Nat := 604800000
abbrev dayMs : Nat := 86400000

/-- `gps_time_t`: week number (s16, -1 = WN_UNKNOWN) and time of week in seconds -/
structure GpsTime where
  wn : Int
  tow : ℚ
deriving DecidableEq

/-- GPS_TIME_UNKNOWN and the initial values of rtcm3_sbp.c:92-93,104-111 -/
def GpsTime.unknown : GpsTime := ⟨-1, 0⟩

/-- `gps_time_valid` (libswiftnav); the upper bound is that `wn` is a `s16` -/
def GpsTime.valid (t : GpsTime) : Prop := 0 ≤ t.wn ∧ t.wn ≤ 32767 ∧ 0 ≤ t.tow ∧ t.tow < weekSecs
instance (t : GpsTime) : Decidable t.valid := inferInstanceAs (Decidable (_ ∧ _ ∧ _ ∧ _))

/-- `gpsdifftime(end, beginning)` (libswiftnav) for known weeks -/
def diff (a b : GpsTime) : ℚ := a.tow - b.tow + ((a.wn - b.wn : Int) : ℚ) * weekSecs

/-- `normalize_gps_time_safe` (libswiftnav): `none` is the return value false -/
def normalize (t : GpsTime) : Option GpsTime :=
  let w := t.wn + ⌊t.tow / weekSecs⌋
  if 0 ≤ w ∧ w ≤ 32767 then some ⟨w, t.tow - (⌊t.tow / weekSecs⌋ : ℚ) * weekSecs⟩ else none

/-- `compute_gps_message_time`, for a valid rover time (the code asserts it)   rtcm3_sbp.c:1185-1204.
`none`: `wn` is set to WN_UNKNOWN. -/
def computeGpsMessageTime (towMs : Nat) (rover : GpsTime) : Option GpsTime :=
  if towMs ≥ weekMs then none
  else
    let tow : ℚ := (towMs : ℚ) / 1000
    let timediff := diff ⟨rover.wn, tow⟩ rover
    if timediff < -weekSecs / 2 ∧ rover.wn ≠ 32767 then some ⟨rover.wn + 1, tow⟩
    else if timediff > weekSecs / 2 ∧ rover.wn ≠ 0 then some ⟨rover.wn - 1, tow⟩
    else some ⟨rover.wn, tow⟩

/-- `compute_glo_time`; `none` is the return value false (callers then see an invalid time or return)
rtcm3_sbp.c:1226-1268.  `leap` is `some leap_seconds` when `leap_second_known`.  `UTC_SU_OFFSET` is 3 hours. -/
def computeGloTime (todMs : Nat) (rover : GpsTime) (leap : Option Int) : Option GpsTime :=
  match leap with
  | none => none
  | some leap =>
    if todMs ≥ (86400 + 1) * 1000 then none
    else if ¬ rover.valid then none
    else
      let dow : Int := ⌊rover.tow / daySecs⌋
      let towMs : Int := dow * dayMs + ((todMs : Int) - 3 * 3600 * 1000) + leap * 1000
      let t0 : GpsTime :=
        if towMs < 0 then ⟨rover.wn - 1, ((towMs + weekMs : Int) : ℚ) / 1000⟩ else ⟨rover.wn, (towMs : ℚ) / 1000⟩
      match normalize t0 with
      | none => none
      | some t1 =>
        let timediff := diff t1 rover
        if |timediff| > daySecs / 2 then
          normalize ⟨t1.wn, t1.tow + (if timediff < 0 then 1 else -1) * daySecs⟩
        else some t1

/-- `beidou_tow_to_gps_tow`   rtcm3_sbp.c:1206-1212 -/
def beidouTowToGpsTow (towMs : Nat) : Nat :=
  let t := towMs + 14 * 1000
  if t ≥ weekMs then t - weekMs else t
/-- `gps_tow_to_beidou_tow`   gnss_converters_extra/src/sbp_rtcm3.c:397-403 -/
def gpsTowToBeidouTow (towMs : Nat) : Nat :=
  (if towMs < 14 * 1000 then towMs + weekMs else towMs) - 14 * 1000

/-- `compute_glo_tow_ms`; `none`: leap second unknown, the C function returns `(uint32_t)-1`
gnss_converters_extra/src/sbp_rtcm3.c:479-501 (the assertion holds whenever the input is below one week) -/
def computeGloTowMs (gpsTowMs : Nat) (leap : Option Int) : Nat :=
  match leap with
  | none => 4294967295
  | some leap =>
    let g0 : ℚ := (gpsTowMs : ℚ) / 1000 + 3 * 3600 - leap
    let g1 := if g0 < 0 then g0 + weekSecs else g0
    let g2 := if g1 ≥ weekSecs then g1 - weekSecs else g1
    (cround (g2 * 1000)).toNat % weekMs

end Verif.Time
