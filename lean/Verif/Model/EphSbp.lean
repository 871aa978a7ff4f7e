import Verif.Model.Eph
import Verif.Model.Accuracy
import Verif.Model.GpsTime
/-
Ephemerides: RTCM to SBP (gnss_converters/src/rtcm3_sbp_ephemeris.c:103-395) and SBP to RTCM
(gnss_converters_extra/src/sbp_rtcm3_ephemeris.c:21-320).  `float` and `double` arithmetic is rounded (Model/Float);
`C_1_2Pn` (libswiftnav) is 2^-n exactly; conversions of a rounded value to an integer type are modelled as the identity (the
theorems show the values to be in range).  The SBP fields `float`/`double` are those of libsbp.
-/
namespace Verif.EphSbp
open Verif.Fp Verif.Time

/-- `M_PI`, the double nearest to pi -/
def mPi : ℚ := 884279719003555 / 281474976710656

/-- `sbp_gps_time_sec_t` -/
structure TimeSec where
  wn : Nat
  tow : Nat
deriving DecidableEq

/-- the Keplerian SBP ephemeris messages (GPS, QZSS, Galileo, BeiDou); `tgd0`, `tgd1` are tgd / bgd_e1e5a, bgd_e1e5b / tgd1,
tgd2 -/
structure SbpKep where
  toe : TimeSec
  sat : Nat
  ura : ℚ
  fit : Nat
  valid : Bool
  health : Nat
  tgd0 : ℚ
  tgd1 : ℚ
  crs : ℚ
  crc : ℚ
  cuc : ℚ
  cus : ℚ
  cic : ℚ
  cis : ℚ
  dn : ℚ
  m0 : ℚ
  ecc : ℚ
  sqrta : ℚ
  omega0 : ℚ
  omegadot : ℚ
  w : ℚ
  inc : ℚ
  incDot : ℚ
  af0 : ℚ
  af1 : ℚ
  af2 : ℚ
  iode : Nat
  iodc : Nat
  toc : TimeSec
  /-- Galileo only -/
  source : Nat := 0
deriving DecidableEq

/-! ### libswiftnav time functions (external) -/

/-- GPS_WEEK_REFERENCE is a parameter; `gps_adjust_week_cycle`: the first week from the reference on that agrees modulo
1024 -/
def adjustWeek (ref wn : Nat) : Nat := if wn ≥ ref then wn else wn + 1024 * ((ref + 1023 - wn) / 1024)

/-- `gps_time_match_weeks_safe`: the week of `ref`, or the next or previous one if that is nearer; `none` = false -/
def matchWeeks (tow : Nat) (ref : GpsTime) : Option Int :=
  if ¬ ref.valid then none
  else
    let dt : ℚ := (tow : ℚ) - ref.tow
    some (if dt > weekSecs / 2 then ref.wn - 1 else if dt < -(weekSecs / 2) then ref.wn + 1 else ref.wn)

/-- `gps_time_sec_match_weeks`   rtcm3_sbp_ephemeris.c:103-114 -/
def timeSecMatch (tow : Nat) (ref : GpsTime) : Option TimeSec :=
  match matchWeeks tow ref with
  | none => none
  | some wn => if GpsTime.valid ⟨wn, tow⟩ then some ⟨wn.toNat, tow⟩ else none

/-! ### field scaling -/

/-- `(float)(x * C_1_2Pn)` -/
def scF (n : Nat) (x : Int) : ℚ := f32 (f64 ((x : ℚ) * 2 ^ (-(n : Int))))
/-- `x * C_1_2Pn` in double -/
def scD (n : Nat) (x : Int) : ℚ := f64 ((x : ℚ) * 2 ^ (-(n : Int)))
/-- `x * C_1_2Pn * M_PI` -/
def scA (n : Nat) (x : Int) : ℚ := f64 (f64 ((x : ℚ) * 2 ^ (-(n : Int))) * mPi)
/-- `round(x / C_1_2Pn)` -/
def unsc (n : Nat) (x : ℚ) : Int := cround (f64 (x / 2 ^ (-(n : Int))))
/-- `round(x / (C_1_2Pn * M_PI))` -/
def unscA (n : Nat) (x : ℚ) : Int := cround (f64 (x / f64 ((2 : ℚ) ^ (-(n : Int)) * mPi)))
/-- `1e-10` -/
def tenth10 : ℚ := f64 (1 / 10 ^ 10)
/-- `(float)(x * 1e-10)` -/
def scT (x : Int) : ℚ := f32 (f64 ((x : ℚ) * tenth10))
/-- `round(x / 1e-10)` -/
def unscT (x : ℚ) : Int := cround (f64 (x / tenth10))

/-! ### RTCM to SBP -/

/-- `rtcm3_gps_eph_to_sbp`   rtcm3_sbp_ephemeris.c:116-172 (`adjustWeek` is overwritten by the week matching) -/
def gpsToSbp (m : KepEph) (rover : GpsTime) : Option SbpKep :=
  match timeSecMatch (m.toe * 16) rover, timeSecMatch (m.toc * 16) rover with
  | some toe, some toc => some
    { toe, sat := m.satId, ura := Acc.uraToUri m.ura, fit := Acc.decodeFitGps m.fitInterval m.iodc
      valid := decide (m.iodc &&& 0xFF = m.iode), health := m.healthBits
      tgd0 := scF 31 m.tgd0, tgd1 := 0
      crs := scF 5 m.crs, crc := scF 5 m.crc, cuc := scF 29 m.cuc, cus := scF 29 m.cus, cic := scF 29 m.cic, cis := scF 29 m.cis
      dn := scA 43 m.dn, m0 := scA 31 m.m0, ecc := scD 33 m.ecc, sqrta := scD 19 m.sqrta, omega0 := scA 31 m.omega0
      omegadot := scA 43 m.omegadot, w := scA 31 m.w, inc := scA 31 m.inc, incDot := scA 43 m.incDot
      af0 := scF 31 m.af0, af1 := scF 43 m.af1, af2 := scF 55 m.af2, iode := m.iode, iodc := m.iodc, toc }
  | _, _ => none

/-- `rtcm3_qzss_eph_to_sbp`   rtcm3_sbp_ephemeris.c:174-224; `weekRef` = GPS_WEEK_REFERENCE, `firstPrn` = QZS_FIRST_PRN -/
def qzssToSbp (weekRef firstPrn : Nat) (m : KepEph) : SbpKep :=
  { toe := ⟨adjustWeek weekRef m.wn, m.toe * 16⟩, sat := m.satId + firstPrn - 1, ura := Acc.uraToUri m.ura
    fit := Acc.decodeFitGps m.fitInterval m.iodc, valid := decide (m.iodc = m.iode), health := m.healthBits
    tgd0 := scF 31 m.tgd0, tgd1 := 0
    crs := scF 5 m.crs, crc := scF 5 m.crc, cuc := scF 29 m.cuc, cus := scF 29 m.cus, cic := scF 29 m.cic, cis := scF 29 m.cis
    dn := scA 43 m.dn, m0 := scA 31 m.m0, ecc := scD 33 m.ecc, sqrta := scD 19 m.sqrta, omega0 := scA 31 m.omega0
    omegadot := scA 43 m.omegadot, w := scA 31 m.w, inc := scA 31 m.inc, incDot := scA 43 m.incDot
    af0 := scF 31 m.af0, af1 := scF 43 m.af1, af2 := scF 55 m.af2, iode := m.iode, iodc := m.iodc
    toc := ⟨adjustWeek weekRef m.wn, m.toc * 16⟩ }

/-- `rtcm3_gal_eph_to_sbp`   rtcm3_sbp_ephemeris.c:282-344 -/
def galToSbp (m : KepEph) (source : Nat) (rover : GpsTime) : Option SbpKep :=
  match timeSecMatch (m.toe * 60) rover, timeSecMatch (m.toc * 60) rover with
  | some toe, some toc => some
    { toe, sat := m.satId, ura := Acc.sisaToMeters m.ura, fit := 4 * 3600, valid := true, health := m.healthBits
      tgd0 := scF 32 m.tgd0, tgd1 := scF 32 m.tgd1
      crs := scF 5 m.crs, crc := scF 5 m.crc, cuc := scF 29 m.cuc, cus := scF 29 m.cus, cic := scF 29 m.cic, cis := scF 29 m.cis
      dn := scA 43 m.dn, m0 := scA 31 m.m0, ecc := scD 33 m.ecc, sqrta := scD 19 m.sqrta, omega0 := scA 31 m.omega0
      omegadot := scA 43 m.omegadot, w := scA 31 m.w, inc := scA 31 m.inc, incDot := scA 43 m.incDot
      af0 := scD 34 m.af0, af1 := scD 46 m.af1, af2 := scF 59 m.af2, iode := m.iode, iodc := m.iode, toc, source }
  | _, _ => none

/-- `get_time_from_bds_wn_tow`   rtcm3_sbp_ephemeris.c:346-357 (`normalize_gps_time` of libswiftnav) -/
def bdsTime (weekRef wn tow : Nat) : TimeSec :=
  ⟨adjustWeek weekRef (wn + 1356 + (tow * 8 + 14) / 604800), (tow * 8 + 14) % 604800⟩

/-- `rtcm3_bds_eph_to_sbp`   rtcm3_sbp_ephemeris.c:359-415 -/
def bdsToSbp (weekRef : Nat) (m : KepEph) : SbpKep :=
  { toe := bdsTime weekRef m.wn m.toe, sat := m.satId, ura := Acc.bdsUraToMeters m.ura, fit := 3 * 3600, valid := true
    health := m.healthBits, tgd0 := scT m.tgd0, tgd1 := scT m.tgd1
    crs := scF 6 m.crs, crc := scF 6 m.crc, cuc := scF 31 m.cuc, cus := scF 31 m.cus, cic := scF 31 m.cic, cis := scF 31 m.cis
    dn := scA 43 m.dn, m0 := scA 31 m.m0, ecc := scD 33 m.ecc, sqrta := scD 19 m.sqrta, omega0 := scA 31 m.omega0
    omegadot := scA 43 m.omegadot, w := scA 31 m.w, inc := scA 31 m.inc, incDot := scA 43 m.incDot
    af0 := scD 33 m.af0, af1 := scF 50 m.af1, af2 := scF 66 m.af2, iode := m.iode, iodc := m.iodc
    toc := bdsTime weekRef m.wn m.toc }

/-- `sbp_msg_ephemeris_glo_t` -/
structure SbpGlo where
  toe : TimeSec
  sat : Nat
  ura : ℚ
  fit : Nat
  valid : Bool
  health : Nat
  gamma : ℚ
  tau : ℚ
  dTau : ℚ
  pos0 : ℚ
  pos1 : ℚ
  pos2 : ℚ
  vel0 : ℚ
  vel1 : ℚ
  vel2 : ℚ
  acc0 : ℚ
  acc1 : ℚ
  acc2 : ℚ
  fcn : Nat
  iod : Nat
deriving DecidableEq

/-- `x * C_1_2Pn * 1000` in double -/
def scK (n : Nat) (x : Int) : ℚ := f64 (f64 ((x : ℚ) * 2 ^ (-(n : Int))) * 1000)
/-- `round(x / C_1_2Pn / 1000)` -/
def unscK (n : Nat) (x : ℚ) : Int := cround (f64 (f64 (x / 2 ^ (-(n : Int))) / 1000))

/-- `rtcm3_glo_eph_to_sbp`   rtcm3_sbp_ephemeris.c:226-280 (a valid time is never the week INVALID_TIME; `fcn` is a
`uint8_t`) -/
def gloToSbp (m : GloEph) (rover : GpsTime) (leap : Option Int) : Option SbpGlo :=
  match computeGloTime (m.tB * 15 * 60 * 1000) rover leap with
  | none => none
  | some toe =>
    if m.satId = 0 then none
    else some
      { toe := ⟨toe.wn.toNat, (Fp.rne toe.tow).toNat⟩, sat := m.satId, ura := Acc.gloFtToMeters m.ura
        fit := Acc.decodeFitGlo m.fitInterval, valid := true, health := m.healthBits
        gamma := scF 40 m.gamma, tau := scF 30 m.tau, dTau := scF 30 m.dTau
        pos0 := scK 11 m.pos0, pos1 := scK 11 m.pos1, pos2 := scK 11 m.pos2
        vel0 := scK 20 m.vel0, vel1 := scK 20 m.vel1, vel2 := scK 20 m.vel2
        acc0 := f32 (scK 30 m.acc0), acc1 := f32 (scK 30 m.acc1), acc2 := f32 (scK 30 m.acc2)
        fcn := (m.fcn + 1) % 256, iod := (m.tB * 15 * 60) &&& 127 }

/-! ### SBP to RTCM -/

/-- `sbp_to_rtcm3_gps_eph`   sbp_rtcm3_ephemeris.c:28-86 (the week is that of `toc`, written last) -/
def sbpToGps (env : Acc.Env) (e : SbpKep) : KepEph :=
  { wn := e.toc.wn % 1024, toe := e.toe.tow / 16, satId := e.sat, ura := Acc.gpsUriToUra env e.ura
    fitInterval := Acc.encodeFitGps e.fit, codeL2 := 1, l2DataBit := 0, healthBits := e.health, tgd0 := unsc 31 e.tgd0
    crs := unsc 5 e.crs, crc := unsc 5 e.crc, cuc := unsc 29 e.cuc, cus := unsc 29 e.cus, cic := unsc 29 e.cic, cis := unsc 29 e.cis
    dn := unscA 43 e.dn, m0 := unscA 31 e.m0, ecc := (unsc 33 e.ecc).toNat, sqrta := (unsc 19 e.sqrta).toNat
    omega0 := unscA 31 e.omega0, omegadot := unscA 43 e.omegadot, w := unscA 31 e.w, inc := unscA 31 e.inc
    incDot := unscA 43 e.incDot, af0 := unsc 31 e.af0, af1 := unsc 43 e.af1, af2 := unsc 55 e.af2
    iode := e.iode, iodc := e.iodc, toc := e.toc.tow / 16 }

/-- `get_bds_wn_tow`   sbp_rtcm3_ephemeris.c:155-171 (`wn` is a `uint16_t`) -/
def getBdsWnTow (t : TimeSec) : Nat × Nat :=
  if t.tow > 14 then ((t.wn + 65536 - 1356) % 65536 % 8192, (cround (f64 (((t.tow : ℚ) - 14) / 8))).toNat)
  else ((t.wn + 65536 - 1356 - 1) % 65536 % 8192, (cround (f64 (((t.tow : ℚ) - 14 + 604800) / 8))).toNat)

/-- `sbp_to_rtcm3_bds_eph`   sbp_rtcm3_ephemeris.c:173-245 -/
def sbpToBds (env : Acc.Env) (e : SbpKep) : KepEph :=
  { satId := e.sat, wn := (getBdsWnTow e.toc).1, toe := (getBdsWnTow e.toe).2, ura := Acc.bdsUriToUra env e.ura
    healthBits := e.health, tgd0 := unscT e.tgd0, tgd1 := unscT e.tgd1
    crs := unsc 6 e.crs, crc := unsc 6 e.crc, cuc := unsc 31 e.cuc, cus := unsc 31 e.cus, cic := unsc 31 e.cic, cis := unsc 31 e.cis
    dn := unscA 43 e.dn, m0 := unscA 31 e.m0, ecc := (unsc 33 e.ecc).toNat, sqrta := (unsc 19 e.sqrta).toNat
    omega0 := unscA 31 e.omega0, omegadot := unscA 43 e.omegadot, w := unscA 31 e.w, inc := unscA 31 e.inc
    incDot := unscA 43 e.incDot, af0 := unsc 33 e.af0, af1 := unsc 50 e.af1, af2 := unsc 66 e.af2
    iode := e.iode, iodc := e.iodc, toc := (getBdsWnTow e.toc).2 }

/-- `sbp_to_rtcm3_gal_eph`   sbp_rtcm3_ephemeris.c:247-320 (`iode` is written twice, the second time with `iodc`; members
not written keep the default of `KepEph`: they are not transmitted) -/
def sbpToGal (e : SbpKep) : KepEph :=
  { wn := (e.toe.wn + 65536 - 1024) % 65536, toe := e.toe.tow / 60, satId := e.sat, ura := Acc.metersToSisa e.ura
    healthBits := e.health, tgd0 := unsc 32 e.tgd0, tgd1 := unsc 32 e.tgd1
    crs := unsc 5 e.crs, crc := unsc 5 e.crc, cuc := unsc 29 e.cuc, cus := unsc 29 e.cus, cic := unsc 29 e.cic, cis := unsc 29 e.cis
    dn := unscA 43 e.dn, m0 := unscA 31 e.m0, ecc := (unsc 33 e.ecc).toNat, sqrta := (unsc 19 e.sqrta).toNat
    omega0 := unscA 31 e.omega0, omegadot := unscA 43 e.omegadot, w := unscA 31 e.w, inc := unscA 31 e.inc
    incDot := unscA 43 e.incDot, af0 := unsc 34 e.af0, af1 := unsc 46 e.af1, af2 := unsc 59 e.af2
    iode := e.iodc, toc := e.toc.tow / 60 }

/-- `compute_glo_time_of_day`; `none`: leap second unknown, `t_b` is left as it was   sbp_rtcm3_ephemeris.c:88-105.  The
remainder of a negative number is negative in C. -/
def gloTimeOfDay (tow : Nat) (leap : Option Int) : Option Nat :=
  match leap with
  | none => none
  | some leap =>
    let tod0 : Int := ((tow : Int) - leap).tmod 86400 + 3 * 3600
    let tod := if tod0 > 86400 then tod0 - 86400 else tod0
    some ((tod.tdiv 900) % 256).toNat

/-- `sbp_to_rtcm3_glo_eph`   sbp_rtcm3_ephemeris.c:107-153; `junk`: the uninitialised `t_b` of the caller -/
def sbpToGlo (env : Acc.Env) (junk : Nat) (leap : Option Int) (e : SbpGlo) : GloEph :=
  let tod := gloTimeOfDay e.toe.tow leap
  { satId := e.sat, ura := Acc.gloUriToUra env e.ura, fitInterval := Acc.encodeFitGlo e.fit
    healthBits := if tod.isNone then 1 else e.health, tB := tod.getD junk
    gamma := unsc 40 e.gamma, tau := unsc 30 e.tau, dTau := unsc 30 e.dTau
    pos0 := unscK 11 e.pos0, pos1 := unscK 11 e.pos1, pos2 := unscK 11 e.pos2
    vel0 := unscK 20 e.vel0, vel1 := unscK 20 e.vel1, vel2 := unscK 20 e.vel2
    acc0 := unscK 30 e.acc0, acc1 := unscK 30 e.acc1, acc2 := unscK 30 e.acc2
    fcn := (e.fcn + 256 - 1) % 256 }

end Verif.EphSbp
