import Verif.Model.NmeaFmt
import Mathlib.Data.List.Sort
/-
SBP to NMEA conversion: gnss_converters/src/nmea.c and gnss_converters/src/sbp_nmea.c.
A C assertion that fails is `none`.
-/
namespace Verif.Nmea
open Verif.Fp

abbrev lit (s : String) : Str := s.toList

/-- libswiftnav constellation_t -/
inductive Con where
  | gps | sbas | glo | bds | qzs | gal | invalid
deriving DecidableEq

/-- sbp_v4_gnss_signal_t -/
structure Sid where
  sat : Nat
  code : Nat
deriving DecidableEq, Inhabited

/-- MSG_UTC_TIME(_GNSS) -/
structure Utc where
  flags : Nat := 0
  tow : Nat := 0
  year : Nat := 0
  month : Nat := 0
  day : Nat := 0
  hours : Nat := 0
  minutes : Nat := 0
  seconds : Nat := 0
  ns : Nat := 0
deriving DecidableEq

/-- week number and time of week [ms]: MSG_GPS_TIME(_GNSS), observation times -/
structure GpsT where
  wn : Nat := 0
  tow : Nat := 0
deriving DecidableEq

/-- MSG_POS_LLH_COV(_GNSS) -/
structure Pos where
  tow : Nat := 0
  lat : Dbl := .fin 0
  lon : Dbl := .fin 0
  height : Dbl := .fin 0
  covNN : Dbl := .fin 0
  covNE : Dbl := .fin 0
  covEE : Dbl := .fin 0
  covDD : Dbl := .fin 0
  nSats : Nat := 0
  flags : Nat := 0
deriving DecidableEq

/-- MSG_VEL_NED(_GNSS), mm/s -/
structure Vel where
  tow : Nat := 0
  n : Int := 0
  e : Int := 0
  d : Int := 0
  flags : Nat := 0
deriving DecidableEq

/-- MSG_DOPS -/
structure Dops where
  tow : Nat := 0
  pdop : Nat := 0
  hdop : Nat := 0
  vdop : Nat := 0
  tdop : Nat := 0
  flags : Nat := 0
deriving DecidableEq

/-- MSG_AGE_CORRECTIONS -/
structure Age where
  tow : Nat := 0
  age : Nat := 0
deriving DecidableEq

/-- MSG_BASELINE_HEADING -/
structure Hdg where
  tow : Nat := 0
  heading : Nat := 0
  flags : Nat := 0
deriving DecidableEq

/-- element of MSG_SV_AZ_EL -/
structure AzEl where
  sid : Sid
  az : Nat
  el : Int
deriving DecidableEq

/-- element of MSG_MEASUREMENT_STATE -/
structure MeasState where
  mesid : Sid
  cn0 : Nat
deriving DecidableEq

/-- MSG_SOLN_META -/
structure SolnMeta where
  tow : Nat := 0
  hdop : Nat := 0
  vdop : Nat := 0
  age : Nat := 0
deriving DecidableEq

/-- MSG_ORIENT_EULER, microdegrees -/
structure Orient where
  tow : Nat := 0
  yaw : Int := 0
  flags : Nat := 0
deriving DecidableEq

/-- An SBP navigation message with the identifier it is passed under (sbp_nmea.h:45-63).  `gnss` tells the *_GNSS variant
from the one of the fused solution. -/
inductive Msg where
  | gpsTime (gnss : Bool) (m : GpsT)
  | utc (gnss : Bool) (m : Utc)
  | pos (gnss : Bool) (m : Pos)
  | vel (gnss : Bool) (m : Vel)
  | dops (m : Dops)
  | age (m : Age)
  | hdg (m : Hdg)
  | azel (m : List AzEl)
  | meas (m : List MeasState)
  | groupMeta
  | solnMeta (m : SolnMeta)
  | orient (m : Orient)
deriving DecidableEq

/-- sbp_nmea.h:31-43 -/
inductive NmeaId where
  | gga | rmc | vtg | hdt | gll | zda | gsa | gst | gsv | pubx | ths
deriving DecidableEq

def NmeaId.all : List NmeaId := [.gga, .rmc, .vtg, .hdt, .gll, .zda, .gsa, .gst, .gsv, .pubx, .ths]

/-- sbp_nmea.h:70-74 -/
inductive Mode where
  | best | gnss | fused
deriving DecidableEq

/-- the last message received under each identifier (sbp_nmea.h:91 sbp_state); all zero initially -/
structure Store where
  gpsTime : Bool → GpsT := fun _ => {}
  utc : Bool → Utc := fun _ => {}
  pos : Bool → Pos := fun _ => {}
  vel : Bool → Vel := fun _ => {}
  dops : Dops := {}
  age : Age := {}
  hdg : Hdg := {}
  azel : List AzEl := []
  meas : List MeasState := []
  solnMeta : SolnMeta := {}
  orient : Orient := {}

/-- sbp_nmea.h:76-109 sbp2nmea_t (the unused fused_wagon_seen_msgs and the callback context are left out) -/
structure St where
  numObs : Nat := 0
  obsSeqCount : Nat := 0
  obsSeqTotal : Nat := 0
  navSids : List Sid := []
  obsTime : GpsT := {}
  requested : Mode
  actual : Mode := .gnss
  wagonComplete : Bool := false
  baseId : Nat := 0
  lastTow : NmeaId → Nat := fun _ => 0
  rate : NmeaId → Nat := fun _ => 0
  store : Store := {}
  solnFreq : ℚ := 0
  cogThreshold : ℚ
  cogUpdateThreshold : ℚ
  lastCog : ℚ := 0

/-- Functions of the C library and of libswiftnav, and the formulas built on them, whose values the sentences print: parameters
here; Model/NmeaMath gives the formulas. -/
structure Lib where
  /-- libswiftnav code_to_constellation -/
  con : Nat → Con
  /-- libswiftnav days_in_month(year, month) -/
  daysInMonth : Nat → Nat → Nat
  /-- libswiftnav get_geoid_offset at a latitude and longitude in degrees -/
  geoid : Dbl → Dbl → ℚ
  /-- MS2KNOTS and MS2KMHR of the north and east velocities (nmea.c:661-662) -/
  sogKnots : Int → Int → ℚ
  sogKph : Int → Int → ℚ
  /-- `R2D * atan2(east, north)` (nmea.c:665) -/
  courseDeg : Int → Int → ℚ
  /-- the six values of send_gpgst (nmea.c:1036-1066): semi major, semi minor, orientation, std n, e, d -/
  gst : Pos → List Dbl
  /-- hacc, vacc of send_pubx (nmea.c:1273-1274) -/
  hacc : Pos → Dbl
  vacc : Pos → Dbl

/-- nmea.c:129 -/
abbrev gsaMaxSv : Nat := 12
/-- nmea.c:60 NMEA_TS_MAX_LEN = 21 + 2 -/
abbrev tsMaxLen : Nat := 23

/-- libswiftnav pvt_result.h position modes under POSITION_MODE_MASK (sbp_nmea_internal.h:18): 0 none, 1 SPP, 2 DGNSS,
3 float, 4 fixed, 5 dead reckoning, 6 SBAS -/
def posMode (flags : Nat) : Nat := flags % 8

/-- nmea.c:1375-1391 get_nmea_status -/
def nmeaStatus (flags : Nat) : Option Char :=
  match posMode flags with
  | 0 => some 'V'
  | 1 | 2 | 3 | 4 | 5 | 6 => some 'A'
  | _ => none

/-- nmea.c:1398-1416 get_nmea_mode_indicator -/
def nmeaMode (flags : Nat) : Option Char :=
  match posMode flags with
  | 0 => some 'N'
  | 1 => some 'A'
  | 2 | 6 | 3 | 4 => some 'D'
  | 5 => some 'E'
  | _ => none

/-- nmea.c:1423-1442 get_nmea_quality_indicator -/
def nmeaQuality (flags : Nat) : Option Nat :=
  match posMode flags with
  | 0 => some 0
  | 1 => some 1
  | 2 | 6 => some 2
  | 3 => some 5
  | 4 => some 4
  | 5 => some 6
  | _ => none

/-- nmea.c:195-228 round_utc_time.  `1e-9` and `pow(10, 2)` as doubles; the u8/u16 fields wrap. -/
def roundUtc (L : Lib) (t : Utc) : Utc :=
  let cs := (cround (f64 (f64 (100 * t.ns) * f64 (1 / 1000000000)))).toNat % 65536
  if cs ≥ 100 then
    let t := { t with seconds := (t.seconds + 1) % 256, ns := 0 }
    if t.seconds ≥ 60 then
      let t := { t with minutes := (t.minutes + 1) % 256, seconds := 0 }
      if t.minutes ≥ 60 then
        let t := { t with hours := (t.hours + 1) % 256, minutes := 0 }
        if t.hours ≥ 24 then
          let t := { t with day := (t.day + 1) % 256, hours := 0 }
          if t.day > L.daysInMonth t.year t.month then
            let t := { t with month := (t.month + 1) % 256, day := 1 }
            if t.month > 12 then { t with year := (t.year + 1) % 65536, month := 1 } else t
          else t
        else t
      else t
    else t
  else { t with ns := cs }

/-- nmea.c:242-303 get_utc_time_string.  The result is what fits in the caller's 23 bytes (vsnprintf_wrap truncates the
same way as the sentence buffer, see `foldlM_inv`). -/
def utcString (L : Lib) (time date truncDate : Bool) (t : Utc) : Str :=
  let text :=
    if t.flags = 0 then
      (if time then lit "," else []) ++ (if date then (if truncDate then lit "," else lit ",,,") else [])
    else
      let r := roundUtc L t
      (if time then fmtU 2 r.hours ++ fmtU 2 r.minutes ++ fmtU 2 r.seconds ++ lit "." ++ fmtU 2 r.ns ++ lit "," else []) ++
      (if date then
        if truncDate then fmtU 2 r.day ++ fmtU 2 r.month ++ fmtU 2 (r.year % 100 % 256) ++ lit ","
        else fmtU 2 r.day ++ lit "," ++ fmtU 2 r.month ++ lit "," ++ fmtU 1 r.year ++ lit ","
       else [])
  text.take (tsMaxLen - 1)

/-- nmea.c:352-364 (and the same lines of send_gprmc, send_gpgll, send_pubx): a coordinate split into whole degrees,
minutes and sign; `none` if the assertion fails (also for infinities and NaN). -/
def splitAngle : Dbl → Option (Nat × ℚ × Bool)
  | .fin q =>
    let a := |f64 (cround (f64 (q * 100000000)) / 100000000)|
    if a ≤ 65535 then
      let deg := (ctrunc a).toNat
      some (deg, f64 (f64 (a - deg) * 60), decide (q < 0))
    else none
  | _ => none

/-- the "%02u%010.7f,%c,%03u%010.7f,%c," of a position -/
def latLon (lat lon : Nat × ℚ × Bool) : Str :=
  fmtU 2 lat.1 ++ fmtF 10 7 (.fin lat.2.1) ++ lit "," ++ [if lat.2.2 then 'S' else 'N'] ++ lit "," ++
  fmtU 3 lon.1 ++ fmtF 10 7 (.fin lon.2.1) ++ lit "," ++ [if lon.2.2 then 'W' else 'E'] ++ lit ","

/-- `round(10 * x * 0.01) / 10` of an integer dilution of precision -/
def dop10 (x : Nat) : Dbl := .fin (f64 (cround (f64 ((10 * x : Nat) * f64 (1 / 100))) / 10))
/-- `round(x * 0.1) / 10` (nmea.c:538-540) -/
def dop1 (x : Nat) : Dbl := .fin (f64 (cround (f64 (x * f64 (1 / 10))) / 10))
/-- `x * 0.1` -/
def tenth (x : Nat) : Dbl := .fin (f64 (x * f64 (1 / 10)))

/-- difference of a received double and a finite one -/
def Dbl.sub (x : Dbl) (g : ℚ) : Dbl :=
  match x with
  | .fin q => .fin (f64 (q - g))
  | d => d

/-- sbp_nmea.c:109-126 translate_sbpid with consider_mode: whether the *_GNSS copy of a message is used -/
def St.src (st : St) : Bool := match st.actual with | .fused => false | _ => true

/-- fix_type of send_gpgga, send_gpgst, send_pubx -/
def fixType (flags : Nat) : Option Nat := if posMode flags ≠ 0 then nmeaQuality flags else some 0

/-- whether a fix is differential with a base station (nmea.c:405-407, 1223-1225, 1306-1308) -/
def isDiff (ft flags : Nat) : Bool := (ft = 2 && posMode flags ≠ 6) || ft = 5 || ft = 4

/-- nmea.c:315-418 send_gpgga -/
def sendGga (L : Lib) (st : St) : Option Sentence := do
  let p := st.store.pos st.src
  let hdop := if st.actual = .gnss then st.store.dops.hdop else st.store.solnMeta.hdop
  let age := if st.actual = .gnss then st.store.age.age else st.store.solnMeta.age
  let lat ← splitAngle p.lat
  let lon ← splitAngle p.lon
  let ft ← fixType p.flags
  let g := L.geoid p.lat p.lon
  some { maxLen := 120, texts :=
    [lit "$GPGGA,", utcString L true false false (st.store.utc st.src),
     if ft ≠ 0 then latLon lat lon else lit ",,,,",
     fmtU 1 ft ++ lit ",",
     if ft = 6 then fmtU 2 p.nSats ++ lit ",," ++ fmtF 0 2 (p.height.sub g) ++ lit ",M," ++ fmtF 0 2 (.fin g) ++ lit ",M,"
     else if ft ≠ 0 then fmtU 2 p.nSats ++ lit "," ++ fmtF 0 1 (dop10 hdop) ++ lit "," ++ fmtF 0 2 (p.height.sub g) ++
       lit ",M," ++ fmtF 0 2 (.fin g) ++ lit ",M,"
     else lit ",,,M,,M,",
     if isDiff ft p.flags then fmtF 0 1 (tenth age) ++ lit "," ++ fmtU 4 (st.baseId % 1024) else lit ","] }

/-- NMEA satellite number, nmea.c:432-462 nmea_get_id (u16 arithmetic) -/
def nmeaSvId (L : Lib) (s : Sid) : Nat :=
  match L.con s.code with
  | .bds => (400 + s.sat) % 65536
  | .gal => (300 + s.sat) % 65536
  | .gps => s.sat
  | .glo => (64 + s.sat) % 65536
  | .sbas => (65536 + s.sat - 87) % 65536
  | .qzs => (192 + s.sat) % 65536
  | .invalid => 65535

/-- nmea.c:482-501 sid_to_talker_id: 0 GP, 1 GL, 2 GA, 3 GB -/
def talkerOf (L : Lib) (s : Sid) : Option (Fin 4) :=
  match L.con s.code with
  | .gal => some 2
  | .bds => some 3
  | .glo => some 1
  | .gps | .qzs | .sbas => some 0
  | .invalid => none

/-- nmea.c:464-480 talker_id_to_str -/
def talkerStr (t : Fin 4) : Str := match t with | 0 => lit "GP" | 1 => lit "GL" | 2 => lit "GA" | 3 => lit "GB"

/-- nmea.c:508-546 send_gsa_print; `qsort` by number is a sort -/
def gsaPrint (prns : List Nat) (d : Dops) (talker : Str) : Sentence :=
  let fix := posMode d.flags ≠ 0
  let sorted := prns.insertionSort (· ≤ ·)
  { maxLen := 120, texts :=
    [lit "$" ++ talker ++ lit "GSA,A," ++ [if fix then '3' else '1'] ++ lit ","] ++
    (List.range gsaMaxSv).map (fun i => match sorted[i]? with | some p => fmtU 2 p ++ lit "," | none => lit ",") ++
    [if fix then fmtF 0 1 (dop1 d.pdop) ++ lit "," ++ fmtF 0 1 (dop1 d.hdop) ++ lit "," ++ fmtF 0 1 (dop1 d.vdop)
     else lit ",,"] }

/-- one iteration of nmea.c:576-607: the numbers collected per talker -/
def gsaAdd (L : Lib) (acc : Fin 4 → List Nat) (s : Sid) : Fin 4 → List Nat :=
  match talkerOf L s with
  | none => acc
  | some t =>
    if (acc t).length ≥ gsaMaxSv then acc
    else if nmeaSvId L s ∈ acc t then acc
    else fun t' => if t' = t then acc t ++ [nmeaSvId L s] else acc t'

def talkers : List (Fin 4) := [0, 1, 2, 3]

/-- nmea.c:564-640 send_gsa -/
def sendGsa (L : Lib) (st : St) : List Sentence :=
  let prns := (st.navSids.take st.numObs).foldl (gsaAdd L) (fun _ => [])
  let n := (talkers.filter fun t => !(prns t).isEmpty).length
  if n = 0 then [gsaPrint (prns 0) st.store.dops (lit "GP")]
  else (talkers.filter fun t => !(prns t).isEmpty).map fun t =>
    gsaPrint (prns t) st.store.dops (if n > 1 then lit "GN" else talkerStr t)

/-- nmea.c:22 nmea.h MS2KNOTS_FACTOR -/
def knotsFactor : ℚ := f64 (19438444924406 / 10000000000000)

/-- nmea.c:652-685 calc_cog_sog: the course and the new last_non_stationary_cog -/
def calcCog (L : Lib) (v : Vel) (threshold last : ℚ) : ℚ :=
  if L.sogKnots v.n v.e ≥ f64 (knotsFactor * threshold) then
    let c := L.courseDeg v.n v.e
    let c := if c < 0 then f64 (c + 360) else c
    let c := f64 (cround (f64 (c * 10)) / 10)
    if |f64 (360 - c)| < f64 (1 / 10) then 0 else c
  else last

/-- velocity mode under VELOCITY_MODE_MASK -/
def velMode (flags : Nat) : Nat := flags % 8

/-- nmea.c:692-768 send_gprmc -/
def sendRmc (L : Lib) (st : St) : Option (St × Sentence) := do
  let p := st.store.pos st.src
  let v := st.store.vel st.src
  let u := st.store.utc st.src
  let lat ← splitAngle p.lat
  let lon ← splitAngle p.lon
  let mode ← nmeaMode p.flags
  let status ← nmeaStatus p.flags
  let cog := calcCog L v st.cogUpdateThreshold st.lastCog
  let kn := L.sogKnots v.n v.e
  some ({ st with lastCog := cog }, { maxLen := 140, texts :=
    [lit "$GPRMC,", utcString L true false false u, [status] ++ lit ",",
     if posMode p.flags ≠ 0 then latLon lat lon else lit ",,,,"] ++
    (if velMode v.flags ≠ 0 then
      [fmtF 0 2 (.fin kn) ++ lit ",", if f64 (knotsFactor * st.cogThreshold) ≤ kn then fmtF 0 1 (.fin cog) ++ lit "," else lit ","]
     else [lit ",,"]) ++
    [utcString L false true true u, lit ",," ++ [mode]] })

/-- nmea.c:775-822 send_gpvtg -/
def sendVtg (L : Lib) (st : St) : Option (St × Sentence) := do
  let p := st.store.pos st.src
  let v := st.store.vel st.src
  let cog := calcCog L v st.cogUpdateThreshold st.lastCog
  let kn := L.sogKnots v.n v.e
  let mode ← nmeaMode p.flags
  let valid := velMode v.flags ≠ 0
  some ({ st with lastCog := cog }, { maxLen := 120, texts :=
    [lit "$GPVTG,",
     if valid ∧ f64 (knotsFactor * st.cogThreshold) ≤ kn then fmtF 0 1 (.fin cog) ++ lit ",T," else lit ",T,",
     lit ",M,",
     if valid then fmtF 0 2 (.fin kn) ++ lit ",N," ++ fmtF 0 2 (.fin (L.sogKph v.n v.e)) ++ lit ",K," else lit ",N,,K,",
     [mode]] })

/-- nmea.c:829-846 send_gphdt -/
def sendHdt (st : St) : Sentence :=
  let h := st.store.hdg
  { maxLen := 40, texts :=
    [lit "$GPHDT,", if posMode h.flags = 4 then fmtF 0 2 (.fin (f64 (f32 h.heading / 1000))) ++ lit ",T" else lit ",T"] }

/-- nmea.c:874-876 `while (yaw_s32 < 0) yaw_s32 += 360000000`; the argument bounds the iterations (6 suffice for an s32) -/
def wrapUp : Nat → Int → Int
  | 0, y => y
  | f + 1, y => if y < 0 then wrapUp f (y + 360000000) else y

/-- nmea.c:877-879 `while (yaw_s32 > 360000000) yaw_s32 -= 360000000` -/
def wrapDown : Nat → Int → Int
  | 0, y => y
  | f + 1, y => if y > 360000000 then wrapDown f (y - 360000000) else y

def wrapYaw (y : Int) : Int := wrapDown 8 (wrapUp 8 y)

/-- nmea.c:882-889 yaw in degrees -/
def yawDeg (y : Int) : ℚ :=
  let yaw := f64 (wrapYaw y / 1000000)
  if yaw ≥ f64 (359995 / 1000) then 0 else yaw

/-- nmea.c:851-896 send_gpths; SBP_ORIENT_EULER_INS_NAVIGATION_MODE is the low 3 bits, 0 invalid -/
def sendThs (st : St) : Sentence :=
  let o := st.store.orient
  let mode := posMode (st.store.pos st.src).flags
  { maxLen := 40, texts :=
    [lit "$GPTHS,",
     if mode = 0 ∨ o.flags % 8 = 0 then lit ",V"
     else fmtF 0 2 (.fin (yawDeg o.yaw)) ++ lit "," ++ [if mode = 5 then 'E' else 'A']] }

/-- nmea.c:903-951 send_gpgll -/
def sendGll (L : Lib) (st : St) : Option Sentence := do
  let p := st.store.pos st.src
  let lat ← splitAngle p.lat
  let lon ← splitAngle p.lon
  let status ← nmeaStatus p.flags
  let mode ← nmeaMode p.flags
  some { maxLen := 120, texts :=
    [lit "$GPGLL,", if posMode p.flags ≠ 0 then latLon lat lon else lit ",,,,",
     utcString L true false false (st.store.utc st.src), [status] ++ lit "," ++ [mode]] }

/-- nmea.c:958-973 send_gpzda -/
def sendZda (L : Lib) (st : St) : Sentence :=
  { maxLen := 40, texts := [lit "$GPZDA,", utcString L true true false (st.store.utc st.src), lit ","] }

/-- nmea.c:1010-1031 address field of send_gpgst: talkers seen among the observations -/
def gstTalkers (L : Lib) (st : St) : List (Fin 4) :=
  talkers.filter fun t => (st.navSids.take st.numObs).any fun s => talkerOf L s = some t

/-- nmea.c:980-1078 send_gpgst -/
def sendGst (L : Lib) (st : St) : Option Sentence := do
  let p := st.store.pos st.src
  let ft ← fixType p.flags
  let utc := utcString L true false false (st.store.utc st.src)
  let ts := gstTalkers L st
  if ts.length = 0 ∨ ft = 0 then some { maxLen := 120, texts := [lit "$GPGST," ++ utc ++ lit ",,,,,,"] }
  else
    let head := match ts with
      | [t] => lit "$" ++ talkerStr t ++ lit "GST," ++ utc
      | _ => lit "$GNGST," ++ utc
    match L.gst p with
    | [a, b, c, d, e, f] => some { maxLen := 120, texts :=
        [head, lit ",", fmtF 0 6 a ++ lit "," ++ fmtF 0 6 b ++ lit "," ++ fmtF 0 1 c ++ lit "," ++ fmtF 0 6 d ++ lit "," ++
          fmtF 0 6 e ++ lit "," ++ fmtF 0 6 f] }
    | _ => none

/-- nmea.c:115-122 nmea_gsv_element_t; has_azel is always true (nmea.c:1167) -/
structure GsvElem where
  sid : Sid
  snr : Option Nat
  el : Int
  az : Nat
deriving DecidableEq

/-- nmea.c:1163-1186 the element of a satellite: the signal strength is that of its first signal in the measurement state -/
def gsvElem (L : Lib) (meas : List MeasState) (a : AzEl) : GsvElem :=
  { sid := a.sid, az := 2 * a.az, el := a.el,
    snr := (meas.find? fun m => m.mesid.sat = a.sid.sat ∧ L.con m.mesid.code = L.con a.sid.code).map
      fun m => (cround (f64 (m.cn0 / 4))).toNat % 256 }

def gsvElemText (L : Lib) (e : GsvElem) : Str :=
  lit "," ++ fmtU 2 (nmeaSvId L e.sid) ++ lit "," ++ fmtD 2 e.el ++ lit "," ++ fmtU 3 e.az ++
    (match e.snr with | some s => lit "," ++ fmtU 2 s | none => lit ",")

/-- nmea.c:1085-1122 nmea_gsv_print (u8 arithmetic: `(n_used + 3) / 4` is computed in int and truncated) -/
def gsvPrint (L : Lib) (talker : Str) (es : List GsvElem) : List Sentence :=
  let n := es.length % 256
  let nMessages := (n + 3) / 4 % 256
  (List.range nMessages).map fun i =>
    { maxLen := 120, texts :=
      [lit "$" ++ talker ++ lit "GSV," ++ fmtU 1 nMessages ++ lit "," ++ fmtU 1 (i + 1) ++ lit "," ++ fmtU 2 n] ++
      ((es.drop (4 * i)).take 4).map (gsvElemText L) }

/-- nmea.c:1139-1207 send_gsv -/
def sendGsv (L : Lib) (st : St) : List Sentence :=
  let group (t : Fin 4) := (st.store.azel.filter fun a => talkerOf L a.sid = some t).map (gsvElem L st.store.meas)
  let used := talkers.filter fun t => !(group t).isEmpty
  if used.isEmpty then [{ maxLen := 120, texts := [lit "$GPGSV,1,1,0"] }]
  else used.flatMap fun t => gsvPrint L (talkerStr t) (group t)

/-- nmea.c:1209-1228 get_pubx_nav_stat -/
def navStat (ft flags : Nat) : Str :=
  if ft = 0 then lit "NF" else if ft = 6 then lit "DR" else if isDiff ft flags then lit "D3" else lit "G3"

/-- nmea.c:1230-1352 send_pubx -/
def sendPubx (L : Lib) (st : St) : Option (St × Sentence) := do
  let p := st.store.pos st.src
  let v := st.store.vel st.src
  let lat ← splitAngle p.lat
  let lon ← splitAngle p.lon
  let ft ← fixType p.flags
  let cog := calcCog L v st.cogUpdateThreshold st.lastCog
  let kn := L.sogKnots v.n v.e
  some ({ st with lastCog := cog }, { maxLen := 120, texts :=
    [lit "$PUBX,00,", utcString L true false false (st.store.utc st.src),
     if ft ≠ 0 then latLon lat lon ++ fmtF 0 2 p.height ++ lit "," else lit ",,,,,",
     navStat ft p.flags ++ lit ",",
     if ft ≠ 0 then fmtF 0 1 (L.hacc p) ++ lit "," ++ fmtF 0 1 (L.vacc p) ++ lit "," else lit ",,"] ++
    (if velMode v.flags ≠ 0 then
      [fmtF 0 2 (.fin (L.sogKph v.n v.e)) ++ lit ",",
       if f64 (knotsFactor * st.cogThreshold) < kn then fmtF 0 1 (.fin cog) ++ lit "," else lit ",",
       fmtF 0 2 (.fin (f64 (f32 v.d / 1000))) ++ lit ","]
     else [lit ",,,"]) ++
    [if isDiff ft p.flags then
       fmtF 0 1 (tenth (if st.actual = .gnss then st.store.age.age else st.store.solnMeta.age)) ++ lit ","
     else lit ",",
     if ft = 6 ∨ ft = 0 then lit ",,,"
     else if st.actual = .gnss then
       fmtF 0 1 (dop10 st.store.dops.hdop) ++ lit "," ++ fmtF 0 1 (dop10 st.store.dops.vdop) ++ lit "," ++
         fmtF 0 1 (dop10 st.store.dops.tdop) ++ lit ","
     else fmtF 0 1 (dop10 st.store.solnMeta.hdop) ++ lit "," ++ fmtF 0 1 (dop10 st.store.solnMeta.vdop) ++ lit ",,",
     fmtU 1 p.nSats ++ lit ",0,", if ft = 6 then lit "1" else lit "0"] })

/-- sbp_nmea.c:32-107 nmea_meta.send -/
def send (L : Lib) (id : NmeaId) (st : St) : Option (St × List Sentence) :=
  match id with
  | .gga => (sendGga L st).map fun s => (st, [s])
  | .rmc => (sendRmc L st).map fun r => (r.1, [r.2])
  | .vtg => (sendVtg L st).map fun r => (r.1, [r.2])
  | .hdt => some (st, [sendHdt st])
  | .gll => (sendGll L st).map fun s => (st, [s])
  | .zda => some (st, [sendZda L st])
  | .gsa => some (st, sendGsa L st)
  | .gst => (sendGst L st).map fun s => (st, [s])
  | .gsv => some (st, sendGsv L st)
  | .pubx => (sendPubx L st).map fun r => (r.1, [r.2])
  | .ths => some (st, [sendThs st])

/-- sbp_nmea.c:32-107 nmea_meta.available_in_fused -/
def availableInFused : NmeaId → Bool
  | .hdt | .gsa | .gsv => false
  | _ => true

/-- the solution messages of gnss_tow_mask: POS_LLH_COV_GNSS, GPS_TIME_GNSS, VEL_NED_GNSS, DOPS, AGE_CORR all carry the time -/
def solutionAt (s : Store) (tow : Nat) : Bool :=
  (s.pos true).tow = tow && (s.gpsTime true).tow = tow && (s.vel true).tow = tow && s.dops.tow = tow && s.age.tow = tow

/-- sbp_nmea.c:32-107 gnss_tow_mask and the loop of nmea_ready (sbp_nmea.c:224-232) -/
def componentsAt (id : NmeaId) (s : Store) (tow : Nat) : Bool :=
  match id with
  | .gga | .rmc | .vtg | .gll | .gsa | .gst | .pubx => solutionAt s tow
  | .hdt => s.hdg.tow = tow
  | .zda | .gsv => true
  | .ths => s.orient.tow = tow && (s.pos true).tow = tow

/-- sign of sbp_gpsdifftime (sbp_nmea.c:168-177): time in milliseconds; WN_UNKNOWN is not modelled -/
def GpsT.ms (t : GpsT) : Nat := t.wn * 604800000 + t.tow

/-- sbp_nmea.c:179-235 nmea_ready -/
def nmeaReady (st : St) (id : NmeaId) : Bool :=
  if st.requested = .fused ∧ availableInFused id = false then false
  else if st.actual = .fused ∧ availableInFused id = true then
    st.wagonComplete && st.lastTow id ≠ (st.store.utc false).tow
  else if st.lastTow id = (st.store.utc true).tow then false
  else if id = .gsa ∧ (st.obsSeqCount + 1 ≠ st.obsSeqTotal ∨ (st.store.gpsTime true).ms > st.obsTime.ms) then false
  else componentsAt id st.store (st.store.utc true).tow

/-- nmea.c:1359 soln_period_ms = (u32)(1.0 / soln_freq * 1e3) -/
def solnPeriod (freq : ℚ) : Nat := (ctrunc (f64 (f64 (1 / freq) * 1000))).toNat % 2 ^ 32

/-- nmea.c:1354-1368 check_nmea_rate; `none` is the division by zero when the period is below 1 ms -/
def checkRate (rate tow : Nat) (freq : ℚ) : Option Bool :=
  if rate = 0 then some false
  else
    let out := solnPeriod freq * rate % 2 ^ 32
    if out = 0 then none else some (decide (tow % out < solnPeriod freq / 2))

/-- a sentence handed to the output, with its type and the time of week it is sent for -/
structure Emit where
  id : NmeaId
  tow : Nat
  sentence : Sentence
deriving DecidableEq

/-- sbp_nmea.c:243-244 the time a sentence type is sent for: tow_from_mode or tow_from_gnss -/
def St.towFor (st : St) (id : NmeaId) : Nat :=
  if availableInFused id then (st.store.utc st.src).tow else (st.store.utc true).tow

/-- one iteration of the loop of check_nmea_send (sbp_nmea.c:247-257) -/
def sendOne (L : Lib) (acc : St × List Emit) (id : NmeaId) : Option (St × List Emit) :=
  let st := acc.1
  if nmeaReady st id then
    match checkRate (st.rate id) (st.towFor id) st.solnFreq with
    | none => none
    | some false => some acc
    | some true => do
      let r ← send L id st
      some ({ r.1 with lastTow := fun i => if i = id then st.towFor id else r.1.lastTow i },
        acc.2 ++ r.2.map fun s => ⟨id, st.towFor id, s⟩)
  else some acc

/-- sbp_nmea.c:237-258 check_nmea_send -/
def checkSend (L : Lib) (st : St) : Option (St × List Emit) := NmeaId.all.foldlM (sendOne L) (st, [])

/-- sbp_nmea.c:278-294 recode_legacy_sbp_id -/
def recode (st : St) (m : Msg) : Msg :=
  if st.requested = .gnss then
    match m with
    | .gpsTime _ t => .gpsTime true t
    | .utc _ t => .utc true t
    | .pos _ t => .pos true t
    | .vel _ t => .vel true t
    | m => m
  else m

/-- sbp_nmea.c:296-303 update_mode -/
def updateMode (st : St) (m : Msg) : St :=
  if st.requested = .best ∧ st.actual = .gnss ∧ m = .groupMeta then { st with actual := .fused } else st

/-- sbp_nmea.c:305-315 check_fused_wagon_complete -/
def checkWagon (st : St) (m : Msg) : St :=
  if st.actual ≠ .fused then st
  else match m with
    | .groupMeta => { st with wagonComplete := false }
    | .solnMeta _ => { st with wagonComplete := true }
    | _ => st

/-- sbp_nmea.c:260-276 sbp2nmea_discard_sbp -/
def discard (L : Lib) (m : Msg) : Bool :=
  match m with
  | .meas l => l.any fun s => L.con s.mesid.code = .glo ∧ s.mesid.sat > 28
  | _ => false

/-- sbp_nmea.c:385-392 sbp2nmea_msg_set -/
def Store.set (s : Store) (m : Msg) : Store :=
  match m with
  | .gpsTime g t => { s with gpsTime := fun b => if b = g then t else s.gpsTime b }
  | .utc g t => { s with utc := fun b => if b = g then t else s.utc b }
  | .pos g t => { s with pos := fun b => if b = g then t else s.pos b }
  | .vel g t => { s with vel := fun b => if b = g then t else s.vel b }
  | .dops d => { s with dops := d }
  | .age d => { s with age := d }
  | .hdg d => { s with hdg := d }
  | .azel d => { s with azel := d }
  | .meas d => { s with meas := d }
  | .groupMeta => s
  | .solnMeta d => { s with solnMeta := d }
  | .orient d => { s with orient := d }

/-- sbp_nmea.c:317-330 sbp2nmea -/
def sbp2nmea (L : Lib) (st : St) (m : Msg) : Option (St × List Emit) :=
  let m := recode st m
  let st := checkWagon (updateMode st m) m
  if discard L m then some (st, [])
  else checkSend L { st with store := st.store.set m }

/-- MSG_OBS: header time and n_obs byte, and the signal and flags of each observation -/
structure ObsMsg where
  t : GpsT
  seq : Nat
  obs : List Sid
deriving DecidableEq

/-- sbp_nmea.c:353-382 sbp2nmea_obs.  The flag test `flags & OBSERVATION_VALID` uses mask 0x1000000 on a byte
(sbp_nmea_internal.h:19), so every observation is taken.  The u8 counter num_obs indexes nav_sids[256]; `none` if the 256
entries are exceeded. -/
def sbp2nmeaObs (L : Lib) (st : St) (o : ObsMsg) : Option (St × List Emit) :=
  let st := { st with obsSeqTotal := o.seq / 16 }
  let count := o.seq % 16
  let st := if count = 0 then { st with numObs := 0 } else st
  if count ≠ 0 ∧ (o.t ≠ st.obsTime ∨ st.obsSeqCount + 1 ≠ count) then some (st, [])
  else
    let sids := st.navSids.take st.numObs ++ o.obs
    if sids.length > 255 then none
    else checkSend L { st with obsSeqCount := count, obsTime := o.t, navSids := sids, numObs := sids.length }

/-- everything a user of the converter can feed it -/
inductive In where
  | msg (m : Msg)
  | obs (o : ObsMsg)
  | rate (id : NmeaId) (r : Nat)
  | baseId (n : Nat)
  | cogThreshold (mps : ℚ)
  | cogStationary (mps : ℚ)
deriving DecidableEq

/-- one call of the API (sbp2nmea, sbp2nmea_obs, sbp2nmea_rate_set 394-396, sbp2nmea_base_id_set 332-334,
sbp2nmea_cog_threshold_set 402-404, sbp2nmea_cog_stationary_threshold_set 406-409) -/
def step (L : Lib) (st : St) : In → Option (St × List Emit)
  | .msg m => sbp2nmea L st m
  | .obs o => sbp2nmeaObs L st o
  | .rate id r => some ({ st with rate := fun i => if i = id then r else st.rate i }, [])
  | .baseId n => some ({ st with baseId := n }, [])
  | .cogThreshold t => some ({ st with cogThreshold := f32 t }, [])
  | .cogStationary t => some ({ st with cogUpdateThreshold := f32 t }, [])

/-- a history: the final state and everything sent, oldest first -/
def run (L : Lib) (st : St) : List In → Option (St × List Emit)
  | [] => some (st, [])
  | i :: is => do
    let (st1, e1) ← step L st i
    let (st2, e2) ← run L st1 is
    some (st2, e1 ++ e2)

/-- sbp_nmea.c:417-430 sbp2nmea_init, then sbp2nmea_soln_freq_set; NMEA_COG_STATIC_LIMIT_MPS 0.1f -/
def init (mode : Mode) (freq : ℚ) : St :=
  { requested := mode, solnFreq := freq, cogThreshold := f32 (1 / 10), cogUpdateThreshold := f32 (1 / 10) }

end Verif.Nmea
