import Verif.Model.EphStream
import Verif.Spec.EphSbp
import Verif.Spec.Accuracy
import Verif.Model.RtcmFraming
/-
What it means that an SBP ephemeris survives the trip over RTCM: every value comes back within half a unit of the resolution of its RTCM
field (plus a thousandth of a unit for the rounding of floating point numbers), everything else unchanged.
-/
namespace Verif.EphStream.Spec
open Verif.EphSbp Verif.EphSbp.Spec Verif.Time Verif.Fp

/-- half a unit, plus a thousandth -/
def half : ℚ := 1 / 2 + 1 / 1000

/-- within half a unit; the unit is `1 / 2^n` -/
def Near (n : Nat) (x y : ℚ) : Prop := |y - x| ≤ half / 2 ^ n
/-- for angles the unit is a semicircle over `2^n` -/
def NearAngle (n : Nat) (x y : ℚ) : Prop := |(y : ℝ) - x| ≤ half * Real.pi / 2 ^ n
/-- for group delays the unit is given -/
def NearUnit (u x y : ℚ) : Prop := |y - x| ≤ half * u

/-- `x` fits a two's complement field of `b` bits with unit `1 / 2^n` -/
def Fits (b n : Nat) (x : ℚ) : Prop := |x| ≤ (2 ^ (b - 1) - 1) / 2 ^ n
/-- an angle that fits -/
def FitsAngle (b n : Nat) (x : ℚ) : Prop := |(x : ℝ)| ≤ (2 ^ (b - 1) - 1) / 2 ^ n * Real.pi
def FitsUnit (b : Nat) (u x : ℚ) : Prop := |x| ≤ (2 ^ (b - 1) - 1) * u
/-- `x` fits an unsigned field of `b` bits -/
def FitsU (b n : Nat) (x : ℚ) : Prop := 0 ≤ x ∧ x ≤ (2 ^ b - 1) / 2 ^ n

/-- field widths: harmonic corrections, group delays, clock polynomial -/
structure Widths where
  harm : Nat
  delay : Nat
  af0 : Nat
  af1 : Nat
  af2 : Nat
/-- RTCM 10403.3, messages 1019, 1045/1046, 1042 -/
def gpsW : Widths := ⟨16, 8, 22, 16, 8⟩
def galW : Widths := ⟨16, 10, 31, 21, 6⟩
def bdsW : Widths := ⟨18, 10, 24, 22, 11⟩

/-- every value of the orbit and the clock fits its RTCM field -/
structure OrbitFits (s : Scales) (b : Widths) (e : SbpKep) : Prop where
  crs : Fits b.harm s.radius e.crs
  crc : Fits b.harm s.radius e.crc
  cuc : Fits b.harm s.angle e.cuc
  cus : Fits b.harm s.angle e.cus
  cic : Fits b.harm s.angle e.cic
  cis : Fits b.harm s.angle e.cis
  dn : FitsAngle 16 43 e.dn
  m0 : FitsAngle 32 31 e.m0
  ecc : FitsU 32 33 e.ecc
  sqrta : FitsU 32 19 e.sqrta
  omega0 : FitsAngle 32 31 e.omega0
  omegadot : FitsAngle 24 43 e.omegadot
  w : FitsAngle 32 31 e.w
  inc : FitsAngle 32 31 e.inc
  incDot : FitsAngle 14 43 e.incDot
  af0 : Fits b.af0 s.af0 e.af0
  af1 : Fits b.af1 s.af1 e.af1
  af2 : Fits b.af2 s.af2 e.af2
  tgd0 : FitsUnit b.delay s.delay e.tgd0

/-- the same orbit and clock, to the resolution of the RTCM fields -/
structure OrbitNear (s : Scales) (e e' : SbpKep) : Prop where
  crs : Near s.radius e.crs e'.crs
  crc : Near s.radius e.crc e'.crc
  cuc : Near s.angle e.cuc e'.cuc
  cus : Near s.angle e.cus e'.cus
  cic : Near s.angle e.cic e'.cic
  cis : Near s.angle e.cis e'.cis
  dn : NearAngle 43 e.dn e'.dn
  m0 : NearAngle 31 e.m0 e'.m0
  ecc : Near 33 e.ecc e'.ecc
  sqrta : Near 19 e.sqrta e'.sqrta
  omega0 : NearAngle 31 e.omega0 e'.omega0
  omegadot : NearAngle 43 e.omegadot e'.omegadot
  w : NearAngle 31 e.w e'.w
  inc : NearAngle 31 e.inc e'.inc
  incDot : NearAngle 43 e.incDot e'.incDot
  af0 : Near s.af0 e.af0 e'.af0
  af1 : Near s.af1 e.af1 e'.af1
  af2 : Near s.af2 e.af2 e'.af2
  tgd0 : NearUnit s.delay e.tgd0 e'.tgd0
  tgd1 : NearUnit s.delay e.tgd1 e'.tgd1

/-- the members that come back unchanged -/
structure SameRest (e e' : SbpKep) : Prop where
  toe : e'.toe = e.toe
  toc : e'.toc = e.toc
  sat : e'.sat = e.sat
  health : e'.health = e.health
  iode : e'.iode = e.iode
  iodc : e'.iodc = e.iodc
  source : e'.source = e.source

/-- a time within half a week of the rover's, so that its week can be told -/
def TimeOk (rover : GpsTime) (t : TimeSec) : Prop := t.tow < 604800 ∧ t.wn ≤ 32767 ∧ NearRover rover t.wn t.tow

/-! ### GPS -/

/-- what a GPS ephemeris must satisfy to come through.  `oneTime` is a defect of the 1019 encoder, see C10_1019_toe_toc_bug. -/
structure GpsOk (rover : GpsTime) (e : SbpKep) : Prop where
  orbit : OrbitFits gps gpsW e
  tgd1 : e.tgd1 = 0
  time : TimeOk rover e.toe ∧ e.toe.tow % 16 = 0
  oneTime : e.toc = e.toe
  sat : e.sat < 64
  health : e.health < 64
  iode : e.iode < 256
  iodc : e.iodc < 1024
  ura : ∃ v ∈ Acc.Spec.gpsNominal, e.ura = f32 v
  fit : ∃ flag, e.fit = Acc.Spec.fitHours flag e.iodc * 3600
  source : e.source = 0
structure GpsSame (e e' : SbpKep) : Prop where
  orbit : OrbitNear gps e e'
  rest : SameRest e e'
  ura : e'.ura = e.ura
  fit : e'.fit = e.fit
  valid : e'.valid = decide (e.iodc % 256 = e.iode)

/-! ### Galileo -/

/-- what a Galileo ephemeris must satisfy.  `health` excludes the values of C10_1046_health_bug and C10_1045_health_bug; F/NAV has one group
delay only. -/
structure GalOk (K : Lib) (rover : GpsTime) (e : SbpKep) : Prop where
  orbit : OrbitFits gal galW e
  toe : TimeOk rover e.toe ∧ e.toe.tow % 60 = 0 ∧ 1024 ≤ e.toe.wn ∧ e.toe.wn < 1024 + 4096
  toc : TimeOk rover e.toc ∧ e.toc.tow % 60 = 0
  sat : e.sat < 64
  iode : e.iode = e.iodc ∧ e.iodc < 1024
  ura : 0 ≤ e.ura ∧ e.ura ≤ 6 ∨ e.ura = -1
  source : e.source = K.inav ∧ e.health < 32 ∧ FitsUnit 10 gal.delay e.tgd1 ∨ e.source = K.fnav ∧ e.health < 4 ∧ e.tgd1 = 0
structure GalSame (e e' : SbpKep) : Prop where
  orbit : OrbitNear gal e e'
  rest : SameRest e e'
  ura : |e'.ura - e.ura| ≤ Acc.Spec.sisaRes e.ura * (1 / 2 + 1 / 20) ∨ e.ura = -1 ∧ e'.ura = -1
  fit : e'.fit = 4 * 3600
  valid : e'.valid = true

/-! ### BeiDou -/

/-- what a BeiDou ephemeris must satisfy.  `sat`: geostationary satellites are refused by the receiver; `notStart`: see
C50_bds_week_start_bug; `sameWeek`: only the week of toc is sent. -/
structure BdsOk (K : Lib) (e : SbpKep) : Prop where
  orbit : OrbitFits bds bdsW e
  tgd1 : FitsUnit 10 bds.delay e.tgd1
  times : ∀ t ∈ [e.toe, e.toc], t.tow < 604800 ∧ (t.tow + 2) % 8 = 0 ∧ K.weekRef ≤ t.wn
  notStart : 14 < e.toe.tow ∧ 14 < e.toc.tow
  sameWeek : e.toe.wn = e.toc.wn
  week : 1356 ≤ e.toc.wn ∧ e.toc.wn < 1356 + 8192
  sat : 5 < e.sat ∧ e.sat < 64
  health : e.health < 2
  iod : e.iode < 32 ∧ e.iodc < 32
  ura : ∃ v ∈ Acc.Spec.bdsNominal, e.ura = f32 v
  source : e.source = 0
structure BdsSame (e e' : SbpKep) : Prop where
  orbit : OrbitNear bds e e'
  rest : SameRest e e'
  ura : e'.ura = e.ura
  fit : e'.fit = 3 * 3600
  valid : e'.valid = true

/-! ### GLONASS -/

/-- seconds of the GLONASS day (Moscow time) of a GPS time -/
def gloDay (leap : Int) (t : TimeSec) : Int := ((t.tow : Int) - leap + 3 * 3600) % 86400

/-- what a GLONASS ephemeris must satisfy; both sides have the same leap second.  `time`: not the first interval of the GLONASS day, see
C50_glo_midnight_bug. -/
structure GloOk (rover : GpsTime) (leap : Int) (e : SbpGlo) : Prop where
  leapOk : -128 ≤ leap ∧ leap ≤ 127
  time : e.toe.tow < 604800 ∧ gloDay leap e.toe % 900 = 0 ∧ gloDay leap e.toe ≠ 0
  near : |secs e.toe.wn e.toe.tow - secs rover.wn rover.tow| < 43200
  sane : 259200 ≤ secs rover.wn rover.tow ∧ secs rover.wn rover.tow < 32768 * 604800 - 259200
  sat : 0 < e.sat ∧ e.sat < 64
  health : e.health < 2
  fcn : 0 < e.fcn ∧ e.fcn ≤ 32
  ura : e.ura ∈ Acc.Spec.gloNominal
  fit : e.fit ∈ [40 * 60, 55 * 60, 70 * 60]
  gamma : Fits 11 40 e.gamma
  tau : Fits 22 30 e.tau
  dTau : Fits 5 30 e.dTau
  pos : ∀ x ∈ [e.pos0, e.pos1, e.pos2], FitsUnit 27 (1000 / 2 ^ 11) x
  vel : ∀ x ∈ [e.vel0, e.vel1, e.vel2], FitsUnit 24 (1000 / 2 ^ 20) x
  acc : ∀ x ∈ [e.acc0, e.acc1, e.acc2], FitsUnit 5 (1000 / 2 ^ 30) x
structure GloSame (leap : Int) (e e' : SbpGlo) : Prop where
  toe : e'.toe = e.toe
  sat : e'.sat = e.sat
  health : e'.health = e.health
  fcn : e'.fcn = e.fcn
  ura : e'.ura = e.ura
  fit : e'.fit = e.fit
  valid : e'.valid = true
  /-- the issue of data is not sent: it is made from the time -/
  iod : (e'.iod : Int) = gloDay leap e.toe % 128
  gamma : Near 40 e.gamma e'.gamma
  tau : Near 30 e.tau e'.tau
  dTau : Near 30 e.dTau e'.dTau
  pos : NearUnit (1000 / 2 ^ 11) e.pos0 e'.pos0 ∧ NearUnit (1000 / 2 ^ 11) e.pos1 e'.pos1 ∧ NearUnit (1000 / 2 ^ 11) e.pos2 e'.pos2
  vel : NearUnit (1000 / 2 ^ 20) e.vel0 e'.vel0 ∧ NearUnit (1000 / 2 ^ 20) e.vel1 e'.vel1 ∧ NearUnit (1000 / 2 ^ 20) e.vel2 e'.vel2
  acc : NearUnit (1000 / 2 ^ 30) e.acc0 e'.acc0 ∧ NearUnit (1000 / 2 ^ 30) e.acc1 e'.acc1 ∧ NearUnit (1000 / 2 ^ 30) e.acc2 e'.acc2

/-! ### the stream -/

/-- the ephemeris message types -/
def ephTypes : List Nat := [1019, 1020, 1042, 1044, 1045, 1046]

/-- what the sender puts on the stream: an ephemeris (with the leap second it knows and arbitrary uninitialised memory) or the payload of any
other message -/
inductive Ev
  | eph (leap : Option Int) (junk : Nat) (e : SbpEph)
  | other (p : Buf)

/-- the payloads on the stream -/
def evPayload (K : Lib) : Ev → Option Buf
  | .eph leap junk e => payload K leap junk e
  | .other p => some p

/-- the event is fit for the receiver, whose time and leap second are those of `x` -/
def EvOk (env : RtcmSbp.Env) (K : Lib) : Ev → RtcmSbp.Input → Prop
  | .eph _ _ (.gps e), x => x.time.valid ∧ GpsOk x.time e
  | .eph _ _ (.gal e), x => x.time.valid ∧ GalOk K x.time e
  | .eph _ _ (.bds e), _ => BdsOk K e
  | .eph leap _ (.glo e), x => x.time.valid ∧ x.solved = true ∧ leap = some (env.utcOffset x.time) ∧ GloOk x.time (env.utcOffset x.time) e
  | .eph _ _ (.qzss _), _ => False
  | .other p, _ => 1 ≤ p.length ∧ p.length ≤ 1017 ∧ RtcmSbp.messageType p ∉ ephTypes

/-- the ephemeris received is the one sent; `leap`: the leap second -/
def Same (leap : Option Int) : SbpEph → SbpEph → Prop
  | .gps e, .gps e' => GpsSame e e'
  | .gal e, .gal e' => GalSame e e'
  | .bds e, .bds e' => BdsSame e e'
  | .glo e, .glo e' => ∃ l, leap = some l ∧ GloSame l e e'
  | _, _ => False

/-- the ephemerides sent -/
def evEph : Ev → Option (Option Int × SbpEph)
  | .eph leap _ e => some (leap, e)
  | .other _ => none

/-- the bytes written by the sender: one RTCM frame for each event -/
def SentAs (crc : Buf → BitVec 24) (K : Lib) (evs : List Ev) (bytes : Buf) : Prop :=
  ∃ (ps fs : List Buf), evs.map (evPayload K) = ps.map some ∧ ps.mapM (RtcmFraming.encodeFrame crc 1023) = some fs ∧ bytes = fs.flatten

/-- the bytes arrive in chunks; `xs` is what the framing layer hands to the converter (with the receiver's time at each message) -/
def Received (crc : Buf → BitVec 24) (bytes : Buf) (chunks : List Buf) (xs : List RtcmSbp.Input) : Prop :=
  chunks.flatten = bytes ∧ (∀ c ∈ chunks, c.length ≤ RtcmFraming.bufferSize) ∧
  (RtcmFraming.run crc .init chunks).2.map RtcmFraming.framePayload = xs.map (fun x => .payload x.payload)

end Verif.EphStream.Spec
