import Verif.Model.EphSbp
import Mathlib.Analysis.Real.Pi.Bounds
/-
What an SBP ephemeris must say about an RTCM ephemeris: the ICD scale factors.
-/
namespace Verif.EphSbp.Spec
open Verif.EphSbp Verif.Time

/-- an angle or angular rate of `x` semicircles (per second) in radians, to 15 significant digits -/
def Radians (x e : ℚ) : Prop := |(e : ℝ) - x * Real.pi| ≤ |(x : ℝ)| * Real.pi / 10 ^ 15

/-- scale factors, as negative powers of two: harmonic corrections to the radius (m) and to the angles (rad), clock
polynomial (s, s/s, s/s^2); group delays as a unit in seconds -/
structure Scales where
  radius : Nat
  angle : Nat
  delay : ℚ
  af0 : Nat
  af1 : Nat
  af2 : Nat

/-- IS-GPS-200 tables 20-I and 20-III (also IS-QZSS) -/
def gps : Scales := ⟨5, 29, 1 / 2 ^ 31, 31, 43, 55⟩
/-- Galileo OS SIS ICD tables 57 to 60 -/
def gal : Scales := ⟨5, 29, 1 / 2 ^ 32, 34, 46, 59⟩
/-- BeiDou ICD tables 5-8, 5-10 -/
def bds : Scales := ⟨6, 31, 1 / 10 ^ 10, 33, 50, 66⟩

/-- the SBP ephemeris has the orbit and clock of the RTCM ephemeris -/
structure SameOrbit (s : Scales) (m : KepEph) (e : SbpKep) : Prop where
  crs : e.crs = (m.crs : ℚ) / 2 ^ s.radius
  crc : e.crc = (m.crc : ℚ) / 2 ^ s.radius
  cuc : e.cuc = (m.cuc : ℚ) / 2 ^ s.angle
  cus : e.cus = (m.cus : ℚ) / 2 ^ s.angle
  cic : e.cic = (m.cic : ℚ) / 2 ^ s.angle
  cis : e.cis = (m.cis : ℚ) / 2 ^ s.angle
  dn : Radians ((m.dn : ℚ) / 2 ^ 43) e.dn
  m0 : Radians ((m.m0 : ℚ) / 2 ^ 31) e.m0
  ecc : e.ecc = (m.ecc : ℚ) / 2 ^ 33
  sqrta : e.sqrta = (m.sqrta : ℚ) / 2 ^ 19
  omega0 : Radians ((m.omega0 : ℚ) / 2 ^ 31) e.omega0
  omegadot : Radians ((m.omegadot : ℚ) / 2 ^ 43) e.omegadot
  w : Radians ((m.w : ℚ) / 2 ^ 31) e.w
  inc : Radians ((m.inc : ℚ) / 2 ^ 31) e.inc
  incDot : Radians ((m.incDot : ℚ) / 2 ^ 43) e.incDot
  af0 : e.af0 = (m.af0 : ℚ) / 2 ^ s.af0
  af1 : e.af1 = (m.af1 : ℚ) / 2 ^ s.af1
  af2 : e.af2 = (m.af2 : ℚ) / 2 ^ s.af2
  tgd0 : |e.tgd0 - m.tgd0 * s.delay| ≤ |(m.tgd0 : ℚ) * s.delay| / 10 ^ 7
  tgd1 : |e.tgd1 - m.tgd1 * s.delay| ≤ |(m.tgd1 : ℚ) * s.delay| / 10 ^ 7
  health : e.health = m.healthBits
  iode : e.iode = m.iode

/-- GLONASS ICD table 4.5: km, km/s, km/s^2 with 2^-11, 2^-20, 2^-30; SBP has metres -/
structure SameGlo (m : GloEph) (e : SbpGlo) : Prop where
  sat : e.sat = m.satId
  health : e.health = m.healthBits
  gamma : e.gamma = (m.gamma : ℚ) / 2 ^ 40
  tau : e.tau = (m.tau : ℚ) / 2 ^ 30
  dTau : e.dTau = (m.dTau : ℚ) / 2 ^ 30
  pos : e.pos0 = (m.pos0 : ℚ) * 1000 / 2 ^ 11 ∧ e.pos1 = (m.pos1 : ℚ) * 1000 / 2 ^ 11 ∧ e.pos2 = (m.pos2 : ℚ) * 1000 / 2 ^ 11
  vel : e.vel0 = (m.vel0 : ℚ) * 1000 / 2 ^ 20 ∧ e.vel1 = (m.vel1 : ℚ) * 1000 / 2 ^ 20 ∧ e.vel2 = (m.vel2 : ℚ) * 1000 / 2 ^ 20
  acc : e.acc0 = (m.acc0 : ℚ) * 1000 / 2 ^ 30 ∧ e.acc1 = (m.acc1 : ℚ) * 1000 / 2 ^ 30 ∧ e.acc2 = (m.acc2 : ℚ) * 1000 / 2 ^ 30
  fcn : e.fcn = m.fcn + 1

/-- seconds since the GPS epoch -/
def secs (wn : Int) (tow : ℚ) : ℚ := wn * 604800 + tow

/-- `t` is a time with the given time of week less than half a week from the rover's -/
def NearRover (rover : GpsTime) (wn : Nat) (tow : Nat) : Prop := |secs wn tow - secs rover.wn rover.tow| < 302400

end Verif.EphSbp.Spec
