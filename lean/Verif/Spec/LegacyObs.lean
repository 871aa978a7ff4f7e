import Verif.Model.LegacyObs
namespace Verif.Obs.Spec
open Verif.Obs

/-- wavelength (m) of a carrier -/
def lam (freq : ℚ) : ℚ := 299792458 / freq

/-- A micrometre of `double` rounding (m). -/
abbrev tiny : ℚ := 1 / 2 ^ 20

/-- `c`: the whole light-milliseconds (two for GLONASS) that the basic messages 1001 and 1003 do not transmit; what remains of
the pseudorange is between 0 and one such unit, up to rounding. -/
def IsCut (k : Kind) (pr c : ℚ) : Prop :=
  if k.ext then c = 0 else ∃ n : ℕ, c = n * k.unit ∧ -tiny ≤ pr - c ∧ pr - c ≤ k.unit + tiny

/-- A header whose members fit their fields. -/
structure WFHeader (k : Kind) (h : Header) : Prop where
  num : h.msgNum = k.num
  stnId : h.stnId < 2 ^ 12
  tow : h.towMs ≤ k.maxTow
  sync : h.sync < 2
  divFree : h.divFree < 2
  smooth : h.smooth < 2 ^ 3

/-- Values that fit: range below 256 light-milliseconds (by 0.2 m: closer to it, the cast of the ambiguity to `uint8_t` is undefined), CNR below 63.875 dB-Hz (0 when not valid), GLONASS channel numbers
the standard defines, phase within 1000 km of the pseudorange, L2 - L1 pseudorange difference within 163.8 m with no light-millisecond boundary
between the two (`pr2lo`; otherwise a negative `double` is cast to `uint32_t`). -/
structure WFSat (k : Kind) (s : Sat) : Prop where
  svId : s.svId < 64
  fcn : s.fcn ≤ 20
  fcnGps : k.glo = false → s.fcn = 0
  pr0 : 0 ≤ s.l1.pr
  pr1 : s.l1.pr < 76746869
  cp1 : |s.l1.cp * lam (k.f1 s.fcn) - s.l1.pr| < 1000000
  lock1 : s.l1.vLock → 0 ≤ s.l1.lock
  cnr1 : 0 ≤ s.l1.cnr ∧ s.l1.cnr < 63.875
  cnr1v : s.l1.vCnr = false → s.l1.cnr = 0
  pr2lo : k.l2 → s.l2.vPr → ∀ n : ℕ, n * k.unit ≤ s.l1.pr + tiny → n * k.unit ≤ s.l2.pr + tiny
  pr2 : k.l2 → s.l2.vPr → |s.l2.pr - s.l1.pr| ≤ 163.8
  cp2 : k.l2 → s.l2.vCp → |s.l2.cp * lam (k.f2 s.fcn) - s.l1.pr| < 1000000
  lock2 : k.l2 → s.l2.vLock → 0 ≤ s.l2.lock
  cnr2 : k.l2 → 0 ≤ s.l2.cnr ∧ s.l2.cnr < 63.875
  cnr2v : s.l2.vCnr = false → s.l2.cnr = 0

/-- The satellites a message type can carry: those with a complete L1 (1003: L1 and L2) measurement. -/
def Carried (k : Kind) (s : Sat) : Bool :=
  s.l1.vPr && s.l1.vCp && (if k = .m1003 then s.l2.vPr && s.l2.vCp else true)

/-- Carrier phase after transmission: exact to 1/4 mm (and rounding), up to a whole number of 1500-cycle roll-overs and the light
milliseconds cut from the L1 pseudorange; without roll-over when phase and pseudorange (`ref`) agree within 262 m. -/
structure PhaseOk (wl ref off : ℚ) (a b : Freq) : Prop where
  valid : b.vCp = true → a.vCp = true ∧ ∃ n : ℤ, |b.cp * wl - (a.cp * wl - off) - 1500 * n * wl| ≤ 1 / 4000 + tiny
  kept : a.vCp = true → |a.cp * wl - ref| < 262 →
    b.vCp = true ∧ |b.cp * wl - (a.cp * wl - off)| ≤ 1 / 4000 + tiny

/-- Lock time after transmission. -/
structure LockOk (a b : Freq) : Prop where
  flag : b.vLock = b.vCp
  never : a.vLock = true → b.lock ≤ a.lock
  tight : a.vLock = true → a.lock < 937 → a.lock < b.lock + 32
  none : a.vLock = false → b.lock = 0

/-- CNR after transmission (extended messages). -/
structure CnrOk (ext : Bool) (a b : Freq) : Prop where
  valid : b.vCnr = true → ext = true ∧ a.vCnr = true ∧ |b.cnr - a.cnr| ≤ 1 / 8
  kept : ext = true → a.vCnr = true → 1 / 8 ≤ a.cnr → b.vCnr = true

/-- One satellite after transmission; `c` was cut from the ranges and phases. -/
structure SatOk (k : Kind) (c : ℚ) (a b : Sat) : Prop where
  svId : b.svId = a.svId
  fcn : b.fcn = a.fcn
  code1 : a.l1.code = 0 → b.l1.code = 0
  code2 : a.l2.code = 0 → b.l2.code = 0
  cut : IsCut k a.l1.pr c
  pr1v : b.l1.vPr = true
  pr1 : |b.l1.pr - (a.l1.pr - c)| ≤ 1 / 100 + tiny
  cp1 : PhaseOk (lam (k.f1 a.fcn)) (b.l1.pr + c) (c) a.l1 b.l1
  lock1 : LockOk a.l1 b.l1
  cnr1 : CnrOk k.ext a.l1 b.l1
  pr2v : b.l2.vPr = (k.l2 && a.l2.vPr)
  pr2 : b.l2.vPr = true → |b.l2.pr - (a.l2.pr - c)| ≤ 1 / 100 + tiny
  cp2 : k.l2 = true → PhaseOk (lam (k.f2 a.fcn)) (b.l1.pr + c) (c) a.l2 b.l2
  cp2none : k.l2 = false → b.l2.vCp = false
  lock2 : k.l2 = true → LockOk a.l2 b.l2
  cnr2 : CnrOk (k.l2 && k.ext) a.l2 b.l2

end Verif.Obs.Spec
