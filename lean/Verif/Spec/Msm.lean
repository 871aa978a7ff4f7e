import Verif.Model.Msm
/-
What it means for an MSM message to survive encode/decode.
-/
namespace Verif.Msm.Spec
open Verif.Msm

/-- number of satellites / signals / cells announced by a header -/
def nSats (h : Header) : Nat := h.satMask.count true
def nSigs (h : Header) : Nat := h.sigMask.count true
def nCells (h : Header) : Nat := h.cellMask.count true

/-- A header whose members fit their fields and whose masks have the legal sizes (RTCM 10403.3 table 3.5-78). -/
structure WFHeader (ty : MsmType) (cons : Cons) (h : Header) : Prop where
  num : h.msgNum < 2 ^ 12
  type : toMsmType h.msgNum = ty
  cons : toConstellation h.msgNum = some cons
  stnId : h.stnId < 2 ^ 12
  /-- GLONASS: the time within the GLONASS week; others: time of week -/
  tow : h.towMs ≤ maxTowMs
  multiple : h.multiple < 2
  iods : h.iods < 2 ^ 3
  reserved : h.reserved < 2 ^ 7
  steering : h.steering < 2 ^ 2
  extClock : h.extClock < 2 ^ 2
  divFree : h.divFree < 2
  smooth : h.smooth < 2 ^ 3
  satMask : h.satMask.length = 64
  sigMask : h.sigMask.length = 32
  cellMask : h.cellMask.length = nSats h * nSigs h
  sats : nSats h ≤ 32
  cells : nSats h * nSigs h ≤ 64

/-- A satellite whose rough range is a valid one (below 255 ms, and not within half a step below the next full
millisecond, see `C13_rough_range_bug`) and whose rate fits DF399. -/
structure WFSat (s : Sat) : Prop where
  nonneg : 0 ≤ s.roughRangeMs
  range : s.roughRangeMs < 255
  frac : s.roughRangeMs - ⌊s.roughRangeMs⌋ < 1023.5 / 1024
  rateLo : -8192 < s.roughRate
  rateHi : s.roughRate < 8192

/-- Signal data that fits its fields; everything else about the values is arbitrary. -/
structure WFSig (s : Sig) : Prop where
  lock : s.vLock → 0 ≤ s.lock
  cnrLo : s.vCnr → 0 ≤ s.cnr
  cnrHi : s.vCnr → s.cnr < 63.5

structure WFMsg (ty : MsmType) (cons : Cons) (m : Msg) : Prop where
  type : ty = .msm4 ∨ ty = .msm5
  header : WFHeader ty cons m.header
  nsats : m.sats.length = nSats m.header
  nsigs : m.sigs.length = nCells m.header
  sats : ∀ s ∈ m.sats, WFSat s
  sigs : ∀ s ∈ m.sigs, WFSig s

/-- The header after transmission: GLONASS time comes back as time of day. -/
def sameHeader (cons : Cons) (h : Header) : Header :=
  { h with towMs := if cons = .glo then h.towMs % 86400000 else h.towMs }

/-- Satellite data after transmission. -/
structure SatOk (ty : MsmType) (cons : Cons) (s s' : Sat) : Prop where
  range : |s'.roughRangeMs - s.roughRangeMs| ≤ 1 / 2048
  grid : ∃ k : ℤ, s'.roughRangeMs = k / 1024
  rate : ty = .msm5 → |s'.roughRate - s.roughRate| < 1
  rateExact : ty = .msm5 → ∀ k : ℤ, s.roughRate = k → s'.roughRate = k
  /-- the 4 bits of the extended satellite information: the channel, if it is below 16; 255 (unknown) comes back as 15 -/
  fcn : s'.gloFcn = if ty = .msm5 then s.gloFcn % 16 else if cons = .glo then 255 else 0

/-- Signal data after transmission; `s'` is the decoded satellite the cell belongs to. -/
structure SigOk (ty : MsmType) (s' : Sat) (a b : Sig) : Prop where
  /-- a value delivered as valid is the value sent, up to half a unit of the field and the rounding of double arithmetic -/
  pr : b.vPr = true → a.vPr = true ∧ |b.pr - a.pr| ≤ 1 / 2 ^ 25 + 1 / 2 ^ 60
  cp : b.vCp = true → a.vCp = true ∧ |b.cp - a.cp| ≤ 1 / 2 ^ 30 + 1 / 2 ^ 58
  cnr : b.vCnr = true → a.vCnr = true ∧ |b.cnr - a.cnr| ≤ 1 / 2
  rate : b.vDop = true → ty = .msm5 ∧ a.vDop = true ∧ |b.rate - a.rate| ≤ 1 / 20000 + 1 / 2 ^ 38
  /-- a valid value that fits the field is not lost -/
  prKept : a.vPr = true → |a.pr - s'.roughRangeMs| < 1 / 2 ^ 10 - 1 / 2 ^ 24 → b.vPr = true
  cpKept : a.vCp = true → |a.cp - s'.roughRangeMs| < 1 / 2 ^ 8 - 1 / 2 ^ 29 → b.vCp = true
  cnrKept : a.vCnr = true → 1 / 2 ≤ a.cnr → b.vCnr = true
  rateKept : ty = .msm5 → a.vDop = true → |a.rate - s'.roughRate| < 16384 / 10000 - 1 / 10000 → b.vDop = true
  hca : b.hca = a.hca
  lock : a.vLock = true → b.lock ≤ a.lock
  lockTight : a.vLock = true → 32 / 1000 ≤ a.lock → a.lock < 524288 / 1000 → a.lock < 2 * b.lock
  /-- a lock time on the scale of the field is not changed -/
  lockExact : a.vLock = true → ∀ i < 16, a.lock = Lock.decodeLockTime i → b.lock = a.lock
  lockValid : b.vLock = true
  lockInvalid : a.vLock = false → b.lock = 0

end Verif.Msm.Spec
