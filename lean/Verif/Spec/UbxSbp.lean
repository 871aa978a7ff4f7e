import Verif.Model.UbxSbp
import Verif.Spec.ObsValues
/-
What the SBP messages made from UBX messages must say.
-/
namespace Verif.Ubx.Spec
open Verif.Ubx
open Verif.Msm (Code Cons)

/-- the frame (class, number, length, payload) is the UBX message `m`: the layouts are in Spec/UbxMsg.lean -/
def Holds {M : Type} (dec : Dec M) (frame : List (BitVec 8)) (m : M) : Prop := ∃ rest, dec frame = .ok (m, rest)

/-! ### observations -/

/-- signals of the u-blox interface description (gnssId, sigId) as RINEX observation codes -/
def ubloxSignals : List (Nat × Nat × Cons × String) :=
  [(0, 0, .gps, "1C"), (0, 3, .gps, "2L"), (0, 4, .gps, "2S"), (1, 0, .sbas, "1C"), (2, 0, .gal, "1C"), (2, 1, .gal, "1B"),
   (2, 5, .gal, "7I"), (2, 6, .gal, "7Q"), (3, 0, .bds, "2I"), (3, 1, .bds, "2I"), (3, 2, .bds, "7I"), (3, 3, .bds, "7I"),
   (5, 0, .qzs, "1C"), (5, 4, .qzs, "2S"), (5, 5, .qzs, "2L"), (6, 0, .glo, "1C"), (6, 2, .glo, "2C")]

/-- the SBP code of a u-blox signal: the one of its RINEX code, or the invalid code for a signal that is not in the table -/
def SignalCode (gnss sig : Nat) (c : Code) : Prop :=
  (∃ r ∈ ubloxSignals, r.1 = gnss ∧ r.2.1 = sig ∧ ∃ names, RtcmSbp.Spec.rinex c = some (r.2.2.1, names) ∧ r.2.2.2 ∈ names) ∨
  ((∀ r ∈ ubloxSignals, ¬ (r.1 = gnss ∧ r.2.1 = sig)) ∧ c = .invalid)

/-- an integer part and a number of 1/256 parts express `x` to the nearest 1/256, but for the rounding of double arithmetic -/
def Near256 (p : Int × Nat) (x : ℚ) : Prop := p.2 ≤ 255 ∧ |(p.1 : ℚ) + p.2 / 256 - x| ≤ 1 / 512 + 1 / 2 ^ 52

/-- the SBP observation says what the receiver measured -/
structure SaysObs (encodeLock : ℚ → Nat) (m : RawxMeas) (o : PackedObs) : Prop where
  sat : o.sat = m.sat_id.toNat
  code : SignalCode m.gnss_id.toNat m.sig_id.toNat o.code
  /-- in units of 2 cm, rounded down (up to the rounding of one double multiplication) -/
  pr : ∃ x, dbl m.pseudorange_m = .fin x ∧ |x * 50 - o.P| < 1 + 1 / 2 ^ 20 ∧ (0 ≤ x → -(1 / 2 ^ 20) ≤ x * 50 - o.P)
  phase : ∀ x, dbl m.carrier_phase_cycles = .fin x → -2147483648 ≤ x → x < 2147483647 → ∃ p, o.L = some p ∧ Near256 p x
  doppler : ∀ x, flt m.doppler_hz = .fin x → -32768 ≤ x → x < 32767 → ∃ p, o.D = some p ∧ Near256 p x
  /-- in units of 0.25 dB-Hz, 255 when that does not fit -/
  cn0 : o.cn0 = if 4 * m.cno_dbhz.toNat ≤ 255 then 4 * m.cno_dbhz.toNat else 255
  lock : o.lock = encodeLock (Fp.f64 (m.lock_time.toNat / 1000)) % 256
  /-- pseudorange valid, phase valid, half cycle: as the receiver says; Doppler always valid; nothing else -/
  flags : ∀ b, o.flags.testBit b = if b < 3 then m.track_state.getLsbD b else decide (b = 3)

/-- the messages of one epoch: numbered, all of them full but the last, at most 15 -/
def Sequenced (ms : List ObsOut) : Prop :=
  1 ≤ ms.length ∧ ms.length ≤ 15 ∧ ∀ (k : Nat) (o : ObsOut), ms[k]? = some o →
    o.seq = 16 * ms.length + k ∧ o.seq < 256 ∧ o.obs.length ≤ 14 ∧ (k + 1 < ms.length → o.obs.length = 14) ∧
    (1 < ms.length → o.obs ≠ [])

/-- the message carries the receiver time `t` (seconds of week) to 2 ns, as milliseconds and a residual in nanoseconds, and the week -/
def SaysTime (t : ℚ) (week : BitVec 16) (o : ObsOut) : Prop :=
  -499999 ≤ o.ns ∧ o.ns ≤ 500000 ∧ |(o.tow : ℚ) / 1000 + o.ns / 1000000000 - t| ≤ 2 / 1000000000 ∧
  o.wn = if week = 0 then 65535 else week.toNat

/-- a measurement the converter can handle: values are numbers and fit -/
def Sane (m : RawxMeas) : Prop :=
  (∃ x, dbl m.pseudorange_m = .fin x ∧ 0 ≤ x ∧ x ≤ 85000000) ∧
  (∃ x, dbl m.carrier_phase_cycles = .fin x ∧ -2147483648 ≤ x ∧ x < 2147483647) ∧
  (∃ x, flt m.doppler_hz = .fin x ∧ -32768 ≤ x ∧ x < 32767)

end Verif.Ubx.Spec
