import Verif.Model.GpsTime
import Mathlib.Data.Int.Log
/-
The shared GPS time estimate and its concurrent updaters.  gnss_converters/src/time_truth.c:23-165.
Atomic operations are sequentially consistent (C11 default order), so an execution is an interleaving of the atomic
loads and compare-exchanges of the threads.  A compare-exchange may also fail spuriously (padding bytes).
-/
namespace Verif.TimeTruth
open Verif.Time

/-- C `rint()`-style rounding used by conversions: nearest integer, halfway cases to even -/
def rne (x : ℚ) : Int :=
  if x - ⌊x⌋ < 1 / 2 then ⌊x⌋ else if x - ⌊x⌋ > 1 / 2 then ⌊x⌋ + 1 else if ⌊x⌋ % 2 = 0 then ⌊x⌋ else ⌊x⌋ + 1

/-- exponent of the IEEE-754 binary32 number nearest to `x > 0` -/
def f32exp (x : ℚ) : Int := max (Int.log 2 x) (-126)
/-- `(float)x` for `0 ≤ x < 2^127`: 24-bit significand, round to nearest even -/
def f32 (x : ℚ) : ℚ := if x ≤ 0 then 0 else (rne (x / 2 ^ (f32exp x - 23)) : ℚ) * 2 ^ (f32exp x - 23)

/-- `struct time_truth`   time_truth.c:26-30; `solved` is `state == TIME_TRUTH_SOLVED` -/
structure TT where
  wn : Int
  tow : ℚ
  solved : Bool
deriving DecidableEq

/-- `time_truth_init`   time_truth.c:42-51 (WN_UNKNOWN, TOW_UNKNOWN are -1) -/
def TT.init : TT := ⟨-1, -1, false⟩

/-- `enum time_truth_source`; `other` stands for any other value of the enum type   time_truth.h -/
inductive Source | ephGps | ephGal | ephBds | other
deriving DecidableEq

/-- the checks before the loop; `ref` is GPS_WEEK_REFERENCE   time_truth.c:56-64 -/
def accepts (ref : Int) (t : GpsTime) : Prop := t.valid ∧ ¬ t.wn < ref
instance (ref t) : Decidable (accepts ref t) := inferInstanceAs (Decidable (_ ∧ _))

/-- the body of the loop: the value to store, or `none` for `return false`   time_truth.c:75-115 -/
def decide' (cur : TT) (src : Source) (t : GpsTime) : Option TT :=
  if src = .other then none
  else if cur.solved = false then some ⟨t.wn, f32 t.tow, true⟩
  else if diff t ⟨cur.wn, cur.tow⟩ ≤ 0 then none
  else some ⟨t.wn, f32 t.tow, true⟩

/-- where a thread is inside `time_truth_update` -/
inductive Pc
  | idle
  /-- before the atomic load -/
  | load (src : Source) (t : GpsTime)
  /-- before the compare-exchange, with the expected value -/
  | loop (src : Source) (t : GpsTime) (cur : TT)
  /-- returned -/
  | done (src : Source) (t : GpsTime) (ret : Bool)
deriving DecidableEq

/-- the shared variable, the threads, and (ghost) the arguments of all calls made so far -/
structure Sys where
  shared : TT
  pc : Nat → Pc
  calls : List (Source × GpsTime)

def Sys.init : Sys := ⟨.init, fun _ => .idle, []⟩

def setPc (pc : Nat → Pc) (i : Nat) (p : Pc) : Nat → Pc := fun j => if j = i then p else pc j

/-- One atomic step of some thread `i`   time_truth.c:53-135 -/
inductive Step (ref : Int) : Sys → Sys → Prop
  | call {s} (i : Nat) (src : Source) (t : GpsTime) (h : s.pc i = .idle) :
      Step ref s { s with
        pc := setPc s.pc i (if accepts ref t then .load src t else .done src t false), calls := (src, t) :: s.calls }
  | load {s} (i : Nat) (src t) (h : s.pc i = .load src t) :
      Step ref s { s with pc := setPc s.pc i (.loop src t s.shared) }
  | giveUp {s} (i : Nat) (src t cur) (h : s.pc i = .loop src t cur) (hd : decide' cur src t = none) :
      Step ref s { s with pc := setPc s.pc i (.done src t false) }
  | casOk {s} (i : Nat) (src t cur new) (h : s.pc i = .loop src t cur) (hd : decide' cur src t = some new)
      (hc : s.shared = cur) :
      Step ref s { s with shared := new, pc := setPc s.pc i (.done src t true) }
  | casFail {s} (i : Nat) (src t cur new) (h : s.pc i = .loop src t cur) (hd : decide' cur src t = some new) :
      Step ref s { s with pc := setPc s.pc i (.loop src t s.shared) }
  | ret {s} (i : Nat) (src t b) (h : s.pc i = .done src t b) :
      Step ref s { s with pc := setPc s.pc i .idle }

/-- executions -/
inductive Steps (ref : Int) : Sys → Sys → Prop
  | refl (s) : Steps ref s s
  | tail {a b c} (h : Steps ref a b) (hs : Step ref b c) : Steps ref a c

/-- `time_truth_get`: one atomic load   time_truth.c:137-150 -/
def get (s : Sys) : Bool × GpsTime := (s.shared.solved, ⟨s.shared.wn, s.shared.tow⟩)

/-- An SBP message as far as `time_truth_update_from_sbp` looks at it -/
inductive SbpIn
  /-- SbpMsgEphemerisGps: health bits and time of ephemeris -/
  | ephGps (health : Nat) (wn tow : Nat)
  | other

/-- `time_truth_update_from_sbp`: the call of `time_truth_update` it makes, if any   time_truth.c:152-178
(`(s16)time.wn` of a `u16`) -/
def fromSbp : SbpIn → Option (Source × GpsTime)
  | .ephGps health wn tow => if health = 0 then some (.ephGps, ⟨(BitVec.ofNat 16 wn).toInt, tow⟩) else none
  | .other => none

end Verif.TimeTruth
