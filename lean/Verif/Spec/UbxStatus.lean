import Verif.Spec.UbxImu
/-
What a GNSS time offset made from the NAV-STATUS message of a u-blox receiver must say (C55).
-/
namespace Verif.Ubx.Spec
open Verif.Ubx Verif.Time

/-- NAV-STATUS: week number and time of week are valid -/
def timeOk (m : NavStatus) : Bool := m.status_flags.getLsbD 3 && m.status_flags.getLsbD 2
/-- NAV-STATUS: a 3D fix or a combined fix with dead reckoning, within limits -/
def fixOk (m : NavStatus) : Bool := (decide (m.fix_type = 3) || decide (m.fix_type = 4)) && m.status_flags.getLsbD 0

/-- what is known about GNSS time: whether the receiver has ever said that its time is valid, and the time of the last epoch of
observations since then that is not empty and has a week number -/
def gnssStep (g : Bool × Option GpsTime) (f : List (BitVec 8)) : Bool × Option GpsTime :=
  match decNavStatus f with
  | .ok (m, _) => (g.1 || timeOk m, g.2)
  | .error _ =>
    match decRxmRawx f with
    | .ok (m, _) => (g.1, if g.1 ∧ m.num_meas ≠ 0 ∧ m.rcv_wn ≠ 0 then (dbl m.rcv_tow).num.map (⟨m.rcv_wn.toInt, ·⟩) else g.2)
    | .error _ => g

def gnssClock (frames : List (List (BitVec 8))) : Bool × Option GpsTime := frames.foldl gnssStep (false, none)

/-- the unwrapped clock of the IMU data, and the last ESF-RAW message with IMU data that did not come after a gap, with its time (ms) -/
def imuStep (c : Option (Int × Nat) × Option (Int × EsfRaw)) (f : List (BitVec 8)) : Option (Int × Nat) × Option (Int × EsfRaw) :=
  match decEsfRaw f with
  | .ok (m, _) =>
    if imuData m.data = [] then c
    else match imuClock c.1 m.msss.toNat with
      | some (now, last) => (some (now, last), some (now, m))
      | none => (none, c.2)
  | .error _ => c

def lastImuRaw (frames : List (List (BitVec 8))) : Option (Int × EsfRaw) := (frames.foldl imuStep (none, none)).2

/-- `M` (ms) is a time that reads `c` modulo a week and is not more than half a week from `t` (s), but for the rounding of double
arithmetic -/
def Unfolds (M : Int) (c : Nat) (t : ℚ) : Prop := M % 604800000 = (c : Int) % 604800000 ∧ |(M : ℚ) / 1000 - t| ≤ 302400 + 1 / 100000000

/-- not more than a second short of half a week -/
def UnfoldsWell (M : Int) (c : Nat) (t : ℚ) : Prop := M % 604800000 = (c : Int) % 604800000 ∧ |(M : ℚ) / 1000 - t| ≤ 302399

/-- the frames have IMU data from 51 ms after start-up for 49 days, with time tags of 24 bits -/
def ImuNormal (frames : List (List (BitVec 8))) : Prop :=
  ∀ pre f m, pre ++ [f] <+: frames → Holds decEsfRaw f m → Tags24 m.data ∧
    ∀ now last, clock (pre ++ [f]) = some (now, last) → 51 ≤ now ∧ now ≤ 4294000000

end Verif.Ubx.Spec
