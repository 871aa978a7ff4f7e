import Verif.Spec.UbxSbp
/-
What the SBP messages made from the external-sensor messages of a u-blox receiver must say: IMU samples and auxiliary
messages (C43), odometry and wheel ticks (C44).
-/
namespace Verif.Ubx.Spec
open Verif.Ubx Verif.Time

/-! ### IMU -/

def isAux {E : Type} : Out E → Bool
  | .imuAux .. => true
  | _ => false

/-- an IMU_RAW or IMU_AUX message -/
def isImuMsg {E : Type} : Out E → Bool
  | .imuAux .. => true
  | .imuRaw _ => true
  | _ => false

/-- the IMU_RAW messages of an output -/
def rawMsgs {E : Type} (l : List (Out E)) : List ImuRaw := l.filterMap fun o => match o with | .imuRaw m => some m | _ => none

/-- data type: byte 3 of the data word -/
def rawType (d : EsfRawData) : Nat := (d.data.extractLsb' 24 8).toNat
/-- value: two's complement in bytes 0 to 2 -/
def rawVal (d : EsfRawData) : Int := (d.data.extractLsb' 0 24).toInt

/-- data types of gyroscope x, y, z and accelerometer x, y, z in the u-blox interface description -/
def axisTypes : List Nat := [14, 13, 5, 16, 17, 18]

/-- the data of one type, and those of all six axes -/
def ofType (t : Nat) (l : List EsfRawData) : List EsfRawData := l.filter fun d => decide (rawType d = t)
def imuData (l : List EsfRawData) : List EsfRawData := l.filter fun d => decide (rawType d ∈ axisTypes)

/-- the field of an IMU_RAW message for a data type -/
def axisField (t : Nat) (m : ImuRaw) : Int :=
  if t = 14 then m.gyrX else if t = 13 then m.gyrY else if t = 5 then m.gyrZ
  else if t = 16 then m.accX else if t = 17 then m.accY else m.accZ

/-- a value of the sensor (2^-12 deg/s, or 2^-10 m/s^2) in the units of the IMU_RAW field (125 deg/s or 4 g in 2^15 steps) -/
def axisUnits (t : Nat) (v : Int) : ℚ :=
  if t = 14 ∨ t = 13 ∨ t = 5 then (v : ℚ) / 4096 / (125 / 32768) else (v : ℚ) / 1024 / (4 * (980665 / 100000) / 32768)

/-- nearest 16-bit integer, saturating, but for the rounding of float arithmetic -/
def Says16 (r : Int) (x : ℚ) : Prop := |(r : ℚ) - max (-32768) (min 32767 x)| ≤ 1 / 2 + 1 / 128

/-- the clock of the IMU data: time since start-up in ms and last counter value.  The 32-bit counter of the next message continues
it; after a gap of more than a second it is lost. -/
def imuClock (c : Option (Int × Nat)) (msss : Nat) : Option (Int × Nat) :=
  match c with
  | none => some (msss, msss)
  | some (now, last) =>
    if 1000 < ((msss : Int) - last) % 2 ^ 32 then none else some (now + ((msss : Int) - last) % 2 ^ 32, msss)

/-- the clock after a history of frames: every ESF-RAW message with IMU data counts -/
def clock (frames : List (List (BitVec 8))) : Option (Int × Nat) :=
  frames.foldl (fun c f =>
    match decEsfRaw f with
    | .ok (m, _) => if imuData m.data = [] then c else imuClock c m.msss.toNat
    | .error _ => c) none

/-- a well-ordered message: the data of the axes come in groups with each axis once -/
def Grouped (groups : List (List EsfRawData)) (l : List EsfRawData) : Prop :=
  imuData l = groups.flatten ∧ ∀ g ∈ groups, (g.map rawType).Perm axisTypes

/-- time tags have 24 bits -/
def Tags24 (l : List EsfRawData) : Prop := ∀ d ∈ l, d.sensor_time_tag.toNat < 2 ^ 24

/-- the time tag of the first datum -/
def firstTag (l : List EsfRawData) : Nat := match l with | [] => 0 | d :: _ => d.sensor_time_tag.toNat

/-- libswiftnav: normalization takes away whole weeks, exactly, from the non-negative doubles below 2^32 ms; matching weeks, for times of
week in range, keeps the time of week, gives no week that is more than half a week away, and succeeds when there is a week closer than
that -/
structure SaneTime {E : Type} (L : SbpLib E) : Prop where
  norm : ∀ t, 0 ≤ t → t < 4294968 → Fp.f64 t = t → L.normalize t = some ⟨⌊t / 604800⌋, t - 604800 * ⌊t / 604800⌋⟩
  keep : ∀ t r t', L.matchWeeks t r = some t' → t'.tow = t.tow
  near : ∀ t r t' : GpsTime, 0 ≤ t.tow → t.tow < 604800 → 0 ≤ r.tow → r.tow < 604800 → L.matchWeeks t r = some t' →
    |604800 * ((t'.wn : ℚ) - r.wn) + (t'.tow - r.tow)| ≤ 302400
  found : ∀ (t r : GpsTime) (w : Int), 0 ≤ t.wn → 0 ≤ t.tow → t.tow < 604800 → 0 ≤ r.wn → 0 ≤ r.tow → r.tow < 604800 →
    0 ≤ w → w ≤ 32767 → |604800 * ((w : ℚ) - r.wn) + (t.tow - r.tow)| < 302400 → L.matchWeeks t r = some ⟨w, t.tow⟩

/-- the time of an IMU_RAW message: flag 1 (time since startup) in the upper two bits, milliseconds of the week, and 1/256 ms, the time
`t` (seconds) being rounded down, but for the rounding of double arithmetic -/
def SaysImuTime (t : ℚ) (m : ImuRaw) : Prop :=
  ∃ (ms : Nat) (week : Int), m.tow = 2 ^ 30 + ms ∧ ms ≤ 604800000 ∧ m.towF ≤ 255 ∧
    -(1 / 100000) ≤ (t - 604800 * week) * 1000 - ((ms : ℚ) + m.towF / 256) ∧
    (t - 604800 * week) * 1000 - ((ms : ℚ) + m.towF / 256) ≤ 1 / 256 + 1 / 100000

/-- the time of a datum: the message time `ms`, that of the datum with time tag `first`, plus the difference of the 24-bit time tags in
units of 1/25.6 ms, less 50 ms -/
def sampleTime (ms : Int) (first this : Nat) : ℚ :=
  (ms : ℚ) / 1000 + (((this : Int) - first) % 2 ^ 24 : Int) / 25600 - 5 / 100

/-- a temperature in the BMI160 format, 1/512 K above 23 degrees Celsius, within one step, saturating at both ends -/
def SaysTemp (r : Int) (t : ℚ) : Prop :=
  -32767 ≤ r ∧ r ≤ 32767 ∧ |(r : ℚ) - max (-32767) (min 32767 ((t - 23) * 512))| ≤ 1 + 1 / 1000000

/-! ### odometry -/

/-- data type: bits 24 to 29; value: two's complement in bytes 0 to 2; wheel ticks: bits 0 to 21, direction in bit 23 -/
def odoType (w : BitVec 32) : Nat := (w.extractLsb' 24 6).toNat
def odoSpeed (w : BitVec 32) : Int := (w.extractLsb' 0 24).toInt
def odoTicks (w : BitVec 32) : Nat := (w.extractLsb' 0 22).toNat
def odoReverse (w : BitVec 32) : Bool := w.getLsbD 23

/-- wheel ticks (front left, front right, rear left, rear right, single) and speed -/
def odoTypes : List Nat := [6, 7, 8, 9, 10, 11]
/-- SBP source index of the wheel: rear right (or single) 0, rear left 1, front left 2, front right 3 -/
def wheel : Nat → Nat
  | 8 => 1
  | 6 => 2
  | 7 => 3
  | _ => 0

/-- the odometry data of a message -/
def odoData (l : List (BitVec 32)) : List (BitVec 32) := l.filter fun w => decide (odoType w ∈ odoTypes)

/-- the counter (ms) of the last message with odometry data, if it has one and there was no gap; and all data accepted so far, each with
the counter of its message -/
structure OdoHist where
  last : Option Nat
  data : List (Nat × BitVec 32)

/-- a message whose counter is not from the last one's to a second later is dropped -/
def odoFrame (h : OdoHist) (f : List (BitVec 8)) : OdoHist :=
  match decEsfMeas f with
  | .ok (m, _) =>
    match m.calib_tag with
    | none => h
    | some c =>
      if odoData m.data = [] then h
      else if ∀ t ∈ h.last, t ≤ c.toNat ∧ c.toNat ≤ t + 1000 then ⟨some c.toNat, h.data ++ (odoData m.data).map fun w => (c.toNat, w)⟩
      else ⟨none, h.data⟩
  | .error _ => h

def odoHist (frames : List (List (BitVec 8))) : OdoHist := frames.foldl odoFrame ⟨none, []⟩

/-- the counter `c` (ms) in 1/k ms, modulo a week, at most one unit early -/
def SaysWeekTime (k c t : Nat) : Prop :=
  t ≤ 604800000 * k ∧ ∃ week : Int, let d := (c : Int) * k - 604800000 * k * week - t; d = 0 ∨ d = 1

/-- the message for a datum: speed (mm/s) with its sign in bit 5 of the flags, or wheel ticks; time source: processor -/
def SaysOdo {E : Type} (x : Nat × BitVec 32) (o : Out E) : Prop :=
  if odoType x.2 = 11 then
    ∃ tow, o = .odometry tow (odoSpeed x.2) (if odoSpeed x.2 < 0 then 0x3A else 0x1A) ∧ SaysWeekTime 1 x.1 tow
  else ∃ time ticks, o = .wheeltick time 2 (wheel (odoType x.2)) ticks ∧ SaysWeekTime 1000 x.1 time

/-- the wheel tick data, and the counts sent -/
def tickData (l : List (Nat × BitVec 32)) : List (BitVec 32) := (l.map (·.2)).filter fun w => decide (odoType w ≠ 11)
def tickCounts {E : Type} (l : List (Out E)) : List Int := l.filterMap fun o => match o with | .wheeltick _ _ _ n => some n | _ => none

/-- ticks from one datum to the next, negative in reverse -/
def tickStep (w w' : BitVec 32) : Int := if odoReverse w' then -((odoTicks w' : Int) - odoTicks w) else (odoTicks w' : Int) - odoTicks w

/-- the counts sent: 32-bit, from the first datum's on, stepping with the data modulo 2^32 -/
structure TicksFollow (ins : List (BitVec 32)) (outs : List Int) : Prop where
  len : outs.length = ins.length
  range : ∀ o ∈ outs, -2 ^ 31 ≤ o ∧ o < 2 ^ 31
  first : ∀ (w : BitVec 32) (o : Int), ins[0]? = some w → outs[0]? = some o → o = odoTicks w
  step : ∀ (i : Nat) (w w' : BitVec 32) (o o' : Int), ins[i]? = some w → ins[i + 1]? = some w' → outs[i]? = some o → outs[i + 1]? = some o' →
    (o' - o - tickStep w w') % 2 ^ 32 = 0

/-- ticks from one datum to the next of a 22-bit counter, negative in reverse -/
def advance (w w' : BitVec 32) : Int :=
  if odoReverse w' then -(((odoTicks w' : Int) - odoTicks w) % 2 ^ 22) else ((odoTicks w' : Int) - odoTicks w) % 2 ^ 22

/-- distance at every datum, from `d` at the first -/
def distances (d : Int) (w : BitVec 32) : List (BitVec 32) → List Int
  | [] => [d]
  | w' :: ws => d :: distances (d + advance w w') w' ws

/-- the data, and the counts sent, of one wheel -/
def wheelData (k : Nat) (l : List (Nat × BitVec 32)) : List (BitVec 32) := (tickData l).filter fun w => decide (wheel (odoType w) = k)
def wheelCounts {E : Type} (k : Nat) (l : List (Out E)) : List Int :=
  l.filterMap fun o => match o with | .wheeltick _ _ s n => if s = k then some n else none | _ => none

/-- an odometry or wheel tick message -/
def isOdoMsg {E : Type} : Out E → Bool
  | .odometry .. => true
  | .wheeltick .. => true
  | _ => false

end Verif.Ubx.Spec
