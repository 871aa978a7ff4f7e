import Verif.Spec.NmeaSentence
/-
Ranges of the message fields on the wire, and what is assumed of the mathematical library.
-/
namespace Verif.Nmea.Spec

/-- a message whose fields are in the range of their SBP types and whose UTC time, if valid, is a clock reading -/
def WireMsg : Msg → Prop
  | .utc _ t => TwoDigit t
  | .pos _ p => p.nSats < 256
  | .vel _ v => (-2147483648 ≤ v.n ∧ v.n ≤ 2147483647) ∧ (-2147483648 ≤ v.e ∧ v.e ≤ 2147483647) ∧ (-2147483648 ≤ v.d ∧ v.d ≤ 2147483647)
  | .dops d => d.pdop < 65536 ∧ d.hdop < 65536 ∧ d.vdop < 65536 ∧ d.tdop < 65536
  | .age a => a.age < 65536
  | .hdg h => h.heading < 4294967296
  | .azel l => ∀ a ∈ l, a.az < 256 ∧ -128 ≤ a.el ∧ a.el ≤ 127 ∧ a.sid.sat < 256
  | .meas l => ∀ m ∈ l, m.cn0 < 256
  | .solnMeta m => m.hdop < 65536 ∧ m.vdop < 65536 ∧ m.age < 65536
  | .orient o => -2147483648 ≤ o.yaw ∧ o.yaw ≤ 2147483647
  | .gpsTime _ _ => True
  | .groupMeta => True

def WireIn : In → Prop
  | .msg m => WireMsg m
  | .obs o => ∀ s ∈ o.obs, s.sat < 256
  | _ => True

instance (m : Msg) : Decidable (WireMsg m) := by cases m <;> (unfold WireMsg; infer_instance)
instance (i : In) : Decidable (WireIn i) := by cases i <;> (unfold WireIn; infer_instance)

/-- a position that, if there is a fix, has a height below 10^12 m and standard deviations below 10^9 m -/
def ModeratePos (L : Lib) (p : Pos) : Prop :=
  p.flags % 8 ≠ 0 → Below 12 p.height ∧
    ∃ a b c d e f, L.gst p = [a, b, c, d, e, f] ∧ Below 9 a ∧ Below 9 b ∧ Below 3 c ∧ Below 9 d ∧ Below 9 e ∧ Below 9 f

/-- `atan2` in degrees is within a half turn (with slack for rounding) -/
def CourseBounded (L : Lib) : Prop := ∀ n e, |L.courseDeg n e| ≤ 181

/-- speeds of 32-bit velocities are not negative and below 10^8; the geoid stays within 10 km -/
structure SaneLib (L : Lib) : Prop where
  course : CourseBounded L
  geoid : ∀ a b, |L.geoid a b| ≤ 9999
  knots : ∀ n e, |n| ≤ 2147483648 → |e| ≤ 2147483648 → 0 ≤ L.sogKnots n e ∧ L.sogKnots n e ≤ 99999999
  kph : ∀ n e, |n| ≤ 2147483648 → |e| ≤ 2147483648 → 0 ≤ L.sogKph n e ∧ L.sogKph n e ≤ 99999999

end Verif.Nmea.Spec
