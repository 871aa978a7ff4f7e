import Verif.Model.GpsTime
/-
What a GPS time means: seconds since the GPS epoch.  Only `Verif.Time.GpsTime` is shared with the model.
-/
namespace Verif.Time.Spec
open Verif.Time

/-- seconds since the GPS epoch -/
def seconds (t : GpsTime) : ℚ := (t.wn : ℚ) * 604800 + t.tow
/-- a usable time stamp: known week that fits 16 bits, time of week in [0, 604800) -/
def Valid (t : GpsTime) : Prop := 0 ≤ t.wn ∧ t.wn ≤ 32767 ∧ 0 ≤ t.tow ∧ t.tow < 604800

end Verif.Time.Spec
