import Verif.Model.Nmea
/-
The formulas of nmea.c built on the C mathematical library: speed and course over ground, the error ellipse of GST and the accuracies of PUBX.
Every `float` and `double` operation rounds (SSE arithmetic, no contraction to fused multiply-add); the functions of libm are parameters.
-/
namespace Verif.Nmea
open Verif.Fp

/-- `sqrt`, `sqrtf` (of numbers that are not negative), `atan`, `atan2` of libm and the constant R2D of libswiftnav -/
structure Libm where
  sqrt : ℚ → ℚ
  sqrtf : ℚ → ℚ
  atan : ℚ → ℚ
  atan2 : ℚ → ℚ → ℚ
  r2d : ℚ

/-- nmea.h:43 MM2M -/
def mm2m (x : Int) : ℚ := f64 ((x : ℚ) / 1000)

/-- `sqrt(x * x + y * y + 0 * 0)` of nmea.h:50-53 -/
def speed (m : Libm) (n e : Int) : ℚ := m.sqrt (f64 (f64 (mm2m n * mm2m n) + f64 (mm2m e * mm2m e)))
/-- nmea.h:48-51 MS2KNOTS, nmea.c:661 -/
def sogKnots (m : Libm) (n e : Int) : ℚ := f64 (speed m n e * knotsFactor)
/-- nmea.h:52-53 MS2KMHR, nmea.c:662 (`3600.0 / 1000.0` is rounded at compile time) -/
def sogKph (m : Libm) (n e : Int) : ℚ := f64 (speed m n e * f64 (3600 / 1000))
/-- nmea.c:665 -/
def courseDeg (m : Libm) (n e : Int) : ℚ := f64 (m.r2d * m.atan2 (mm2m e) (mm2m n))

/-- `sqrt` in general: a negative argument gives NaN -/
def sqrtDbl (f : ℚ → ℚ) (x : ℚ) : Dbl := if x < 0 then .nan else .fin (f x)

/-- nmea.c:1042 trace: `float` arithmetic, then widened -/
def gstTrace (nn ee : ℚ) : ℚ := f32 (nn + ee)
/-- nmea.c:1043-1044 det: `float` arithmetic, then widened -/
def gstDet (nn ne ee : ℚ) : ℚ := f32 (f32 (nn * ee) - f32 (ne * ne))
/-- nmea.c:1047-1048 `sqrt(fmax(0, ((trace * trace) / 4) - det))` -/
def gstRoot (m : Libm) (nn ne ee : ℚ) : ℚ :=
  m.sqrt (max 0 (f64 (f64 (f64 (gstTrace nn ee * gstTrace nn ee) / 4) - gstDet nn ne ee)))
/-- nmea.c:1047 -/
def gstEig1 (m : Libm) (nn ne ee : ℚ) : ℚ := f64 (f64 (gstTrace nn ee / 2) + gstRoot m nn ne ee)
/-- nmea.c:1048 -/
def gstEig2 (m : Libm) (nn ne ee : ℚ) : ℚ := f64 (f64 (gstTrace nn ee / 2) - gstRoot m nn ne ee)
/-- nmea.c:1053-1060 -/
def gstOrientation (m : Libm) (nn ne ee : ℚ) : ℚ :=
  let ev := gstEig1 m nn ne ee
  if ev > 0 ∧ ee < ev then f64 (m.atan (f64 (ne / f64 (ev - ee))) * m.r2d)
  else if ev > 0 then 90 else 0

/-- nmea.c:1036-1069 the values of send_gpgst: semi major, semi minor, orientation, std n, e, d -/
def gstVals (m : Libm) (nn ne ee dd : ℚ) : List Dbl :=
  [sqrtDbl m.sqrt (gstEig1 m nn ne ee), sqrtDbl m.sqrt (gstEig2 m nn ne ee), .fin (gstOrientation m nn ne ee),
   sqrtDbl m.sqrtf nn, sqrtDbl m.sqrtf ee, sqrtDbl m.sqrtf dd]

/-- the library of the converter with these formulas; `base` supplies what is not arithmetic.  Simplified: covariances that are not finite give NaN
everywhere. -/
def libOf (m : Libm) (base : Lib) : Lib :=
  { base with
    sogKnots := sogKnots m
    sogKph := sogKph m
    courseDeg := courseDeg m
    gst := fun p => match p.covNN, p.covNE, p.covEE, p.covDD with
      | .fin nn, .fin ne, .fin ee, .fin dd => gstVals m nn ne ee dd
      | _, _, _, _ => [.nan, .nan, .nan, .nan, .nan, .nan]
    -- nmea.c:1273 sqrtf(cov_n_n + cov_e_e)
    hacc := fun p => match p.covNN, p.covEE with
      | .fin nn, .fin ee => sqrtDbl m.sqrtf (f32 (nn + ee))
      | _, _ => .nan
    -- nmea.c:1274 sqrtf(cov_d_d)
    vacc := fun p => match p.covDD with
      | .fin dd => sqrtDbl m.sqrtf dd
      | _ => .nan }

end Verif.Nmea
