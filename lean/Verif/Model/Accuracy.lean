import Verif.Model.Float
import Verif.Model.Num
/-
Accuracy indices (URA, GLONASS F_T, SISA) and fit intervals.
gnss_converters/src/rtcm3_utils.c:707-961, gnss_converters/src/rtcm3_sbp_ephemeris.c:22-101.
`float` arithmetic is rounded (Model/Float).  A C `float` argument is any rational.
-/
namespace Verif.Acc
open Verif.Fp

/-- what the functions take from outside: FLOAT_EQUALITY_EPS (libswiftnav) and `log2f` (libm) -/
structure Env where
  eps : ℚ
  log2f : ℚ → ℚ

/-- `convert_ura_to_uri`   rtcm3_utils.c:707-733.  `powf(2, n)` with integral `n` is exact (all uses: for ura <= 6 only
0, 2, 4, 6 reach it) -/
def uraToUri (ura : Nat) : ℚ :=
  if ura = 1 then f32 (28 / 10)
  else if ura = 3 then f32 (57 / 10)
  else if ura = 5 then f32 (113 / 10)
  else if ura ≤ 6 then 2 ^ (1 + ura / 2)
  else if ura > 6 ∧ ura < 15 then 2 ^ (ura - 2)
  else if ura = 15 then 6144
  else -1

/-- `fabsf(uri - v) < FLOAT_EQUALITY_EPS` -/
def eqf (env : Env) (uri v : ℚ) : Prop := |f32 (uri - v)| < env.eps
instance (env uri v) : Decidable (eqf env uri v) := inferInstanceAs (Decidable (_ < _))

/-- the chain of comparisons, in order, with `(uint8_t)(log2f(uri) + 2.0)` at the end (a negative or large value is
undefined behaviour in C; the model truncates and reduces modulo 256) -/
def lookup (env : Env) (uri : ℚ) : List (ℚ × Nat) → Nat
  | [] => (ctrunc (env.log2f uri + 2)).toNat % 256
  | (v, i) :: r => if eqf env uri v then i else lookup env uri r

/-- `convert_gps_uri_to_ura`   rtcm3_utils.c:735-763 -/
def gpsUriToUra (env : Env) (uri : ℚ) : Nat := lookup env uri
  [(2, 0), (f32 (28 / 10), 1), (4, 2), (f32 (57 / 10), 3), (8, 4), (f32 (113 / 10), 5), (16, 6), (6144, 15)]

/-- `convert_glo_uri_to_ura`   rtcm3_utils.c:765-808 -/
def gloUriToUra (env : Env) (uri : ℚ) : Nat := lookup env uri
  [(1, 0), (2, 1), (5 / 2, 2), (4, 3), (5, 4), (7, 5), (10, 6), (12, 7), (14, 8), (16, 9), (32, 10), (64, 11), (128, 12),
   (256, 13), (512, 14), (6144, 15)]

/-- `convert_bds_uri_to_ura`   rtcm3_utils.c:810-852 (the comparison value for index 15 is 8196, not 8192) -/
def bdsUriToUra (env : Env) (uri : ℚ) : Nat := lookup env uri
  [(2, 0), (f32 (28 / 10), 1), (4, 2), (f32 (57 / 10), 3), (8, 4), (f32 (113 / 10), 5), (16, 6), (32, 7), (64, 8), (128, 9),
   (256, 10), (512, 11), (1024, 12), (2048, 13), (4096, 14), (8196, 15)]

/-- `convert_glo_ft_to_meters`   rtcm3_sbp_ephemeris.c:22-64 -/
def gloFtToMeters (ft : Nat) : ℚ :=
  match ft with
  | 0 => 1 | 1 => 2 | 2 => 5 / 2 | 3 => 4 | 4 => 5 | 5 => 7 | 6 => 10 | 7 => 12 | 8 => 14 | 9 => 16 | 10 => 32 | 11 => 64
  | 12 => 128 | 13 => 256 | 14 => 512 | 15 => 6144 | _ => -1

/-- `g_bds_ura_table` of libswiftnav (not in the tree; values of the BDS ICD, `none` = INVALID_URA_VALUE) -/
def bdsTable : List (Option ℚ) :=
  [some 2, some (f32 (28 / 10)), some 4, some (f32 (57 / 10)), some 8, some (f32 (113 / 10)), some 16, some 32, some 64,
   some 128, some 256, some 512, some 1024, some 2048, some 4096, none]

/-- `convert_bds_ura_to_meters`   rtcm3_sbp_ephemeris.c:66-81 -/
def bdsUraToMeters (ura : Nat) : ℚ :=
  match bdsTable[ura]? with
  | none => -1
  | some none => 8192
  | some (some m) => m

/-- `convert_sisa_to_meters`   rtcm3_utils.c:916-934; steps and resolutions rtcm3_utils.h:31-51 -/
def sisaToMeters (sisa : Nat) : ℚ :=
  if sisa ≤ 50 then f32 (0 + f32 (sisa * f32 (1 / 100)))
  else if sisa ≤ 75 then f32 (1 / 2 + f32 (((sisa : ℚ) - 50) * f32 (2 / 100)))
  else if sisa ≤ 100 then f32 (1 + f32 (((sisa : ℚ) - 75) * f32 (4 / 100)))
  else if sisa ≤ 125 then f32 (2 + f32 (((sisa : ℚ) - 100) * f32 (16 / 100)))
  else -1

/-- `convert_meters_to_sisa`   rtcm3_utils.c:936-961: `float` arithmetic up to the addition of the `double` 0.5, which is
exact here up to rounding to `double` -/
def metersToSisa (ura : ℚ) : Nat :=
  if ura < 0 then 255
  else if ura ≤ 1 / 2 then (ctrunc (f64 (f32 (f32 (ura - 0) / f32 (1 / 100)) + 1 / 2))).toNat
  else if ura ≤ 1 then (ctrunc (f64 (f32 (f32 (f32 (ura - 1 / 2) / f32 (2 / 100)) + 50) + 1 / 2))).toNat
  else if ura ≤ 2 then (ctrunc (f64 (f32 (f32 (f32 (ura - 1) / f32 (4 / 100)) + 75) + 1 / 2))).toNat
  else if ura ≤ 6 then (ctrunc (f64 (f32 (f32 (f32 (ura - 2) / f32 (16 / 100)) + 100) + 1 / 2))).toNat
  else 255

/-- `rtcm3_decode_fit_interval_gps`, seconds   rtcm3_utils.c:860-883 -/
def decodeFitGps (flag iodc : Nat) : Nat :=
  (if flag = 0 then 4
   else if iodc ≥ 240 ∧ iodc ≤ 247 then 8
   else if (iodc ≥ 248 ∧ iodc ≤ 255) ∨ iodc = 496 then 14
   else if (iodc ≥ 497 ∧ iodc ≤ 503) ∨ (iodc ≥ 1021 ∧ iodc ≤ 1023) then 26
   else if iodc ≥ 504 ∧ iodc ≤ 510 then 50
   else if iodc = 511 ∨ (iodc ≥ 752 ∧ iodc ≤ 756) then 74
   else if iodc = 757 then 98
   else 6) * 60 * 60

/-- `rtcm3_encode_fit_interval_gps`   rtcm3_utils.c:890-896 -/
def encodeFitGps (s : Nat) : Nat := if s = 4 * 60 * 60 then 0 else 1

/-- `rtcm3_decode_fit_interval_glo`   rtcm3_sbp_ephemeris.c:88-101 -/
def decodeFitGlo (p1 : Nat) : Nat :=
  match p1 with
  | 0 => (60 + 10) * 60
  | 1 => (30 + 10) * 60
  | 2 => (45 + 10) * 60
  | 3 => (60 + 10) * 60
  | _ => (60 + 10) * 60

/-- `rtcm3_encode_fit_interval_glo`   rtcm3_utils.c:903-914 -/
def encodeFitGlo (s : Nat) : Nat := if s / 60 = 30 + 10 then 1 else if s / 60 = 45 + 10 then 2 else 0

end Verif.Acc
