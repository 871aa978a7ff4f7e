import Verif.Model.Codec
import Verif.Model.LockTime
import Verif.Model.Float
/-
Legacy GPS / GLONASS observation messages 1001, 1002, 1003, 1004, 1010, 1012.
librtcm/src/decode.c:137-203,258-552,702-832 and librtcm/src/encode.c:109-541,645-733.
The six messages differ only in which blocks are present, so they are modelled by one definition over `Kind`.
`double` values are rationals and every operation that can be inexact rounds (`Fp.f64`); products with a power of two are exact.  Casts of doubles to
unsigned integers are modelled only where they are defined in C (non-negative, in range), see DESIGN.md.
-/
namespace Verif.Obs
open Verif.Dec Verif.Lock

/-- the six message types -/
inductive Kind where
  | m1001 | m1002 | m1003 | m1004 | m1010 | m1012
deriving DecidableEq
namespace Kind
def num : Kind → Nat
  | m1001 => 1001 | m1002 => 1002 | m1003 => 1003 | m1004 => 1004 | m1010 => 1010 | m1012 => 1012
/-- GLONASS message -/
def glo : Kind → Bool
  | m1010 | m1012 => true
  | _ => false
/-- extended message: carries the integer ambiguity and CNR -/
def ext : Kind → Bool
  | m1001 | m1003 => false
  | _ => true
/-- carries L2 -/
def l2 : Kind → Bool
  | m1003 | m1004 | m1012 => true
  | _ => false
/-- PRUNIT_GPS / PRUNIT_GLO   librtcm/include/rtcm3/constants.h:16-17 -/
def unit : Kind → ℚ
  | m1010 | m1012 => 599584.916
  | _ => 299792.458
/-- width of the L1 pseudorange field DF011 / DF041 -/
def prBits : Kind → Nat
  | m1010 | m1012 => 25
  | _ => 24
/-- width of the integer ambiguity field DF014 / DF044 -/
def ambBits : Kind → Nat
  | m1010 | m1012 => 7
  | _ => 8
/-- L1 carrier frequency: GPS_L1_HZ, or GLO_L1_HZ + (fcn - 7) * GLO_L1_DELTA_HZ   librtcm/include/rtcm3/constants.h:82-97 -/
def f1 (k : Kind) (fcn : Nat) : ℚ := if k.glo then 1602000000 + ((fcn : ℚ) - 7) * 562500 else 1575420000
/-- L2 carrier frequency -/
def f2 (k : Kind) (fcn : Nat) : ℚ := if k.glo then 1246000000 + ((fcn : ℚ) - 7) * 437500 else 1227600000
end Kind

/-- GPS_C -/
abbrev gpsC : ℚ := 299792458
/-- the `double` constant 0.02 -/
def c002 : ℚ := Fp.f64 (2 / 100)
/-- the `double` constant 0.0005 -/
def c0005 : ℚ := Fp.f64 (5 / 10000)
/-- `GPS_C / freq` -/
def wvl (freq : ℚ) : ℚ := Fp.f64 (gpsC / freq)
/-- `amb * PRUNIT_GPS` / `amb * PRUNIT_GLO` -/
def ambM (k : Kind) (n : Nat) : ℚ := Fp.f64 ((n : ℚ) * Fp.f64 k.unit)

/-- `rtcm_freq_data`   librtcm/include/rtcm3/messages.h:96-104.  Members a decoder leaves untouched are 0 here. -/
structure Freq where
  code : Nat := 0
  pr : ℚ := 0
  cp : ℚ := 0
  lock : ℚ := 0
  cnr : ℚ := 0
  vPr : Bool := false
  vCp : Bool := false
  vCnr : Bool := false
  vLock : Bool := false

/-- `rtcm_sat_data` -/
structure Sat where
  svId : Nat
  fcn : Nat := 0
  l1 : Freq
  l2 : Freq := {}

/-- `rtcm_obs_header`   librtcm/include/rtcm3/messages.h:56-64 -/
structure Header where
  msgNum : Nat
  stnId : Nat
  towMs : Nat
  sync : Nat
  nSat : Nat
  divFree : Nat
  smooth : Nat
deriving DecidableEq

/-- `rtcm_obs_message` -/
structure Msg where
  header : Header
  sats : List Sat

/-! ### Decoder -/

/-- `rtcm3_read_header` / `rtcm3_read_glo_header`   librtcm/src/decode.c:180-202 -/
def readHeader (k : Kind) : Dec Header := do
  let msgNum ← getU 12
  let stnId ← getU 12
  let towMs ← getU (if k.glo then 27 else 30)
  let sync ← getU 1
  let nSat ← getU 5
  let divFree ← getU 1
  let smooth ← getU 3
  pure { msgNum, stnId, towMs, sync, nSat, divFree, smooth }

/-- the raw fields of one satellite, in the order they are transmitted; absent fields are 0 -/
structure Raw where
  svId : Nat
  code1 : Nat
  fcn : Nat
  pr1 : Nat
  diff1 : Int
  lock1 : Nat
  amb : Nat
  cnr1 : Nat
  code2 : Nat
  pr2 : Int
  diff2 : Int
  lock2 : Nat
  cnr2 : Nat

/-- the field reads of one satellite   librtcm/src/decode.c:137-178 and 337-350 (1001), 386-406 (1002), 441-470 (1003),
504-543 (1004), 717-739 (1010), 777-820 (1012) -/
def decodeRaw (k : Kind) : Dec Raw := do
  let svId ← getU 6
  let code1 ← getU 1
  let fcn ← if k.glo then getU 5 else pure 0
  let pr1 ← getU k.prBits
  let diff1 ← getS 20
  let lock1 ← getU 7
  let amb ← if k.ext then getU k.ambBits else pure 0
  let cnr1 ← if k.ext then getU 8 else pure 0
  let code2 ← if k.l2 then getU 2 else pure 0
  let pr2 ← if k.l2 then getS 14 else pure 0
  let diff2 ← if k.l2 then getS 20 else pure 0
  let lock2 ← if k.l2 then getU 7 else pure 0
  let cnr2 ← if k.l2 && k.ext then getU 8 else pure 0
  pure { svId, code1, fcn, pr1, diff1, lock1, amb, cnr1, code2, pr2, diff2, lock2, cnr2 }

/-- `construct_L1_code`, value   librtcm/src/decode.c:258-266 -/
def l1Code (pr : Nat) (amb : ℚ) : ℚ := Fp.f64 (Fp.f64 (c002 * (pr : ℚ)) + amb)
/-- `construct_L1_code`, flag: `pr` is compared as `int32_t` with `(int)PR_L1_INVALID = -524288` -/
def l1CodeValid (pr : Nat) : Bool := decide ((pr : Int) ≠ -524288)
/-- `construct_L1_phase` / `construct_L2_phase`, from the L1 pseudorange `l1Pr`   librtcm/src/decode.c:268-277,289-299 -/
def phase (l1Pr : ℚ) (diff : Int) (freq : ℚ) : ℚ := Fp.f64 (Fp.f64 (l1Pr + Fp.f64 (c0005 * (diff : ℚ))) / wvl freq)
/-- their flag (`CP_INVALID` = 0xFFF80000) -/
def phaseValid (diff : Int) : Bool := decide (diff ≠ -524288)

/-- L1 of one satellite   librtcm/src/decode.c:352-356,407-412,457-461,527-531,742-749,802-809 and `get_cnr` :301-311 -/
def mkL1 (k : Kind) (r : Raw) : Freq :=
  let fcnOk : Bool := !k.glo || decide (r.fcn ≤ 20)
  let pr := l1Code r.pr1 (ambM k r.amb)
  { code := r.code1, pr, vPr := l1CodeValid r.pr1
    cp := if fcnOk then phase pr r.diff1 (k.f1 r.fcn) else 0, vCp := fcnOk && phaseValid r.diff1
    lock := (fromLockInd r.lock1 : ℚ), vLock := fcnOk && phaseValid r.diff1
    cnr := (r.cnr1 : ℚ) / 4, vCnr := decide (r.cnr1 ≠ 0) }
/-- L2 of one satellite   librtcm/src/decode.c:470-474,544-548,821-828 -/
def mkL2 (k : Kind) (r : Raw) : Freq :=
  let pr := l1Code r.pr1 (ambM k r.amb)
  { code := r.code2, pr := Fp.f64 (Fp.f64 (c002 * (r.pr2 : ℚ)) + pr), vPr := decide (r.pr2 ≠ -8192)
    cp := phase pr r.diff2 (k.f2 r.fcn), vCp := phaseValid r.diff2
    lock := (fromLockInd r.lock2 : ℚ), vLock := phaseValid r.diff2
    cnr := (r.cnr2 : ℚ) / 4, vCnr := decide (r.cnr2 ≠ 0) }
/-- one satellite -/
def mkSat (k : Kind) (r : Raw) : Sat :=
  { svId := r.svId, fcn := r.fcn, l1 := mkL1 k r, l2 := if k.l2 then mkL2 k r else {} }

/-- one iteration of the satellite loop -/
def decodeSat (k : Kind) : Dec Sat := do
  let r ← decodeRaw k
  pure (mkSat k r)

/-- RTCM_MAX_TOW_MS / RTCM_GLO_MAX_TOW_MS -/
def Kind.maxTow (k : Kind) : Nat := if k.glo then 86399999 else 604799999

/-- `rtcm3_decode_1001_bitstream` … `rtcm3_decode_1012_bitstream` -/
def decode (k : Kind) : Dec Msg := do
  let header ← readHeader k
  guard (header.msgNum = k.num) .typeMismatch
  guard (¬ header.towMs > k.maxTow) .invalid
  let sats ← many (decodeSat k) header.nSat
  pure { header, sats }

/-! ### Encoder -/

/-- conversion of a `long` to `int32_t` (gcc: modulo 2^32) -/
def i32 (n : Int) : Int := (n + 2147483648) % 4294967296 - 2147483648
/-- `phase_unit`   librtcm/src/encode.c:111 -/
def phaseUnit (freq : ℚ) : ℚ := Fp.f64 (wvl freq / c0005)
/-- `int32_t ppr = lround(cp_pr * phase_unit)`   librtcm/src/encode.c:112,123,127 -/
def toPpr (cpPr freq : ℚ) : Int := i32 (cround (Fp.f64 (cpPr * phaseUnit freq)))
/-- `encode_diff_phaserange`   librtcm/src/encode.c:109-130 (`C_2P19` = 2^19) -/
def encDiff (cpPr freq : ℚ) : Int :=
  if toPpr cpPr freq ≤ -524288 then
    toPpr (Fp.f64 (cpPr + Fp.f64 (1500 * ⌈Fp.f64 (Fp.f64 (Fp.f64 (-524288 / phaseUnit freq) - cpPr) / 1500)⌉))) freq
  else if toPpr cpPr freq ≥ 524288 then
    toPpr (Fp.f64 (cpPr - Fp.f64 (1500 * ⌈Fp.f64 (Fp.f64 (cpPr - Fp.f64 (524288 / phaseUnit freq)) / 1500)⌉))) freq
  else toPpr cpPr freq

/-- `amb`   librtcm/src/encode.c:138,196 -/
def amb (k : Kind) (l1Pr : ℚ) : Nat := (ctrunc (Fp.f64 (l1Pr / Fp.f64 k.unit))).toNat
/-- `(uint32_t)round((x - amb * PRUNIT) / 0.02)`   librtcm/src/encode.c:141-145,199-203 -/
def modPr (k : Kind) (l1Pr x : ℚ) : Int := cround (Fp.f64 (Fp.f64 (x - ambM k (amb k l1Pr)) / c002))
/-- `l1_prc`   librtcm/src/encode.c:147,205 -/
def l1Prc (k : Kind) (l1Pr : ℚ) : ℚ := Fp.f64 (Fp.f64 ((modPr k l1Pr l1Pr : ℚ) * c002) + ambM k (amb k l1Pr))
/-- `cp_pr`   librtcm/src/encode.c:172,234 -/
def cpPr (k : Kind) (f : Freq) (freq l1Pr : ℚ) : ℚ := Fp.f64 (f.cp - Fp.f64 (l1Prc k l1Pr / wvl freq))

/-- phase and lock fields   librtcm/src/encode.c:170-187,232-250 (`CP_INVALID` = 0xFFF80000) -/
def wrPhaseLock (k : Kind) (f : Freq) (freq l1Pr : ℚ) : List Wr :=
  [.s 20 (if f.vCp then encDiff (cpPr k f freq l1Pr) freq else -524288),
   .u 7 (if f.vLock then toLockInd f.lock else 0)]

/-- `encode_basic_freq_data` / `encode_basic_glo_freq_data` with `L1_FREQ` -/
def wrL1 (k : Kind) (s : Sat) : List Wr :=
  [Wr.u 1 0] ++ (if k.glo then [Wr.u 5 s.fcn] else [])
  ++ [Wr.u k.prBits (if s.l1.vPr then u32 (modPr k s.l1.pr s.l1.pr) else 0xFFF80000)]
  ++ wrPhaseLock k s.l1 (k.f1 s.fcn) s.l1.pr
/-- the same with `L2_FREQ`   librtcm/src/encode.c:157-167,219-229 (`PR_L2_INVALID` = 0xFFFFE000) -/
def wrL2 (k : Kind) (s : Sat) : List Wr :=
  [Wr.u 2 0, Wr.s 14 (if s.l2.vPr then modPr k s.l1.pr s.l2.pr - modPr k s.l1.pr s.l1.pr else -8192)]
  ++ wrPhaseLock k s.l2 (k.f2 s.fcn) s.l1.pr
/-- `(uint8_t)round(cnr * 4.0)`, written whether or not the CNR is flagged valid -/
def encCnr (c : ℚ) : Nat := (cround (c * 4)).toNat

/-- all fields of one satellite -/
def wrSat (k : Kind) (s : Sat) : List Wr :=
  [Wr.u 6 s.svId] ++ wrL1 k s
  ++ (if k.ext then [Wr.u k.ambBits (amb k s.l1.pr), Wr.u 8 (encCnr s.l1.cnr)] else [])
  ++ (if k.l2 then wrL2 k s ++ (if k.ext then [Wr.u 8 (encCnr s.l2.cnr)] else []) else [])

/-- which satellites are transmitted   librtcm/src/encode.c:378-379,420-421,463-464,498,651-652,692 -/
def selected (k : Kind) (s : Sat) : Bool :=
  s.l1.vPr && s.l1.vCp && (if k = .m1003 then s.l2.vPr && s.l2.vCp else true)

/-- the satellites the loop transmits: the selected ones, at most RTCM_MAX_SATS = 32 -/
def sent (k : Kind) (m : Msg) : List Sat := ((m.sats.take m.header.nSat).filter (selected k)).take 32

/-- `rtcm3_write_header` / `rtcm3_write_glo_header`   librtcm/src/encode.c:291-370 -/
def wrHeader (k : Kind) (h : Header) (numSats : Nat) : List Wr :=
  [.u 12 h.msgNum, .u 12 h.stnId, .u (if k.glo then 27 else 30) h.towMs, .u 1 h.sync, .u 5 numSats, .u 1 h.divFree, .u 3 h.smooth]

/-- bit position at which the satellites start -/
def Kind.hdrBits (k : Kind) : Nat := if k.glo then 61 else 64

/-- `rtcm3_encode_1001` … `rtcm3_encode_1012`: satellites first, then the header over the start of the buffer.
librtcm/src/encode.c:372-401,414-453,455-489,491-541,645-683,685-733 -/
def encode (k : Kind) (m : Msg) (buf : Buf) : Buf × Nat :=
  let r := exec ((sent k m).flatMap (wrSat k)) buf k.hdrBits
  ((exec (wrHeader k m.header (sent k m).length) r.1 0).1, (r.2 + 7) / 8)

end Verif.Obs
