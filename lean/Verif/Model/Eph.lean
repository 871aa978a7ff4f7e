import Verif.Model.Codec
/-
Ephemeris messages: librtcm/src/eph_encode.c, librtcm/src/eph_decode.c.
-/
namespace Verif
open Dec

/-- `rtcm_msg_eph` with a Keplerian payload (`ephemeris_kepler_raw_rtcm_t`)
librtcm/include/rtcm3/messages.h:216-246,272-285.  The union `tgd` is `tgd0` (= gps_s = qzss_s = bds_s[0] = gal_s[0])
and `tgd1` (= bds_s[1] = gal_s[1]).  `constellation` is implied by the decoder used and not a member here.
`memset(msg_eph, 0, ...)` at the start of the decoders gives the defaults. -/
structure KepEph where
  satId : Nat := 0
  wn : Nat := 0
  toe : Nat := 0
  ura : Nat := 0
  fitInterval : Nat := 0
  healthBits : Nat := 0
  tgd0 : Int := 0
  tgd1 : Int := 0
  crc : Int := 0
  crs : Int := 0
  cuc : Int := 0
  cus : Int := 0
  cic : Int := 0
  cis : Int := 0
  dn : Int := 0
  m0 : Int := 0
  ecc : Nat := 0
  sqrta : Nat := 0
  omega0 : Int := 0
  omegadot : Int := 0
  w : Int := 0
  inc : Int := 0
  incDot : Int := 0
  af0 : Int := 0
  af1 : Int := 0
  af2 : Int := 0
  toc : Nat := 0
  iodc : Nat := 0
  iode : Nat := 0
  codeL2 : Nat := 0
  l2DataBit : Nat := 0
deriving DecidableEq

/-- writes of `rtcm3_encode_gps_eph`   librtcm/src/eph_encode.c:18-86.  Note: `toe` is written in the position where
the decoder reads `toc` (eph_encode.c:35 / eph_decode.c:43) and vice versa (eph_encode.c:59 / eph_decode.c:55). -/
def wr1019 (m : KepEph) : List Wr := .u 12 1019 ::
  [.u 6 m.satId, .u 10 m.wn, .u 4 m.ura, .u 2 m.codeL2, .s 14 m.incDot, .u 8 m.iode, .u 16 m.toe, .s 8 m.af2,
   .s 16 m.af1, .s 22 m.af0, .u 10 m.iodc, .s 16 m.crs, .s 16 m.dn, .s 32 m.m0, .s 16 m.cuc, .u 32 m.ecc,
   .s 16 m.cus, .u 32 m.sqrta, .u 16 m.toc, .s 16 m.cic, .s 32 m.omega0, .s 16 m.cis, .s 32 m.inc, .s 16 m.crc,
   .s 32 m.w, .s 24 m.omegadot, .s 8 m.tgd0, .u 6 m.healthBits, .u 1 m.l2DataBit, .u 1 m.fitInterval]
def encode1019 (m : KepEph) (buf : Buf) : Buf × Nat := encodeWr (wr1019 m) buf
/-- `rtcm3_decode_gps_eph_bitstream`   librtcm/src/eph_decode.c:27-71 -/
def decode1019 : Dec KepEph := do
  let n ← getU 12
  guard (n = 1019) .typeMismatch
  let satId ← getU 6
  let wn ← getU 10
  let ura ← getU 4
  let codeL2 ← getU 2
  let incDot ← getS 14
  let iode ← getU 8
  let toc ← getU 16
  let af2 ← getS 8
  let af1 ← getS 16
  let af0 ← getS 22
  let iodc ← getU 10
  let crs ← getS 16
  let dn ← getS 16
  let m0 ← getS 32
  let cuc ← getS 16
  let ecc ← getU 32
  let cus ← getS 16
  let sqrta ← getU 32
  let toe ← getU 16
  let cic ← getS 16
  let omega0 ← getS 32
  let cis ← getS 16
  let inc ← getS 32
  let crc ← getS 16
  let w ← getS 32
  let omegadot ← getS 24
  let tgd0 ← getS 8
  let healthBits ← getU 6
  let l2DataBit ← getU 1
  let fitInterval ← getU 1
  pure { satId, wn, ura, codeL2, incDot, iode, toc, af2, af1, af0, iodc, crs, dn, m0, cuc, ecc, cus, sqrta,
           toe, cic, omega0, cis, inc, crc, w, omegadot, tgd0, healthBits, l2DataBit, fitInterval }

/-- `rtcm3_decode_qzss_eph_bitstream`   librtcm/src/eph_decode.c:80-121 (there is no QZSS encoder) -/
def decode1044 : Dec KepEph := do
  let n ← getU 12
  guard (n = 1044) .typeMismatch
  let satId ← getU 4
  let toc ← getU 16
  let af2 ← getS 8
  let af1 ← getS 16
  let af0 ← getS 22
  let iode ← getU 8
  let crs ← getS 16
  let dn ← getS 16
  let m0 ← getS 32
  let cuc ← getS 16
  let ecc ← getU 32
  let cus ← getS 16
  let sqrta ← getU 32
  let toe ← getU 16
  let cic ← getS 16
  let omega0 ← getS 32
  let cis ← getS 16
  let inc ← getS 32
  let crc ← getS 16
  let w ← getS 32
  let omegadot ← getS 24
  let incDot ← getS 14
  skip 2
  let wn ← getU 10
  let ura ← getU 4
  let healthBits ← getU 6
  let tgd0 ← getS 8
  let iodc ← getU 10
  let fitInterval ← getU 1
  pure { satId, toc, af2, af1, af0, iode, crs, dn, m0, cuc, ecc, cus, sqrta, toe, cic, omega0, cis, inc, crc,
           w, omegadot, incDot, wn, ura, healthBits, tgd0, iodc, fitInterval }

/-- writes of `rtcm3_encode_bds_eph`   librtcm/src/eph_encode.c:173-237 -/
def wr1042 (m : KepEph) : List Wr := .u 12 1042 ::
  [.u 6 m.satId, .u 13 m.wn, .u 4 m.ura, .s 14 m.incDot, .u 5 m.iode, .u 17 m.toc, .s 11 m.af2, .s 22 m.af1,
   .s 24 m.af0, .u 5 m.iodc, .s 18 m.crs, .s 16 m.dn, .s 32 m.m0, .s 18 m.cuc, .u 32 m.ecc, .s 18 m.cus,
   .u 32 m.sqrta, .u 17 m.toe, .s 18 m.cic, .s 32 m.omega0, .s 18 m.cis, .s 32 m.inc, .s 18 m.crc, .s 32 m.w,
   .s 24 m.omegadot, .s 10 m.tgd0, .s 10 m.tgd1, .u 1 m.healthBits]
def encode1042 (m : KepEph) (buf : Buf) : Buf × Nat := encodeWr (wr1042 m) buf
/-- `BEIDOU_GEOS_MAX_PRN`   librtcm/include/rtcm3/eph_decode.h:18 -/
abbrev beidouGeosMaxPrn : Nat := 5
/-- `rtcm3_decode_bds_eph_bitstream`   librtcm/src/eph_decode.c:253-296 -/
def decode1042 : Dec KepEph := do
  let n ← getU 12
  guard (n = 1042) .typeMismatch
  let satId ← getU 6
  guard (¬ satId ≤ beidouGeosMaxPrn) .invalid
  let wn ← getU 13
  let ura ← getU 4
  let incDot ← getS 14
  let iode ← getU 5
  let toc ← getU 17
  let af2 ← getS 11
  let af1 ← getS 22
  let af0 ← getS 24
  let iodc ← getU 5
  let crs ← getS 18
  let dn ← getS 16
  let m0 ← getS 32
  let cuc ← getS 18
  let ecc ← getU 32
  let cus ← getS 18
  let sqrta ← getU 32
  let toe ← getU 17
  let cic ← getS 18
  let omega0 ← getS 32
  let cis ← getS 18
  let inc ← getS 32
  let crc ← getS 18
  let w ← getS 32
  let omegadot ← getS 24
  let tgd0 ← getS 10
  let tgd1 ← getS 10
  let healthBits ← getU 1
  pure { satId, wn, ura, incDot, iode, toc, af2, af1, af0, iodc, crs, dn, m0, cuc, ecc, cus, sqrta, toe, cic,
           omega0, cis, inc, crc, w, omegadot, tgd0, tgd1, healthBits }

/-- writes of `rtcm3_encode_gal_eph_common`   librtcm/src/eph_encode.c:245-297 -/
def wrGalCommon (m : KepEph) : List Wr :=
  [.u 6 m.satId, .u 12 m.wn, .u 10 m.iode, .u 8 m.ura, .s 14 m.incDot, .u 14 m.toc, .s 6 m.af2, .s 21 m.af1,
   .s 31 m.af0, .s 16 m.crs, .s 16 m.dn, .s 32 m.m0, .s 16 m.cuc, .u 32 m.ecc, .s 16 m.cus, .u 32 m.sqrta,
   .u 14 m.toe, .s 16 m.cic, .s 32 m.omega0, .s 16 m.cis, .s 32 m.inc, .s 16 m.crc, .s 32 m.w, .s 24 m.omegadot]
/-- writes of `rtcm3_encode_gal_eph_inav`   librtcm/src/eph_encode.c:306-329 -/
def wr1046 (m : KepEph) : List Wr :=
  [.u 12 1046] ++ wrGalCommon m ++ [.s 10 m.tgd0, .s 10 m.tgd1, .s 6 m.healthBits, .s 2 0]
def encode1046 (m : KepEph) (buf : Buf) : Buf × Nat := encodeWr (wr1046 m) buf
/-- writes of `rtcm3_encode_gal_eph_fnav`   librtcm/src/eph_encode.c:338-359 -/
def wr1045 (m : KepEph) : List Wr :=
  [.u 12 1045] ++ wrGalCommon m ++ [.s 10 m.tgd0, .s 3 m.healthBits, .s 7 0]
def encode1045 (m : KepEph) (buf : Buf) : Buf × Nat := encodeWr (wr1045 m) buf

/-- `rtcm3_decode_gal_eph_common`   librtcm/src/eph_decode.c:304-332 (return code before truncation to `uint16_t`) -/
def decodeGalCommon : Dec KepEph := do
  let satId ← getU 6
  let wn ← getU 12
  let iode ← getU 10
  let ura ← getU 8
  let incDot ← getS 14
  let toc ← getU 14
  let af2 ← getS 6
  let af1 ← getS 21
  let af0 ← getS 31
  let crs ← getS 16
  let dn ← getS 16
  let m0 ← getS 32
  let cuc ← getS 16
  let ecc ← getU 32
  let cus ← getS 16
  let sqrta ← getU 32
  let toe ← getU 14
  let cic ← getS 16
  let omega0 ← getS 32
  let cis ← getS 16
  let inc ← getS 32
  let crc ← getS 16
  let w ← getS 32
  let omegadot ← getS 24
  pure { satId, wn, iode, ura, incDot, toc, af2, af1, af0, crs, dn, m0, cuc, ecc, cus, sqrta, toe, cic,
           omega0, cis, inc, crc, w, omegadot }
/-- `return ret;` of the `uint16_t` result of the common part -/
def galRc (e : RC) : RC := match e with
  | .invalid => .code65534
  | e => e
/-- storing a signed value in the `uint8_t health_bits` -/
def u8 (i : Int) : Nat := (i % 256).toNat
/-- `rtcm3_decode_gal_eph_inav_bitstream`   librtcm/src/eph_decode.c:341-365.  The health bits are read with
`BITSTREAM_DECODE_S8` (signed) into a `uint8_t`. -/
def decode1046 : Dec KepEph := do
  let n ← getU 12
  guard (n = 1046) .typeMismatch
  let c ← mapErr galRc decodeGalCommon
  let tgd0 ← getS 10
  let tgd1 ← getS 10
  let h ← getS 6
  skip 2
  pure { c with tgd0, tgd1, healthBits := u8 h }
/-- `rtcm3_decode_gal_eph_fnav_bitstream`   librtcm/src/eph_decode.c:374-398 -/
def decode1045 : Dec KepEph := do
  let n ← getU 12
  guard (n = 1045) .typeMismatch
  let c ← mapErr galRc decodeGalCommon
  let tgd0 ← getS 10
  let h ← getS 3
  skip 7
  pure { c with tgd0, tgd1 := 0, healthBits := u8 h }

/-- `rtcm_msg_eph` with a GLONASS payload (`ephemeris_glo_raw_rtcm_t`)  librtcm/include/rtcm3/messages.h:258-285.
`iod` is not transmitted and stays 0. -/
structure GloEph where
  satId : Nat
  fcn : Nat
  fitInterval : Nat
  healthBits : Nat
  tB : Nat
  vel0 : Int
  pos0 : Int
  acc0 : Int
  vel1 : Int
  pos1 : Int
  acc1 : Int
  vel2 : Int
  pos2 : Int
  acc2 : Int
  gamma : Int
  tau : Int
  dTau : Int
  ura : Nat
deriving DecidableEq

/-- writes of `rtcm3_encode_glo_eph`   librtcm/src/eph_encode.c:88-171 -/
def wr1020 (m : GloEph) : List Wr :=
  [.u 12 1020, .u 6 m.satId, .u 5 m.fcn, .u 1 1, .u 1 0, .u 2 m.fitInterval, .u 12 0, .u 1 m.healthBits, .u 1 0, .u 7 m.tB]
  ++ Wr.sm 24 m.vel0 ++ Wr.sm 27 m.pos0 ++ Wr.sm 5 m.acc0
  ++ Wr.sm 24 m.vel1 ++ Wr.sm 27 m.pos1 ++ Wr.sm 5 m.acc1
  ++ Wr.sm 24 m.vel2 ++ Wr.sm 27 m.pos2 ++ Wr.sm 5 m.acc2
  ++ [.u 1 0] ++ Wr.sm 11 m.gamma ++ [.u 2 0, .u 1 m.healthBits] ++ Wr.sm 22 m.tau ++ Wr.sm 5 m.dTau
  ++ [.u 5 0, .u 1 0, .u 4 m.ura, .u 11 0, .u 2 0, .u 32 0, .u 32 0, .u 15 0]
def encode1020 (m : GloEph) (buf : Buf) : Buf × Nat := encodeWr (wr1020 m) buf

/-- the additional-data branch, returning `mln5`   librtcm/src/eph_decode.c:226-240 -/
def decodeGloAdditional (flag : Nat) : Dec Nat :=
  if flag ≠ 0 then do
    skip 11
    skip 32
    skip 5
    skip 22
    let mln5 ← getU 1
    skip 7
    pure mln5
  else pure 0
/-- `rtcm3_decode_glo_eph_bitstream`   librtcm/src/eph_decode.c:130-243.  (`gamma` is cast to `s16`, `d_tau` to
`uint8_t` and stored in an `int8_t`: both are within 11 resp. 5 bits sign-magnitude, so the casts do not change them.) -/
def decode1020 : Dec GloEph := do
  let n ← getU 12
  guard (n = 1020) .typeMismatch
  let satId ← getU 6
  let fcn ← getU 5
  skip 1
  skip 1
  let fitInterval ← getU 2
  skip 12
  let bnMsb ← getU 1
  skip 1
  let tB ← getU 7
  let vel0 ← getSM 24
  let pos0 ← getSM 27
  let acc0 ← getSM 5
  let vel1 ← getSM 24
  let pos1 ← getSM 27
  let acc1 ← getSM 5
  let vel2 ← getSM 24
  let pos2 ← getSM 27
  let acc2 ← getSM 5
  skip 1
  let gamma ← getSM 11
  skip 2
  let mln3 ← getU 1
  let tau ← getSM 22
  let dTau ← getSM 5
  skip 5
  skip 1
  let ura ← getU 4
  skip 11
  skip 2
  let additional ← getU 1
  let mln5 ← decodeGloAdditional additional
  pure { satId, fcn, fitInterval, healthBits := bnMsb ||| mln3 ||| mln5, tB, vel0, pos0, acc0, vel1, pos1, acc1,
         vel2, pos2, acc2, gamma, tau, dTau, ura }

end Verif
