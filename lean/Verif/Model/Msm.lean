import Verif.Model.Codec
import Verif.Model.MsmUtils
import Verif.Model.LockTime
import Verif.Model.Float
/-
MSM4..MSM7 decoding and MSM4/MSM5 encoding.   librtcm/src/decode.c:204-256,979-1437, librtcm/src/encode.c:854-1192
`double` values are rationals; operations whose result may not be a double are rounded (`f64`), the others (sums and products of integers and
powers of two that fit 53 bits) are written without rounding; see `C13_doubles`.  Lock times are not rounded.  Masks are lists: 64 satellite bits, 32 signal bits, and the first
`num_sats * num_sigs` entries of the `cell_mask` array.
-/
namespace Verif.Msm
open Verif.Dec Verif.Lock
open Verif.Fp (f64)

/-- `rtcm_msm_header`   librtcm/include/rtcm3/messages.h:66-83 -/
structure Header where
  msgNum : Nat
  stnId : Nat
  towMs : Nat
  multiple : Nat
  iods : Nat
  reserved : Nat
  steering : Nat
  extClock : Nat
  divFree : Nat
  smooth : Nat
  satMask : List Bool
  sigMask : List Bool
  cellMask : List Bool
deriving DecidableEq

/-- `rtcm_msm_sat_data`   librtcm/include/rtcm3/messages.h:112-116 -/
structure Sat where
  gloFcn : Nat
  roughRangeMs : ℚ
  roughRate : ℚ

/-- `rtcm_msm_signal_data`   librtcm/include/rtcm3/messages.h:118-126 (flags spelled out) -/
structure Sig where
  pr : ℚ
  cp : ℚ
  lock : ℚ
  hca : Bool
  cnr : ℚ
  rate : ℚ
  vPr : Bool
  vCp : Bool
  vCnr : Bool
  vLock : Bool
  vDop : Bool

/-- `rtcm_msm_message` -/
structure Msg where
  header : Header
  sats : List Sat
  sigs : List Sig

/-- RTCM_MAX_TOW_MS, RTCM_GLO_MAX_TOW_MS   librtcm/include/rtcm3/constants.h -/
abbrev maxTowMs : Nat := 604799999
abbrev gloMaxTowMs : Nat := 86399999

/-- `BITSTREAM_DECODE_BOOL(buff, x, 1)`   librtcm/src/decode_helpers.h:4-9 -/
def getBool : Dec Bool := do
  let v ← getU 1
  pure (decide (v ≠ 0))

/-- `normalize_bds2_tow`   librtcm/src/decode.c:205-211 -/
def normalizeBds2Tow (t : Nat) : Nat :=
  if t ≥ 1073741824 - 14 * 1000 then maxTowMs + 1 - (1073741824 - t) else t

/-- the epoch-time part of `rtcm3_read_msm_header`   librtcm/src/decode.c:217-231 -/
def readMsmTow (cons : Cons) : Dec Nat :=
  if cons = .glo then do
    skip 3
    getU 27
  else if cons = .bds then do
    let t ← getU 30
    pure (normalizeBds2Tow t)
  else getU 30

/-- `rtcm3_read_msm_header`; `cell_mask_size` is a `uint8_t`   librtcm/src/decode.c:213-256 -/
def readMsmHeader (msgNum : Nat) (cons : Cons) : Dec Header := do
  let stnId ← getU 12
  let towMs ← readMsmTow cons
  let multiple ← getU 1
  let iods ← getU 3
  let reserved ← getU 7
  let steering ← getU 2
  let extClock ← getU 2
  let divFree ← getU 1
  let smooth ← getU 3
  let satMask ← many getBool 64
  let sigMask ← many getBool 32
  let cellMask ← many getBool ((satMask.count true * sigMask.count true) % 256)
  pure { msgNum, stnId, towMs, multiple, iods, reserved, steering, extClock, divFree, smooth, satMask, sigMask, cellMask }

/-- MSM5/MSM7 carry satellite info and rates. -/
def MsmType.hasRates : MsmType → Bool
  | .msm5 | .msm7 => true
  | _ => false
/-- MSM6/MSM7 use the extended-resolution fields. -/
def MsmType.ext : MsmType → Bool
  | .msm6 | .msm7 => true
  | _ => false

/-- Rows of the set cells in the order the nested `for sat / for sig` loops visit them.
librtcm/src/decode.c:1335-1347 and librtcm/src/encode.c:1113-1116 -/
def cellRows (ns ng : Nat) (mask : List Bool) : List Nat :=
  (List.range ns).flatMap fun sat => (List.range ng).flatMap fun sig => if mask.getD (sat * ng + sig) false then [sat] else []

/-- raw satellite fields as decoded   librtcm/src/decode.c:979-1030 -/
structure RawSat where
  ints : List Nat
  infos : List Nat
  mods : List Nat
  rates : List Int

/-- `decode_msm_sat_data`   librtcm/src/decode.c:979-1030 -/
def decodeSatData (ty : MsmType) (ns : Nat) : Dec RawSat := do
  let ints ← many (getU 8) ns
  let infos ← if ty.hasRates then many (getU 4) ns else pure (List.replicate ns 0)
  let mods ← many (getU 10) ns
  let rates ← if ty.hasRates then many (getS 14) ns else pure (List.replicate ns 0)
  pure { ints, infos, mods, rates }

/-- raw cell fields as decoded   librtcm/src/decode.c:1032-1167,1271-1330 -/
structure RawSig where
  prs : List Int
  cps : List Int
  locks : List Nat
  hcas : List Bool
  cnrs : List Nat
  dops : List Int

/-- the signal-data part of `rtcm3_decode_msm_internal`   librtcm/src/decode.c:1271-1330 -/
def decodeSigData (ty : MsmType) (nc : Nat) : Dec RawSig := do
  let prs ← many (getS (if ty.ext then 20 else 15)) nc
  let cps ← many (getS (if ty.ext then 24 else 22)) nc
  let locks ← many (getU (if ty.ext then 10 else 4)) nc
  let hcas ← many getBool nc
  let cnrs ← many (getU (if ty.ext then 10 else 6)) nc
  let dops ← if ty.hasRates then many (getS 15) nc else pure (List.replicate nc 0)
  pure { prs, cps, locks, hcas, cnrs, dops }

/-- `rough_range_ms[i]`, in which the fraction is added only to a valid integer part   librtcm/src/decode.c:989-1016 -/
def RawSat.range (r : RawSat) (i : Nat) : ℚ :=
  if r.ints.getD i 0 ≠ 255 then (r.ints.getD i 0 : ℚ) + (r.mods.getD i 0 : ℚ) / 1024 else (r.ints.getD i 0 : ℚ)
def RawSat.rangeValid (r : RawSat) (i : Nat) : Bool := decide (r.ints.getD i 0 ≠ 255)
def RawSat.rateValid (ty : MsmType) (r : RawSat) (i : Nat) : Bool := ty.hasRates && decide (r.rates.getD i 0 ≠ -8192)

/-- one element of `msg->sats`   librtcm/src/decode.c:1335-1342 -/
def satOf (ty : MsmType) (cons : Cons) (r : RawSat) (i : Nat) : Sat where
  roughRangeMs := r.range i
  roughRate := (r.rates.getD i 0 : ℚ)
  gloFcn := if cons = .glo ∧ ty.hasRates = false then 255 else r.infos.getD i 0

/-- the constant 0.0001   librtcm/src/decode.c:1163, librtcm/src/encode.c:1039,1041 -/
def rateUnit : ℚ := f64 (1 / 10000)

/-- one element of `msg->signals`, cell `i` of satellite row `sat`   librtcm/src/decode.c:1344-1379 -/
def sigOf (ty : MsmType) (r : RawSat) (c : RawSig) (sat i : Nat) : Sig :=
  let pr := c.prs.getD i 0
  let cp := c.cps.getD i 0
  let vPr := r.rangeValid sat && decide (pr ≠ if ty.ext then -524288 else -16384)
  let vCp := r.rangeValid sat && decide (cp ≠ if ty.ext then -8388608 else -2097152)
  let vCnr := decide (c.cnrs.getD i 0 ≠ 0)
  let vDop := r.rateValid ty sat && (ty.hasRates && decide (c.dops.getD i 0 ≠ -16384))
  { pr := if vPr then r.range sat + (pr : ℚ) / (if ty.ext then 2 ^ 29 else 2 ^ 24) else 0
    cp := if vCp then r.range sat + (cp : ℚ) / (if ty.ext then 2 ^ 31 else 2 ^ 29) else 0
    lock := if ty.ext then (fromLockIndExt (c.locks.getD i 0) : ℚ) / 1000 else decodeLockTime (c.locks.getD i 0)
    hca := c.hcas.getD i false
    cnr := if vCnr then (if ty.ext then (c.cnrs.getD i 0 : ℚ) / 16 else (c.cnrs.getD i 0 : ℚ)) else 0
    rate := if vDop then f64 ((r.rates.getD sat 0 : ℚ) + f64 ((c.dops.getD i 0 : ℚ) * rateUnit)) else 0
    vPr, vCp, vCnr, vLock := true, vDop }

/-- the message assembled from the decoded parts   librtcm/src/decode.c:1334-1383 -/
def assemble (ty : MsmType) (cons : Cons) (h : Header) (r : RawSat) (c : RawSig) : Msg :=
  let ns := h.satMask.count true
  let ng := h.sigMask.count true
  let nc := h.cellMask.count true
  { header := h
    sats := (List.range ns).map (satOf ty cons r)
    sigs := (List.range nc).map fun i => sigOf ty r c ((cellRows ns ng h.cellMask).getD i 0) i }

/-- `rtcm3_decode_msm_internal`   librtcm/src/decode.c:1178-1384 -/
def decodeMsm (ty : MsmType) : Dec Msg := do
  guard (ty = .msm4 ∨ ty = .msm5 ∨ ty = .msm6 ∨ ty = .msm7) .typeMismatch
  let msgNum ← getU 12
  guard (toMsmType msgNum = ty) .typeMismatch
  match toConstellation msgNum with
  | none => fail .typeMismatch
  | some cons => do
    let h ← readMsmHeader msgNum cons
    guard (¬ h.towMs > (if cons = .glo then gloMaxTowMs else maxTowMs)) .invalid
    guard (¬ h.satMask.count true * h.sigMask.count true > maxCells) .invalid
    let r ← decodeSatData ty (h.satMask.count true)
    let c ← decodeSigData ty (h.cellMask.count true)
    pure (assemble ty cons h r c)

/-! ### Encoder -/

/-- a mask as single-bit writes   librtcm/src/encode.c:889-907 -/
def wrMask (l : List Bool) : List Wr := l.map fun b => Wr.u 1 (if b then 1 else 0)

/-- epoch time as written   librtcm/src/encode.c:862-875 (`dow` is a `uint8_t`) -/
def wrMsmTow (cons : Cons) (tow : Nat) : List Wr :=
  if cons = .glo then [.u 3 (tow / 86400000 % 256), .u 27 (tow - tow / 86400000 % 256 * 86400000)] else [.u 30 tow]

/-- `rtcm3_encode_msm_header`   librtcm/src/encode.c:854-911 -/
def wrMsmHeader (cons : Cons) (h : Header) : List Wr :=
  [.u 12 h.msgNum, .u 12 h.stnId] ++ wrMsmTow cons h.towMs
  ++ [.u 1 h.multiple, .u 3 h.iods, .u 7 h.reserved, .u 2 h.steering, .u 2 h.extClock, .u 1 h.divFree, .u 3 h.smooth]
  ++ wrMask h.satMask ++ wrMask h.sigMask ++ wrMask h.cellMask

/-- `integer_ms[i]` = `(uint8_t)floor(rough_range_ms)`   librtcm/src/encode.c:922-926 -/
def encInt (s : Sat) : Nat := (⌊s.roughRangeMs⌋ % 256).toNat
/-- `range_modulo_encoded` = `(uint16_t)round(1024 * range_modulo_ms)`   librtcm/src/encode.c:936-943 -/
def encMod (s : Sat) : Nat := (cround (1024 * (s.roughRangeMs - encInt s)) % 65536).toNat
/-- `rough_range_ms[i]`, the range the encoder believes it has transmitted   librtcm/src/encode.c:944 -/
def encRange (s : Sat) : ℚ := (encInt s : ℚ) + (encMod s : ℚ) / 1024
/-- `range_rate` = `(int16_t)rough_range_rate_m_s`   librtcm/src/encode.c:950-953 -/
def encRate (s : Sat) : Int := ctrunc s.roughRate

/-- `encode_msm_sat_data`   librtcm/src/encode.c:913-954 -/
def wrSatData (ty : MsmType) (sats : List Sat) : List Wr :=
  sats.map (fun s => Wr.u 8 (encInt s))
  ++ (if ty = .msm5 then sats.map (fun s => Wr.u 4 s.gloFcn) else [])
  ++ sats.map (fun s => Wr.u 10 (encMod s))
  ++ (if ty = .msm5 then sats.map (fun s => Wr.s 14 (encRate s)) else [])

/-- DF400 value   librtcm/src/encode.c:962-968 with fine_pr_ms from :1118-1120 -/
def encPr (rough : ℚ) (s : Sig) : Int :=
  if s.vPr ∧ |f64 (s.pr - rough)| < 1 / 2 ^ 10 then cround (f64 (s.pr - rough) * 2 ^ 24) else -16384
/-- DF401 value   librtcm/src/encode.c:978-984, :1121-1124 -/
def encCp (rough : ℚ) (s : Sig) : Int :=
  if s.vCp ∧ |f64 (s.cp - rough)| < 1 / 2 ^ 8 then cround (f64 (s.cp - rough) * 2 ^ 29) else -2097152
/-- DF402 value   librtcm/src/encode.c:994-1000 -/
def encLock (s : Sig) : Nat := if s.vLock then encodeLockTime s.lock else 0
/-- DF403 value, `(uint8_t)round(cnr)`   librtcm/src/encode.c:1021-1027 -/
def encCnr (s : Sig) : Nat := if s.vCnr then (cround s.cnr % 256).toNat else 0
/-- DF404 value   librtcm/src/encode.c:1037-1045, :1133-1136 -/
def encDop (rate : Int) (s : Sig) : Int :=
  if s.vDop ∧ |f64 (s.rate - rate)| < rateUnit * 2 ^ 14 then cround (f64 (f64 (s.rate - rate) / rateUnit)) else -16384

/-- `msg->sats[sat]` -/
def Msg.sat (m : Msg) (i : Nat) : Sat := m.sats.getD i ⟨0, 0, 0⟩
/-- `msg->signals[i]` -/
def Msg.sig (m : Msg) (i : Nat) : Sig := m.sigs.getD i ⟨0, 0, 0, false, 0, 0, false, false, false, false, false⟩
/-- the row of cell `i` -/
def Msg.row (m : Msg) (i : Nat) : Nat :=
  (cellRows (m.header.satMask.count true) (m.header.sigMask.count true) m.header.cellMask).getD i 0

/-- the signal data writes of `rtcm3_encode_msm_internal`   librtcm/src/encode.c:1111-1155 -/
def wrSigData (ty : MsmType) (m : Msg) : List Wr :=
  let cells := List.range (m.header.cellMask.count true)
  cells.map (fun i => Wr.s 15 (encPr (encRange (m.sat (m.row i))) (m.sig i)))
  ++ cells.map (fun i => Wr.s 22 (encCp (encRange (m.sat (m.row i))) (m.sig i)))
  ++ cells.map (fun i => Wr.u 4 (encLock (m.sig i)))
  ++ cells.map (fun i => Wr.u 1 (if (m.sig i).hca then 1 else 0))
  ++ cells.map (fun i => Wr.u 6 (encCnr (m.sig i)))
  ++ (if ty = .msm5 then cells.map (fun i => Wr.s 15 (encDop (encRate (m.sat (m.row i))) (m.sig i))) else [])

/-- `rtcm3_encode_msm_internal`: `none` = nothing written, 0 returned   librtcm/src/encode.c:1057-1159 -/
def wrMsm (m : Msg) : Option (List Wr) :=
  let ty := toMsmType m.header.msgNum
  if ty ≠ .msm4 ∧ ty ≠ .msm5 then none
  else match toConstellation m.header.msgNum with
  | none => none
  | some cons =>
    if m.header.satMask.count true * m.header.sigMask.count true > maxCells then none
    else some (wrMsmHeader cons m.header
      ++ wrSatData ty ((List.range (m.header.satMask.count true)).map m.sat) ++ wrSigData ty m)

/-- `rtcm3_encode_msm4` / `rtcm3_encode_msm5`   librtcm/src/encode.c:1168-1192 -/
def encodeMsm (ty : MsmType) (m : Msg) (buf : Buf) : Buf × Nat :=
  if toMsmType m.header.msgNum ≠ ty then (buf, 0)
  else match wrMsm m with
  | none => (buf, 0)
  | some ws => encodeWr ws buf

end Verif.Msm
