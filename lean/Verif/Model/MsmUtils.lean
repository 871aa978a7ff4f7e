/-
MSM bookkeeping: message numbers, constellations, signal and satellite numbering, masks.
  librtcm/src/msm_utils.c, gnss_converters/src/rtcm3_utils.c
-/
namespace Verif.Msm

/-- `rtcm_constellation_t` without the INVALID/COUNT sentinels   librtcm/include/rtcm3/msm_utils.h -/
inductive Cons | gps | sbas | glo | bds | qzs | gal
deriving DecidableEq, Repr

/-- `msm_enum`   librtcm/include/rtcm3/msm_utils.h -/
inductive MsmType | unknown | msm1 | msm2 | msm3 | msm4 | msm5 | msm6 | msm7
deriving DecidableEq, Repr

/-- the integer value of the enum (used by `to_msm_msg_num`, rtcm3_utils.c:577-590) -/
def MsmType.val : MsmType → Nat
  | .unknown => 0 | .msm1 => 1 | .msm2 => 2 | .msm3 => 3 | .msm4 => 4 | .msm5 => 5 | .msm6 => 6 | .msm7 => 7

/-- `to_msm_type`   librtcm/src/msm_utils.c:24-47 -/
def toMsmType (n : Nat) : MsmType :=
  if n < 1071 ∨ n > 1127 then .unknown
  else match n % 10 with
    | 1 => .msm1 | 2 => .msm2 | 3 => .msm3 | 4 => .msm4 | 5 => .msm5 | 6 => .msm6 | 7 => .msm7
    | _ => .unknown

/-- `to_constellation` (`none` = RTCM_CONSTELLATION_INVALID)   librtcm/src/msm_utils.c:54-80 -/
def toConstellation (n : Nat) : Option Cons :=
  if (1071 ≤ n ∧ n ≤ 1077) ∨ (1057 ≤ n ∧ n ≤ 1062) ∨ n = 1265 then some .gps
  else if (1081 ≤ n ∧ n ≤ 1087) ∨ (1063 ≤ n ∧ n ≤ 1068) ∨ n = 1266 then some .glo
  else if (1091 ≤ n ∧ n ≤ 1097) ∨ (1240 ≤ n ∧ n ≤ 1245) ∨ n = 1267 then some .gal
  else if (1101 ≤ n ∧ n ≤ 1107) ∨ n = 1269 then some .sbas
  else if (1111 ≤ n ∧ n ≤ 1117) ∨ (1246 ≤ n ∧ n ≤ 1251) ∨ n = 1268 then some .qzs
  else if (1121 ≤ n ∧ n ≤ 1127) ∨ (1258 ≤ n ∧ n ≤ 1263) ∨ n = 1270 then some .bds
  else none

/-- `to_msm_msg_num`   gnss_converters/src/rtcm3_utils.c:573-595 -/
def toMsmMsgNum (c : Option Cons) (t : MsmType) : Nat :=
  if t = .unknown then 0
  else match c with
    | some .gps => 1070 + t.val
    | some .glo => 1080 + t.val
    | some .gal => 1090 + t.val
    | some .sbas => 1100 + t.val
    | some .qzs => 1110 + t.val
    | some .bds => 1120 + t.val
    | none => 0

/-- `code_t` of libswiftnav, restricted to the codes rtcm3_utils.c mentions; `invalid` is CODE_INVALID. -/
inductive Code
  | invalid
  | gps_l1ca | gps_l1p | gps_l2p | gps_l2cm | gps_l2cl | gps_l2cx | gps_l5i | gps_l5q
  | gps_l5x | gps_l1ci | gps_l1cq | gps_l1cx | glo_l1p | glo_l1of | glo_l2p | glo_l2of
  | gal_e1c | gal_e1b | gal_e1x | gal_e6c | gal_e6b | gal_e6x | gal_e7i | gal_e7q
  | gal_e7x | gal_e8i | gal_e8q | gal_e8x | gal_e5i | gal_e5q | gal_e5x | sbas_l1ca
  | sbas_l5i | sbas_l5q | sbas_l5x | qzs_l1ca | qzs_l2cm | qzs_l2cl | qzs_l2cx | qzs_l5i
  | qzs_l5q | qzs_l5x | qzs_l1ci | qzs_l1cq | qzs_l1cx | bds2_b1 | bds3_b3i | bds3_b3q
  | bds3_b3x | bds2_b2 | bds3_b5i | bds3_b5q | bds3_b5x | bds3_b7i | bds3_b1ci | bds3_b1cq
  | bds3_b1cx | bds3_b7q | bds3_b7x
deriving DecidableEq, Repr

/-- `get_msm_gps_code`   gnss_converters/src/rtcm3_utils.c:51-86 -/
def gpsCode : Nat → Code
  | 2 => .gps_l1ca
  | 3 => .gps_l1p
  | 4 => .gps_l1p
  | 9 => .gps_l2p
  | 10 => .gps_l2p
  | 15 => .gps_l2cm
  | 16 => .gps_l2cl
  | 17 => .gps_l2cx
  | 22 => .gps_l5i
  | 23 => .gps_l5q
  | 24 => .gps_l5x
  | 30 => .gps_l1ci
  | 31 => .gps_l1cq
  | 32 => .gps_l1cx
  | _ => .invalid

/-- `get_msm_glo_code`   gnss_converters/src/rtcm3_utils.c:88-102 -/
def gloCode : Nat → Code
  | 3 => .glo_l1p
  | 2 => .glo_l1of
  | 9 => .glo_l2p
  | 8 => .glo_l2of
  | _ => .invalid

/-- `get_msm_gal_code`   gnss_converters/src/rtcm3_utils.c:104-144 -/
def galCode : Nat → Code
  | 2 => .gal_e1c
  | 4 => .gal_e1b
  | 5 => .gal_e1x
  | 8 => .gal_e6c
  | 10 => .gal_e6b
  | 11 => .gal_e6x
  | 14 => .gal_e7i
  | 15 => .gal_e7q
  | 16 => .gal_e7x
  | 18 => .gal_e8i
  | 19 => .gal_e8q
  | 20 => .gal_e8x
  | 22 => .gal_e5i
  | 23 => .gal_e5q
  | 24 => .gal_e5x
  | _ => .invalid

/-- `get_msm_sbas_code`   gnss_converters/src/rtcm3_utils.c:146-160 -/
def sbasCode : Nat → Code
  | 2 => .sbas_l1ca
  | 22 => .sbas_l5i
  | 23 => .sbas_l5q
  | 24 => .sbas_l5x
  | _ => .invalid

/-- `get_msm_qzs_code`   gnss_converters/src/rtcm3_utils.c:162-191 -/
def qzsCode : Nat → Code
  | 2 => .qzs_l1ca
  | 15 => .qzs_l2cm
  | 16 => .qzs_l2cl
  | 17 => .qzs_l2cx
  | 22 => .qzs_l5i
  | 23 => .qzs_l5q
  | 24 => .qzs_l5x
  | 30 => .qzs_l1ci
  | 31 => .qzs_l1cq
  | 32 => .qzs_l1cx
  | _ => .invalid

/-- `get_msm_bds_code`   gnss_converters/src/rtcm3_utils.c:193-242 -/
def bdsCode : Nat → Code
  | 2 => .bds2_b1
  | 8 => .bds3_b3i
  | 9 => .bds3_b3q
  | 10 => .bds3_b3x
  | 14 => .bds2_b2
  | 22 => .bds3_b5i
  | 23 => .bds3_b5q
  | 24 => .bds3_b5x
  | 25 => .bds3_b7i
  | 30 => .bds3_b1ci
  | 31 => .bds3_b1cq
  | 32 => .bds3_b1cx
  | _ => .invalid

/-- the `switch (cons)` of `msm_signal_to_code`   gnss_converters/src/rtcm3_utils.c:258-275 -/
def codeOf : Cons → Nat → Code
  | .gps => gpsCode
  | .glo => gloCode
  | .gal => galCode
  | .sbas => sbasCode
  | .qzs => qzsCode
  | .bds => bdsCode

/-- `MSM_SIGNAL_MASK_SIZE`, `MSM_SATELLITE_MASK_SIZE`, `MSM_MAX_CELLS`   librtcm/include/rtcm3/constants.h -/
abbrev sigMaskSize : Nat := 32
abbrev satMaskSize : Nat := 64
abbrev maxCells : Nat := 64

/-- `code_to_msm_signal_id`: first index whose code matches, `MSM_SIGNAL_MASK_SIZE` if none.
gnss_converters/src/rtcm3_utils.c:297-352 (the six loops differ only in the table) -/
def codeToSignalId (code : Code) (cons : Cons) : Nat :=
  ((List.range sigMaskSize).find? fun i => codeOf cons (i + 1) = code).getD sigMaskSize

/-- `prn_table`: first PRN and number of satellites per constellation.  The numbers come from libswiftnav (not in the
tree), so the table is a parameter; `WF` is what is assumed about it.   gnss_converters/src/rtcm3_utils.c:37-49 -/
structure PrnTable where
  first : Cons → Nat
  num : Cons → Nat
structure PrnTable.WF (t : PrnTable) : Prop where
  pos : ∀ c, 0 < t.first c
  fits : ∀ c, t.num c ≤ satMaskSize
  u8 : ∀ c, t.first c + t.num c ≤ 256

/-- `prn_valid`   gnss_converters/src/rtcm3_utils.c:354-359 -/
def prnValid (t : PrnTable) (c : Cons) (prn : Nat) : Prop := t.first c ≤ prn ∧ prn < t.first c + t.num c
instance (t c prn) : Decidable (prnValid t c prn) := inferInstanceAs (Decidable (_ ∧ _))

/-- `prn_to_msm_sat_id`   gnss_converters/src/rtcm3_utils.c:399-402 -/
def prnToSatId (t : PrnTable) (prn : Nat) (c : Cons) : Nat := prn - t.first c

/-- `count_mask_values(size, mask)`; the `uint8_t` accumulator cannot wrap since `size ≤ 255`.
librtcm/src/msm_utils.c:88-94 -/
def countMask (size : Nat) (mask : List Bool) : Nat := (mask.take size).count true

/-- the loop of `find_nth_mask_value`; `none` is the failing assertion   librtcm/src/msm_utils.c:108-119 -/
def findNthFrom (n : Nat) : List Bool → (found pos : Nat) → Option Nat
  | [], _, _ => none
  | b :: bs, found, pos =>
    let f := found + (if b then 1 else 0)
    if n = f then some pos else findNthFrom n bs f (pos + 1)
/-- `find_nth_mask_value`   librtcm/src/msm_utils.c:103-120 -/
def findNth (size : Nat) (mask : List Bool) (n : Nat) : Option Nat :=
  if n = 0 then none else findNthFrom n (mask.take size) 0 0

/-- the part of `rtcm_msm_header` the mask functions use (`cons` stands for `to_constellation(msg_num)`) -/
structure Hdr where
  cons : Cons
  sat : List Bool
  sig : List Bool
  cell : List Bool
deriving DecidableEq

/-- an MSM header with cleared masks -/
def Hdr.empty (c : Cons) : Hdr := ⟨c, List.replicate satMaskSize false, List.replicate sigMaskSize false, List.replicate maxCells false⟩

/-- `msm_get_num_satellites`, `msm_get_num_signals`   gnss_converters/src/rtcm3_utils.c:597-603 -/
def numSats (h : Hdr) : Nat := countMask satMaskSize h.sat
def numSigs (h : Hdr) : Nat := countMask sigMaskSize h.sig
/-- `msm_get_num_cells` (the product is a `u8`)   gnss_converters/src/rtcm3_utils.c:605-608 -/
def numCells (h : Hdr) : Nat := countMask (numSats h * numSigs h % 256) h.cell

/-- `msm_signal_to_code`   gnss_converters/src/rtcm3_utils.c:250-276 -/
def signalToCode (h : Hdr) (idx : Nat) : Option Code :=
  (findNth sigMaskSize h.sig (idx + 1)).map fun i => codeOf h.cons (i + 1)
/-- `code_to_msm_signal_index`   gnss_converters/src/rtcm3_utils.c:284-289 -/
def codeToSignalIndex (h : Hdr) (c : Code) : Nat := countMask (codeToSignalId c h.cons) h.sig
/-- `msm_sat_to_prn` (0 = PRN_INVALID)   gnss_converters/src/rtcm3_utils.c:367-378 -/
def satToPrn (t : PrnTable) (h : Hdr) (idx : Nat) : Option Nat :=
  (findNth satMaskSize h.sat (idx + 1)).map fun i =>
    let prn := (t.first h.cons + i) % 256
    if prnValid t h.cons prn then prn else 0
/-- `prn_to_msm_sat_index`   gnss_converters/src/rtcm3_utils.c:386-391 -/
def prnToSatIndex (t : PrnTable) (h : Hdr) (prn : Nat) : Nat := countMask (prnToSatId t prn h.cons) h.sat

/-- `msm_add_to_header`: `none` = failing assertion or out-of-bounds access, otherwise the new header and the result.
gnss_converters/src/rtcm3_utils.c:619-664 -/
def addToHeader (t : PrnTable) (h : Hdr) (code : Code) (prn : Nat) : Option (Hdr × Bool) :=
  if numCells h ≠ 0 then none
  else if code = .invalid then some (h, false)
  else if ¬ prnValid t h.cons prn then some (h, false)
  else
    let satId := prnToSatId t prn h.cons
    let sigId := codeToSignalId code h.cons
    let ns := numSats h
    let ng := numSigs h
    let addSig (h1 : Hdr) (ns1 : Nat) : Option (Hdr × Bool) :=
      match h1.sig[sigId]? with
      | none => none
      | some true => some (h1, true)
      | some false =>
        if ns1 * (ng + 1) ≤ maxCells then some ({ h1 with sig := h1.sig.set sigId true }, true) else some (h1, false)
    match h.sat[satId]? with
    | none => none
    | some true => addSig h ns
    | some false =>
      if (ns + 1) * ng ≤ maxCells then addSig { h with sat := h.sat.set satId true } (ns + 1) else some (h, false)

/-- `msm_add_to_cell_mask`: `none` = failing assertion or out-of-bounds access.
gnss_converters/src/rtcm3_utils.c:668-705 -/
def addToCellMask (t : PrnTable) (h : Hdr) (code : Code) (prn : Nat) : Option (Hdr × Bool) :=
  if numSigs h = 0 then none
  else if code = .invalid then some (h, false)
  else if ¬ prnValid t h.cons prn then some (h, false)
  else match h.sat[prnToSatId t prn h.cons]? with
  | none => none
  | some false => some (h, false)
  | some true => match h.sig[codeToSignalId code h.cons]? with
    | none => none
    | some false => some (h, false)
    | some true =>
      let id := (prnToSatIndex t h prn * numSigs h + codeToSignalIndex h code) % 256
      match h.cell[id]? with
      | some false => some ({ h with cell := h.cell.set id true }, true)
      | _ => none

end Verif.Msm
