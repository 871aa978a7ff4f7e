/-
Broadcast ephemerides assembled from UBX-RXM-SFRBX messages: gnss_converters/src/ubx_ephemeris/{gps,gal,glo,bds}.c,
gnss_converters/src/ephemeris/sbas.c and handle_rxm_sfrbx of ubx_sbp.c (lines 1237-1283).

Words are `u32`; a message's word list has `num_words` elements (at most 10). The ephemeris decoders and packers of
libswiftnav (decode_ephemeris, decode_gal_ephemeris_safe, decode_glo_ephemeris, decode_bds_d1_ephemeris) are parameters.
The satellite arrays are functions of the satellite number. Undefined behaviour is `none`.
-/
namespace Verif.Ubx

/-- `(w >> sh) & ((1 << n) - 1)` -/
def fld (w : BitVec 32) (sh n : Nat) : Nat := w.toNat / 2 ^ sh % 2 ^ n

/-- word `i` -/
def wd (ws : List (BitVec 32)) (i : Nat) : BitVec 32 := ws.getD i 0

inductive Con where
  | gps | bds | gal | glo
  deriving DecidableEq, Repr

/-- sat_data, gal_sat_data, glo_sat_data of eph_sat_data.h:6-31: the bits of vmask, the stored words, and for GLONASS the
superframe identifier -/
structure Sat where
  mask : Nat → Bool := fun _ => false
  parts : Nat → List (BitVec 32) := fun _ => []
  super : Nat := 0

/-- `vmask |= 1U << k; memcpy(&parts[k], words, …)` -/
def Sat.store (s : Sat) (k : Nat) (ws : List (BitVec 32)) : Sat :=
  { s with mask := fun i => if i = k then true else s.mask i, parts := fun i => if i = k then ws else s.parts i }

/-- `vmask &= ~mask` -/
def Sat.clear (s : Sat) (p : Nat → Bool) : Sat := { s with mask := fun i => s.mask i && !p i }

/-- the low `n` bits of vmask are all set -/
def Sat.full (s : Sat) (n : Nat) : Bool := (List.range n).all s.mask

/-- the decoders, the satellite counts and the BeiDou satellites that send D2 messages; `E` is the emitted SBP message -/
structure EphLib (E : Type) where
  numSats : Con → Nat
  geo : Nat → Bool
  /-- decode_ephemeris and pack_ephemeris_gps: words 3 to 10 of the three subframes, satellite, time of subframe 1; `none` when
  the ephemeris is not valid -/
  gps : List (List (BitVec 32)) → Nat → Nat → Option E
  /-- decode_gal_ephemeris_safe and pack_ephemeris_gal, from the bits of five I/NAV words -/
  gal : List (List Bool) → Option E
  /-- decode_glo_ephemeris and pack_ephemeris_glo: bits of five strings, satellite, leap second and week, fcn -/
  glo : List (List Bool) → Nat → Nat × Nat → Nat → E
  /-- decode_bds_d1_ephemeris and pack_ephemeris_bds -/
  bds : List (List (BitVec 32)) → Nat → E
  /-- SBAS: first satellite number, their count, crc24q_bits, and the packed message -/
  sbasFirst : Nat
  sbasCount : Nat
  crcBits : List Bool → Nat
  sbas : Nat → Nat → Nat → List Bool → E

variable {E : Type}

/-- the bits of a word, most significant first -/
def wordBits (w : BitVec 32) : List Bool := (List.range 32).map fun i => w.getLsbD (31 - i)

/-- gps.c:66-143 gps_decode_subframe after the satellite number check -/
def gpsStep (L : EphLib E) (prn : Nat) (ws : List (BitVec 32)) (s : Sat) : Sat × Option E :=
  if ws.length ≠ 10 then (s, none) else
  if fld (wd ws 0) 22 8 ≠ 0x8b then (s, none) else
  let id := fld (wd ws 1) 8 3
  if id < 1 ∨ 3 < id then (s, none) else
  let s := s.store (id - 1) ws
  if !s.full 3 then (s, none) else
  let iod1 := fld (wd (s.parts 0) 7) 22 8
  let iod2 := fld (wd (s.parts 1) 2) 22 8
  let iod3 := fld (wd (s.parts 2) 9) 22 8
  if iod1 ≠ iod2 ∨ iod2 ≠ iod3 then (s.clear fun i => i < 3 && i ≠ id - 1, none) else
  let tow6 := fld (wd (s.parts 0) 1) 13 17
  if 604800 / 6 ≤ tow6 then (s.clear fun i => i = 0, none) else
  let tow := if tow6 = 0 then 604800 - 6 else (tow6 - 1) * 6
  match L.gps ((List.range 3).map fun i => (s.parts i).drop 2) prn tow with
  | none => (s.clear fun i => i < 3, none)
  | some e => (s.clear fun i => i < 3, some e)

/-- gal.c:145-165: the 128 bits of an I/NAV word: the first 128 bits of the page shifted left by two (bitshl fills with zero
bits), with the last 16 replaced by bits 14 to 29 of word 4 -/
def galContent (w : List (BitVec 32)) : List Bool :=
  let even := (List.range 4).flatMap fun j => wordBits (wd w j)
  ((even.drop 2 ++ [false, false]).take 112) ++ (List.range 16).map fun i => (wd w 4).getLsbD (14 + (15 - i))

/-- gal.c:84-185 gal_decode_page after the satellite number check; only the first eight words are stored -/
def galStep (L : EphLib E) (ws : List (BitVec 32)) (s : Sat) : Sat × Option E :=
  if ws.length ≤ 8 then (s, none) else
  if fld (wd ws 0) 30 1 = 1 then (s, none) else
  if fld (wd ws 0) 31 1 ≠ 0 then (s, none) else
  if fld (wd ws 4) 31 1 ≠ 1 then (s, none) else
  let wtype := fld (wd ws 0) 24 6
  if wtype < 1 ∨ 5 < wtype then (s, none) else
  let s := s.store (wtype - 1) (ws.take 8)
  let s := if wtype ≠ 5 then
      s.clear fun i => i < 4 && fld (wd (s.parts i) 0) 14 10 ≠ fld (wd ws 0) 14 10
    else s
  if !s.full 5 then (s, none) else
  match L.gal ((List.range 5).map fun i => galContent (s.parts i)) with
  | none => (s, none)
  | some e => (s.clear fun i => i < 5, some e)

/-- exchange of two bits of a buffer: getbitu and setbitu of single bits, glo.c:134-138 -/
def swapBits (p : Nat → Bool) (i j : Nat) : Nat → Bool := fun x => if x = j then p i else if x = i then p j else p x

/-- glo.c:114-144: the bits of a string as the decoder reads them, bit 0 being the least significant of byte 0: the words in
big-endian byte order, the first 85 bits reversed, and the bits of bytes 0 to 10 reversed (byte 11 is left as it was) -/
def gloContent (w : List (BitVec 32)) : List Bool :=
  let p : Nat → Bool := fun x => (wd w (x / 32)).getLsbD (31 - x % 32)
  let p := (List.range 43).foldl (fun p k => swapBits p k (85 - 1 - k)) p
  (List.range 96).map fun x => if x / 8 ≤ 10 then p x else p (8 * (x / 8) + (7 - x % 8))

/-- glo.c:66-171 glo_decode_string after the satellite number check; string number 0 shifts by 255 and writes in front of the
array -/
def gloStep (L : EphLib E) (prn fcn : Nat) (utc : Option (Nat × Nat)) (ws : List (BitVec 32)) (s : Sat) : Option (Sat × Option E) :=
  if ws.length ≠ 4 then some (s, none) else
  if fld (wd ws 0) 31 1 ≠ 0 then some (s, none) else
  let num := fld (wd ws 0) 27 4
  if 5 < num then some (s, none) else
  if num = 0 then none else
  let sup := fld (wd ws 3) 16 16
  let s := if s.super ≠ sup then { s with mask := fun _ => false, super := sup } else s
  let s := s.store (num - 1) ws
  if !s.full 5 then some (s, none) else
  match utc with
  | none => some (s, none)
  | some u => some (s.clear fun i => i < 5, some (L.glo ((List.range 5).map fun i => gloContent (s.parts i)) prn u (fcn + 1)))

/-- second of week of a BeiDou subframe, bds.c:93-94 -/
def bdsSow (ws : List (BitVec 32)) : Nat := fld (wd ws 0) 4 8 * 2 ^ 12 + fld (wd ws 1) 18 12

/-- bds.c:60-134 bds_decode_subframe after the satellite number check -/
def bdsStep (L : EphLib E) (prn : Nat) (ws : List (BitVec 32)) (s : Sat) : Sat × Option E :=
  if ws.length ≠ 10 then (s, none) else
  if L.geo prn then (s, none) else
  let id := fld (wd ws 0) 12 3
  if id < 1 ∨ 3 < id then (s, none) else
  let s := s.store (id - 1) ws
  if !s.full 3 then (s, none) else
  let sow i := bdsSow (s.parts i)
  if 604800 ≤ sow 0 then (s.clear fun i => i = 0, none) else
  if 604800 ≤ sow 1 then (s.clear fun i => i = 1, none) else
  if 604800 ≤ sow 2 then (s.clear fun i => i = 2, none) else
  if sow 0 ≠ (sow 1 + 2 ^ 32 - 6) % 2 ^ 32 ∨ sow 1 ≠ (sow 2 + 2 ^ 32 - 6) % 2 ^ 32 then (s, none) else
  (s.clear fun i => i < 3, some (L.bds ((List.range 3).map s.parts) prn))

/-- sbas.c:63-123 sbas_decode_subframe -/
def sbasMsg (L : EphLib E) (tow prn : Nat) (ws : List (BitVec 32)) : Option E :=
  if prn < L.sbasFirst ∨ L.sbasFirst + L.sbasCount ≤ prn ∨ (ws.length ≠ 8 ∧ ws.length ≠ 9) then none else
  let buf := (List.range 8).flatMap fun i => wordBits (wd ws i)
  let pre := fld (wd ws 0) 24 8
  if pre ≠ 0x53 ∧ pre ≠ 0x9a ∧ pre ≠ 0xc6 then none else
  let crc := ((buf.drop 226).take 24).foldl (fun a b => 2 * a + b.toNat) 0
  if crc ≠ L.crcBits (buf.take 226) then none else
  some (L.sbas prn tow (fld (wd ws 0) 18 6) ((buf.drop 14).take 212))

/-- the part of ubx_sbp_state concerned (ubx_sbp.h:65-87): stored parts, leap second and week when known, time of the last
solution (`u32`) -/
structure EphSt where
  sat : Con → Nat → Sat := fun _ _ => {}
  utc : Option (Nat × Nat) := none
  tow : Nat := 2 ^ 32 - 1

/-- ubx_sbp.c:1362-1389: memset, last_tow_ms = -1, leap_second_known = false -/
def EphSt.init : EphSt := {}

/-- a received UBX message: RXM-SFRBX; RXM-RAWX, of which the receiver status, leap second and week matter; or a navigation
message that sets last_tow_ms -/
inductive EphIn where
  | sfrbx (gnss sat freq : Nat) (words : List (BitVec 32))
  | rawx (status leap wn : Nat)
  | navTow (tow : Nat)

/-- satellite system of a UBX gnssId (ubx_messages.h: GPS 0, Galileo 2, BeiDou 3, GLONASS 6) -/
def conOf (gnss : Nat) : Option Con :=
  if gnss = 0 then some .gps else if gnss = 3 then some .bds else if gnss = 2 then some .gal else if gnss = 6 then some .glo else none

/-- the satellite number check at the start of the four decoders, and the decoder -/
def satStep (L : EphLib E) (utc : Option (Nat × Nat)) (c : Con) (prn freq : Nat) (ws : List (BitVec 32)) (s : Sat) :
    Option (Sat × Option E) :=
  if prn < 1 ∨ L.numSats c < prn then some (s, none) else
  match c with
  | .gps => some (gpsStep L prn ws s)
  | .bds => some (bdsStep L prn ws s)
  | .gal => some (galStep L ws s)
  | .glo => gloStep L prn freq utc ws s

/-- ubx_sbp.c:1237-1283 handle_rxm_sfrbx and 1173-1189 update_utc_params. UBX_UNKNOWN_PRN (255) is above every satellite
count. The subtraction of 1120 ms is in `u32`, so the comparison with 0 that follows is never true. -/
def ephStep (L : EphLib E) (st : EphSt) : EphIn → Option (EphSt × Option E)
  | .rawx status leap wn => some ({ st with utc := if status % 2 = 1 then some (leap, wn) else none }, none)
  | .navTow t => some ({ st with tow := t }, none)
  | .sfrbx gnss prn freq ws =>
    match conOf gnss with
    | some c => (satStep L st.utc c prn freq ws (st.sat c prn)).map fun r =>
        ({ st with sat := fun c' p' => if c' = c ∧ p' = prn then r.1 else st.sat c' p' }, r.2)
    | none =>
      if gnss = 1 then
        if 604800000 < st.tow then some (st, none) else some (st, sbasMsg L ((st.tow + 2 ^ 32 - 1120) % 2 ^ 32) prn ws)
      else some (st, none)

/-- a history of messages: the final state and, for each message, what was emitted; `none` is undefined behaviour -/
def ephRun (L : EphLib E) (st : EphSt) : List EphIn → Option (EphSt × List (Option E))
  | [] => some (st, [])
  | i :: is => do
    let (st, o) ← ephStep L st i
    let (st, os) ← ephRun L st is
    some (st, o :: os)

end Verif.Ubx
