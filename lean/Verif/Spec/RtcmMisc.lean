import Verif.Model.RtcmMisc
import Verif.Spec.Num
import Verif.Spec.RtcmFraming
/-
Vocabulary for C64-C68: what is sent with the SBP-to-RTCM converter and what comes out of the RTCM-to-SBP converter at the other end.
-/
namespace Verif.Misc.Spec
open Verif.Misc Verif.Spec
open Verif.RtcmFraming
open Verif.RtcmSbp (messageType)

variable {W E : Type}

/-- a coordinate (m) within the 38-bit field in units of 0.1 mm -/
def CoordFits (x : ℚ) : Prop := |x| ≤ (2 ^ 37 - 1) / 10000

/-- a 16-bit SBP bias -/
def S16 (x : Int) : Prop := -32768 ≤ x ∧ x ≤ 32767

/-- the values of a call fit their SBP and RTCM fields; the two settings may be anything -/
def Fits : SbpIn → Prop
  | .basePos sender p => sender < 65536 ∧ CoordFits p.x ∧ CoordFits p.y ∧ CoordFits p.z
  | .gloBias sender b => sender < 65536 ∧ b.mask < 16 ∧ S16 b.l1ca ∧ S16 b.l1p ∧ S16 b.l2ca ∧ S16 b.l2p
  | .wrapped type sender data => type < 65536 ∧ sender < 65536 ∧ data.length ≤ 255
  | .log sender payload => sender < 65536 ∧ payload.length ≤ 255
  | .antHeight _ => True
  | .descriptors _ _ => True

/-- `xs` are calls of the RTCM-to-SBP converter with the payloads found in the bytes that the SBP-to-RTCM converter wrote for `es`, cut
into `chunks` in any way.  (Times, time-truth state and surrounding memory of the calls are free.) -/
def Carried (crc : Buf → BitVec 24) (st : OutSt) (es : List SbpIn) (chunks : List Buf) (xs : List MInput) : Prop :=
  outBytes crc st es = some chunks.flatten ∧ (∀ c ∈ chunks, c.length ≤ bufferSize) ∧
  (run crc Reader.init chunks).2.map framePayload = xs.map fun x => FrameCall.payload x.inp.payload

def sentPos : SbpIn → Option (Nat × BasePos)
  | .basePos s p => some (s, p)
  | _ => none
def gotPos : Nat × Msg W E → Option (Nat × BasePos)
  | (s, .basePos p) => some (s, p)
  | _ => none

def sentBias : SbpIn → Option (Nat × GloBias)
  | .gloBias s b => some (s, b)
  | _ => none
def gotBias : Nat × Msg W E → Option (Nat × GloBias)
  | (s, .gloBias b) => some (s, b)
  | _ => none

/-- level and text of a log payload; without text nothing is sent -/
def sentLog : SbpIn → Option (Nat × Buf)
  | .log s (_ :: c :: t) => some (s, c :: t)
  | _ => none
def gotLog : Nat × Msg W E → Option (Nat × LogText)
  | (s, .log t) => some (s, t)
  | _ => none

def sentWrapped : SbpIn → Option (Nat × Nat × Buf)
  | .wrapped t s d => some (t, s, d)
  | _ => none
def gotWrapped : Nat × Msg W E → Option (Nat × Nat × W)
  | (s, .wrapped t m) => some (t, s, m)
  | _ => none

/-- settings that make the converter add 1008 and 1033 to a position -/
def isAntenna : SbpIn → Bool
  | .antHeight _ => true
  | .descriptors _ _ => true
  | _ => false

/-- descriptors set by a call -/
def descriptorsOf : SbpIn → Option (Buf × Buf)
  | .descriptors ant rcv => some (ant, rcv)
  | _ => none
/-- antenna height set by a call: only 0 to 6.5535 m (the `double` nearest to it) is accepted -/
def heightOf : SbpIn → Option ℚ
  | .antHeight h => if 0 ≤ h ∧ h ≤ Fp.f64 (65535 / 10000) then some h else none
  | _ => none
def lastDescriptors (es : List SbpIn) : Option (Buf × Buf) := (es.filterMap descriptorsOf).getLast?
def lastHeight (es : List SbpIn) : Option ℚ := (es.filterMap heightOf).getLast?

/-- the biases whose bit is set in the mask, the others as zero -/
def maskedBias (b : GloBias) : GloBias where
  mask := b.mask
  l1ca := if b.mask.testBit 3 then b.l1ca else 0
  l1p := if b.mask.testBit 2 then b.l1p else 0
  l2ca := if b.mask.testBit 1 then b.l2ca else 0
  l2p := if b.mask.testBit 0 then b.l2p else 0

/-- position seen at the other end: rounded to 0.1 mm, with the sender made from 12 bits of the original one -/
structure PosBack (i o : Nat × BasePos) : Prop where
  sender : o.1 = i.1 % 4096 ||| 0xF080
  x : Quant (1 / 10000) i.2.x o.2.x
  y : Quant (1 / 10000) i.2.y o.2.y
  z : Quant (1 / 10000) i.2.z o.2.z

/-! ### raw fields -/

/-- the unsigned field of `n` bits at bit `off` of a payload, most significant bit first -/
def fieldU (p : Buf) (off n : Nat) : Nat := ofBits (((bitsOf p).drop off).take n)
/-- the two's complement field -/
def fieldS (p : Buf) (off n : Nat) : Int := if fieldU p off n < 2 ^ (n - 1) then fieldU p off n else (fieldU p off n : Int) - 2 ^ n

/-- number of bits set above bit `i` in a 4-bit mask -/
def above (mask i : Nat) : Nat := ((List.range 4).filter fun j => decide (i < j) && mask.testBit j).length
/-- the bias of the signal with mask bit `i` in a 1230 message: one 16-bit field per mask bit set, highest first, from bit 32 -/
def bias1230 (p : Buf) (i : Nat) : Int :=
  if (fieldU p 28 4).testBit i ∧ fieldU p 24 1 = 0 then fieldS p (32 + 16 * above (fieldU p 28 4) i) 16 else 0
/-- number of bits of a 1230 message with this mask -/
def bits1230 (mask : Nat) : Nat := 32 + 16 * ((List.range 4).filter fun j => mask.testBit j).length

/-! ### navigation data frames (4075) -/

/-- Where frame number `k` starts: the header has 32 bits; a frame has 62 bits and its data, whose number of bits is in the 12 bits from
bit 50 of the frame. -/
def frameStart (p : Buf) : Nat → Nat
  | 0 => 32
  | k + 1 => frameStart p k + 62 + fieldU p (frameStart p k + 50) 12
/-- number of data bits of the frame at `off` -/
def frameSize (p : Buf) (off : Nat) : Nat := fieldU p (off + 50) 12
/-- all frames announced (6 bits from bit 26) are within the message -/
def Whole4075 (p : Buf) : Prop := 4 ≤ p.length ∧ frameStart p (fieldU p 26 6) ≤ 8 * p.length
instance (p) : Decidable (Whole4075 p) := inferInstanceAs (Decidable (_ ∧ _))
/-- the frame at `off`: its data as words of 32 bits, the last one of what remains -/
def frameAt (p : Buf) (off : Nat) : NdfFrame where
  sys := fieldU p off 4
  sat := fieldU p (off + 4) 6
  ext := fieldU p (off + 10) 4
  sig := fieldU p (off + 14) 5
  epoch := fieldU p (off + 19) 30
  cont := fieldU p (off + 49) 1 ≠ 0
  size := frameSize p off
  data := (List.range ((frameSize p off + 31) / 32)).map fun j =>
    BitVec.ofNat 32 (fieldU p (off + 62 + 32 * j) (min 32 (frameSize p off - 32 * j)))

/-- an SBAS message in bits: 8 bits preamble, 6 bits type, 212 bits data, 24 bits checksum of the 226 bits before -/
def sbasOf (L : Ubx.EphLib E) (prn tow : Nat) (bits : List Bool) : Option E :=
  if L.sbasFirst ≤ prn ∧ prn < L.sbasFirst + L.sbasCount ∧ ofBits (bits.take 8) ∈ [0x53, 0x9a, 0xc6] ∧
      ofBits ((bits.drop 226).take 24) = L.crcBits (bits.take 226) then
    some (L.sbas prn tow (ofBits ((bits.drop 8).take 6)) ((bits.drop 14).take 212))
  else none
/-- the message handed on for the frame at `off`: an SBAS frame (system 3) of 8 or 9 full words' worth of bits, its satellite number
counted from 120, with the epoch time of the frame -/
def frameOut (L : Lib W E) (p : Buf) (off : Nat) : Option (Nat × Msg W E) :=
  if fieldU p off 4 = 3 ∧ 256 ≤ frameSize p off ∧ frameSize p off ≤ 288 then
    (sbasOf L.eph (fieldU p (off + 4) 6 + 120) (fieldU p (off + 19) 30) ((bitsOf p).drop (off + 62))).map
      fun e => (fieldU p 12 12 ||| 0xF080, .sbas e)
  else none

/-! ### receiver table -/

/-- The biases used for a receiver descriptor (message 1033): text looked for, mask, L1 C/A, L1 P, L2 C/A, L2 P in units of 2 cm.  The
first entry whose text occurs in the descriptor counts. -/
def receiverTable : List (String × GloBias) :=
  [("Geo++ GNSMART (GLO=ASH)", ⟨9, -735, 0, 0, -810⟩), ("Geo++ GNSMART (GLO=HEM)", ⟨9, -15, 0, 0, 175⟩),
   ("Geo++ GNSMART (GLO=JAV)", ⟨9, -75, 0, 0, -405⟩), ("Geo++ GNSMART (GLO=JPS)", ⟨9, -185, 0, 0, 35⟩),
   ("Geo++ GNSMART (GLO=LEI)", ⟨9, -3535, 0, 0, -3315⟩), ("Geo++ GNSMART (GLO=NOV)", ⟨9, -3535, 0, 0, -3315⟩),
   ("Geo++ GNSMART (GLO=NAV)", ⟨9, 20, 0, 0, 105⟩), ("Geo++ GNSMART (GLO=NVR)", ⟨9, 5835, 0, 0, 9350⟩),
   ("Geo++ GNSMART (GLO=SEP)", ⟨9, 0, 0, 0, 0⟩), ("Geo++ GNSMART (GLO=SOK)", ⟨9, -3535, 0, 0, -3315⟩),
   ("Geo++ GNSMART (GLO=TPS)", ⟨9, -128, 0, 0, 187⟩), ("Geo++ GNSMART (GLO=TRM)", ⟨9, 940, 0, 0, 1160⟩),
   ("TRIMBLE", ⟨15, 953, 953, 953, 953⟩), ("ASHTECH", ⟨15, 953, 953, 953, 953⟩),
   ("LEICA", ⟨15, -3597, -3597, -3597, -3597⟩), ("NOV", ⟨15, -3597, -3597, -3597, -3597⟩), ("GEOMAX", ⟨15, -3597, -3597, -3597, -3597⟩),
   ("SEPT", ⟨15, 0, 0, 0, 0⟩), ("TPS", ⟨9, 0, 0, 0, 0⟩), ("JAVAD", ⟨9, -75, 0, 0, -405⟩), ("NAVCOM", ⟨9, 20, 0, 0, 105⟩),
   ("HEMI", ⟨9, -10, 0, 0, 170⟩)]

/-- `text` occurs in `s` -/
def occurs (text s : Buf) : Bool := decide (text <:+: s)
/-- the biases for a descriptor; none of the known receivers: an empty mask -/
def receiverBias (descriptor : Buf) : GloBias :=
  ((receiverTable.find? fun r => occurs (asc r.1) descriptor).map Prod.snd).getD ⟨0, 0, 0, 0, 0⟩

/-- a call that converts a 1230 message -/
def Is1230 (x : MInput) : Prop := x.inp.solved = true ∧ messageType x.inp.payload = 1230 ∧ ∃ m, decode1230.run x.inp.payload = .ok m
instance : DecidablePred Is1230 := fun x =>
  match h : decode1230.run x.inp.payload with
  | .ok m => decidable_of_iff (x.inp.solved = true ∧ messageType x.inp.payload = 1230) (by unfold Is1230; simp [h])
  | .error e => isFalse (by unfold Is1230; simp [h])

/-- time of the last 1230 converted in a history -/
def last1230Time (xs : List MInput) : Option Time.GpsTime := ((xs.filter fun x => decide (Is1230 x)).getLast?).map (·.inp.time)

/-! ### UTF-8 -/

/-- continuation byte 10xxxxxx -/
def IsCont (b : BitVec 8) : Prop := 128 ≤ b.toNat ∧ b.toNat < 192
instance : DecidablePred IsCont := fun b => inferInstanceAs (Decidable (_ ∧ _))
/-- number of continuation bytes announced by a first byte (0xxxxxxx, 110xxxxx, 1110xxxx, 11110xxx) -/
def conts (b : BitVec 8) : Option Nat :=
  if b.toNat < 128 then some 0 else if b.toNat < 192 then none else if b.toNat < 224 then some 1
  else if b.toNat < 240 then some 2 else if b.toNat < 248 then some 3 else none
/-- a text made of complete UTF-8 characters -/
inductive Utf8 : Buf → Prop
  | nil : Utf8 []
  | char (lead : BitVec 8) (cs rest : Buf) : conts lead = some cs.length → (∀ c ∈ cs, IsCont c) → Utf8 rest → Utf8 (lead :: (cs ++ rest))

/-- the longest prefix of at most `n` bytes that consists of complete characters -/
structure BestPrefix (n : Nat) (t r : Buf) : Prop where
  pre : r <+: t
  fits : r.length ≤ n
  utf8 : Utf8 r
  best : ∀ r', r' <+: t → r'.length ≤ n → Utf8 r' → r'.length ≤ r.length

/-- what is received for a text -/
structure TextBack (i : Nat × Buf) (o : Nat × LogText) : Prop where
  sender : o.1 = i.1 % 4096 ||| 0xF080
  /-- always "information": RTCM has no place for the level -/
  level : o.2.level = 6
  pre : o.2.text <+: asc "RTCM: " ++ i.2
  fits : o.2.text.length ≤ 254
  whole : Utf8 i.2 → i.2.length ≤ 248 → o.2.text = asc "RTCM: " ++ i.2
  cut : Utf8 i.2 → (∀ b ∈ i.2, b.toNat < 224) → BestPrefix 254 (asc "RTCM: " ++ i.2) o.2.text

end Verif.Misc.Spec
