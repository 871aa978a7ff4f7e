/-
Model of librtcm/src/bits.c : MSB-first bit fields in byte buffers.
A buffer is a list of bytes.  An access outside the list is undefined behaviour in C; the model reads 0 / writes
nothing there and every property theorem carries the hypothesis that the field lies inside the buffer.
-/
namespace Verif

/-- A byte, `uint8_t`. -/
abbrev Byte := BitVec 8
/-- A C byte buffer. -/
abbrev Buf := List Byte

/-- `(buff[i / 8] >> (7 - i % 8)) & 1u`   librtcm/src/bits.c:31 -/
def getBit (b : Buf) (i : Nat) : Bool :=
  ((b.getD (i / 8) 0) >>> (7 - i % 8) &&& 1#8) == 1#8

/-- `buff[i/8] |= 1u << (7 - i%8)` or `buff[i/8] &= ~(1u << (7 - i%8))`   librtcm/src/bits.c:114-118 -/
def setBit (b : Buf) (i : Nat) (v : Bool) : Buf :=
  let x := b.getD (i / 8) 0
  if v then b.set (i / 8) (x ||| (1#8 <<< (7 - i % 8)))
  else b.set (i / 8) (x &&& ~~~(1#8 <<< (7 - i % 8)))

/-- The loop of `rtcm_getbitu`, `bits = (bits << 1) + bit` in a `w`-bit unsigned.   librtcm/src/bits.c:28-35 -/
def getLoop (w : Nat) (b : Buf) (acc pos : Nat) : Nat → Nat
  | 0 => acc
  | n + 1 => getLoop w b ((acc * 2 + (getBit b pos).toNat) % 2 ^ w) (pos + 1) n

/-- `rtcm_getbitu`   librtcm/src/bits.c:27-36 -/
def getbitu (b : Buf) (pos len : Nat) : Nat := getLoop 32 b 0 pos len
/-- `rtcm_getbitul`   librtcm/src/bits.c:47-56 -/
def getbitul (b : Buf) (pos len : Nat) : Nat := getLoop 64 b 0 pos len

/-- `rtcm_getbits`, sign extension `(bits ^ m) - m` in 32-bit two's complement.  (For `len = 32` and a negative
value the C subtraction is a signed overflow; modelled as wrapping, see `C05_getbits_no_overflow`.)
librtcm/src/bits.c:70-78 -/
def getbits (b : Buf) (pos len : Nat) : Int :=
  let bits : BitVec 32 := BitVec.ofNat 32 (getbitu b pos len)
  let m : BitVec 32 := 1#32 <<< (len - 1)
  ((bits ^^^ m) - m).toInt
/-- `rtcm_getbitsl`   librtcm/src/bits.c:91-99 -/
def getbitsl (b : Buf) (pos len : Nat) : Int :=
  let bits : BitVec 64 := BitVec.ofNat 64 (getbitul b pos len)
  let m : BitVec 64 := 1#64 <<< (len - 1)
  ((bits ^^^ m) - m).toInt

/-- The loop of `rtcm_setbitu`: with `n+1` iterations left the mask is `1 << n`.   librtcm/src/bits.c:113-119 -/
def setLoop (b : Buf) (pos data : Nat) : Nat → Buf
  | 0 => b
  | n + 1 => setLoop (setBit b pos (data.testBit n)) (pos + 1) data n

/-- `rtcm_setbitu`   librtcm/src/bits.c:106-120 ; `data` is a `uint32_t`. -/
def setbitu (b : Buf) (pos len data : Nat) : Buf :=
  if len = 0 ∨ 32 < len then b else setLoop b pos (data % 2 ^ 32) len
/-- `rtcm_setbitul`   librtcm/src/bits.c:131-145 -/
def setbitul (b : Buf) (pos len data : Nat) : Buf :=
  if len = 0 ∨ 64 < len then b else setLoop b pos (data % 2 ^ 64) len

/-- conversion of a C signed integer to `uint32_t` -/
def u32 (i : Int) : Nat := (i % 2 ^ 32).toNat
/-- conversion of a C signed integer to `uint64_t` -/
def u64 (i : Int) : Nat := (i % 2 ^ 64).toNat

/-- `rtcm_setbits`   librtcm/src/bits.c:156-158 -/
def setbits (b : Buf) (pos len : Nat) (data : Int) : Buf := setbitu b pos len (u32 data)
/-- `rtcm_setbitsl`   librtcm/src/bits.c:169-171 -/
def setbitsl (b : Buf) (pos len : Nat) (data : Int) : Buf := setbitul b pos len (u64 data)

/-- `rtcm_get_sign_magnitude_bit`   librtcm/src/bits.c:179-184 -/
def getSignMag (b : Buf) (pos len : Nat) : Int :=
  let value : Int := getbitu b (pos + 1) (len - 1)
  if getbitu b pos 1 ≠ 0 then -value else value
/-- `rtcm_set_sign_magnitude_bit`   librtcm/src/bits.c:192-198 -/
def setSignMag (b : Buf) (pos len : Nat) (data : Int) : Buf :=
  let b1 := setbitu b pos 1 (if data < 0 then 1 else 0)
  setbitu b1 (pos + 1) (len - 1) (u32 (if data < 0 then -data else data))

/-! ### Bit lists (MSB first), used by the bitstream model -/

/-- The `n` low bits of `v`, most significant first. -/
def toBits : Nat → Nat → List Bool
  | 0, _ => []
  | n + 1, v => v.testBit n :: toBits n v

/-- Number whose binary digits, most significant first, are the list. -/
def ofBits (l : List Bool) : Nat := l.foldl (fun acc b => acc * 2 + b.toNat) 0

/-- All bits of a buffer, in stream order. -/
def bitsOf (b : Buf) : List Bool := b.flatMap (fun x => toBits 8 x.toNat)

/-- Two's complement reading of an `n`-bit value: what `swiftnav_bitstream_getbits` returns (assumption on
libswiftnav, same contract as `rtcm_getbits`). -/
def toSigned (n v : Nat) : Int := if v < 2 ^ (n - 1) then v else (v : Int) - 2 ^ n

end Verif
