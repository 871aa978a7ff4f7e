import Verif.Model.Bits
/-
The two codec vocabularies of librtcm.

* Decoders (`rtcm3_decode_*_bitstream`) pull fields off a `swiftnav_bitstream_t` with the `BITSTREAM_DECODE_*` macros
  (librtcm/src/decode_helpers.h:4-131).  A bitstream is modelled by the list of its unread bits.
* Encoders (`rtcm3_encode_*`) are straight-line sequences `rtcm_setbit*(buff, bit, n, v); bit += n;`.  Such a sequence
  is modelled as data (`List Wr`) executed by `exec`.
-/
namespace Verif

/-- `rtcm3_rc` without `RC_OK`   librtcm/include/rtcm3/messages.h:50-54 -/
inductive RC where
  /-- RC_MESSAGE_TYPE_MISMATCH -/
  | typeMismatch
  /-- RC_INVALID_MESSAGE -/
  | invalid
  /-- `(uint16_t)RC_INVALID_MESSAGE = 65534`: what a caller sees when the error passes through
  `rtcm3_decode_gal_eph_common`, which is declared to return `uint16_t`  (librtcm/src/eph_decode.c:304) -/
  | code65534
deriving DecidableEq, Repr

/-- A decoder: consumes bits, returns `RC_OK` with a value or an error; the bitstream position is kept in both cases
(the C object is mutated in place). -/
def Dec (α : Type) := List Bool → Except RC α × List Bool

namespace Dec
protected def pure {α} (a : α) : Dec α := fun s => (.ok a, s)
protected def bind {α β} (d : Dec α) (f : α → Dec β) : Dec β := fun s =>
  match d s with
  | (.ok a, r) => f a r
  | (.error e, r) => (.error e, r)
instance : Monad Dec where
  pure := Dec.pure
  bind := Dec.bind
/-- `return rc;` -/
def fail {α} (e : RC) : Dec α := fun s => (.error e, s)
/-- `if (!cond) return e;` -/
def guard (c : Prop) [Decidable c] (e : RC) : Dec Unit := if c then Pure.pure () else fail e
/-- `BITSTREAM_DECODE_U8/U16/U32/U64/BOOL(buff, field, n)`: `RC_INVALID_MESSAGE` when fewer than `n` bits are left,
otherwise the next `n` bits, MSB first.   librtcm/src/decode_helpers.h:4-25,43-56,73-86,103-116 -/
def getU (n : Nat) : Dec Nat := fun s =>
  if s.length < n then (.error .invalid, s) else (.ok (ofBits (s.take n)), s.drop n)
/-- `BITSTREAM_DECODE_S8/S16/S32/S64(buff, field, n)`   librtcm/src/decode_helpers.h:27-41,58-71,88-101,118-131 -/
def getS (n : Nat) : Dec Int := fun s =>
  if s.length < n then (.error .invalid, s) else (.ok (toSigned n (ofBits (s.take n))), s.drop n)
/-- `swiftnav_bitstream_remove(buff, n)`, not checked. -/
def skip (n : Nat) : Dec Unit := fun s => (.ok (), s.drop n)
/-- A call whose return code is ignored: `None` stands for "the output struct is not (completely) written". -/
def attempt {α} (d : Dec α) : Dec (Option α) := fun s =>
  match d s with
  | (.ok a, r) => (.ok (some a), r)
  | (.error _, r) => (.ok none, r)
/-- translate error codes (a return code squeezed through another integer type) -/
def mapErr {α} (f : RC → RC) (d : Dec α) : Dec α := fun s =>
  match d s with
  | (.ok a, r) => (.ok a, r)
  | (.error e, r) => (.error (f e), r)
/-- `rtcm_get_sign_magnitude_bitstream`   librtcm/src/bits.c:201-210 -/
def getSM (n : Nat) : Dec Int := do
  let sign ← getS 1
  let value ← getU (n - 1)
  pure (if sign ≠ 0 then -(value : Int) else value)
/-- `for (i = 0; i < k; i++) { d }` collecting the results. -/
def many {α} (d : Dec α) : Nat → Dec (List α)
  | 0 => Pure.pure []
  | k + 1 => do
    let x ← d
    let xs ← many d k
    pure (x :: xs)
/-- One `BITSTREAM_DECODE_U8(buff, x, 8)` into a byte. -/
def getByte : Dec Byte := do
  let v ← getU 8
  pure (BitVec.ofNat 8 v)

/-- Result of running a decoder on a payload. -/
def run {α} (d : Dec α) (payload : Buf) : Except RC α := (d (bitsOf payload)).1
end Dec

/-- One bit-field write at the running bit position. -/
inductive Wr where
  /-- `rtcm_setbitu(buff, bit, n, v); bit += n;` -/
  | u (n v : Nat)
  /-- `rtcm_setbitul(buff, bit, n, v); bit += n;` -/
  | ul (n v : Nat)

namespace Wr
/-- `rtcm_setbits(buff, bit, n, v); bit += n;` (`rtcm_setbits` casts to `uint32_t`, librtcm/src/bits.c:156-158) -/
def s (n : Nat) (i : Int) : Wr := .u n (u32 i)
/-- `rtcm_setbitsl(buff, bit, n, v); bit += n;`  (librtcm/src/bits.c:169-171) -/
def sl (n : Nat) (i : Int) : Wr := .ul n (u64 i)
/-- `rtcm_set_sign_magnitude_bit(buff, bit, n, v); bit += n;`  (librtcm/src/bits.c:192-198) -/
def sm (n : Nat) (i : Int) : List Wr :=
  [.u 1 (if i < 0 then 1 else 0), .u (n - 1) (u32 (if i < 0 then -i else i))]
/-- width -/
def len : Wr → Nat
  | .u n _ => n
  | .ul n _ => n
/-- the bits a write puts in the stream -/
def bits : Wr → List Bool
  | .u n v => toBits n v
  | .ul n v => toBits n v
/-- the widths `rtcm_setbitu`/`rtcm_setbitul` accept -/
def ok : Wr → Prop
  | .u n _ => n ≤ 32
  | .ul n _ => n ≤ 64
instance : DecidablePred ok := fun w => match w with
  | .u n _ => inferInstanceAs (Decidable (n ≤ 32))
  | .ul n _ => inferInstanceAs (Decidable (n ≤ 64))
/-- perform it at bit position `p` -/
def put (w : Wr) (b : Buf) (p : Nat) : Buf :=
  match w with
  | .u n v => setbitu b p n v
  | .ul n v => setbitul b p n v
end Wr

/-- A run of writes starting at bit `p`: final buffer and final `bit`. -/
def exec : List Wr → Buf → Nat → Buf × Nat
  | [], b, p => (b, p)
  | w :: ws, b, p => exec ws (w.put b p) (p + w.len)

/-- An encoder's effect: the written buffer and the returned byte count `(bit + 7) / 8`. -/
def encodeWr (ws : List Wr) (b : Buf) : Buf × Nat :=
  let r := exec ws b 0
  (r.1, (r.2 + 7) / 8)

/-- The bytes an encoder hands to its caller: the first `n` bytes of the buffer, `n` the returned count. -/
def payloadOf (r : Buf × Nat) : Buf := r.1.take r.2

end Verif
