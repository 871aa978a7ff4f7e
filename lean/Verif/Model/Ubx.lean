import Verif.Model.Bits
/-
The UBX byte-stream reader of gnss_converters/src/ubx_sbp.c and the UBX checksum of libubx.
-/
namespace Verif.Ubx

/-- libubx/src/decode.c:31-40 ubx_checksum: CK_A and CK_B, both u8 -/
def checksum (b : Buf) : BitVec 8 × BitVec 8 := b.foldl (fun c x => (c.1 + x, c.2 + (c.1 + x))) (0, 0)

/-- What one call of read_stream_func does: bytes stored (none: end of stream, return value 0) or a negative return value. -/
inductive Rd where
  | data (b : Buf)
  | err (code : Int)
deriving DecidableEq

/-- The reader part of struct ubx_sbp_state (ubx_sbp.h:65-68): the first bytes_in_buffer bytes of read_buffer and index; `src`
are the coming calls of read_stream_func, all 0 when exhausted. -/
structure RSt where
  buf : Buf := []
  index : Nat := 0
  src : List Rd := []
deriving DecidableEq

/-- gnss_converters/include/gnss-converters/ubx_sbp.h:42-43 UBX_BUFFER_SIZE, UBX_FRAME_SIZE -/
abbrev bufferSize : Nat := 4096
abbrev frameSize : Nat := 4096

/-- ubx_sbp.c:126-158 read_ubx_bytes: reads `length` bytes after the `got` already stored; an error is the return value
(≤ 0) of reload_ubx_buffer (ubx_sbp.c:113-119), which empties the buffer then.  The two branches of the loop body
(`bytes_in_buffer == 0` or not) are kept apart. -/
def readBytes (src : List Rd) (buf : Buf) (index length : Nat) (got : Buf) : RSt × Except Int Buf :=
  if index + length > buf.length then
    let remaining := if buf.length = 0 then [] else (buf.drop index).take (buf.length - index)
    match src with
    | [] => ({ buf := [], index := 0, src := [] }, .error 0)
    | .err c :: s => ({ buf := [], index := 0, src := s }, .error c)
    | .data b :: s =>
      if b.length = 0 then ({ buf := [], index := 0, src := s }, .error 0)
      else readBytes s b 0 (length - remaining.length) (got ++ remaining)
  else ({ buf := buf, index := index + length, src := src }, .ok (got ++ (buf.drop index).take length))

def read (st : RSt) (length : Nat) : RSt × Except Int Buf := readBytes st.src st.buf st.index length []

/-- `return ret == 0 ? -1 : ret` -/
def fail (c : Int) : Int := if c = 0 then -1 else c

/-- ubx_sbp.c:172-177 the inner `while (frame[0] == UBX_SYNC_CHAR_1)`: the first byte that is not the first sync character -/
def skipSync : Nat → RSt → RSt × Except Int (BitVec 8)
  | 0, st => (st, .error (-1))
  | fuel + 1, st =>
    match read st 1 with
    | (st, .error c) => (st, .error (fail c))
    | (st, .ok b) => if b.getD 0 0 = 0xB5#8 then skipSync fuel st else (st, .ok (b.getD 0 0))

/-- ubx_sbp.c:160-219 read_ubx_frame (GNSS_CONVERTERS_DISABLE_CRC_VALIDATION not defined): the frame from class to payload, or the
negative return value.  `continue` in the do-while goes to its condition. -/
def readFrameLoop : Nat → RSt → RSt × Except Int Buf
  | 0, st => (st, .error (-1))
  | fuel + 1, st =>
    let again := fun (st : RSt) => if st.buf.length ≠ 0 then readFrameLoop fuel st else (st, .error (-1))
    match read st 1 with
    | (st, .error c) => (st, .error (fail c))
    | (st, .ok b) =>
      if b.getD 0 0 ≠ 0xB5#8 then again st
      else
        match skipSync fuel st with
        | (st, .error c) => (st, .error c)
        | (st, .ok x) =>
          if x ≠ 0x62#8 then again st
          else
            match read st 4 with
            | (st, .error c) => (st, .error (fail c))
            | (st, .ok h) =>
              let len := (h.getD 2 0).toNat + ((h.getD 3 0).toNat <<< 8)
              if len > frameSize - 6 then again st
              else
                match read st (len + 2) with
                | (st, .error c) => (st, .error (fail c))
                | (st, .ok p) =>
                  let frame := h ++ p
                  let ck := checksum (frame.take (4 + len))
                  if [ck.1, ck.2] ≠ (frame.drop (4 + len)).take 2 then again st
                  else (st, .ok (frame.take (len + 4)))

/-- bytes that can still be read: bounds the loops -/
def RSt.left (st : RSt) : Nat :=
  (st.buf.length - st.index) + (st.src.map fun r => match r with | .data b => b.length | .err _ => 0).sum

/-- one call of ubx_sbp_process (ubx_sbp.c:1415-1431) as far as reading is concerned -/
def readFrame (st : RSt) : RSt × Except Int Buf := readFrameLoop (st.left + 1) st

/-- `n` calls: what each of them read -/
def calls : Nat → RSt → List (Except Int Buf)
  | 0, _ => []
  | n + 1, st => (readFrame st).2 :: calls n (readFrame st).1

/-- ubx_sbp.c:1362-1385 ubx_sbp_init, the reader part -/
def start (src : List Rd) : RSt := { src := src }

end Verif.Ubx
