import Verif.Model.Bits
/-
Model of the RTCM byte-stream reader (gnss_converters/src/rtcm3_sbp.c:1640-1765), of the frame-to-payload step
(rtcm3_sbp.c:638-654) and of the frame writer of the SBP-to-RTCM direction (gnss_converters_extra/src/sbp_rtcm3.c:174-204).
`crc` stands for `crc24q(buf, len, 0)` of libswiftnav: any function from byte strings to 24-bit values.
-/
namespace Verif.RtcmFraming

/-- RTCM3_MSG_OVERHEAD, RTCM3_MAX_MSG_LEN, RTCM3_FIFO_SIZE, RTCM3_BUFFER_SIZE
gnss_converters/include/gnss-converters/rtcm3_sbp.h:43-47 -/
abbrev overhead : Nat := 6
abbrev maxMsgLen : Nat := 1023
abbrev fifoSize : Nat := 4096
abbrev bufferSize : Nat := fifoSize - overhead - maxMsgLen

/-- `extract_msg_len`: `(((uint16_t)buf[1] << 8) | buf[2]) & 1023`   rtcm3_sbp.c:1739-1741 -/
def extractMsgLen (b : Buf) : Nat :=
  (((b.getD 1 0).toNat <<< 8) ||| (b.getD 2 0).toNat) &&& maxMsgLen

/-- `verify_crc(buf, buf_len)`   rtcm3_sbp.c:1745-1765 (GNSS_CONVERTERS_DISABLE_CRC_VALIDATION not defined) -/
def verifyCrc (crc : Buf → BitVec 24) (b : Buf) (bufLen : Nat) : Bool :=
  let msgLen := extractMsgLen b
  if bufLen < msgLen + overhead then false
  else
    let computed := (crc (b.take (3 + msgLen))).toNat
    let frameCrc := ((b.getD (msgLen + 3) 0).toNat <<< 16) ||| ((b.getD (msgLen + 4) 0).toNat <<< 8)
      ||| (b.getD (msgLen + 5) 0).toNat
    frameCrc == computed

/-- The `while` loop of `rtcm2sbp_process`: `buf` are the `avail_sz` peeked bytes.  Returns the frames handed to
`rtcm2sbp_decode_frame`, in order, and the final `index`.   rtcm3_sbp.c:1700-1726 -/
def scanLoop (crc : Buf → BitVec 24) (buf : Buf) (index : Nat) : List Buf × Nat :=
  if _h : index + overhead < buf.length then
    let cur := buf.drop index
    if cur.getD 0 0 ≠ 0xD3#8 then scanLoop crc buf (index + 1)
    else
      let msgLen := extractMsgLen cur
      if msgLen = 0 ∨ msgLen > maxMsgLen then scanLoop crc buf (index + 1)
      else if index + overhead + msgLen > buf.length then ([], index)
      else if verifyCrc crc cur (fifoSize - index) = false then scanLoop crc buf (index + 1)
      else
        let r := scanLoop crc buf (index + msgLen + overhead)
        (cur.take (msgLen + overhead) :: r.1, r.2)
  else ([], index)
termination_by buf.length - index
decreasing_by all_goals (simp only [overhead] at *; omega)

/-- The receive FIFO contents (`state->fifo`); capacity `fifoSize`. -/
structure Reader where
  fifo : Buf
  deriving DecidableEq, Repr

/-- `rtcm2sbp_init` initialises an empty FIFO.   rtcm3_sbp.c:78-131 -/
def Reader.init : Reader := ⟨[]⟩

/-- One call of `rtcm2sbp_process` where the read callback delivered `data` (an error or end-of-stream return is the
empty delivery).  Returns the new state and the frames decoded.   rtcm3_sbp.c:1680-1737 -/
def process (crc : Buf → BitVec 24) (s : Reader) (data : Buf) : Reader × List Buf :=
  if data.length < 1 then (s, [])
  else
    let writeSz := min data.length (fifoSize - s.fifo.length)
    let fifo1 := if writeSz ≠ data.length then [] else s.fifo ++ data
    let r := scanLoop crc fifo1 0
    let removed := min r.2 fifo1.length
    let fifo2 := if removed ≠ r.2 then [] else fifo1.drop r.2
    (⟨fifo2⟩, r.1)

/-- A history of calls. -/
def run (crc : Buf → BitVec 24) (s : Reader) : List Buf → Reader × List Buf
  | [] => (s, [])
  | d :: ds =>
    let r := process crc s d
    let r' := run crc r.1 ds
    (r'.1, r.2 ++ r'.2)

/-- Result of handing a frame to message decoding: nothing is decoded, memory outside the frame is read (undefined
behaviour), or a payload is decoded. -/
inductive FrameCall where
  | reject
  | outOfBounds
  | payload (p : Buf)
  deriving DecidableEq, Repr

/-- `rtcm2sbp_decode_frame(frame, frame_length, state)` with `frame_length` the size of `frame`.
rtcm3_sbp.c:638-654 -/
def framePayload (frame : Buf) : FrameCall :=
  if frame.length < 1 then .reject
  else if frame.length < 3 then .outOfBounds          -- reads frame[1], frame[2]
  else
    let messageSize := (((frame.getD 1 0).toNat &&& 3) <<< 8) ||| (frame.getD 2 0).toNat
    if frame.length < messageSize then .reject
    else if frame.length < 3 + messageSize then .outOfBounds    -- payload = &frame[3], messageSize bytes
    else .payload ((frame.drop 3).take messageSize)

/-- `encode_rtcm3_frame` into a frame buffer of `cap` bytes, for a payload already produced by the message encoder.
`none` is undefined behaviour (write past the buffer); an empty payload gives the empty frame (return value 0).
gnss_converters_extra/src/sbp_rtcm3.c:176-204.  Simplification: the payload is given as bytes rather than encoded in
place. -/
def encodeFrame (crc : Buf → BitVec 24) (cap : Nat) (payload : Buf) : Option Buf :=
  let size := payload.length
  if size = 0 then some []
  else if size + 6 > cap then none
  else
    let frame0 : Buf := (List.replicate 3 0#8 ++ payload) ++ List.replicate (cap - size - 3) 0#8
    let frame1 := setbitu frame0 0 8 0xD3
    let frame2 := setbitu frame1 8 6 0
    let frame3 := setbitu frame2 14 10 size
    let c := crc (frame3.take (size + 3))
    let frame4 := setbitu frame3 (24 + size * 8) 24 c.toNat
    some (frame4.take (size + 6))

end Verif.RtcmFraming
