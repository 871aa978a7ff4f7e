/-! What an RTCM 3 transport frame is, and what it means for frames to occur in a stream. -/
namespace Verif.Spec

/-- `f` is a valid RTCM 3 frame with payload `p`: preamble, 6 reserved bits, 10-bit length, payload, 24-bit CRC. -/
def IsFrame (crc : List (BitVec 8) → BitVec 24) (f p : List (BitVec 8)) : Prop :=
  ∃ (hi lo c2 c1 c0 : BitVec 8),
    f = [0xD3#8, hi, lo] ++ p ++ [c2, c1, c0] ∧
    1 ≤ p.length ∧ p.length = hi.toNat % 4 * 256 + lo.toNat ∧
    (crc ([0xD3#8, hi, lo] ++ p)).toNat = c2.toNat * 65536 + c1.toNat * 256 + c0.toNat

/-- The frames occur in the stream one after the other without overlap, in this order. -/
inductive Occur : List (List (BitVec 8)) → List (BitVec 8) → Prop
  | nil (s) : Occur [] s
  | cons (gap f fs s) : Occur fs s → Occur (f :: fs) (gap ++ f ++ s)

/-- A stream consisting of exactly these frames, possibly separated by bytes that are not a preamble. -/
inductive Interleaved : List (List (BitVec 8)) → List (BitVec 8) → Prop
  | nil : Interleaved [] []
  | noise (b fs s) : b ≠ 0xD3#8 → Interleaved fs s → Interleaved fs (b :: s)
  | frame (f fs s) : Interleaved fs s → Interleaved (f :: fs) (f ++ s)

end Verif.Spec
