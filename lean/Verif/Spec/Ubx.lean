import Verif.Spec.RtcmFraming
/-! What a UBX frame is (u-blox protocol specification, UBX checksum: 8-bit Fletcher of RFC 1145). -/
namespace Verif.Ubx.Spec

/-- sum of the bytes -/
def sumA (b : List (BitVec 8)) : Nat := (b.map BitVec.toNat).sum
/-- sum of the bytes, the last with weight 1, the one before with weight 2, … -/
def sumB : List (BitVec 8) → Nat
  | [] => 0
  | x :: xs => (xs.length + 1) * x.toNat + sumB xs

/-- `f` is a UBX frame around `body` (class, message number, length, payload). -/
def IsFrame (f body : List (BitVec 8)) : Prop :=
  ∃ (cls id lo hi a b : BitVec 8) (p : List (BitVec 8)),
    body = [cls, id, lo, hi] ++ p ∧ f = [0xB5#8, 0x62#8] ++ body ++ [a, b] ∧
    p.length = lo.toNat + 256 * hi.toNat ∧ p.length ≤ 4090 ∧ a.toNat = sumA body % 256 ∧ b.toNat = sumB body % 256

/-- The frames occur in the stream one after the other without overlap, in this order. -/
abbrev Occur := Verif.Spec.Occur

/-- A stream consisting of exactly these frames, possibly separated by bytes that are not the first sync character. -/
inductive Interleaved : List (List (BitVec 8)) → List (BitVec 8) → Prop
  | nil : Interleaved [] []
  | noise (b fs s) : b ≠ 0xB5#8 → Interleaved fs s → Interleaved fs (b :: s)
  | frame (f fs s) : Interleaved fs s → Interleaved (f :: fs) (f ++ s)

end Verif.Ubx.Spec
