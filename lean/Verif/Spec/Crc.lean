import Mathlib.Algebra.Polynomial.Basic
import Mathlib.Data.ZMod.Basic
/-! Cyclic redundancy checks as remainders of polynomials over the field with two elements. -/
namespace Verif.Crc
open Polynomial

/-- the polynomial of a bit string, the first bit being the coefficient of the highest power -/
noncomputable def bitPoly : List Bool → (ZMod 2)[X]
  | [] => 0
  | b :: bs => (if b then X ^ bs.length else 0) + bitPoly bs

/-- the bits of a word, most or least significant first -/
def msbFirst {n : Nat} (v : BitVec n) : List Bool := (List.range n).map fun i => v.getMsbD i
def lsbFirst {n : Nat} (v : BitVec n) : List Bool := (List.range n).map fun i => v.getLsbD i

/-- the bits of bytes -/
def byteBits (b : List (BitVec 8)) : List Bool := b.flatMap msbFirst
def byteBitsLsb (b : List (BitVec 8)) : List Bool := b.flatMap lsbFirst

/-- The message followed by its check bits is a multiple of the generator; there are as many check bits as the degree of the generator, so
that the check bits are determined by the message. -/
def IsCrc (g : (ZMod 2)[X]) (message check : List Bool) : Prop := g ∣ bitPoly (message ++ check)

/-- x^16 + x^12 + x^5 + 1 (CCITT) -/
noncomputable def gen16 : (ZMod 2)[X] := X ^ 16 + X ^ 12 + X ^ 5 + 1

/-- x^32 + x^26 + x^23 + x^22 + x^16 + x^12 + x^11 + x^10 + x^8 + x^7 + x^5 + x^4 + x^2 + x + 1 (IEEE 802.3) -/
noncomputable def gen32 : (ZMod 2)[X] :=
  X ^ 32 + X ^ 26 + X ^ 23 + X ^ 22 + X ^ 16 + X ^ 12 + X ^ 11 + X ^ 10 + X ^ 8 + X ^ 7 + X ^ 5 + X ^ 4 + X ^ 2 + X + 1

end Verif.Crc
