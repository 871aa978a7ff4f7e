import Verif.Model.UbxEph
/-
What the navigation messages in UBX-RXM-SFRBX carry, in the terms of the interface control documents. Bits are numbered from 1,
the most significant. GPS and BeiDou words have 30 bits, in the low bits of a `u32`; Galileo and GLONASS words have 32.
-/
namespace Verif.Ubx.Spec

/-- bits `a` to `b` of a 30 bit word -/
def bits30 (w : BitVec 32) (a b : Nat) : Nat := w.toNat / 2 ^ (30 - b) % 2 ^ (b + 1 - a)
/-- bits `a` to `b` of a 32 bit word -/
def bits32 (w : BitVec 32) (a b : Nat) : Nat := w.toNat / 2 ^ (32 - b) % 2 ^ (b + 1 - a)

/-- word number `n`, from 1 -/
def word (ws : List (BitVec 32)) (n : Nat) : BitVec 32 := (ws[n - 1]?).getD 0

/-- how many parts make an ephemeris: subframes 1 to 3, word types or strings 1 to 5 -/
def partCount : Con → Nat
  | .gps | .bds => 3
  | .gal | .glo => 5

/-- the number of the part (subframe, word type, string) that the words of a message claim to be; `none` for messages that are of
another kind -/
def claimedNo : Con → List (BitVec 32) → Option Nat
  | .gps, ws => if ws.length = 10 ∧ bits30 (word ws 1) 1 8 = 0x8b then some (bits30 (word ws 2) 20 22) else none
  | .bds, ws => if ws.length = 10 then some (bits30 (word ws 1) 16 18) else none
  | .gal, ws =>
    -- even page part first, not an alert page, odd page part second
    if 9 ≤ ws.length ∧ bits32 (word ws 1) 1 1 = 0 ∧ bits32 (word ws 1) 2 2 = 0 ∧ bits32 (word ws 5) 1 1 = 1 then
      some (bits32 (word ws 1) 3 8) else none
  | .glo, ws => if ws.length = 4 ∧ bits32 (word ws 1) 1 1 = 0 then some (bits32 (word ws 1) 2 5) else none

/-- message `i` is part `k` (from 1) of the ephemeris of a satellite, with words `ws` -/
def Carries {E : Type} (L : EphLib E) (i : EphIn) (c : Con) (prn k : Nat) (ws : List (BitVec 32)) : Prop :=
  (∃ g f, i = .sfrbx g prn f ws ∧ conOf g = some c) ∧ 1 ≤ prn ∧ prn ≤ L.numSats c ∧ (c = .bds → L.geo prn = false) ∧
    claimedNo c ws = some k ∧ 1 ≤ k ∧ k ≤ partCount c

/-- second of week in a BeiDou subframe -/
def sowOf (ws : List (BitVec 32)) : Nat := bits30 (word ws 1) 19 26 * 4096 + bits30 (word ws 2) 1 12
/-- GPS time of week count of a subframe, in units of 6 s, of the start of the next subframe -/
def towCount (ws : List (BitVec 32)) : Nat := bits30 (word ws 2) 1 17
/-- eight bits of issue of data in GPS subframe `k` -/
def gpsIssue (k : Nat) (ws : List (BitVec 32)) : Nat := bits30 (word ws (if k = 1 then 8 else if k = 2 then 3 else 10)) 1 8
/-- issue of data in Galileo word types 1 to 4 -/
def iodNav (ws : List (BitVec 32)) : Nat := bits32 (word ws 1) 9 18
/-- superframe number that the receiver adds to a GLONASS string -/
def superframe (ws : List (BitVec 32)) : Nat := bits32 (word ws 4) 1 16

/-- the parts belong to one issue of data: GPS, equal issues and a possible time of week; BeiDou, sent one after the other (every
6 s); Galileo, equal IODnav (word type 5 has none); GLONASS, one superframe -/
def SameIssue (c : Con) (p : Nat → List (BitVec 32)) : Prop :=
  match c with
  | .gps => gpsIssue 1 (p 1) = gpsIssue 2 (p 2) ∧ gpsIssue 2 (p 2) = gpsIssue 3 (p 3) ∧ towCount (p 1) < 100800
  | .bds => sowOf (p 3) < 604800 ∧ sowOf (p 2) = sowOf (p 1) + 6 ∧ sowOf (p 3) = sowOf (p 2) + 6
  | .gal => iodNav (p 1) = iodNav (p 2) ∧ iodNav (p 2) = iodNav (p 3) ∧ iodNav (p 3) = iodNav (p 4)
  | .glo => ∀ k, 1 ≤ k → k ≤ 5 → superframe (p k) = superframe (p 1)

/-- bits of a word, first sent first -/
def bitsOf (w : BitVec 32) : List Bool := (List.range 32).map w.getMsbD

/-- the 128 bits of a Galileo I/NAV word: 112 bits of the even page part after its two flag bits, 16 bits of the odd one after its
two flag bits -/
def inavWord (ws : List (BitVec 32)) : List Bool :=
  (((bitsOf (word ws 1) ++ bitsOf (word ws 2) ++ bitsOf (word ws 3) ++ bitsOf (word ws 4)).drop 2).take 112) ++
    ((bitsOf (word ws 5)).drop 2).take 16

/-- the 85 bits of a GLONASS string, numbered as in the GLONASS interface document: bit 85 is sent first, bit 1 last -/
def gloBit (ws : List (BitVec 32)) (n : Nat) : Bool :=
  (bitsOf (word ws 1) ++ bitsOf (word ws 2) ++ bitsOf (word ws 3)).getD (85 - n) false

/-- bit buffer `b` holds a GLONASS string: position 0 is bit 1 -/
def IsGloString (ws : List (BitVec 32)) (b : List Bool) : Prop := b.length = 96 ∧ ∀ n, 1 ≤ n → n ≤ 85 → b[n - 1]? = some (gloBit ws n)

/-- leap second and week of the last RXM-RAWX of a history, if it marked the leap second as valid -/
def leapInfo (is : List EphIn) : Option (Nat × Nat) :=
  is.foldl (fun u i => match i with
    | .rawx status leap wn => if status % 2 = 1 then some (leap, wn) else none
    | _ => u) none

/-- the message emitted for given parts -/
def IsEphemeris {E : Type} (L : EphLib E) (utc : Option (Nat × Nat)) (c : Con) (prn freq : Nat) (p : Nat → List (BitVec 32)) (e : E) : Prop :=
  match c with
  | .gps => L.gps [(p 1).drop 2, (p 2).drop 2, (p 3).drop 2] prn ((6 * towCount (p 1) + 604800 - 6) % 604800) = some e
  | .bds => L.bds [p 1, p 2, p 3] prn = e
  | .gal => L.gal [inavWord (p 1), inavWord (p 2), inavWord (p 3), inavWord (p 4), inavWord (p 5)] = some e
  | .glo => ∃ u s1 s2 s3 s4 s5, utc = some u ∧ IsGloString (p 1) s1 ∧ IsGloString (p 2) s2 ∧ IsGloString (p 3) s3 ∧ IsGloString (p 4) s4 ∧
      IsGloString (p 5) s5 ∧ e = L.glo [s1, s2, s3, s4, s5] prn u (freq + 1)

/-- nothing was emitted for satellite `(c, prn)` at position `m` -/
def SilentAt {E : Type} (is : List EphIn) (os : List (Option E)) (c : Con) (prn m : Nat) : Prop :=
  ∀ g f ws, is[m]? = some (.sfrbx g prn f ws) → conOf g = some c → os[m]? = some none

/-- an ephemeris of satellite `(c, prn)` was emitted during a history -/
def EmittedFor {E : Type} (is : List EphIn) (os : List (Option E)) (c : Con) (prn : Nat) : Prop :=
  ∃ (n g f : Nat) (ws : List (BitVec 32)) (e : E), is[n]? = some (.sfrbx g prn f ws) ∧ conOf g = some c ∧ os[n]? = some (some e)

/-- a history contains every part of satellite `(c, prn)` -/
def AllParts {E : Type} (L : EphLib E) (is : List EphIn) (c : Con) (prn : Nat) : Prop :=
  ∀ k, 1 ≤ k → k ≤ partCount c → ∃ i, i ∈ is ∧ ∃ ws, Carries L i c prn k ws

/-- whichever parts of satellite `(c, prn)` are taken from a history, one of each number, they belong to one issue of data and
can be decoded -/
def Consistent {E : Type} (L : EphLib E) (is : List EphIn) (c : Con) (prn : Nat) : Prop :=
  ∀ w : Nat → List (BitVec 32), (∀ k, 1 ≤ k → k ≤ partCount c → ∃ i, i ∈ is ∧ Carries L i c prn k (w k)) → SameIssue c w ∧
    (c = .gps → ∀ tow, (L.gps [(w 1).drop 2, (w 2).drop 2, (w 3).drop 2] prn tow).isSome) ∧
    (c = .gal → (L.gal [inavWord (w 1), inavWord (w 2), inavWord (w 3), inavWord (w 4), inavWord (w 5)]).isSome)

end Verif.Ubx.Spec
