import Verif.Model.Num
import Verif.Model.Float
/-
Printing of NMEA sentences: the C `printf` conversions used by nmea.c and the sentence buffer with its checksum.
A C `char` is a Lean `Char` of code below 256; a string in memory ends at the first NUL.
-/
namespace Verif.Nmea

abbrev Str := List Char

/-- A C `double` as received from the wire.  Finite values are exact rationals (signed zeros are identified). -/
inductive Dbl where
  | fin (q : ℚ)
  | inf (neg : Bool)
  | nan
deriving DecidableEq

/-- zero padding of `printf` to a minimal width -/
def pad (w : Nat) (s : Str) : Str := List.replicate (w - s.length) '0' ++ s

/-- `%0{w}u` (also `%{w}u` for w ≤ 1) -/
def fmtU (w n : Nat) : Str := pad w (Nat.toDigits 10 n)

/-- `%0{w}d` -/
def fmtD (w : Nat) (n : Int) : Str := if n < 0 then '-' :: pad (w - 1) (Nat.toDigits 10 n.natAbs) else pad w (Nat.toDigits 10 n.natAbs)

/-- the digits of the non-negative number `k / 10^p` with `p ≥ 1` decimals -/
def fixedDigits (p k : Nat) : Str := Nat.toDigits 10 (k / 10 ^ p) ++ '.' :: pad p (Nat.toDigits 10 (k % 10 ^ p))

/-- `%0{w}.{p}f` for p ≥ 1: the exact value of the argument rounded to p decimals, halfway cases to even (C standard
7.21.6.1 with IEEE rounding, as glibc does); infinities and NaN are printed as words. -/
def fmtF (w p : Nat) : Dbl → Str
  | .fin q =>
    if q < 0 then '-' :: pad (w - 1) (fixedDigits p (Fp.rne (-q * 10 ^ p)).natAbs)
    else pad w (fixedDigits p (Fp.rne (q * 10 ^ p)).natAbs)
  | .inf neg => if neg then "-inf".toList else "inf".toList
  | .nan => "nan".toList

/-- `%02X` of a byte -/
def hexDigit (n : Nat) : Char := if n < 10 then Char.ofNat (48 + n) else Char.ofNat (55 + n)
def fmtX2 (n : Nat) : Str := [hexDigit (n / 16), hexDigit (n % 16)]

/-- gnss_converters/src/nmea.c:76-79 NMEA_SUFFIX_LEN -/
abbrev suffixLen : Nat := 6

/-- memory after storing `s` at offset `i`; `none` if the store leaves the object -/
def poke (m : Str) (i : Nat) (s : Str) : Option Str :=
  if i + s.length ≤ m.length then some (m.take i ++ s ++ m.drop (i + s.length)) else none

/-- C `snprintf(p, size, …)` whose formatted text is `text`: stores at most `size - 1` characters and a NUL -/
def snprintf (m : Str) (i size : Nat) (text : Str) : Option Str :=
  if size = 0 then some m else poke m i (text.take (size - 1) ++ ['\x00'])

/-- nmea.c:94-99 NMEA_SENTENCE_PRINTF (and vsnprintf_wrap 169-190): print at the write position and advance it, but not
beyond the end of the body. -/
def sentencePrintf (maxLen : Nat) (st : Str × Nat) (text : Str) : Option (Str × Nat) :=
  (snprintf st.1 st.2 (maxLen - st.2) text).map fun m => (m, min (st.2 + text.length) maxLen)

/-- nmea.c:152-155 the scan of nmea_append_checksum from offset `i`: `fuel` bounds the loop by the buffer size.  Returns
the XOR of the characters passed and the offset of the stop. -/
def checksumScan (m : Str) (size : Nat) : Nat → Nat → Nat → Nat × Nat
  | 0, i, sum => (sum, i)
  | fuel + 1, i, sum =>
    match m[i]? with
    | some c => if c ≠ '*' ∧ c ≠ '\x00' ∧ i + suffixLen < size then checksumScan m size fuel (i + 1) (sum ^^^ c.toNat) else (sum, i)
    | none => (sum, i)

/-- nmea.c:142-162 nmea_append_checksum -/
def appendChecksum (m : Str) (size : Nat) : Option Str :=
  let start := if m[0]? = some '$' then 1 else 0
  let r := checksumScan m size size start 0
  if size - r.2 > 0 then snprintf m r.2 (size - r.2) ('*' :: fmtX2 r.1 ++ ['\x0d', '\x0a']) else some m

/-- a sentence under construction: the size of its body buffer and the texts printed into it, in order -/
structure Sentence where
  maxLen : Nat
  texts : List Str
deriving DecidableEq

/-- the C string starting at offset 0 -/
def cstring (m : Str) : Str := m.takeWhile (· ≠ '\x00')

/-- nmea.c:88-111 NMEA_SENTENCE_START / PRINTF* / DONE: `mem` is the uninitialised `char sentence_buf[max_len + 6]`; the
result is the string handed to the output callback, `none` if any store left the buffer. -/
def printSentence (mem : Str) (s : Sentence) : Option Str := do
  let r ← s.texts.foldlM (sentencePrintf s.maxLen) (mem, 0)
  let m ← appendChecksum r.1 (s.maxLen + suffixLen)
  pure (cstring m)

end Verif.Nmea
