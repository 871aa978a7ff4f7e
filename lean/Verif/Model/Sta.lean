import Verif.Model.RtcmMisc
/-
The decoders for the proprietary messages of ST receivers (type 999)   librtcm/src/sta_decode.c, librtcm/src/decode_helpers.h:143-149.
They get a bare pointer: `mem` is the readable memory from there on, and `none` is a read or write outside, or a failed assertion.
-/
namespace Verif.Sta
open Verif.Misc (rawGet)

/-- a computation that may fail with a return code or be undefined -/
abbrev R (α : Type) := Option (Except RC α)
def R.bind {α β} (x : R α) (f : α → R β) : R β :=
  match x with
  | none => none
  | some (.error e) => some (.error e)
  | some (.ok a) => f a
/-- rtcm_getbitu -/
def rd (mem : Buf) (bit n : Nat) : R Nat := (rawGet mem bit n).map .ok
/-- `if (bit + k >= len) return RC_INVALID_MESSAGE;` then the rest -/
def need {α} (len bit k : Nat) (x : R α) : R α := if len ≤ bit + k then some (.error .invalid) else x
/-- `for (i = 0; i < k; i++) { a[i] = rtcm_getbitu(buff, bit, n); bit += n; }` -/
def rdMany (mem : Buf) (bit n : Nat) : Nat → R (List Nat)
  | 0 => some (.ok [])
  | k + 1 => (rd mem bit n).bind fun v => (rdMany mem (bit + n) n k).bind fun vs => some (.ok (v :: vs))

/-- the sections of sta_rf_status   librtcm/include/rtcm3/sta_decode.h:27-46 -/
structure Cw where
  detect : Nat
  notch : Nat
  constellation : Nat
  candidate : Nat
  power : List Nat
structure Agc where
  mask : Nat
  values : List Nat
structure Ifm where
  mask : Nat
  constellation : Nat
structure Ant where
  powerSwitch : Nat
  opMode : Nat
  rfPath : Nat
  status : Nat
structure RfStatus where
  epoch : Nat
  mask : Nat
  cw : Option Cw
  agc : Option Agc
  ifm : Option Ifm
  noise : Option (List Nat)
  ant : Option Ant

/-- the CW section: `bit` is that of the status mask   sta_decode.c:105-134 -/
def cw (mem : Buf) (len bit : Nat) : R (Option Cw × Nat) :=
  need len (bit + 8) 4 <| (rd mem (bit + 8) 4).bind fun detect =>
  need len (bit + 12) 8 <| (rd mem (bit + 12) 8).bind fun notch =>
  need len (bit + 20) 32 <| (rd mem (bit + 20) 32).bind fun constellation =>
  need len (bit + 52) 8 <| (rd mem (bit + 52) 8).bind fun candidate =>
  need len (bit + 60) 256 <| (rdMany mem (bit + 60) 32 8).bind fun power =>
  some (.ok (some ⟨detect, notch, constellation, candidate, power⟩, bit + 316))
/-- sta_decode.c:135-152 -/
def agc (mem : Buf) (len bit : Nat) : R (Option Agc × Nat) :=
  need len bit 4 <| (rd mem bit 4).bind fun mask =>
  need len (bit + 4) 0 <| need len (bit + 12) 48 <| (rdMany mem (bit + 12) 12 4).bind fun values =>
  some (.ok (some ⟨mask, values⟩, bit + 60))
/-- sta_decode.c:153-164 -/
def ifm (mem : Buf) (len bit : Nat) : R (Option Ifm × Nat) :=
  need len bit 6 <| (rd mem bit 6).bind fun mask =>
  need len (bit + 6) 32 <| (rd mem (bit + 6) 32).bind fun constellation =>
  some (.ok (some ⟨mask, constellation⟩, bit + 38))
/-- sta_decode.c:165-173 -/
def noise (mem : Buf) (len bit : Nat) : R (Option (List Nat) × Nat) :=
  need len bit 192 <| (rdMany mem bit 32 6).bind fun values => some (.ok (some values, bit + 192))
/-- sta_decode.c:174-186 -/
def ant (mem : Buf) (len bit : Nat) : R (Option Ant × Nat) :=
  need len bit 8 <| (rd mem bit 1).bind fun p => (rd mem (bit + 1) 1).bind fun o => (rd mem (bit + 2) 3).bind fun r =>
  (rd mem (bit + 5) 3).bind fun s => some (.ok (some ⟨p, o, r, s⟩, bit + 8))

/-- a section that is there when its bit is set in the status mask -/
def opt {α} (mask i : Nat) (f : Nat → R (Option α × Nat)) (bit : Nat) : R (Option α × Nat) :=
  if mask.testBit i then f bit else some (.ok (none, bit))

/-- sta_decode_rfstatus   sta_decode.c:80-191: `len` is compared with numbers of bits; the position is not moved behind the status mask
unless the CW section follows; `bit` (at most 670) does not overflow its 16 bits -/
def rfStatus (mem : Buf) (len : Nat) : R RfStatus :=
  (rd mem 0 12).bind fun num =>
  need len 12 8 <| (rd mem 12 8).bind fun sub =>
  if ¬ (num = 999 ∧ sub = 24) then none else
  need len 20 30 <| (rd mem 20 30).bind fun epoch =>
  need len 50 8 <| (rd mem 50 8).bind fun mask =>
  (opt mask 0 (cw mem len) 50).bind fun (c, b1) =>
  (opt mask 1 (agc mem len) b1).bind fun (a, b2) =>
  (opt mask 2 (ifm mem len) b2).bind fun (i, b3) =>
  (opt mask 3 (noise mem len) b3).bind fun (n, b4) =>
  (opt mask 4 (ant mem len) b4).bind fun (t, b5) =>
  if b5 ≠ len then some (.error .invalid) else some (.ok ⟨epoch, mask, c, a, i, n, t⟩)

/-- writing one byte of the caller's array; `none` outside -/
def put (out : Buf) (i : Nat) (v : BitVec 8) : Option Buf := if i < out.length then some (out.set i v) else none

/-- the GET_STR loop   decode_helpers.h:143-149 -/
def getStr (mem : Buf) (bit i : Nat) : Nat → Buf → Option Buf
  | 0, out => some out
  | k + 1, out => do
    let v ← rawGet mem bit 8
    let out ← put out i (BitVec.ofNat 8 v)
    getStr mem (bit + 8) (i + 1) k out

/-- sta_decode_fwver   sta_decode.c:55-78, on the caller's array `out` of `len` bytes (`len` is a uint8_t) -/
def fwver (mem out : Buf) : Option Buf := do
  let num ← rawGet mem 0 12
  let sub ← rawGet mem 12 8
  if ¬ (num = 999 ∧ sub = 25) then none
  else
    let n ← rawGet mem 20 8
    let n := if n > out.length then out.length else n
    let out ← getStr mem 28 0 n out
    put out n 0

/-- the inner loop over the characters of a group, with its break   sta_decode.c:39-49 -/
def group (mem : Buf) (i j : Nat) : Nat → Buf → Option Buf
  | 0, out => some out
  | k + 1, out => do
    let v ← rawGet mem (58 + 24 + 32 * i - j * 8) 8
    let out ← put out (i * 4 + j) (BitVec.ofNat 8 v)
    if BitVec.ofNat 8 v = 0#8 then some out else group mem i (j + 1) k out

/-- sta_decode_rcc_config   sta_decode.c:23-53 -/
def rccConfig (mem out : Buf) : Option Buf := do
  let num ← rawGet mem 0 12
  let sub ← rawGet mem 12 8
  if ¬ (num = 999 ∧ sub = 2) ∨ ¬ 15 < out.length then none
  else
    let out ← group mem 0 0 4 out
    let out ← group mem 1 0 4 out
    let out ← group mem 2 0 4 out
    let out ← group mem 3 0 4 out
    put out 15 0

end Verif.Sta
