import Verif.Model.RtcmMisc
/-
The SBP-to-RTCM converter as a library: gnss_converters_extra/src/sbp_conv.c.
The message numbers of libsbp are replaced by names; the FIFO of libswiftnav (fifo_byte.h, not in the repository) is a queue that takes as
many bytes as have room and drops the rest.  The wall clock read by sbp_conv_new only sets the leap second, which the callbacks modelled
here do not use.
-/
namespace Verif.Conv
open Verif.Misc
open Verif.RtcmFraming (encodeFrame)

/-- the message types with a case in the switch; `other` is any other type (among them SBP_MSG_GLO_BIASES)   sbp_conv.c:63-126 -/
inductive Ty
  | basePosEcef | obs | osr | ssrOrbitClock | ssrPhaseBiases | ssrCodeBiases | ssrGriddedA | ssrGridDefA | ssrStecA
  | ephGps | ephGlo | ephBds | ephGal | log | other (n : Nat)
deriving DecidableEq

/-- the callbacks of sbp_rtcm3.c: sender, payload and state to state and frames written -/
abbrev Cb (S : Type) := Nat → Buf → S → S × List Buf
structure Cbs (S : Type) where
  basePosEcef : Cb S
  obs : Cb S
  osr : Cb S
  ssrOrbitClock : Cb S
  ssrPhaseBiases : Cb S
  ssrCodeBiases : Cb S
  ssrGriddedA : Cb S
  ssrGridDefA : Cb S
  ssrStecA : Cb S
  ephGps : Cb S
  ephGlo : Cb S
  ephBds : Cb S
  ephGal : Cb S
  log : Cb S

variable {S : Type}

/-- the switch of sbp_conv   sbp_conv.c:62-127 -/
def dispatch (c : Cbs S) : Ty → Option (Cb S)
  | .basePosEcef => some c.basePosEcef
  | .obs => some c.obs
  | .osr => some c.osr
  | .ssrOrbitClock => some c.ssrOrbitClock
  | .ssrPhaseBiases => some c.ssrPhaseBiases
  | .ssrCodeBiases => some c.ssrCodeBiases
  | .ssrGriddedA => some c.ssrGriddedA
  | .ssrGridDefA => some c.ssrGridDefA
  | .ssrStecA => some c.ssrStecA
  | .ephGps => some c.ephGps
  | .ephGlo => some c.ephGlo
  | .ephBds => some c.ephBds
  | .ephGal => some c.ephGal
  | .log => some c.log
  | .other _ => none

/-- the arguments of one call: `rbuf` with `rlen` = its length, room for `wlen` bytes -/
structure Call where
  ty : Ty
  sender : Nat
  rbuf : Buf
  wlen : Nat

/-- size of the FIFO buffer   sbp_conv.c:28 -/
abbrev capacity : Nat := 2048

/-- sbp_conv_cb: fifo_write   sbp_conv.c:31-35 -/
def fifoWrite (fifo frame : Buf) : Buf := fifo ++ frame.take (capacity - fifo.length)

/-- sbp_conv   sbp_conv.c:55-130; the length is passed on as `(u8)rlen` -/
def conv (c : Cbs S) (s : S × Buf) (x : Call) : (S × Buf) × Buf :=
  let r := match dispatch c x.ty with
    | some cb => cb x.sender (x.rbuf.take (x.rbuf.length % 256)) s.1
    | none => (s.1, [])
  let fifo := r.2.foldl fifoWrite s.2
  ((r.1, fifo.drop x.wlen), fifo.take x.wlen)

/-- a history of calls: final state and FIFO, and what each call returned -/
def run (c : Cbs S) : S × Buf → List Call → (S × Buf) × List Buf
  | s, [] => (s, [])
  | s, x :: xs =>
    let r := conv c s x
    let q := run c r.1 xs
    (q.1, r.2 :: q.2)

/-- the part of the state modelled in Model/RtcmMisc after sbp_conv_new   sbp_conv.c:37-51, descriptors 46-47 -/
def newState (a : Nat) : OutSt := (outStep (.init a) (.descriptors (asc "NULL                ") (asc "SWFT"))).1

/-- the frames written by a call of Model/RtcmMisc (`encodeFrame` fails for no frame: C64_carried) -/
def framesOf (crc : Buf → BitVec 24) (e : SbpIn) : OutSt → OutSt × List Buf := fun st =>
  ((outStep st e).1, (outStep st e).2.map fun p => (encodeFrame crc 1023 p).getD [])

/-- message types of libsbp for the wrapped messages: arbitrary distinct 16-bit numbers -/
structure Ids where
  osr : Nat
  orbitClock : Nat
  phaseBiases : Nat
  codeBiases : Nat
  gridded : Nat
  gridDef : Nat
  stec : Nat

/-- the callbacks modelled in Model/RtcmMisc; `pos` decodes the payload of a position message (libsbp), `rest` are the callbacks for
observations and ephemerides -/
def cbs (crc : Buf → BitVec 24) (ids : Ids) (pos : Buf → BasePos) (rest : Cb OutSt) : Cbs OutSt where
  basePosEcef := fun sender p => framesOf crc (.basePos sender (pos p))
  obs := rest
  osr := fun sender p => framesOf crc (.wrapped ids.osr sender p)
  ssrOrbitClock := fun sender p => framesOf crc (.wrapped ids.orbitClock sender p)
  ssrPhaseBiases := fun sender p => framesOf crc (.wrapped ids.phaseBiases sender p)
  ssrCodeBiases := fun sender p => framesOf crc (.wrapped ids.codeBiases sender p)
  ssrGriddedA := fun sender p => framesOf crc (.wrapped ids.gridded sender p)
  ssrGridDefA := fun sender p => framesOf crc (.wrapped ids.gridDef sender p)
  ssrStecA := fun sender p => framesOf crc (.wrapped ids.stec sender p)
  ephGps := rest
  ephGlo := rest
  ephBds := rest
  ephGal := rest
  log := fun sender p => framesOf crc (.log sender p)

end Verif.Conv
