import Verif.Model.ConvNav
import Verif.Spec.Sbp2Rtcm
/-
What it means that SBP messages come through `sbp_conv` and rtcm3tosbp.
-/
namespace Verif.Conv.Spec
open Verif.Conv
open Verif.Pipe (SbpMsg)
open Verif.Pipe.Spec (Item)
open Verif.SbpRtcm (Env)
open Verif.Prog (Out)

/-- the message of a call; `junk`: what is in uninitialised memory.  `none`: a type the library does not convert. -/
def message (ids : Ids) (d : Dec) (junk : Nat) (x : Call) : Option SbpMsg :=
  match x.ty with
  | .basePosEcef => some (.basePos x.sender (d.pos x.rbuf))
  | .obs => some (.obs (d.obs x.sender x.rbuf))
  | .osr => some (.wrapped ids.osr x.sender x.rbuf)
  | .ssrOrbitClock => some (.wrapped ids.orbitClock x.sender x.rbuf)
  | .ssrPhaseBiases => some (.wrapped ids.phaseBiases x.sender x.rbuf)
  | .ssrCodeBiases => some (.wrapped ids.codeBiases x.sender x.rbuf)
  | .ssrGriddedA => some (.wrapped ids.gridded x.sender x.rbuf)
  | .ssrGridDefA => some (.wrapped ids.gridDef x.sender x.rbuf)
  | .ssrStecA => some (.wrapped ids.stec x.sender x.rbuf)
  | .ephGps => some (.eph junk (.gps (d.gps x.rbuf)))
  | .ephGal => some (.eph junk (.gal (d.gal x.rbuf)))
  | .ephBds => some (.eph junk (.bds (d.bds x.rbuf)))
  | .ephGlo => some (.eph junk (.glo (d.glo x.rbuf)))
  | .log => some (.log x.sender x.rbuf)
  | .other _ => none

/-- the messages of the calls; `junk n`: uninitialised memory at the `n`th message -/
def given (ids : Ids) (d : Dec) : (Nat → Nat) → List Call → List SbpMsg
  | _, [] => []
  | junk, x :: xs =>
    match message ids d (junk 0) x with
    | some m => m :: given ids d (fun n => junk (n + 1)) xs
    | none => given ids d junk xs

variable {W E : Type}

/-- What rtcm3tosbp writes for an item: as for sbp2rtcm, but a position is followed by an estimate of the GLONASS biases of the receiver "SWFT",
which rtcm3tosbp does not know: an empty one, if the memory behind the descriptor starts with a zero byte. -/
def ItemBack (env : Env) (L : Misc.Lib W E) (mem : Nat → Buf × Buf) (leap : Int) : Item → List (Out W E) → Prop
  | .msg (.basePos sender p), out => ∃ s q b, out = [.misc s (.basePos q), .misc s (.gloBias b)] ∧ Misc.Spec.PosBack (sender, p) (s, q) ∧
      ((∀ n, (mem n).2.head? = some 0#8) → b = ⟨0, 0, 0, 0, 0⟩)
  | it, out => Pipe.Spec.ItemBack env L leap it out

end Verif.Conv.Spec
