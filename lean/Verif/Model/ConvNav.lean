import Verif.Model.SbpConv
import Verif.Model.Sbp2Rtcm
/-
The SBP-to-RTCM library `sbp_conv` with all its callbacks: gnss_converters_extra/src/sbp_conv.c on top of the converter of Model/Sbp2Rtcm.
Not modelled: the decoding of the SBP payloads by libsbp, a parameter here.
-/
namespace Verif.Conv
open Verif.Misc (BasePos)
open Verif.SbpRtcm (Env ObsIn)
open Verif.RtcmSbp (SbpTime)
open Verif.Pipe (SbpMsg)

/-- the decoders of libsbp: sbp_msg_obs_decode and so on; of the observation message the sender is not part of the payload -/
structure Dec where
  pos : Buf → BasePos
  obs : Nat → Buf → ObsIn
  gps : Buf → EphSbp.SbpKep
  gal : Buf → EphSbp.SbpKep
  bds : Buf → EphSbp.SbpKep
  glo : Buf → EphSbp.SbpGlo

/-- the converter: its state, `none` after a failed assertion; and the contents of the uninitialised t_b of the GLONASS ephemerides at the next,
the second next, ... call -/
abbrev NavSt := Option Pipe.St × (Nat → Nat)

/-- one callback: its messages framed and written   sbp_rtcm3.c:174-204; `m`: the message given the uninitialised memory of the call -/
def act (crc : Buf → BitVec 24) (env : Env) (K : EphStream.Lib) (m : Nat → SbpMsg) (s : NavSt) : NavSt × List Buf :=
  let rest : Nat → Nat := fun n => s.2 (n + 1)
  match s.1 with
  | none => ((none, rest), [])
  | some st =>
    match Pipe.step env K st (m (s.2 0)) with
    | none => ((none, rest), [])
    | some r => ((some r.1, rest), r.2.map fun p => (RtcmFraming.encodeFrame crc 1023 p).getD [])

/-- the callbacks of the switch   sbp_conv.c:62-126 -/
def navCbs (crc : Buf → BitVec 24) (env : Env) (K : EphStream.Lib) (ids : Ids) (d : Dec) : Cbs NavSt where
  basePosEcef := fun sender p => act crc env K fun _ => .basePos sender (d.pos p)
  obs := fun sender p => act crc env K fun _ => .obs (d.obs sender p)
  osr := fun sender p => act crc env K fun _ => .wrapped ids.osr sender p
  ssrOrbitClock := fun sender p => act crc env K fun _ => .wrapped ids.orbitClock sender p
  ssrPhaseBiases := fun sender p => act crc env K fun _ => .wrapped ids.phaseBiases sender p
  ssrCodeBiases := fun sender p => act crc env K fun _ => .wrapped ids.codeBiases sender p
  ssrGriddedA := fun sender p => act crc env K fun _ => .wrapped ids.gridded sender p
  ssrGridDefA := fun sender p => act crc env K fun _ => .wrapped ids.gridDef sender p
  ssrStecA := fun sender p => act crc env K fun _ => .wrapped ids.stec sender p
  ephGps := fun _ p => act crc env K fun j => .eph j (.gps (d.gps p))
  ephGlo := fun _ p => act crc env K fun j => .eph j (.glo (d.glo p))
  ephBds := fun _ p => act crc env K fun j => .eph j (.bds (d.bds p))
  ephGal := fun _ p => act crc env K fun j => .eph j (.gal (d.gal p))
  log := fun sender p => act crc env K fun _ => .log sender p

/-- sbp_conv_new at the system time `now`; sender, time and counter of the observation buffer are uninitialised   sbp_conv.c:37-51 -/
def newNav (utcOffset : Time.GpsTime → Int) (now : Int) (uninit : Nat × SbpTime × Nat) (junk : Nat → Nat) : NavSt :=
  (some { Pipe.start (Pipe.leapOf utcOffset now) uninit.1 uninit.2.1 uninit.2.2 with misc := newState uninit.1 }, junk)

end Verif.Conv
