import Verif.Spec.UbxSbp
/-! What the frames of a u-blox stream mean to the assembly of ephemerides (C56). -/
namespace Verif.Ubx.Spec
open Verif.Ubx

variable {E : Type}

/-- the ephemeris (and SBAS) messages among those sent -/
def ephsOf : List (Out E) → List E
  | [] => []
  | .eph e :: os => e :: ephsOf os
  | _ :: os => ephsOf os

/-- a time offset message was sent -/
def OffsetSent (outs : List (Out E)) : Prop := ∃ o ∈ outs, ∃ w ms us fl, o = .timeOffset w ms us fl

/-- The events of a frame, given the messages sent for it: an RXM-SFRBX frame carries a subframe, word, page or string of a satellite, an
RXM-RAWX frame tells whether the leap second is known, and the time of week is that of the last NAV-PVT, HNR-PVT, or NAV-STATUS for which a time
offset was sent. -/
inductive Means (f : List (BitVec 8)) (outs : List (Out E)) : List EphIn → Prop
  | sfrbx (m : RxmSfrbx) : Holds decRxmSfrbx f m →
      Means f outs [.sfrbx m.gnss_id.toNat m.sat_id.toNat m.freq_id.toNat m.data_words]
  | rawx (m : RxmRawx) : Holds decRxmRawx f m → Means f outs [.rawx m.rec_status.toNat m.leap_second.toNat m.rcv_wn.toNat]
  | pvt (m : NavPvt) : Holds decNavPvt f m → Means f outs [.navTow m.i_tow.toNat]
  | hnr (m : HnrPvt) : Holds decHnrPvt f m → Means f outs [.navTow m.i_tow.toNat]
  | status (m : NavStatus) : Holds decNavStatus f m → OffsetSent outs → Means f outs [.navTow m.i_tow.toNat]
  | other : (∀ m, ¬ Holds decRxmSfrbx f m) → (∀ m, ¬ Holds decRxmRawx f m) → (∀ m, ¬ Holds decNavPvt f m) →
      (∀ m, ¬ Holds decHnrPvt f m) → ¬ OffsetSent outs →
      Means f outs []

end Verif.Ubx.Spec
