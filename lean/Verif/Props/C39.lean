import Verif.Lemmas.UbxCodecRep
/-! C39: the UBX messages survive encoding and decoding, follow the u-blox payload layouts, and nothing else is accepted. -/
namespace Verif.Ubx
open Verif.Ubx.Spec

/-- Every message of every supported type with all field values, every number of repeated blocks and every following bytes is decoded
from its encoding unchanged. -/
theorem C39_roundtrip :
    RoundTrip decHnrPvt encHnrPvt wfHnrPvt ∧
    RoundTrip decNavAtt encNavAtt wfNavAtt ∧
    RoundTrip decNavClock encNavClock wfNavClock ∧
    RoundTrip decNavPvt encNavPvt wfNavPvt ∧
    RoundTrip decNavVelecef encNavVelecef wfNavVelecef ∧
    RoundTrip decNavStatus encNavStatus wfNavStatus ∧
    RoundTrip decMgaGpsEph encMgaGpsEph wfMgaGpsEph ∧
    RoundTrip decEsfIns encEsfIns wfEsfIns ∧
    RoundTrip decRxmRawx encRxmRawx wfRxmRawx ∧
    RoundTrip decNavSat encNavSat wfNavSat ∧
    RoundTrip decRxmSfrbx (fun m => (encRxmSfrbx m).getD []) wfRxmSfrbx ∧
    RoundTrip decEsfMeas encEsfMeas wfEsfMeas ∧
    RoundTrip decEsfRaw (fun m => (encEsfRaw m).getD []) wfEsfRaw :=
  ⟨rtHnrPvt, rtNavAtt, rtNavClock, rtNavPvt, rtNavVelecef, rtNavStatus, rtMgaGpsEph, rtEsfIns, rtRxmRawx, rtNavSat, rtRxmSfrbx, rtEsfMeas, rtEsfRaw⟩

/-- Whatever bytes a decoder accepts, the message it returns is the one those bytes mean according to the u-blox layout, and it has
consumed exactly header and payload. -/
theorem C39_layout :
    Follows decHnrPvt 0x28 0x00 (·.length) wfHnrPvt hnrPvt (fun _ => 72) ∧
    Follows decNavAtt 0x01 0x05 (·.length) wfNavAtt navAtt (fun _ => 32) ∧
    Follows decNavClock 0x01 0x22 (·.length) wfNavClock navClock (fun _ => 20) ∧
    Follows decNavPvt 0x01 0x07 (·.length) wfNavPvt navPvt (fun _ => 92) ∧
    Follows decNavVelecef 0x01 0x11 (·.length) wfNavVelecef navVelecef (fun _ => 20) ∧
    Follows decNavStatus 0x01 0x03 (·.length) wfNavStatus navStatus (fun _ => 16) ∧
    Follows decMgaGpsEph 0x13 0x00 (·.length) wfMgaGpsEph mgaGpsEph (fun _ => 68) ∧
    Follows decEsfIns 0x10 0x15 (·.length) wfEsfIns esfIns (fun _ => 36) ∧
    Follows decRxmRawx 0x02 0x15 (·.length) wfRxmRawx (fun m => rxmRawx m ++ blocks 16 32 rxmRawxBlock m.meas) (fun m => 16 + 32 * m.num_meas.toNat) ∧
    Follows decNavSat 0x01 0x35 (·.length) wfNavSat (fun m => navSat m ++ blocks 8 12 navSatBlock m.data) (fun m => 8 + 12 * min m.num_svs.toNat 100) ∧
    Follows decRxmSfrbx 0x02 0x13 (·.length) wfRxmSfrbx (fun m => rxmSfrbx m ++ blocks 8 4 rxmSfrbxBlock m.data_words) (fun m => 8 + 4 * m.num_words.toNat) ∧
    Follows decEsfMeas 0x10 0x02 (·.length) wfEsfMeas (fun m => esfMeas m ++ blocks 8 4 esfMeasBlock m.data) (fun m => 8 + 4 * m.data.length + if m.calib_tag.isSome then 4 else 0) ∧
    Follows decEsfRaw 0x10 0x03 (·.length) wfEsfRaw (fun m => esfRaw m ++ blocks 4 8 esfRawBlock m.data) (fun m => 4 + 8 * m.data.length) :=
  ⟨flHnrPvt, flNavAtt, flNavClock, flNavPvt, flNavVelecef, flNavStatus, flMgaGpsEph, flEsfIns, flRxmRawx, flNavSat, flRxmSfrbx, flEsfMeas, flEsfRaw⟩

/-- Encoding what was decoded gives back the consumed bytes: no byte is ignored, so the encoders follow the layouts as well. -/
theorem C39_reencode :
    (∀ b m rest, decHnrPvt b = .ok (m, rest) → b = encHnrPvt m ++ rest) ∧
    (∀ b m rest, decNavAtt b = .ok (m, rest) → b = encNavAtt m ++ rest) ∧
    (∀ b m rest, decNavClock b = .ok (m, rest) → b = encNavClock m ++ rest) ∧
    (∀ b m rest, decNavPvt b = .ok (m, rest) → b = encNavPvt m ++ rest) ∧
    (∀ b m rest, decNavVelecef b = .ok (m, rest) → b = encNavVelecef m ++ rest) ∧
    (∀ b m rest, decNavStatus b = .ok (m, rest) → b = encNavStatus m ++ rest) ∧
    (∀ b m rest, decMgaGpsEph b = .ok (m, rest) → b = encMgaGpsEph m ++ rest) ∧
    (∀ b m rest, decEsfIns b = .ok (m, rest) → b = encEsfIns m ++ rest) ∧
    (∀ b m rest, decRxmRawx b = .ok (m, rest) → b = encRxmRawx m ++ rest) ∧
    (∀ b m rest, decNavSat b = .ok (m, rest) → b = encNavSat m ++ rest) ∧
    (∀ b m rest, decRxmSfrbx b = .ok (m, rest) → b = (encRxmSfrbx m).getD [] ++ rest) ∧
    (∀ b m rest, decEsfMeas b = .ok (m, rest) → b = encEsfMeas m ++ rest) ∧
    (∀ b m rest, decEsfRaw b = .ok (m, rest) → b = (encEsfRaw m).getD [] ++ rest) :=
  ⟨fun b m r h => (invHnrPvt b m r h).2, fun b m r h => (invNavAtt b m r h).2, fun b m r h => (invNavClock b m r h).2, fun b m r h => (invNavPvt b m r h).2, fun b m r h => (invNavVelecef b m r h).2, fun b m r h => (invNavStatus b m r h).2, fun b m r h => (invMgaGpsEph b m r h).2, fun b m r h => (invEsfIns b m r h).2, fun b m r h => (invRxmRawx b m r h).2, fun b m r h => (invNavSat b m r h).2, fun b m r h => (invRxmSfrbx b m r h).2, fun b m r h => (invEsfMeas b m r h).2, fun b m r h => (invEsfRaw b m r h).2⟩

/-- A frame of another class or message number is rejected as such, whatever follows. -/
theorem C39_other_type :
    Rejects decHnrPvt 0x28#8 0x00#8 ∧
    Rejects decNavAtt 0x01#8 0x05#8 ∧
    Rejects decNavClock 0x01#8 0x22#8 ∧
    Rejects decNavPvt 0x01#8 0x07#8 ∧
    Rejects decNavVelecef 0x01#8 0x11#8 ∧
    Rejects decNavStatus 0x01#8 0x03#8 ∧
    Rejects decMgaGpsEph 0x13#8 0x00#8 ∧
    Rejects decEsfIns 0x10#8 0x15#8 ∧
    Rejects decRxmRawx 0x02#8 0x15#8 ∧
    Rejects decNavSat 0x01#8 0x35#8 ∧
    Rejects decRxmSfrbx 0x02#8 0x13#8 ∧
    Rejects decEsfMeas 0x10#8 0x02#8 ∧
    Rejects decEsfRaw 0x10#8 0x03#8 :=
  ⟨rejHnrPvt, rejNavAtt, rejNavClock, rejNavPvt, rejNavVelecef, rejNavStatus, rejMgaGpsEph, rejEsfIns, rejRxmRawx, rejNavSat, rejRxmSfrbx, rejEsfMeas, rejEsfRaw⟩

/-- A message cut off at any place is rejected as invalid. -/
theorem C39_cut_off :
    RejectsCut decHnrPvt encHnrPvt wfHnrPvt ∧
    RejectsCut decNavAtt encNavAtt wfNavAtt ∧
    RejectsCut decNavClock encNavClock wfNavClock ∧
    RejectsCut decNavPvt encNavPvt wfNavPvt ∧
    RejectsCut decNavVelecef encNavVelecef wfNavVelecef ∧
    RejectsCut decNavStatus encNavStatus wfNavStatus ∧
    RejectsCut decMgaGpsEph encMgaGpsEph wfMgaGpsEph ∧
    RejectsCut decEsfIns encEsfIns wfEsfIns ∧
    RejectsCut decRxmRawx encRxmRawx wfRxmRawx ∧
    RejectsCut decNavSat encNavSat wfNavSat ∧
    RejectsCut decRxmSfrbx (fun m => (encRxmSfrbx m).getD []) wfRxmSfrbx ∧
    RejectsCut decEsfMeas encEsfMeas wfEsfMeas ∧
    RejectsCut decEsfRaw (fun m => (encEsfRaw m).getD []) wfEsfRaw :=
  ⟨rejectsCut rtHnrPvt invHnrPvt rejHnrPvt errHnrPvt,
   rejectsCut rtNavAtt invNavAtt rejNavAtt errNavAtt,
   rejectsCut rtNavClock invNavClock rejNavClock errNavClock,
   rejectsCut rtNavPvt invNavPvt rejNavPvt errNavPvt,
   rejectsCut rtNavVelecef invNavVelecef rejNavVelecef errNavVelecef,
   rejectsCut rtNavStatus invNavStatus rejNavStatus errNavStatus,
   rejectsCut rtMgaGpsEph invMgaGpsEph rejMgaGpsEph errMgaGpsEph,
   rejectsCut rtEsfIns invEsfIns rejEsfIns errEsfIns,
   rejectsCut rtRxmRawx invRxmRawx rejRxmRawx errRxmRawx,
   rejectsCut rtNavSat invNavSat rejNavSat errNavSat,
   rejectsCut rtRxmSfrbx invRxmSfrbx rejRxmSfrbx errRxmSfrbx,
   rejectsCut rtEsfMeas invEsfMeas rejEsfMeas errEsfMeas,
   rejectsCut rtEsfRaw invEsfRaw rejEsfRaw errEsfRaw⟩

/-- UBX-RXM-SFRBX with more than 10 words and UBX-ESF-RAW with more than 128 measurements are rejected as invalid instead of
overrunning the arrays. -/
theorem C39_too_many (b rest : Buf) (m : RxmSfrbx) (m' : EsfRaw) :
    (decRxmSfrbx b = .ok (m, rest) → m.num_words.toNat ≤ 10) ∧ (decEsfRaw b = .ok (m', rest) → m'.data.length ≤ 128) :=
  ⟨fun h => (invRxmSfrbx b m rest h).1.2.2.2, fun h => (invEsfRaw b m' rest h).1.2.2.2⟩

def exampleSfrbx (n : BitVec 8) (words : List (BitVec 32)) : RxmSfrbx :=
  { class_id := 0x02#8, msg_id := 0x13#8, length := 48#16, gnss_id := 0#8, sat_id := 5#8, reserved1 := 0#8, freq_id := 0#8,
    num_words := n, channel := 1#8, version := 2#8, reserved2 := 0#8, data_words := words }

/-- The encoder does not check the number of words: with 11 it reads behind the array. -/
theorem C39_encode_overrun_bug : encRxmSfrbx (exampleSfrbx 11#8 (List.replicate 10 7#32)) = none := by decide

def exampleMeas : EsfMeas :=
  { class_id := 0x10#8, msg_id := 0x02#8, length := 20#16, time_tag := 77#32, flags := 0x1008#16, id := 3#16,
    data := [0x0B000001#32, 0x0500FFFF#32], calib_tag := some 9#32 }

example : wfEsfMeas exampleMeas := by unfold wfEsfMeas; decide
example : wfRxmSfrbx (exampleSfrbx 2#8 [1#32, 2#32]) := by unfold wfRxmSfrbx; decide
example : (decEsfMeas (encEsfMeas exampleMeas ++ [1#8])).toBool = true := by decide
example : decEsfMeas ((encEsfMeas exampleMeas).take 23) = .error (-2) := by rfl
example : decEsfMeas [0x10#8, 0x03#8] = .error (-1) := by rfl
example : decNavClock ([1, 0x22, 20, 0, 0x10, 0x27, 0, 0, 0xff, 0xff, 0xff, 0xff, 3, 0, 0, 0, 4, 0, 0, 0, 5, 0, 0, 0] : List (BitVec 8)) =
    .ok ({ class_id := 1#8, msg_id := 0x22#8, length := 20#16, i_tow := 10000#32, clk_bias := 0xffffffff#32, clk_drift := 3#32,
           time_acc := 4#32, freq_acc := 5#32 }, []) := by rfl

end Verif.Ubx
