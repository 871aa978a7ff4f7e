import Verif.Model.UbxSbp
/-! A small concrete library and concrete messages, for the witnesses beside the UBX to SBP theorems. -/
namespace Verif.Ubx
open Verif.Time

/-- normalization to weeks of 604800 s, the nearest week on matching -/
def exLib : SbpLib Unit where
  numSats := fun _ => 32
  geo := fun _ => false
  gps := fun _ _ _ => none
  gal := fun _ => none
  glo := fun _ _ _ _ => ()
  bds := fun _ _ => ()
  sbasFirst := 120
  sbasCount := 39
  crcBits := fun _ => 0
  sbas := fun _ _ _ _ => ()
  normalize := fun t => some ⟨⌊t / 604800⌋, t - 604800 * ⌊t / 604800⌋⟩
  matchWeeks := fun t r => some { t with wn := r.wn + (if t.tow - r.tow < -302400 then 1 else if 302400 < t.tow - r.tow then -1 else 0) }
  encodeLock := fun _ => 3
  maxAz := 3
  maxStates := 3
  maxFwd := 10

/-- a RAWX frame of week 2000 with the given time of week (a double) and measurements -/
def exRawx (tow : BitVec 64) (meas : List RawxMeas) : Buf :=
  encRxmRawx {
    class_id := 0x02, msg_id := 0x15, length := BitVec.ofNat 16 (16 + 32 * meas.length), rcv_tow := tow, rcv_wn := 2000
    leap_second := 18, num_meas := BitVec.ofNat 8 meas.length, rec_status := 1, version := 1, reserved1 := [0, 0], meas }

/-- GPS L1 C/A of satellite 7; pseudorange and phase are doubles, the Doppler a float -/
def exMeas (pr phase : BitVec 64) (doppler : BitVec 32) : RawxMeas :=
  { (default : RawxMeas) with pseudorange_m := pr, carrier_phase_cycles := phase, doppler_hz := doppler, sat_id := 7
                              lock_time := 64500, cno_dbhz := 42, track_state := 0xF7 }

/-- an ESF-RAW message: data (type, value) with their time tags -/
def exRaw (msss : BitVec 32) (l : List EsfRawData) : EsfRaw :=
  { class_id := 0x10, msg_id := 0x03, length := BitVec.ofNat 16 (4 + 8 * l.length), msss, data := l }

def exDatum (type : Nat) (v : Int) (tag : BitVec 32) : EsfRawData :=
  ⟨BitVec.ofNat 32 (type * 2 ^ 24 + (v % 2 ^ 24).toNat), tag⟩

/-- one group of the six axes and a temperature of 25 degrees -/
def exGroup (tag : BitVec 32) (v : Int) : List EsfRawData :=
  [exDatum 14 v tag, exDatum 13 (v + 1) tag, exDatum 5 (v + 2) tag, exDatum 12 2500 tag, exDatum 16 (v + 3) tag, exDatum 17 (v + 4) tag,
   exDatum 18 (v + 5) tag]

end Verif.Ubx
