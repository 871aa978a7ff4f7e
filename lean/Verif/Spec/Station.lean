import Verif.Model.Station
import Verif.Spec.Num
namespace Verif.Spec

/-- Fields within the RTCM field widths (DF003, DF021-DF024, DF141, DF142, DF364: unsigned of 12, 6, 1, 1, 1, 1, 1, 2
bits; DF025-DF027: signed 38-bit multiples of 0.1 mm, i.e. ±13 743.9 km). -/
structure WF1005 (m : Msg1005) : Prop where
  stnId : m.stnId < 4096
  itrf : m.itrf < 64
  gpsInd : m.gpsInd < 2
  gloInd : m.gloInd < 2
  galInd : m.galInd < 2
  refStnInd : m.refStnInd < 2
  oscInd : m.oscInd < 2
  quart : m.quartCycleInd < 4
  x : |m.arpX| ≤ (2 ^ 37 - 1) / 10000
  y : |m.arpY| ≤ (2 ^ 37 - 1) / 10000
  z : |m.arpZ| ≤ (2 ^ 37 - 1) / 10000

/-- Same message up to the 0.1 mm resolution of the coordinates. -/
structure Same1005 (m m' : Msg1005) : Prop where
  stnId : m'.stnId = m.stnId
  itrf : m'.itrf = m.itrf
  gpsInd : m'.gpsInd = m.gpsInd
  gloInd : m'.gloInd = m.gloInd
  galInd : m'.galInd = m.galInd
  refStnInd : m'.refStnInd = m.refStnInd
  oscInd : m'.oscInd = m.oscInd
  quart : m'.quartCycleInd = m.quartCycleInd
  x : Quant (1 / 10000) m.arpX m'.arpX
  y : Quant (1 / 10000) m.arpY m'.arpY
  z : Quant (1 / 10000) m.arpZ m'.arpZ

/-- 1230 fields in range: biases that round into the signed 16-bit range of 2 cm units. -/
structure WF1230 (m : Msg1230) : Prop where
  stnId : m.stnId < 4096
  ind : m.biasIndicator < 2
  mask : m.mask < 16
  l1ca : -32768 / 50 - 1 / 1000 ≤ m.l1ca ∧ m.l1ca ≤ 32767 / 50 + 1 / 1000
  l1p : -32768 / 50 - 1 / 1000 ≤ m.l1p ∧ m.l1p ≤ 32767 / 50 + 1 / 1000
  l2ca : -32768 / 50 - 1 / 1000 ≤ m.l2ca ∧ m.l2ca ≤ 32767 / 50 + 1 / 1000
  l2p : -32768 / 50 - 1 / 1000 ≤ m.l2p ∧ m.l2p ≤ 32767 / 50 + 1 / 1000

/-- A bias announced by its mask bit is the input rounded to 2 cm, otherwise it is reported as zero. -/
def BiasOk (present : Bool) (x y : ℚ) : Prop := if present then Quant (1 / 50) x y else y = 0

end Verif.Spec
