import Verif.Model.SbpRtcm
import Verif.Model.RtcmMisc
/-
Observations over the RTCM byte stream: the frames the SBP-to-RTCM converter writes for an epoch.
gnss_converters_extra/src/sbp_rtcm3.c:88-204 (encode_rtcm3_payload, encode_rtcm3_frame), 665-826.
The receiving side is Model/RtcmSbp.
-/
namespace Verif.ObsStream
open Verif.SbpRtcm Verif.Msm
open Verif.Misc (blank)

/-- MSM cases of `encode_rtcm3_payload` (the frame buffer is zeroed before)   sbp_rtcm3.c:151-170 -/
def msmPayload (m : Msg) : Buf :=
  payloadOf (encodeMsm (if m.header.msgNum ∈ [1074, 1084, 1094, 1114, 1124] then .msm4 else .msm5) m blank)

/-- legacy cases of `encode_rtcm3_payload`   sbp_rtcm3.c:93-96,109-112 -/
def legacyPayload (m : Obs.Msg) : Buf := payloadOf (Obs.encode (if m.header.msgNum = 1004 then .m1004 else .m1012) m blank)

/-- `sbp_buffer_to_rtcm3`: the payloads of the frames sent for an epoch; `none`: a failed assertion.  A payload of length 0 gives no frame
sbp_rtcm3.c:176-185,712-719,801-826 -/
def epochPayloads (env : Env) (e : Epoch) : Option (List Buf) := do
  let leg ← if e.cfg.legacy then (bufferToLegacy e).map (·.map legacyPayload) else some []
  let msm ← if e.cfg.msm then (bufferToMsm env e).map (·.map msmPayload) else some []
  some ((leg ++ msm).filter fun p => decide (0 < p.length))

end Verif.ObsStream
