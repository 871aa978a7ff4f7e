import Verif.Model.Guard
import Verif.Spec.Rtcm3ToSbp
/-
Conditions under which no assertion fails (C75), in terms of the bytes of the payloads.
-/
namespace Verif.Guard.Spec
open Verif.RtcmSbp (Env messageType)

/-- MSM4 to MSM7 of the constellations the program converts -/
def msmTypes : List Nat := [1074, 1075, 1076, 1077, 1084, 1085, 1086, 1087, 1094, 1095, 1096, 1097, 1124, 1125, 1126, 1127]

/-- number of satellites (DF394, bits 73 to 136) and of signals (DF395, bits 137 to 168) an MSM payload announces -/
def satellites (p : Buf) : Nat := (((bitsOf p).drop 73).take 64).count true
def signals (p : Buf) : Nat := (((bitsOf p).drop 137).take 32).count true

/-- An MSM payload announces at most 32 satellites and, as the standard requires, at most 64 cells. -/
def MasksFit (p : Buf) : Prop := messageType p ∈ msmTypes → satellites p ≤ 32 ∧ satellites p * signals p ≤ 64
instance (p) : Decidable (MasksFit p) := inferInstanceAs (Decidable (_ → _))

/-- the table of libswiftnav: GLONASS satellites are numbered within 1 to 28, the size of the channel table -/
def GloTable (env : Env) : Prop := env.prn.first .glo + env.prn.num .glo ≤ 29

end Verif.Guard.Spec
