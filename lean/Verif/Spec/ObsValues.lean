import Verif.Spec.RtcmSbp
/-
What an SBP observation must say about an RTCM observation (legacy or MSM), and the standard signal numbering.
-/
namespace Verif.RtcmSbp.Spec
open Verif.Msm Verif.Lock Verif.RtcmSbp

/-- a measurement in physical units: pseudorange (m), carrier phase (cycles), whether its half-cycle ambiguity is
resolved, Doppler (Hz), signal to noise (dB-Hz), time of continuous lock (s) -/
structure Meas where
  sat : Nat
  code : Code
  pr : ℚ
  phase : Option ℚ
  half : Bool
  dop : Option ℚ
  cnr : Option ℚ
  lock : Option ℚ

/-- an integer part and a number of 1/256 parts express `x` to the nearest 1/256, up to the rounding errors of `double` (less than 4 millionths);
0 for no value -/
def Frac (i : Int) (f : Nat) : Option ℚ → Prop
  | some x => f ≤ 255 ∧ |(i : ℚ) + f / 256 - x| ≤ 1 / 512 + 1 / 2 ^ 18
  | none => i = 0 ∧ f = 0

/-- the SBP observation says what was measured, to the resolution of its fields and the rounding errors of `double` (a micrometre) -/
structure Carries (m : Meas) (o : SbpObs) : Prop where
  sat : o.sat = m.sat
  code : o.code = m.code
  pr : |(o.P : ℚ) / 50 - m.pr| ≤ 1 / 100 + 1 / 2 ^ 20
  phase : Frac o.Li o.Lf m.phase
  dop : Frac o.Di o.Df m.dop
  cnr : match m.cnr with | some c => o.cn0 ≤ 255 ∧ |(o.cn0 : ℚ) / 4 - c| ≤ 1 / 8 | none => o.cn0 = 0
  /-- the lock time is never overstated, and is understated by less than a factor of 2 in the range of the scale -/
  lock : o.lock < 16 ∧ match m.lock with
    | some t => decodeLockTime o.lock ≤ t ∧ (32 / 1000 ≤ t → t < 524288 / 1000 → t < 2 * decodeLockTime o.lock)
    | none => o.lock = 0
  /-- the values are values of the fields: u32, s32, s16 -/
  fits : o.P < 2 ^ 32 ∧ (-2 ^ 31 ≤ o.Li ∧ o.Li < 2 ^ 31) ∧ -2 ^ 15 ≤ o.Di ∧ o.Di < 2 ^ 15
  /-- pseudorange valid, phase valid, half cycle resolved, Doppler valid; nothing else -/
  flags : ∀ b, o.flags.testBit b = match b with
    | 0 => true
    | 1 => m.phase.isSome
    | 2 => m.phase.isSome && m.half
    | 3 => m.dop.isSome
    | _ => false

/-! ### legacy messages -/

/-- satellite and signal of a legacy GPS or GLONASS observation on L1 (`f = 0`) or L2: GPS satellites are 1..32, SBAS
satellites (L1 only) 40..58 for PRN 120..138, GLONASS 1..24; the code indicator 0 is C/A or civil code, otherwise P -/
def legacySignal (glo : Bool) (sv f code : Nat) : Option (Nat × Code) :=
  if glo then (if sv ∈ List.range' 1 24 then some (sv, if f = 0 then .glo_l1of else .glo_l2of) else none)
  else if sv ∈ List.range' 1 32 then
    some (sv, match f, code with | 0, 0 => .gps_l1ca | 0, _ => .gps_l1p | _, 0 => .gps_l2cm | _, _ => .gps_l2p)
  else if sv ∈ List.range' 40 19 ∧ f = 0 then some (sv - 40 + 120, .sbas_l1ca)
  else none

/-- the measurements of a legacy message: for each satellite L1 then L2, when pseudorange and phase are valid -/
def legacyMeas (bias : Code → ℚ) (glo : Bool) (m : Obs.Msg) : List Meas :=
  m.sats.flatMap fun s => [(0, s.l1), (1, s.l2)].filterMap fun (f, d) =>
    match d.vPr && d.vCp, legacySignal glo s.svId f d.code with
    | true, some (sat, code) => some
        { sat, code, pr := d.pr + bias code, phase := some d.cp, half := true, dop := none
          cnr := if d.vCnr then some d.cnr else none, lock := if d.vLock then some d.lock else none }
    | _, _ => none

/-! ### MSM -/

/-- positions of the set bits of a mask -/
def positions (mask : List Bool) : List Nat := (List.range mask.length).filter fun i => mask.getD i false

/-- the observed cells of an MSM message in order of transmission: position in the satellite mask, position in the signal
mask, row; bit `row * number of signals + column` of the cell mask belongs to the `row`-th satellite and the `column`-th
signal -/
def observed (h : Msm.Header) : List (Nat × Nat × Nat) :=
  (positions h.satMask).zipIdx.flatMap fun (s, row) => (positions h.sigMask).zipIdx.flatMap fun (g, col) =>
    if h.cellMask.getD (row * (positions h.sigMask).length + col) false then [(s, g, row)] else []

/-- signals the converter does not deliver although they have an SBP code -/
def notDelivered : List Code :=
  [.glo_l1p, .glo_l2p, .bds3_b1ci, .bds3_b1cq, .bds3_b1cx, .bds3_b7i, .bds3_b7q, .bds3_b7x, .bds3_b3i, .bds3_b3q, .bds3_b3x]

/-- the measurements of an MSM message (ranges and phases in light-milliseconds, rates in m/s): those with a valid
pseudorange, of legal satellites and delivered signals; phase and Doppler only if the carrier frequency is known -/
def msmMeas (env : Env) (table : List Nat) (cons : Cons) (m : Msm.Msg) : List Meas :=
  if env.masked cons then [] else
  (observed m.header).zipIdx.filterMap fun ((s, g, row), k) =>
    let d := m.sig k
    let prn := env.prn.first cons + s
    let code := codeOf cons (g + 1)
    let satInfo := (m.sat row).gloFcn
    let fcn := if cons = .glo then (if satInfo ≠ 255 then satInfo else table.getD prn 0) else 255
    if s < env.prn.num cons ∧ code ≠ .invalid ∧ code ∉ notDelivered ∧ d.vPr = true then some
      { sat := prn, code, pr := d.pr * 299792.458 + env.sigBias code + (env.gloBias code fcn).1
        phase := match d.vCp, env.freq code fcn with
          | true, some f => some (d.cp * f / 1000 + (env.gloBias code fcn).2)
          | _, _ => none
        half := !d.hca
        dop := match d.vDop, env.freq code fcn with
          | true, some f => some (-(d.rate * f / 299792458))
          | _, _ => none
        cnr := if d.vCnr then some d.cnr else none
        lock := if d.vLock then some d.lock else none }
    else none

/-- Values the SBP fields can hold: pseudorange not negative and below 2^32 units of 2 cm (85899 km), signal to noise below 63.875 dB-Hz, lock
time not negative, phase within 2^31 cycles, Doppler within 32768 Hz. -/
structure InRange (m : Meas) : Prop where
  pr : 0 ≤ m.pr ∧ m.pr * 50 < 2 ^ 32 - 1
  cnr : ∀ c, m.cnr = some c → 0 ≤ c ∧ c < 511 / 8
  lock : ∀ t, m.lock = some t → 0 ≤ t
  phase : ∀ x, m.phase = some x → |x| < 2 ^ 31 - 1 / 256
  dop : ∀ x, m.dop = some x → |x| < 2 ^ 15 - 1 / 256

/-- the biases added to the measurements are below 1000 km and a million cycles -/
structure SmallBias (env : Env) : Prop where
  code : ∀ c, |env.sigBias c| ≤ 10 ^ 6
  glo : ∀ c f, |(env.gloBias c f).1| ≤ 10 ^ 6 ∧ |(env.gloBias c f).2| ≤ 10 ^ 6

/-- the measurements of a payload: those of the decoded observation message it holds, if any -/
def measured (env : Env) (table : List Nat) (payload : Buf) : List Meas :=
  let legacy (glo : Bool) (k : Obs.Kind) : List Meas := match (Obs.decode k).run payload with
    | .ok m => legacyMeas env.sigBias glo m
    | .error _ => []
  match messageType payload with
  | 1002 => legacy false .m1002
  | 1004 => legacy false .m1004
  | 1010 => legacy true .m1010
  | 1012 => legacy true .m1012
  | n => match msmSupported n with
    | some (ty, cons) => match (decodeMsm ty).run payload with
      | .ok m => msmMeas env table cons m
      | .error _ => []
    | none => []

/-! ### the standard signal numbering -/

/-- RINEX observation codes of the MSM signal ids (RTCM 10403, tables 3.5-91 .. 3.5-108) -/
def standardSignals : Cons → List (Nat × String)
  | .gps => [(2, "1C"), (3, "1P"), (4, "1W"), (8, "2C"), (9, "2P"), (10, "2W"), (15, "2S"), (16, "2L"), (17, "2X"),
      (22, "5I"), (23, "5Q"), (24, "5X"), (30, "1S"), (31, "1L"), (32, "1X")]
  | .glo => [(2, "1C"), (3, "1P"), (8, "2C"), (9, "2P")]
  | .gal => [(2, "1C"), (3, "1A"), (4, "1B"), (5, "1X"), (6, "1Z"), (8, "6C"), (9, "6A"), (10, "6B"), (11, "6X"), (12, "6Z"),
      (14, "7I"), (15, "7Q"), (16, "7X"), (18, "8I"), (19, "8Q"), (20, "8X"), (22, "5I"), (23, "5Q"), (24, "5X")]
  | .sbas => [(2, "1C"), (22, "5I"), (23, "5Q"), (24, "5X")]
  | .qzs => [(2, "1C"), (9, "6S"), (10, "6L"), (11, "6X"), (15, "2S"), (16, "2L"), (17, "2X"), (22, "5I"), (23, "5Q"),
      (24, "5X"), (30, "1S"), (31, "1L"), (32, "1X")]
  | .bds => [(2, "2I"), (3, "2Q"), (4, "2X"), (8, "6I"), (9, "6Q"), (10, "6X"), (14, "7I"), (15, "7Q"), (16, "7X"),
      (22, "5D"), (23, "5P"), (24, "5X"), (25, "7D"), (30, "1D"), (31, "1P"), (32, "1X")]

/-- the system and RINEX observation code of each SBP code; a W-tracked GPS signal is delivered as the P code -/
def rinex : Code → Option (Cons × List String)
  | .invalid => none
  | .gps_l1ca => some (.gps, ["1C"]) | .gps_l1p => some (.gps, ["1P", "1W"]) | .gps_l2p => some (.gps, ["2P", "2W"])
  | .gps_l2cm => some (.gps, ["2S"]) | .gps_l2cl => some (.gps, ["2L"]) | .gps_l2cx => some (.gps, ["2X"])
  | .gps_l5i => some (.gps, ["5I"]) | .gps_l5q => some (.gps, ["5Q"]) | .gps_l5x => some (.gps, ["5X"])
  | .gps_l1ci => some (.gps, ["1S"]) | .gps_l1cq => some (.gps, ["1L"]) | .gps_l1cx => some (.gps, ["1X"])
  | .glo_l1p => some (.glo, ["1P"]) | .glo_l1of => some (.glo, ["1C"]) | .glo_l2p => some (.glo, ["2P"])
  | .glo_l2of => some (.glo, ["2C"])
  | .gal_e1c => some (.gal, ["1C"]) | .gal_e1b => some (.gal, ["1B"]) | .gal_e1x => some (.gal, ["1X"])
  | .gal_e6c => some (.gal, ["6C"]) | .gal_e6b => some (.gal, ["6B"]) | .gal_e6x => some (.gal, ["6X"])
  | .gal_e7i => some (.gal, ["7I"]) | .gal_e7q => some (.gal, ["7Q"]) | .gal_e7x => some (.gal, ["7X"])
  | .gal_e8i => some (.gal, ["8I"]) | .gal_e8q => some (.gal, ["8Q"]) | .gal_e8x => some (.gal, ["8X"])
  | .gal_e5i => some (.gal, ["5I"]) | .gal_e5q => some (.gal, ["5Q"]) | .gal_e5x => some (.gal, ["5X"])
  | .sbas_l1ca => some (.sbas, ["1C"]) | .sbas_l5i => some (.sbas, ["5I"]) | .sbas_l5q => some (.sbas, ["5Q"])
  | .sbas_l5x => some (.sbas, ["5X"])
  | .qzs_l1ca => some (.qzs, ["1C"]) | .qzs_l2cm => some (.qzs, ["2S"]) | .qzs_l2cl => some (.qzs, ["2L"])
  | .qzs_l2cx => some (.qzs, ["2X"]) | .qzs_l5i => some (.qzs, ["5I"]) | .qzs_l5q => some (.qzs, ["5Q"])
  | .qzs_l5x => some (.qzs, ["5X"]) | .qzs_l1ci => some (.qzs, ["1S"]) | .qzs_l1cq => some (.qzs, ["1L"])
  | .qzs_l1cx => some (.qzs, ["1X"])
  | .bds2_b1 => some (.bds, ["2I"]) | .bds3_b3i => some (.bds, ["6I"]) | .bds3_b3q => some (.bds, ["6Q"])
  | .bds3_b3x => some (.bds, ["6X"]) | .bds2_b2 => some (.bds, ["7I"]) | .bds3_b5i => some (.bds, ["5D"])
  | .bds3_b5q => some (.bds, ["5P"]) | .bds3_b5x => some (.bds, ["5X"]) | .bds3_b7i => some (.bds, ["7D"])
  | .bds3_b1ci => some (.bds, ["1D"]) | .bds3_b1cq => some (.bds, ["1P"]) | .bds3_b1cx => some (.bds, ["1X"])
  | .bds3_b7q => some (.bds, ["7P"]) | .bds3_b7x => some (.bds, ["7Z"])

end Verif.RtcmSbp.Spec
