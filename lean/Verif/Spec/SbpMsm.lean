import Verif.Spec.SbpRtcm
import Verif.Spec.MsmUtils
import Verif.Spec.Num
import Mathlib.Data.List.Dedup
/-
What the MSM messages of an epoch should contain.
-/
namespace Verif.SbpRtcm.Spec
open Verif.Time Verif.Msm Verif.SbpRtcm Verif.Msm.Spec
open Verif.Spec (Rounded)
open Verif.RtcmSbp (SbpTime SbpObs)

/-- the observations of one constellation -/
def obsFor (env : Env) (c : Cons) (l : List SbpObs) : List SbpObs := l.filter fun o => env.consOf o.code = some c

/-- An epoch that MSM can carry: every signal belongs to a constellation other than SBAS and has an MSM slot, every
satellite number is legal, no signal of a satellite occurs twice, and in each constellation there are at most 32 satellites
and satellites x signals is at most 64. -/
structure Clean (env : Env) (l : List SbpObs) : Prop where
  known : ∀ o ∈ l, ∃ c, env.consOf o.code = some c ∧ c ≠ .sbas ∧ Supported c o.code ∧ prnValid env.prn c o.sat
  distinct : (l.map fun o => (o.code, o.sat)).Nodup
  sats : ∀ c, ((obsFor env c l).map (·.sat)).dedup.length ≤ 32
  cells : ∀ c, ((obsFor env c l).map (·.sat)).dedup.length * ((obsFor env c l).map (·.code)).dedup.length ≤ 64

/-- the constellations an epoch can be sent for, in the order of transmission -/
def consOrder : List Cons := [.gps, .glo, .bds, .qzs, .gal]

/-- signal data `s` states, up to rounding errors of `double`, what the SBP observation `o` says; `f`: carrier frequency, if known -/
structure SigOf (f : Option ℚ) (o : SbpObs) (s : Sig) : Prop where
  prValid : s.vPr = o.flags.testBit 0
  /-- milliseconds of light travel -/
  pr : s.vPr = true → Rounded s.pr ((o.P : ℚ) / 50 / 299792458 * 1000)
  cpValid : s.vCp = true ↔ f ≠ none ∧ o.flags.testBit 1 = true
  cp : ∀ hz, f = some hz → 1 ≤ hz → s.vCp = true → Rounded s.cp (((o.Li : ℚ) + o.Lf / 256) / hz * 1000)
  hca : s.vCp = true → s.hca = !o.flags.testBit 2
  dopValid : s.vDop = true ↔ f ≠ none ∧ o.flags.testBit 3 = true
  dop : ∀ hz, f = some hz → 1 ≤ hz → s.vDop = true → Rounded s.rate (-(((o.Di : ℚ) + o.Df / 256) / hz * 299792458))
  lockValid : s.vLock = true
  lock : s.lock = Lock.decodeLockTime o.lock
  cnrValid : s.vCnr = true
  cnr : s.cnr = (o.cn0 : ℚ) / 4

/-- the masks of a message -/
def masks (c : Cons) (m : Msg) : Hdr := ⟨c, m.header.satMask, m.header.sigMask, m.header.cellMask⟩

/-- the channel number used for a satellite -/
def channel (cfg : Config) (c : Cons) (sat : Nat) : Nat := if c = .glo then cfg.fcn.getD sat 255 else 255

/-- message `m` of constellation `c` carries observation `o`: a set cell `k` names its satellite and signal, and the signal
data stored for this cell (at the number of set cells before it) and the satellite data of its row are those of `o`; the
rough range is the range of an observation of this satellite, rounded to 1/1024 ms -/
def Carries (env : Env) (cfg : Config) (c : Cons) (l : List SbpObs) (m : Msg) (o : SbpObs) : Prop :=
  ∃ (k : Nat) (s : Sig) (sat : Sat), m.header.cellMask[k]? = some true ∧
    pairOfCell env.prn (masks c m) k = some (o.code, o.sat) ∧
    m.sigs[(m.header.cellMask.take k).count true]? = some s ∧ SigOf (env.freq o.code (channel cfg c o.sat)) o s ∧
    m.sats[k / numSigs (masks c m)]? = some sat ∧ sat.gloFcn = channel cfg c o.sat ∧
    ((∀ o' ∈ l, o'.flags.testBit 0 = true) → ∃ o' ∈ l, o'.sat = o.sat ∧ env.consOf o'.code = some c ∧
      ∃ r, Rounded r ((o'.P : ℚ) / 50 / 299792458 * 1000) ∧ |sat.roughRangeMs - r| ≤ 1 / 2048)

end Verif.SbpRtcm.Spec
