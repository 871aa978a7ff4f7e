import Verif.Model.Options
/-! What the help text of rtcm3tosbp says about its options. -/
namespace Verif.Options.Spec
open Verif.Msm (Cons Code)
open Verif.Time (GpsTime)

/-- what a user asks for -/
inductive Setting
  /-- -G -R -E -C -J -/
  | disable (c : Cons)
  /-- -b: biases of signals, by the number of their code -/
  | biases (l : List (Int × ℚ))
  /-- -c and -l: GLONASS biases per channel, pseudorange and phase -/
  | gloCode (l : List (Int × ℚ))
  | gloPhase (l : List (Int × ℚ))
  /-- -w, -d, -s: the time, in Unix seconds -/
  | time (unix : Int)
  /-- -o -/
  | obs
  /-- -v -/
  | verbose

/-- options without an argument -/
inductive Flag (w : World) : Char → Setting → Prop
  | gps : Flag w 'G' (.disable .gps)
  | glo : Flag w 'R' (.disable .glo)
  | gal : Flag w 'E' (.disable .gal)
  | bds : Flag w 'C' (.disable .bds)
  | qzs : Flag w 'J' (.disable .qzs)
  | sys : Flag w 's' (.time w.now)
  | obs : Flag w 'o' .obs
  | verbose : Flag w 'v' .verbose

/-- "CODE:BIAS,CODE:BIAS,..." -/
def BiasText (w : World) (t : List Char) (l : List (Int × ℚ)) : Prop :=
  ∃ toks, t = [','].intercalate toks ∧ toks ≠ [] ∧ List.Forall₂ (fun tok e => tok ≠ [] ∧ ',' ∉ tok ∧ w.bias tok = some e) toks l

/-- options with an argument -/
inductive Takes (w : World) : Char → Setting → List Char → Prop
  | biases (l t) : BiasText w t l → (∀ e ∈ l, 0 ≤ e.1 ∧ e.1 < w.codeCount) → Takes w 'b' (.biases l) t
  | gloCode (l t) : BiasText w t l → Takes w 'c' (.gloCode l) t
  | gloPhase (l t) : BiasText w t l → Takes w 'l' (.gloPhase l) t
  | week (wn tow t) : w.week t = some (wn, tow) → w.valid ⟨wn, tow⟩ = true → Takes w 'w' (.time (w.gps2time ⟨wn, tow⟩)) t
  | date (d t) : w.date t = some d → w.valid (w.date2gps d) = true → Takes w 'd' (.time (w.gps2time (w.date2gps d))) t

/-- A command line that asks for the settings, in order.  Options without argument may be joined (-GR); the argument of an option is the next
word (-b 0:1.5), or follows the option (-b0:1.5, -b=0:1.5).  Other words are ignored, and everything after --. -/
inductive Line (w : World) : List Setting → List (List Char) → Prop
  | nil : Line w [] []
  | rest (args) : Line w [] (['-', '-'] :: args)
  | word (a ss args) : (∀ c s, a ≠ '-' :: c :: s) → Line w ss args → Line w ss (a :: args)
  | flags (cs fs ss args) : cs ≠ [] → List.Forall₂ (Flag w) cs fs → Line w ss args → Line w (fs ++ ss) (('-' :: cs) :: args)
  | next (c s t ss args) : Takes w c s t → t.head? ≠ some '=' → Line w ss args → Line w (s :: ss) (['-', c] :: t :: args)
  | joined (c s t ss args) : Takes w c s t → t ≠ [] → t.head? ≠ some '=' → Line w ss args → Line w (s :: ss) (('-' :: c :: t) :: args)
  | equals (c s t ss args) : Takes w c s t → Line w ss args → Line w (s :: ss) (('-' :: c :: '=' :: t) :: args)

/-- the last value given for a code, 0 without any -/
def lastFor (code : Int) (l : List (Int × ℚ)) : ℚ := ((l.reverse.find? fun e => e.1 = code).map (·.2)).getD 0

def biasesOf (ss : List Setting) : List (Int × ℚ) := ss.flatMap fun s => match s with | .biases l => l | _ => []
def gloCodesOf (ss : List Setting) : List (Int × ℚ) := ss.flatMap fun s => match s with | .gloCode l => l | _ => []
def gloPhasesOf (ss : List Setting) : List (Int × ℚ) := ss.flatMap fun s => match s with | .gloPhase l => l | _ => []
/-- the times given, in order -/
def timesOf (ss : List Setting) : List Int := ss.filterMap fun s => match s with | .time t => some t | _ => none

/-- the options say what the settings ask for -/
structure Configured (w : World) (ss : List Setting) (o : Opts) : Prop where
  masked : ∀ c, o.masked c = true ↔ .disable c ∈ ss
  bias : ∀ code, o.sigBias code = lastFor code (biasesOf ss)
  gloCode : o.gloCode = (lastFor (w.codeNum .glo_l1of) (gloCodesOf ss), lastFor (w.codeNum .glo_l2of) (gloCodesOf ss))
  gloPhase : o.gloPhase = (lastFor (w.codeNum .glo_l1of) (gloPhasesOf ss), lastFor (w.codeNum .glo_l2of) (gloPhasesOf ss))
  unix : o.unix = (timesOf ss).getLast?.getD 0
  obs : o.obs = true ↔ .obs ∈ ss

/-- the constellation a code belongs to -/
def consOf : Code → Option Cons
  | .invalid => none
  | .gps_l1ca | .gps_l1p | .gps_l2p | .gps_l2cm | .gps_l2cl | .gps_l2cx | .gps_l5i | .gps_l5q
  | .gps_l5x | .gps_l1ci | .gps_l1cq | .gps_l1cx => some .gps
  | .glo_l1p | .glo_l1of | .glo_l2p | .glo_l2of => some .glo
  | .gal_e1c | .gal_e1b | .gal_e1x | .gal_e6c | .gal_e6b | .gal_e6x | .gal_e7i | .gal_e7q
  | .gal_e7x | .gal_e8i | .gal_e8q | .gal_e8x | .gal_e5i | .gal_e5q | .gal_e5x => some .gal
  | .sbas_l1ca | .sbas_l5i | .sbas_l5q | .sbas_l5x => some .sbas
  | .qzs_l1ca | .qzs_l2cm | .qzs_l2cl | .qzs_l2cx | .qzs_l5i | .qzs_l5q | .qzs_l5x | .qzs_l1ci | .qzs_l1cq | .qzs_l1cx => some .qzs
  | .bds2_b1 | .bds3_b3i | .bds3_b3q | .bds3_b3x | .bds2_b2 | .bds3_b5i | .bds3_b5q | .bds3_b5x | .bds3_b7i | .bds3_b1ci | .bds3_b1cq
  | .bds3_b1cx | .bds3_b7q | .bds3_b7x => some .bds

/-- the bias per channel asked for with -c or -l, for the signals of the L1 and of the L2 band -/
def slope (w : World) (l : List (Int × ℚ)) : Code → ℚ
  | .glo_l1of | .glo_l1p => lastFor (w.codeNum .glo_l1of) l
  | .glo_l2of | .glo_l2p => lastFor (w.codeNum .glo_l2of) l
  | _ => 0

/-- the tables of the converter the settings ask for.  The bias of GLONASS channel `k` (transmitted as `k + 7`; 255 for unknown) is `k` times
the bias per channel, in metres and cycles, as a `double`. -/
def settingsEnv (w : World) (ss : List Setting) (env : RtcmSbp.Env) : RtcmSbp.Env :=
  { env with
    sigBias := fun c => lastFor (w.codeNum c) (biasesOf ss)
    masked := fun c => ss.any fun s => match s with | .disable k => decide (k = c) | _ => false
    gloBias := fun c n => if 255 ≤ n then (0, 0) else
      let k : ℚ := (n : ℚ) - 7
      (Fp.f64 (k * slope w (gloCodesOf ss) c), Fp.f64 (k * slope w (gloPhasesOf ss) c)) }

end Verif.Options.Spec
