import Verif.Model.Rtcm3ToSbp
/-
The command line of rtcm3tosbp: rtcm3tosbp/src/rtcm3tosbp.c, and the options in gnss_converters/src/options.c.
getopt is that of the GNU C library (arguments that are not options are skipped, "--" ends the options); sscanf, time and the time functions
of libswiftnav are parameters.  The program name (argv[0]) is left out, as is what is printed.
-/
namespace Verif.Options
open Verif.Msm (Cons Code)
open Verif.Time (GpsTime)

/-- the outside world -/
structure World where
  /-- `sscanf(tok, "%d:%f", &code, &bias)`, when it returns 2 -/
  bias : List Char → Option (Int × ℚ)
  /-- `sscanf(optarg, "%hd:%lf", &week_num, &time_of_week)`, when it returns 2 -/
  week : List Char → Option (Int × ℚ)
  /-- `sscanf(optarg, "%d:%d:%d:%d", ...)`, when it returns 4 -/
  date : List Char → Option (Int × Int × Int × Int)
  /-- gps_time_valid, gps2time and date2gps (at minute and second 0) of libswiftnav -/
  valid : GpsTime → Bool
  gps2time : GpsTime → Int
  date2gps : Int × Int × Int × Int → GpsTime
  /-- time(NULL) -/
  now : Int
  /-- CODE_COUNT, and the numbers of the codes -/
  codeCount : Int
  codeNum : Code → Int

/-! ### getopt -/

/-- the option string "hb:c:l:tw:d:soGRECJS:v": does an option take an argument?  `none`: not an option   rtcm3tosbp.c:153 -/
def takesArg (c : Char) : Option Bool :=
  if c ∈ ['b', 'c', 'l', 'w', 'd', 'S'] then some true
  else if c ∈ ['h', 't', 's', 'o', 'G', 'R', 'E', 'C', 'J', 'v'] then some false
  else none

/-- One argument of the form -xyz: the options in it, and the option whose argument is the next argument.  An unknown option is '?'.  -/
def cluster : List Char → List (Char × Option (List Char)) × Option Char
  | [] => ([], none)
  | c :: cs =>
    match takesArg c with
    | none => let r := cluster cs; (('?', none) :: r.1, r.2)
    | some false => let r := cluster cs; ((c, none) :: r.1, r.2)
    | some true => if cs = [] then ([], some c) else ([(c, some cs)], none)

/-- All options of a command line.  The first parameter is an option that waits for its argument; if there is none, getopt returns '?'. -/
def getopt : Option Char → List (List Char) → List (Char × Option (List Char))
  | none, [] => []
  | some _, [] => [('?', none)]
  | some c, a :: args => (c, some a) :: getopt none args
  | none, a :: args =>
    match a with
    | '-' :: c :: cs =>
      if c = '-' ∧ cs = [] then []
      else let r := cluster (c :: cs); r.1 ++ getopt r.2 args
    | _ => getopt none args

/-! ### the options -/

/-- the static variables the options set   options.c:22-26, rtcm3tosbp.c:145-147.  The verbosity is left out. -/
structure Opts where
  sigBias : Int → ℚ := fun _ => 0
  gloCode : ℚ × ℚ := (0, 0)
  gloPhase : ℚ × ℚ := (0, 0)
  masked : Cons → Bool := fun _ => false
  unix : Int := 0
  obs : Bool := false

/-- `strtok(arg, ",")`: the non-empty pieces -/
def tokens (s : List Char) : List (List Char) := (s.splitOn ',').filter (· ≠ [])

/-- `parse_biases`; `none`: outside of the table   rtcm3tosbp.c:275-289 -/
def parseBiases (w : World) : List (List Char) → (Int → ℚ) → Option (Int → ℚ)
  | [], t => some t
  | tok :: r, t =>
    match w.bias tok with
    | none => some t
    | some (code, b) =>
      if code ≥ w.codeCount then some t
      else if code < 0 then none
      else parseBiases w r fun c => if c = code then b else t c

/-- `parse_glonass_code_biases`, `parse_glonass_phase_biases`   rtcm3tosbp.c:290-312, 314-336 -/
def parseGlo (w : World) : List (List Char) → ℚ × ℚ → ℚ × ℚ
  | [], t => t
  | tok :: r, t =>
    match w.bias tok with
    | none => t
    | some (code, b) =>
      parseGlo w r (if code = w.codeNum .glo_l1of then (b, t.2) else if code = w.codeNum .glo_l2of then (t.1, b) else t)

/-- the end of the loop over the options -/
inductive Res
  | go (o : Opts)
  /-- `return 0` after the help or the time has been printed -/
  | bye
  /-- `return -1` -/
  | wrong
  /-- undefined behaviour -/
  | undef

/-- `if (optarg && *optarg == '=') optarg++`   rtcm3tosbp.c:154-156 -/
def noEq : List Char → List Char
  | '=' :: s => s
  | s => s

/-- the constellation an option disables   rtcm3tosbp.c:215-238 -/
def disables : Char → Option Cons
  | 'G' => some .gps | 'R' => some .glo | 'E' => some .gal | 'C' => some .bds | 'J' => some .qzs | 'S' => some .sbas
  | _ => none

/-- the body of the loop   rtcm3tosbp.c:157-244 -/
def option (w : World) (o : Opts) (c : Char) (arg : Option (List Char)) : Res :=
  let arg := noEq (arg.getD [])
  if c = 'h' ∨ c = 't' then .bye
  else if c = 'b' then
    match parseBiases w (tokens arg) o.sigBias with
    | some t => .go { o with sigBias := t }
    | none => .undef
  else if c = 'c' then .go { o with gloCode := parseGlo w (tokens arg) o.gloCode }
  else if c = 'l' then .go { o with gloPhase := parseGlo w (tokens arg) o.gloPhase }
  else if c = 'w' then
    match w.week arg with
    | some (wn, tow) => if w.valid ⟨wn, tow⟩ then .go { o with unix := w.gps2time ⟨wn, tow⟩ } else .wrong
    | none => .wrong
  else if c = 'd' then
    match w.date arg with
    | some d => if w.valid (w.date2gps d) then .go { o with unix := w.gps2time (w.date2gps d) } else .go o
    | none => .wrong
  else if c = 's' then .go { o with unix := w.now }
  else if c = 'o' then .go { o with obs := true }
  else match disables c with
    | some k => .go { o with masked := fun x => o.masked x || decide (x = k) }
    | none => .go o

def options (w : World) (o : Opts) : List (Char × Option (List Char)) → Res
  | [] => .go o
  | (c, a) :: r =>
    match option w o c a with
    | .go o => options w o r
    | x => x

/-- The program up to the main loop: -o needs a time   rtcm3tosbp.c:134-263 -/
def commandLine (w : World) (args : List (List Char)) : Res :=
  match options w {} (getopt none args) with
  | .go o => if o.obs = true ∧ o.unix = 0 then .wrong else .go o
  | x => x

/-- `msm_glo_fcn_bias`: metres and cycles   options.c:35-71 (MSM_GLO_FCN_OFFSET = 7, MSM_GLO_FCN_UNKNOWN = 255;
channel numbers are bytes) -/
def fcnBias (o : Opts) (c : Code) (fcn : Nat) : ℚ × ℚ :=
  match c with
  | .glo_l1of | .glo_l1p => if fcn < 255 then (Fp.f64 (((fcn : ℚ) - 7) * o.gloCode.1), Fp.f64 (((fcn : ℚ) - 7) * o.gloPhase.1)) else (0, 0)
  | .glo_l2of | .glo_l2p => if fcn < 255 then (Fp.f64 (((fcn : ℚ) - 7) * o.gloCode.2), Fp.f64 (((fcn : ℚ) - 7) * o.gloPhase.2)) else (0, 0)
  | _ => (0, 0)

/-- the tables the converter uses -/
def envOf (w : World) (o : Opts) (env : RtcmSbp.Env) : RtcmSbp.Env :=
  { env with sigBias := fun c => o.sigBias (w.codeNum c), masked := o.masked, gloBias := fcnBias o }

end Verif.Options
