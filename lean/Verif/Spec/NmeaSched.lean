import Verif.Model.Nmea
/-
When NMEA sentences are due, told from the history of calls alone.
-/
namespace Verif.Nmea.Spec

/-- the last message of a kind in a history (`f` selects the kind and its content) -/
def latest {α : Type} (f : Msg → Option α) (hist : List In) : Option α :=
  (hist.filterMap fun i => match i with | .msg m => f m | _ => none).getLast?

/-- the source under which a message is filed: in GNSS mode every solution message counts as a GNSS one -/
def filed (mode : Mode) (gnss : Bool) : Bool := decide (mode = .gnss) || gnss

def utcOf (mode : Mode) (g : Bool) : Msg → Option Utc
  | .utc b t => if filed mode b = g then some t else none
  | _ => none
def gpsTimeOf (mode : Mode) (g : Bool) : Msg → Option GpsT
  | .gpsTime b t => if filed mode b = g then some t else none
  | _ => none
def posOf (mode : Mode) (g : Bool) : Msg → Option Pos
  | .pos b t => if filed mode b = g then some t else none
  | _ => none
def velOf (mode : Mode) (g : Bool) : Msg → Option Vel
  | .vel b t => if filed mode b = g then some t else none
  | _ => none
def dopsOf : Msg → Option Dops | .dops d => some d | _ => none
def ageOf : Msg → Option Age | .age d => some d | _ => none
def hdgOf : Msg → Option Hdg | .hdg d => some d | _ => none
def orientOf : Msg → Option Orient | .orient d => some d | _ => none

/-- the messages a sentence is made from -/
inductive Dep where
  | pos | gpsTime | vel | dops | age | hdg | orient
deriving DecidableEq

/-- time of week of the latest GNSS message of a kind -/
def depTow (mode : Mode) (hist : List In) : Dep → Option Nat
  | .pos => (latest (posOf mode true) hist).map Pos.tow
  | .gpsTime => (latest (gpsTimeOf mode true) hist).map GpsT.tow
  | .vel => (latest (velOf mode true) hist).map Vel.tow
  | .dops => (latest dopsOf hist).map Dops.tow
  | .age => (latest ageOf hist).map Age.tow
  | .hdg => (latest hdgOf hist).map Hdg.tow
  | .orient => (latest orientOf hist).map Orient.tow

/-- time of week of the latest UTC message of a source -/
def utcTow (mode : Mode) (g : Bool) (hist : List In) : Option Nat := (latest (utcOf mode g) hist).map Utc.tow

/-- the messages whose time must agree with the UTC message -/
def needs : NmeaId → List Dep
  | .gga | .rmc | .vtg | .gll | .gsa | .gst | .pubx => [.pos, .gpsTime, .vel, .dops, .age]
  | .hdt => [.hdg]
  | .ths => [.orient, .pos]
  | .zda | .gsv => []

/-- the converter has switched to the fused solution: only in BEST mode, at the first GROUP_META message -/
def switched (mode : Mode) (hist : List In) : Bool := decide (mode = .best) && decide (In.msg .groupMeta ∈ hist)

/-- the sentence is made from the GNSS solution -/
def gnssPath (mode : Mode) (hist : List In) (id : NmeaId) : Bool :=
  !switched mode hist || (id = .hdt || id = .gsa || id = .gsv)

/-- everything a GNSS sentence needs has arrived for time of week `tow` -/
def Coherent (mode : Mode) (hist : List In) (id : NmeaId) (tow : Nat) : Prop :=
  utcTow mode true hist = some tow ∧ ∀ d ∈ needs id, depTow mode hist d = some tow

/-- the times of week of the UTC messages of a source, in order -/
def utcTows (mode : Mode) (g : Bool) (hist : List In) : List Nat :=
  (hist.filterMap fun i => match i with | .msg m => utcOf mode g m | _ => none).map Utc.tow

/-- the rate requested for a sentence type by a history (0: never) -/
def rateSet (hist : List In) (id : NmeaId) : Nat :=
  ((hist.filterMap fun i => match i with | .rate j r => if j = id then some r else none | _ => none).getLast?).getD 0

/-- A SOLN_META has closed the group opened by the latest GROUP_META. -/
def GroupClosed (hist : List In) : Prop :=
  ∃ h1 d h2, hist = h1 ++ .msg (.solnMeta d) :: h2 ∧ In.msg .groupMeta ∈ h1 ∧ In.msg .groupMeta ∉ h2

end Verif.Nmea.Spec
