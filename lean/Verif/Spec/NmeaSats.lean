import Verif.Spec.NmeaHeading
import Mathlib.Data.Finset.Dedup
/-
Reading the satellite lists of GSA and GSV sentences.
-/
namespace Verif.Nmea.Spec

/-- an unsigned decimal number -/
def readNat (s : List Char) : Option Nat :=
  if s = [] then none
  else if s.all (fun c => c.isDigit) then some (s.foldl (fun a c => 10 * a + (c.toNat - 48)) 0) else none

/-- a signed decimal number -/
def readInt : List Char → Option Int
  | '-' :: s => (readNat s).map fun n : Nat => -(n : Int)
  | s => (readNat s).map fun n : Nat => (n : Int)

/-- a satellite as a GSV sentence shows it -/
structure SatView where
  number : Nat
  elevation : Int
  azimuth : Nat
  snr : Option Nat
deriving DecidableEq

/-- four fields per satellite; an empty fourth one means no signal -/
def readSats : List (List Char) → Option (List SatView)
  | [] => some []
  | a :: b :: c :: d :: r => do
    let n ← readNat a
    let el ← readInt b
    let az ← readNat c
    let snr ← if d = [] then some none else (readNat d).map some
    let rest ← readSats r
    some (⟨n, el, az, snr⟩ :: rest)
  | _ => none

/-- a GSV sentence: `$ttGSV,total,index,in view,satellites` -/
structure Gsv where
  talker : List Char
  total : Nat
  index : Nat
  inView : Nat
  sats : List SatView
deriving DecidableEq

def readGsv (text : List Char) : Option Gsv :=
  match fields text with
  | ['$', a, b, 'G', 'S', 'V'] :: m :: i :: n :: r => do
    let m ← readNat m
    let i ← readNat i
    let n ← readNat n
    let sats ← readSats r
    some ⟨[a, b], m, i, n, sats⟩
  | _ => none

/-- twelve satellite fields, of which the trailing ones may be empty -/
def readNumbers : List (List Char) → Option (List Nat)
  | [] => some []
  | f :: r => if f = [] then (if r.all (· = []) then some [] else none)
    else do
      let n ← readNat f
      let rest ← readNumbers r
      some (n :: rest)

/-- a GSA sentence: `$ttGSA,A,fix,` twelve satellites and three dilutions -/
structure Gsa where
  talker : List Char
  fix : List Char
  sats : List Nat
  dops : List (List Char)
deriving DecidableEq

def readGsa (text : List Char) : Option Gsa :=
  match fields text with
  | ['$', a, b, 'G', 'S', 'A'] :: ['A'] :: fix :: r =>
    if r.length = 15 then (readNumbers (r.take 12)).map fun l => ⟨[a, b], fix, l, r.drop 12⟩ else none
  | _ => none

/-- the four talkers -/
inductive Talker where
  | gp | gl | ga | gb
deriving DecidableEq

def Talker.name : Talker → List Char
  | .gp => ['G', 'P'] | .gl => ['G', 'L'] | .ga => ['G', 'A'] | .gb => ['G', 'B']

/-- the order in which the talkers report -/
def Talker.all : List Talker := [.gp, .gl, .ga, .gb]

/-- GPS, SBAS and QZSS report as GP; nothing reports for other satellites -/
def talkerFor : Con → Option Talker
  | .gps => some .gp | .sbas => some .gp | .qzs => some .gp | .glo => some .gl | .gal => some .ga | .bds => some .gb
  | .invalid => none

/-- the satellites of a list that report under a talker -/
def under (L : Lib) (t : Talker) (l : List Sid) : List Sid := l.filter fun s => talkerFor (L.con s.code) = some t

/-- satellite numbers of NMEA: GPS 1.., SBAS 33.. (PRN 120..), GLONASS 65.., Galileo 301.., BeiDou 401.., QZSS 193.. (its PRN) -/
def svNumber : Con → Nat → Nat
  | .gps, s => s
  | .sbas, s => s - 87
  | .glo, s => 64 + s
  | .gal, s => 300 + s
  | .bds, s => 400 + s
  | _, s => s

/-- a signal whose number fits the constellation: SBAS PRNs start at 120 -/
def NumberedSid (L : Lib) (s : Sid) : Prop := s.sat < 256 ∧ (L.con s.code = .sbas → 120 ≤ s.sat)

/-- the signal strength shown for a satellite: that of the first tracked signal of the satellite, in dB-Hz to the nearest unit -/
def ShowsSnr (L : Lib) (meas : List MeasState) (a : AzEl) (snr : Option Nat) : Prop :=
  match meas.find? fun m => m.mesid.sat = a.sid.sat ∧ L.con m.mesid.code = L.con a.sid.code with
  | none => snr = none
  | some m => ∃ k, snr = some k ∧ |4 * (k : Int) - m.cn0| ≤ 2

/-- what a GSV sentence shows of a satellite in view -/
def Shows (L : Lib) (meas : List MeasState) (a : AzEl) (v : SatView) : Prop :=
  v.number = svNumber (L.con a.sid.code) a.sid.sat ∧ v.elevation = a.el ∧ v.azimuth = 2 * a.az ∧ ShowsSnr L meas a v.snr

end Verif.Nmea.Spec
