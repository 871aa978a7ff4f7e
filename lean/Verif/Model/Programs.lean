import Verif.Model.UbxSbp
import Verif.Model.Ixcom
/-
The main loops of ubx2sbp and ixcom2sbp: `do { ret = process(); } while (...)`.
Not modelled: the command line (the --hnr flag is a parameter; the sender id is not part of the messages), the bytes of the SBP frames, and
write errors, whose return values the programs drop (ubx2sbp.c:25-32, ixcom2sbp.c:27-33).
-/
namespace Verif.Loop

/-- `do { ret = body(); } while (more(ret));` ends, having sent the messages.  A body without result is undefined behaviour or a failed
assertion. -/
inductive Ends {S M : Type} (body : S → Option (Int × S × List M)) (more : Int → Prop) : S → List M → Prop
  | stop (s ret s' o) : body s = some (ret, s', o) → ¬ more ret → Ends body more s o
  | again (s ret s' o os) : body s = some (ret, s', o) → more ret → Ends body more s' os → Ends body more s (o ++ os)

/-- the loop comes to a call whose behaviour is undefined, or that fails an assertion -/
inductive Fails {S M : Type} (body : S → Option (Int × S × List M)) (more : Int → Prop) : S → Prop
  | now (s) : body s = none → Fails body more s
  | again (s ret s' o) : body s = some (ret, s', o) → more ret → Fails body more s' → Fails body more s

open Verif.Ubx in
/-- one turn of ubx2sbp   ubx2sbp/src/ubx2sbp.c:93-96 -/
def ubxBody {E : Type} (L : SbpLib E) (s : Ubx.RSt × CSt) : Option (Int × (Ubx.RSt × CSt) × List (Ubx.Out E)) :=
  (Ubx.process L s.1 s.2).map fun x => (x.1, (x.2.1, x.2.2.1), x.2.2.2)

open Verif.Ubx in
/-- ubx2sbp_main with the flag --hnr, on the reads of standard input: `while (ret >= 0)`   ubx2sbp/src/ubx2sbp.c:48-99 -/
def Ubx2sbp {E : Type} (L : SbpLib E) (hnr : Bool) (src : List Ubx.Rd) (os : List (Ubx.Out E)) : Prop :=
  Ends (ubxBody L) (fun ret => ret ≥ 0) (Ubx.start src, CSt.start hnr) os

open Verif.Ubx in
def Ubx2sbpFails {E : Type} (L : SbpLib E) (hnr : Bool) (src : List Ubx.Rd) : Prop :=
  Fails (ubxBody L) (fun ret => ret ≥ 0) (Ubx.start src, CSt.start hnr)

/-- one turn of ixcom2sbp   ixcom2sbp/src/ixcom2sbp.c:83-86 -/
def ixcomBody (st : Ixcom.St) : Option (Int × Ixcom.St × List Ixcom.Out) := (Ixcom.process st).map fun x => (x.2.1, x.1, x.2.2)

/-- ixcom2sbp_main on the reads of standard input: `while (ret > 0)`   ixcom2sbp/src/ixcom2sbp.c:46-89 -/
def Ixcom2sbp (src : List Ixcom.Rd) (os : List Ixcom.Out) : Prop := Ends ixcomBody (fun ret => ret > 0) (Ixcom.start src) os
def Ixcom2sbpFails (src : List Ixcom.Rd) : Prop := Fails ixcomBody (fun ret => ret > 0) (Ixcom.start src)

end Verif.Loop
