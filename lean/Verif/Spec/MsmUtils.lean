import Verif.Model.MsmUtils
namespace Verif.Msm.Spec
open Verif.Msm

/-- The signal has an MSM slot in this constellation. -/
def Supported (c : Cons) (code : Code) : Prop := code ≠ .invalid ∧ ∃ id, 1 ≤ id ∧ id ≤ 32 ∧ codeOf c id = code

/-- Add a list of (signal, satellite) pairs to a header, in order; collects the results. -/
def addAll (t : PrnTable) : Hdr → List (Code × Nat) → Option (Hdr × List Bool)
  | h, [] => some (h, [])
  | h, p :: ps => do
    let (h1, ok) ← addToHeader t h p.1 p.2
    let (h2, oks) ← addAll t h1 ps
    pure (h2, ok :: oks)

/-- Allocate cells for a list of (signal, satellite) pairs, in order. -/
def cellAll (t : PrnTable) : Hdr → List (Code × Nat) → Option (Hdr × List Bool)
  | h, [] => some (h, [])
  | h, p :: ps => do
    let (h1, ok) ← addToCellMask t h p.1 p.2
    let (h2, oks) ← cellAll t h1 ps
    pure (h2, ok :: oks)

/-- What the decoding side reads off cell number `k` of a header: the satellite row and the signal column. -/
def pairOfCell (t : PrnTable) (h : Hdr) (k : Nat) : Option (Code × Nat) := do
  let code ← signalToCode h (k % numSigs h)
  let prn ← satToPrn t h (k / numSigs h)
  pure (code, prn)

end Verif.Msm.Spec
