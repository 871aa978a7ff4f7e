import Mathlib.Data.Rat.Floor
/-
What the accuracy indices mean, in metres, and the fit intervals, in hours and minutes.
-/
namespace Verif.Acc.Spec

/-- GPS and QZSS user range accuracy (IS-GPS-200 20.3.3.3.1.3 nominal values; 15 by SBP convention) -/
def gpsNominal : List ℚ := [2, 2.8, 4, 5.7, 8, 11.3, 16, 32, 64, 128, 256, 512, 1024, 2048, 4096, 6144]
/-- BeiDou user range accuracy (index 15: use at own risk) -/
def bdsNominal : List ℚ := [2, 2.8, 4, 5.7, 8, 11.3, 16, 32, 64, 128, 256, 512, 1024, 2048, 4096, 8192]
/-- GLONASS F_T (table 4.4 of the GLONASS ICD; 15 by SBP convention) -/
def gloNominal : List ℚ := [1, 2, 2.5, 4, 5, 7, 10, 12, 14, 16, 32, 64, 128, 256, 512, 6144]

/-- resolution of the Galileo signal-in-space accuracy at `x` metres -/
def sisaRes (x : ℚ) : ℚ := if x ≤ 0.5 then 0.01 else if x ≤ 1 then 0.02 else if x ≤ 2 then 0.04 else 0.16
/-- Galileo signal-in-space accuracy of an index up to 125 -/
def sisaNominal (n : Nat) : ℚ :=
  if n ≤ 50 then 0.01 * n else if n ≤ 75 then 0.5 + 0.02 * (n - 50) else if n ≤ 100 then 1 + 0.04 * (n - 75)
  else 2 + 0.16 * (n - 100)

/-- GPS fit interval in hours by IODC when the flag is set (IS-GPS-200 table 20-XII); not listed: 6 hours -/
def fitTable : List (Nat × Nat × Nat) :=
  [(240, 247, 8), (248, 255, 14), (496, 496, 14), (497, 503, 26), (504, 510, 50), (511, 511, 74), (752, 756, 74),
   (757, 757, 98), (1021, 1023, 26)]
def fitHours (flag : Bool) (iodc : Nat) : Nat :=
  if flag then
    match fitTable.find? fun r => decide (r.1 ≤ iodc ∧ iodc ≤ r.2.1) with
    | some r => r.2.2
    | none => 6
  else 4

/-- a library whose `log2f` is exact at the powers of two that occur and whose comparison tolerance is sane -/
structure LibOk (eps : ℚ) (log2f : ℚ → ℚ) : Prop where
  pos : 0 < eps
  le : eps ≤ 1 / 10
  log : ∀ k : Nat, k ≤ 14 → log2f (2 ^ k) = k

end Verif.Acc.Spec
