import Verif.Model.Codec
/-
What it means for a message decoder to reject foreign and truncated payloads.
-/
namespace Verif.Spec

/-- The message number of a payload: its first twelve bits. -/
def msgNum (p : Buf) : Nat := (p.getD 0 0).toNat * 16 + (p.getD 1 0).toNat / 16

/-- The decoder produces values only for payloads whose message number is one of `mine`, … -/
def OnlyAccepts {α} (d : Dec α) (mine : Nat → Prop) : Prop := ∀ p a, d.run p = .ok a → mine (msgNum p)

/-- … and reports a type mismatch for every other payload, provided the payload is at least `min` bytes long
(`min` bytes being what the decoder reads before it looks at the message number). -/
def RejectsOthers {α} (d : Dec α) (min : Nat) (mine : Nat → Prop) : Prop :=
  ∀ p, min ≤ p.length → ¬ mine (msgNum p) → d.run p = .error .typeMismatch

/-- Every accepted payload contains a message of some size `n`: every shorter beginning of it is rejected with an error
in `E`, and what follows the message does not matter. -/
def TruncationSafeE (E : RC → Prop) {α} (d : Dec α) : Prop :=
  ∀ p a, d.run p = .ok a → ∃ n, n ≤ p.length ∧
    (∀ k < n, ∃ e, E e ∧ d.run (p.take k) = .error e) ∧ ∀ tail, d.run (p.take n ++ tail) = .ok a

/-- the usual case: shorter beginnings are rejected with `RC_INVALID_MESSAGE` -/
def TruncationSafe {α} (d : Dec α) : Prop := TruncationSafeE (· = .invalid) d

/-- A decoder for message `num` that behaves: it accepts only that message, reports a mismatch for any other, and reports an
invalid message for truncated ones. -/
structure Good {α} (d : Dec α) (num : Nat) : Prop where
  only : OnlyAccepts d (· = num)
  rejects : RejectsOthers d 2 (· = num)
  trunc : TruncationSafe d

end Verif.Spec
