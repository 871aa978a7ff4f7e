import Verif.Spec.NmeaSats
import Verif.Lemmas.NmeaFields
import Verif.Lemmas.NmeaNum
/-
Reading back printed numbers and lists of fields.
-/
namespace Verif.Nmea
open Verif.Nmea.Spec

theorem digitChar_val : ∀ n : Fin 10, (Nat.digitChar n).toNat - 48 = n.val ∧ (Nat.digitChar n).isDigit = true := by decide

/-- value of a digit string -/
def dval (s : Str) : Nat := s.foldl (fun a c => 10 * a + (c.toNat - 48)) 0

theorem dval_snoc (s : Str) (c : Char) : dval (s ++ [c]) = 10 * dval s + (c.toNat - 48) := by
  simp [dval, List.foldl_append]

theorem dval_toDigits (n : Nat) : dval (Nat.toDigits 10 n) = n := by
  induction n using Nat.strongRecOn with
  | ind n ih =>
    by_cases hn : n < 10
    · rw [Nat.toDigits_of_lt_base hn]
      simp [dval, (digitChar_val ⟨n, hn⟩).1]
    · rw [Nat.toDigits_of_base_le (by omega) (by omega), dval_snoc, ih _ (by omega)]
      have := (digitChar_val ⟨n % 10, Nat.mod_lt _ (by omega)⟩).1
      simp only at this
      omega

theorem dval_zeros (k : Nat) (s : Str) : dval (List.replicate k '0' ++ s) = dval s := by
  have : dval (List.replicate k '0') = 0 := by
    induction k with
    | zero => rfl
    | succ k ih => rw [List.replicate_succ', dval_snoc, ih]; rfl
  unfold dval at *
  rw [List.foldl_append, this]

theorem readNat_digits {s : Str} (h0 : s ≠ []) (h : ∀ c ∈ s, c.isDigit = true) : readNat s = some (dval s) := by
  unfold readNat
  rw [if_neg h0, if_pos (by simpa [List.all_eq_true] using h)]
  rfl

theorem pad_digits (w n : Nat) : pad w (Nat.toDigits 10 n) ≠ [] ∧ ∀ c ∈ pad w (Nat.toDigits 10 n), c.isDigit = true := by
  constructor
  · unfold pad
    intro h
    have := (List.append_eq_nil_iff.1 h).2
    exact Nat.toDigits_ne_nil this
  · intro c hc
    unfold pad at hc
    rcases List.mem_append.1 hc with hc | hc
    · rw [(List.mem_replicate.1 hc).2]; rfl
    · exact Nat.isDigit_of_mem_toDigits (by omega) (by omega) hc

theorem readNat_pad (w n : Nat) : readNat (pad w (Nat.toDigits 10 n)) = some n := by
  rw [readNat_digits (pad_digits w n).1 (pad_digits w n).2]
  unfold pad
  rw [dval_zeros, dval_toDigits]

theorem readNat_fmtU (w n : Nat) : readNat (fmtU w n) = some n := readNat_pad w n

theorem fmtU_ne_nil (w n : Nat) : fmtU w n ≠ [] := (pad_digits w n).1

theorem readInt_fmtD (w : Nat) (n : Int) : readInt (fmtD w n) = some n := by
  unfold fmtD
  split
  · simp only [readInt, readNat_pad, Option.map_some, Option.some.injEq]; omega
  · rename_i h
    have hd := pad_digits w n.natAbs
    have hr := readNat_pad w n.natAbs
    revert hd hr
    generalize pad w (Nat.toDigits 10 n.natAbs) = s
    intro hd hr
    have : readInt s = (readNat s).map fun k : Nat => (k : Int) := by
      unfold readInt
      split
      · exact absurd (hd.2 '-' (by simp)) (by decide)
      · rfl
    rw [this, hr, Option.map_some, Option.some.injEq]; omega

/-- fields of a list of cells each ended by a comma -/
theorem fields_cells : ∀ (l : List Str) (rest : Str), (∀ f ∈ l, f.count ',' = 0) →
    fields ((l.map fun f => f ++ [',']).flatten ++ rest) = l ++ fields rest := by
  intro l rest
  induction l with
  | nil => intro _; rfl
  | cons f l ih =>
    intro h
    have := ih fun g hg => h g (by simp [hg])
    simp only [List.map_cons, List.flatten_cons, List.append_assoc, List.singleton_append, List.cons_append, List.nil_append]
    rw [fields_split, fields_one (h f (by simp)), this]
    rfl

/-- fields of a head followed by a list of cells each started by a comma -/
theorem fields_tail : ∀ (l : List Str) (a : Str), a.count ',' = 0 → (∀ f ∈ l, f.count ',' = 0) →
    fields (a ++ (l.map fun f => ',' :: f).flatten) = a :: l := by
  intro l
  induction l with
  | nil => intro a ha _; simp [fields_one ha]
  | cons f l ih =>
    intro a ha h
    simp only [List.map_cons, List.flatten_cons, List.cons_append]
    rw [fields_split, fields_one ha, ih f (h f (by simp)) fun g hg => h g (by simp [hg])]
    rfl

end Verif.Nmea
