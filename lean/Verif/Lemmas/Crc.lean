import Verif.Spec.Crc
import Mathlib.Tactic.Ring
import Mathlib.Tactic.LinearCombination
import Mathlib.Algebra.BigOperators.Group.Finset.Basic
/-! Shift registers and polynomials. -/
namespace Verif.Crc
open Polynomial Finset

/-- the polynomial of the coefficients `f 0 … f (n-1)` -/
noncomputable def pol (n : Nat) (f : Nat → Bool) : (ZMod 2)[X] := ∑ i ∈ range n, if f i then X ^ i else 0

theorem two0 (p : (ZMod 2)[X]) : p + p = 0 := by
  rw [← two_smul (ZMod 2), show (2 : ZMod 2) = 0 from rfl, zero_smul]

theorem pol_xor (n : Nat) (f g : Nat → Bool) : pol n (fun i => f i ^^ g i) = pol n f + pol n g := by
  unfold pol
  rw [← sum_add_distrib]
  refine sum_congr rfl fun i _ => ?_
  cases hf : f i <;> cases hg : g i <;> simp [hf, hg, two0]

theorem pol_congr {n : Nat} {f g : Nat → Bool} (h : ∀ i, i < n → f i = g i) : pol n f = pol n g := by
  unfold pol
  exact sum_congr rfl fun i hi => by rw [h i (mem_range.1 hi)]

theorem pol_zero (n : Nat) : pol n (fun _ => false) = 0 := by simp [pol]

/-- shifting up by one, the top coefficient leaving -/
theorem pol_shift (n : Nat) (f : Nat → Bool) :
    X * pol (n + 1) f = pol (n + 1) (fun i => decide (i ≠ 0) && f (i - 1)) + if f n then X ^ (n + 1) else 0 := by
  unfold pol
  rw [mul_sum, sum_range_succ, sum_range_succ' (fun i => if (decide (i ≠ 0) && f (i - 1)) = true then (X : (ZMod 2)[X]) ^ i else 0)]
  simp only [ne_eq, Nat.add_eq_zero_iff, one_ne_zero, and_false, not_false_eq_true, decide_true, Nat.add_sub_cancel, Bool.true_and,
    not_true_eq_false, decide_false, Bool.false_and, Bool.false_eq_true, if_false, add_zero]
  congr 1
  · refine sum_congr rfl fun i _ => ?_
    split <;> simp [pow_succ']
  · split <;> simp [pow_succ']

/-- one step of the register with generator x^(n+1) + g -/
theorem pol_step (n : Nat) (f g f' : Nat → Bool)
    (h : ∀ i, i < n + 1 → f' i = ((decide (i ≠ 0) && f (i - 1)) ^^ (f n && g i))) :
    X ^ (n + 1) + pol (n + 1) g ∣ pol (n + 1) f' + X * pol (n + 1) f := by
  rw [pol_congr h, pol_xor, pol_shift]
  cases hf : f n with
  | false =>
    simp only [Bool.false_and, pol_zero, Bool.false_eq_true, if_false, add_zero]
    rw [two0]; exact dvd_zero _
  | true =>
    simp only [Bool.true_and, if_true]
    refine ⟨1, ?_⟩
    generalize pol (n + 1) (fun i => decide (i ≠ 0) && f (i - 1)) = a
    linear_combination two0 a

theorem dvd_trans2 {g a b c : (ZMod 2)[X]} (h1 : g ∣ a + b) (h2 : g ∣ b + c) : g ∣ a + c := by
  have := dvd_add h1 h2
  have e : a + b + (b + c) = a + c := by linear_combination two0 b
  rwa [e] at this

theorem dvd_iter {g : (ZMod 2)[X]} {α : Type} (p : α → (ZMod 2)[X]) (step : α → α) (h : ∀ c, g ∣ p (step c) + X * p c) (k : Nat) :
    ∀ c, g ∣ p (step^[k] c) + X ^ k * p c := by
  induction k with
  | zero => intro c; simp [two0]
  | succ k ih =>
    intro c
    rw [Function.iterate_succ_apply]
    have h1 := ih (step c)
    have h2 := Dvd.dvd.mul_left (h c) (X ^ k)
    have e : X ^ k * (p (step c) + X * p c) = X ^ k * p (step c) + X ^ (k + 1) * p c := by ring
    rw [e] at h2
    exact dvd_trans2 h1 h2

/-! ### bit strings -/

theorem bitPoly_append (a b : List Bool) : bitPoly (a ++ b) = bitPoly a * X ^ b.length + bitPoly b := by
  induction a with
  | nil => simp [bitPoly]
  | cons x a ih =>
    simp only [List.cons_append, bitPoly, ih, List.length_append]
    split <;> ring

/-- a word read from the top coefficient down -/
theorem bitPoly_desc (n : Nat) (f : Nat → Bool) : bitPoly ((List.range n).map fun i => f (n - 1 - i)) = pol n f := by
  induction n with
  | zero => simp [bitPoly, pol]
  | succ n ih =>
    rw [List.range_succ_eq_map, List.map_cons, List.map_map]
    simp only [bitPoly, List.length_map, List.length_range]
    have e : ((fun i => f (n + 1 - 1 - i)) ∘ Nat.succ) = fun i => f (n - 1 - i) := by
      funext i
      simp only [Function.comp]
      congr 1; omega
    rw [e, ih, pol, pol, sum_range_succ, Nat.add_sub_cancel, Nat.sub_zero, add_comm]

theorem bitPoly_msb {n : Nat} (v : BitVec n) : bitPoly (msbFirst v) = pol n fun i => v.getLsbD i := by
  rw [← bitPoly_desc]
  unfold msbFirst
  congr 1
  refine List.map_congr_left fun i hi => ?_
  rw [BitVec.getMsbD]
  simp [List.mem_range.1 hi]

theorem bitPoly_lsb {n : Nat} (v : BitVec n) : bitPoly (lsbFirst v) = pol n fun i => v.getMsbD i := by
  rw [← bitPoly_desc]
  unfold lsbFirst
  congr 1
  refine List.map_congr_left fun i hi => ?_
  have := List.mem_range.1 hi
  rw [BitVec.getMsbD]
  have e : n - 1 - (n - 1 - i) = i := by omega
  rw [e]
  simp
  omega

theorem len_msb {n : Nat} (v : BitVec n) : (msbFirst v).length = n := by simp [msbFirst]
theorem len_lsb {n : Nat} (v : BitVec n) : (lsbFirst v).length = n := by simp [lsbFirst]

end Verif.Crc
