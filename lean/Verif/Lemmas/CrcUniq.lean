import Verif.Lemmas.Crc
import Mathlib.Algebra.Polynomial.Monic
import Mathlib.RingTheory.Coprime.Lemmas
import Mathlib.Algebra.Polynomial.Degree.SmallDegree
/-! Remainders are unique; bursts not longer than the check bits are detected. -/
namespace Verif.Crc
open Polynomial Finset

theorem coeff_pol (n : Nat) (f : Nat → Bool) (i : Nat) : (pol n f).coeff i = if i < n ∧ f i then 1 else 0 := by
  unfold pol
  rw [finsetSum_coeff]
  have : ∀ j ∈ range n, ((if f j then (X : (ZMod 2)[X]) ^ j else 0).coeff i) = if j = i then (if f i then 1 else 0) else 0 := by
    intro j _
    by_cases h : j = i
    · subst h; cases f j <;> simp
    · rw [if_neg h]
      cases f j
      · simp
      · simp only [if_true, coeff_X_pow]; rw [if_neg (fun e => h e.symm)]
  rw [sum_congr rfl this, sum_ite_eq' (range n) i]
  simp only [mem_range]
  by_cases h : i < n <;> simp [h]

theorem degree_pol_lt (n : Nat) (f : Nat → Bool) : (pol n f).degree < n := by
  rw [degree_lt_iff_coeff_zero]
  intro m hm
  rw [coeff_pol, if_neg (by omega)]

theorem pol_eq_zero {n : Nat} {f : Nat → Bool} (h : pol n f = 0) {i : Nat} (hi : i < n) : f i = false := by
  have := coeff_pol n f i
  rw [h, coeff_zero] at this
  cases hf : f i
  · rfl
  · rw [if_pos ⟨hi, hf⟩] at this; exact absurd this (by decide)

/-- a multiple of the generator of lower degree is zero -/
theorem dvd_small {n : Nat} {g q : (ZMod 2)[X]} (hq : q.degree < n) (h : X ^ n + q ∣ g) (hg : g.degree < n) : g = 0 := by
  by_contra h0
  refine (monic_X_pow_add hq).not_dvd_of_degree_lt h0 ?_ h
  rw [degree_add_eq_left_of_degree_lt (by rw [degree_X_pow]; exact hq), degree_X_pow]; exact hg

theorem dvd_pol {n : Nat} {q : (ZMod 2)[X]} (hq : q.degree < n) {f : Nat → Bool} (h : X ^ n + q ∣ pol n f) {i : Nat} (hi : i < n) :
    f i = false := pol_eq_zero (dvd_small hq h (degree_pol_lt n f)) hi

/-- the generator has a constant term: factors of x do not matter -/
theorem dvd_shift {g q : (ZMod 2)[X]} {r : (ZMod 2)[X]} (hg : g = X * r + 1) (k : Nat) (h : g ∣ q * X ^ k) : g ∣ q := by
  have : IsCoprime g X := ⟨1, -r, by rw [hg]; ring⟩
  exact (IsCoprime.pow_right (n := k) this).dvd_of_dvd_mul_right h

theorem byteBits_append (a b : List (BitVec 8)) : byteBits (a ++ b) = byteBits a ++ byteBits b := List.flatMap_append

theorem byteBits_length (a : List (BitVec 8)) : (byteBits a).length = 8 * a.length := by
  induction a with
  | nil => rfl
  | cons x a ih => rw [show byteBits (x :: a) = msbFirst x ++ byteBits a from rfl, List.length_append, len_msb, ih, List.length_cons]; ring

end Verif.Crc
