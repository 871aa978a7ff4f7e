import Verif.Model.Float
import Verif.Lemmas.Num
import Mathlib.Algebra.Order.Field.Rat
/-! Facts about floating-point rounding. -/
namespace Verif.Fp

theorem rne_err (x : ℚ) : |(rne x : ℚ) - x| ≤ 1 / 2 := by
  have h0 := Int.floor_le x
  have h1 := Int.lt_floor_add_one x
  unfold rne
  split_ifs <;> (rw [abs_le]; push_cast; constructor <;> linarith)

theorem rne_int (n : Int) : rne n = n := by
  unfold rne; rw [Int.floor_intCast, sub_self, if_pos (by norm_num)]

theorem two_pos (e : Int) : (0 : ℚ) < 2 ^ e := zpow_pos (by norm_num) e

theorem log_le {x : ℚ} (h : x ≠ 0) : (2 : ℚ) ^ Int.log 2 |x| ≤ |x| := by
  have := Int.zpow_log_le_self (b := 2) (R := ℚ) (by norm_num) (abs_pos.mpr h)
  exact_mod_cast this
theorem lt_log (x : ℚ) : |x| < (2 : ℚ) ^ (Int.log 2 |x| + 1) := by
  have := Int.lt_zpow_succ_log_self (b := 2) (R := ℚ) (by norm_num) |x|
  exact_mod_cast this

/-- the rounding error: half a unit in the last place -/
theorem fl_err (p : Nat) (emin : Int) (x : ℚ) : |fl p emin x - x| ≤ |x| * 2 ^ (-(p : Int)) + 2 ^ (emin - p) := by
  unfold fl
  split
  · rename_i h; subst h
    simp only [sub_self, abs_zero, zero_mul, zero_add]
    exact le_of_lt (two_pos _)
  · rename_i h
    have hp := two_pos (ulpExp p emin x)
    have h1 := rne_err (x / 2 ^ ulpExp p emin x)
    have h2 : (rne (x / 2 ^ ulpExp p emin x) : ℚ) * 2 ^ ulpExp p emin x - x =
        ((rne (x / 2 ^ ulpExp p emin x) : ℚ) - x / 2 ^ ulpExp p emin x) * 2 ^ ulpExp p emin x := by
      rw [sub_mul, div_mul_cancel₀ _ (ne_of_gt hp)]
    rw [h2, abs_mul, abs_of_pos hp]
    have h3 : |(rne (x / 2 ^ ulpExp p emin x) : ℚ) - x / 2 ^ ulpExp p emin x| * 2 ^ ulpExp p emin x ≤
        1 / 2 * 2 ^ ulpExp p emin x := mul_le_mul_of_nonneg_right h1 (le_of_lt hp)
    refine le_trans h3 ?_
    have h4 : (1 / 2 : ℚ) * 2 ^ ulpExp p emin x = 2 ^ (max (Int.log 2 |x|) emin - p) := by
      rw [show (1 / 2 : ℚ) = 2 ^ (-1 : Int) by norm_num, ← zpow_add₀ (by norm_num)]
      unfold ulpExp
      congr 1; ring
    rw [h4]
    rcases le_total emin (Int.log 2 |x|) with hc | hc
    · rw [max_eq_left hc, sub_eq_add_neg, zpow_add₀ (by norm_num)]
      have := mul_le_mul_of_nonneg_right (log_le h) (le_of_lt (two_pos (-(p : Int))))
      have := two_pos (emin - p)
      linarith
    · rw [max_eq_right hc]
      have : (0 : ℚ) ≤ |x| * 2 ^ (-(p : Int)) := mul_nonneg (abs_nonneg _) (le_of_lt (two_pos _))
      linarith

/-- representable values are not changed -/
theorem fl_exact {p : Nat} {emin k m : Int} (hp : 1 ≤ p) (hm : |m| ≤ 2 ^ p) (hk : emin - (p - 1) ≤ k) :
    fl p emin ((m : ℚ) * 2 ^ k) = (m : ℚ) * 2 ^ k := by
  unfold fl
  split
  · rename_i h; exact h.symm
  · rename_i h
    suffices hh : ∃ n : Int, (m : ℚ) * 2 ^ k / 2 ^ ulpExp p emin ((m : ℚ) * 2 ^ k) = n by
      obtain ⟨n, hn⟩ := hh
      rw [hn, rne_int, ← hn, div_mul_cancel₀ _ (ne_of_gt (two_pos _))]
    obtain ⟨e, he⟩ : ∃ e, e = Int.log 2 |(m : ℚ) * 2 ^ k| := ⟨_, rfl⟩
    have hu : ulpExp p emin ((m : ℚ) * 2 ^ k) = max e emin - (p - 1) := by rw [he]; rfl
    rw [hu, mul_div_assoc, ← zpow_sub₀ (by norm_num)]
    by_cases hc : max e emin - (p - 1) ≤ k
    · refine ⟨m * 2 ^ (k - (max e emin - (p - 1))).toNat, ?_⟩
      push_cast
      rw [← zpow_natCast, Int.toNat_of_nonneg (by omega)]
    · have hee : emin < e := by
        rcases le_total e emin with h1 | h1
        · rw [max_eq_right h1] at hc; omega
        · rcases Int.lt_or_eq_of_le h1 with h2 | h2
          · exact h2
          · subst h2; rw [max_self] at hc; omega
      rw [max_eq_left (by omega)] at hc ⊢
      have h1 : (2 : ℚ) ^ e ≤ |(m : ℚ)| * 2 ^ k := by
        have := log_le h
        rw [← he, abs_mul, abs_of_pos (two_pos k)] at this
        exact this
      have h2 : (2 : ℚ) ^ (e - k) ≤ |(m : ℚ)| := by
        rw [zpow_sub₀ (by norm_num), div_le_iff₀ (two_pos k)]
        exact h1
      have h3 : (|m| : ℚ) ≤ 2 ^ (p : Int) := by rw [zpow_natCast]; exact_mod_cast hm
      have h4 : e - k ≤ p := by
        by_contra hc'
        have : (2 : ℚ) ^ (p : Int) < 2 ^ (e - k) := zpow_lt_zpow_right₀ (by norm_num) (by omega)
        linarith
      have h5 : e - k = p := by omega
      have h6 : |(m : ℚ)| = 2 ^ (p : Int) := le_antisymm h3 (by rw [← h5]; exact h2)
      have h7 : k - (e - (p - 1)) = -1 := by omega
      rw [h7]
      have h8 : |m| = 2 ^ p := by rw [zpow_natCast] at h6; exact_mod_cast h6
      have h9 : (2 : ℤ) ∣ m := by
        rw [← dvd_abs, h8]
        exact dvd_pow_self 2 (by omega)
      obtain ⟨j, hj⟩ := h9
      exact ⟨j, by rw [hj]; push_cast; rw [zpow_neg_one]; ring⟩

theorem f32_exact {k m : Int} (hm : |m| ≤ 16777216) (hk : -149 ≤ k) : f32 ((m : ℚ) * 2 ^ k) = (m : ℚ) * 2 ^ k :=
  fl_exact (by norm_num) (by norm_num; exact hm) (by norm_num; exact hk)
theorem f64_exact {k m : Int} (hm : |m| ≤ 9007199254740992) (hk : -1074 ≤ k) : f64 ((m : ℚ) * 2 ^ k) = (m : ℚ) * 2 ^ k :=
  fl_exact (by norm_num) (by norm_num; exact hm) (by norm_num; exact hk)

theorem f32_err (x : ℚ) : |f32 x - x| ≤ |x| / 16777216 + 1 / 2 ^ 150 := by
  have := fl_err 24 (-126) x
  unfold f32
  refine le_trans this (le_of_eq ?_)
  norm_num [zpow_neg]
  ring
theorem f64_err (x : ℚ) : |f64 x - x| ≤ |x| / 9007199254740992 + 1 / 2 ^ 200 := by
  have := fl_err 53 (-1022) x
  have h1 : (2 : ℚ) ^ ((-1022 : Int) - (53 : Nat)) ≤ 2 ^ (-200 : Int) := zpow_le_zpow_right₀ (by norm_num) (by norm_num)
  have h2 : (2 : ℚ) ^ (-200 : Int) = 1 / 2 ^ 200 := by rw [zpow_neg, one_div]; rfl
  have h3 : |x| * (2 : ℚ) ^ (-((53 : Nat) : Int)) = |x| / 9007199254740992 := by
    rw [zpow_neg, div_eq_mul_inv]; norm_num
  unfold f64
  rw [h3] at this
  rw [h2] at h1
  exact this.trans (add_le_add le_rfl h1)

/-- every rounded value is representable -/
theorem fl_grid {p : Nat} (hp : 1 ≤ p) (emin : Int) (x : ℚ) :
    ∃ m k : Int, fl p emin x = (m : ℚ) * 2 ^ k ∧ |m| ≤ 2 ^ p ∧ emin - (p - 1) ≤ k := by
  unfold fl
  split
  · exact ⟨0, emin, by simp, by simp, by omega⟩
  · rename_i h
    refine ⟨_, _, rfl, ?_, by unfold ulpExp; omega⟩
    have h1 : |x / 2 ^ ulpExp p emin x| ≤ 2 ^ p := by
      rw [abs_div, abs_of_pos (two_pos _), div_le_iff₀ (two_pos _)]
      refine le_trans (le_of_lt (lt_log x)) ?_
      rw [← zpow_natCast, ← zpow_add₀ (by norm_num)]
      exact zpow_le_zpow_right₀ (by norm_num) (by unfold ulpExp; omega)
    have h2 := rne_err (x / 2 ^ ulpExp p emin x)
    rw [abs_le] at h1 h2
    have h3 : (rne (x / 2 ^ ulpExp p emin x) : ℚ) < 2 ^ p + 1 := by linarith [h1.2, h2.2]
    have h4 : -(2 ^ p + 1 : ℚ) < rne (x / 2 ^ ulpExp p emin x) := by linarith [h1.1, h2.1]
    have h5 : rne (x / 2 ^ ulpExp p emin x) < 2 ^ p + 1 := by exact_mod_cast h3
    have h6 : -(2 ^ p + 1) < rne (x / 2 ^ ulpExp p emin x) := by exact_mod_cast h4
    rw [abs_le]; omega
theorem f32_idem (x : ℚ) : f32 (f32 x) = f32 x := by
  obtain ⟨m, k, h, h1, h2⟩ := fl_grid (p := 24) (by norm_num) (-126) x
  unfold f32
  rw [h]; exact fl_exact (by norm_num) h1 h2
theorem f64_idem (x : ℚ) : f64 (f64 x) = f64 x := by
  obtain ⟨m, k, h, h1, h2⟩ := fl_grid (p := 53) (by norm_num) (-1022) x
  unfold f64
  rw [h]; exact fl_exact (by norm_num) h1 h2

end Verif.Fp
