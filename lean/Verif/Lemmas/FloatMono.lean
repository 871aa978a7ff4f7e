import Verif.Lemmas.Float
/-! Rounding preserves the order. -/
namespace Verif.Fp

theorem rne_mono {x y : ℚ} (h : x ≤ y) : rne x ≤ rne y := by
  rcases lt_or_eq_of_le (Int.floor_mono h) with hf | hf
  · have h1 : rne x ≤ ⌊x⌋ + 1 := by unfold rne; split_ifs <;> omega
    have h2 : ⌊y⌋ ≤ rne y := by unfold rne; split_ifs <;> omega
    omega
  · unfold rne
    rw [← hf]
    split_ifs <;> first | omega | (exfalso; linarith)

theorem rne_nonneg {x : ℚ} (h : 0 ≤ x) : 0 ≤ rne x := by
  have := rne_mono h
  rwa [show rne 0 = 0 from by exact_mod_cast rne_int 0] at this

theorem fl_nonneg {p : Nat} {emin : Int} {x : ℚ} (h : 0 ≤ x) : 0 ≤ fl p emin x := by
  unfold fl
  split
  · exact le_rfl
  · refine mul_nonneg ?_ (two_pos _).le
    exact_mod_cast rne_nonneg (div_nonneg h (two_pos _).le)

theorem fl_mono {p : Nat} (hp : 1 ≤ p) {emin : Int} {x y : ℚ} (h0 : 0 ≤ x) (h : x ≤ y) : fl p emin x ≤ fl p emin y := by
  by_cases hx : x = 0
  · subst hx
    rw [show fl p emin 0 = 0 from by unfold fl; rw [if_pos rfl]]
    exact fl_nonneg h
  have hx0 : 0 < x := lt_of_le_of_ne h0 (Ne.symm hx)
  have hy0 : 0 < y := lt_of_lt_of_le hx0 h
  have hy : y ≠ 0 := ne_of_gt hy0
  have hl : Int.log 2 |x| ≤ Int.log 2 |y| := by
    rw [abs_of_pos hx0, abs_of_pos hy0]; exact Int.log_mono_right hx0 h
  unfold fl
  rw [if_neg hx, if_neg hy]
  by_cases hu : ulpExp p emin x = ulpExp p emin y
  · rw [hu]
    refine mul_le_mul_of_nonneg_right ?_ (two_pos _).le
    exact_mod_cast rne_mono (div_le_div_of_nonneg_right h (two_pos _).le)
  · have hlt : ulpExp p emin x < ulpExp p emin y := by unfold ulpExp at hu ⊢; omega
    have hL : ulpExp p emin y = Int.log 2 |y| - (p - 1) := by unfold ulpExp at hlt ⊢; omega
    have hlx : Int.log 2 |x| < Int.log 2 |y| := by unfold ulpExp at hlt; omega
    have hey : emin ≤ Int.log 2 |y| := by unfold ulpExp at hlt; omega
    have b1 : x ≤ (2 : ℚ) ^ Int.log 2 |y| := by
      have := lt_log x
      rw [abs_of_pos hx0] at this
      rw [abs_of_pos hx0] at hlx
      exact this.le.trans (zpow_le_zpow_right₀ (by norm_num) (by omega))
    have b2 : (2 : ℚ) ^ Int.log 2 |y| ≤ y := by
      have := log_le hy
      rwa [abs_of_pos hy0] at this ⊢
    generalize Int.log 2 |y| = L at *
    have grid : ∀ u : Int, u ≤ L → ∃ n : Int, (2 : ℚ) ^ L / 2 ^ u = n := by
      intro u hu'
      refine ⟨2 ^ (L - u).toNat, ?_⟩
      rw [← zpow_sub₀ (by norm_num)]
      push_cast
      rw [← zpow_natCast, Int.toNat_of_nonneg (by omega)]
    refine le_trans (b := (2 : ℚ) ^ L) ?_ ?_
    · obtain ⟨n, hn⟩ := grid (ulpExp p emin x) (by omega)
      have := rne_mono (div_le_div_of_nonneg_right b1 (two_pos (ulpExp p emin x)).le)
      rw [hn, rne_int] at this
      have h2 : (rne (x / 2 ^ ulpExp p emin x) : ℚ) ≤ n := by exact_mod_cast this
      have := mul_le_mul_of_nonneg_right h2 (two_pos (ulpExp p emin x)).le
      rwa [← hn, div_mul_cancel₀ _ (ne_of_gt (two_pos _))] at this
    · obtain ⟨n, hn⟩ := grid (ulpExp p emin y) (by omega)
      have := rne_mono (div_le_div_of_nonneg_right b2 (two_pos (ulpExp p emin y)).le)
      rw [hn, rne_int] at this
      have h2 : (n : ℚ) ≤ rne (y / 2 ^ ulpExp p emin y) := by exact_mod_cast this
      have := mul_le_mul_of_nonneg_right h2 (two_pos (ulpExp p emin y)).le
      rwa [← hn, div_mul_cancel₀ _ (ne_of_gt (two_pos _))] at this

theorem f32_mono {x y : ℚ} (h0 : 0 ≤ x) (h : x ≤ y) : f32 x ≤ f32 y := fl_mono (by norm_num) h0 h
theorem f64_mono {x y : ℚ} (h0 : 0 ≤ x) (h : x ≤ y) : f64 x ≤ f64 y := fl_mono (by norm_num) h0 h
theorem f32_nonneg {x : ℚ} (h : 0 ≤ x) : 0 ≤ f32 x := fl_nonneg h
theorem f64_nonpos {x : ℚ} (h : x ≤ 0) : f64 x ≤ 0 := by
  unfold f64 fl
  split
  · exact le_rfl
  · refine mul_nonpos_of_nonpos_of_nonneg ?_ (two_pos _).le
    have := rne_mono (div_nonpos_of_nonpos_of_nonneg h (two_pos (ulpExp 53 (-1022) x)).le)
    rw [show rne 0 = 0 from by exact_mod_cast rne_int 0] at this
    exact_mod_cast this
theorem f64_nonneg {x : ℚ} (h : 0 ≤ x) : 0 ≤ f64 x := fl_nonneg h

/-- a `float` divided by a power of two is a `double` -/
theorem f64_half (x : ℚ) : f64 (f32 x / 2) = f32 x / 2 := by
  obtain ⟨m, k, h, h1, h2⟩ := fl_grid (p := 24) (by norm_num) (-126) x
  have : f32 x / 2 = (m : ℚ) * 2 ^ (k - 1) := by
    unfold f32; rw [h, zpow_sub₀ (by norm_num)]; norm_num; ring
  rw [this]
  exact f64_exact (by norm_num at h1; linarith) (by norm_num at h2; linarith)

/-- the square of a `float` is a `double` -/
theorem f64_square (x : ℚ) : f64 (f32 x * f32 x) = f32 x * f32 x ∧ f64 (f32 x * f32 x / 4) = f32 x * f32 x / 4 := by
  obtain ⟨m, k, h, h1, h2⟩ := fl_grid (p := 24) (by norm_num) (-126) x
  have e1 : f32 x * f32 x = ((m * m : Int) : ℚ) * 2 ^ (k + k) := by
    unfold f32; rw [h, zpow_add₀ (by norm_num)]; push_cast; ring
  have e2 : f32 x * f32 x / 4 = ((m * m : Int) : ℚ) * 2 ^ (k + k - 2) := by
    rw [e1, zpow_sub₀ (by norm_num)]; norm_num; ring
  have hm : |m * m| ≤ 9007199254740992 := by
    rw [abs_mul]
    norm_num at h1
    have := mul_le_mul h1 h1 (abs_nonneg m) (by norm_num)
    exact this.trans (by norm_num)
  norm_num at h2
  rw [e1, ← e1, e2, e1]
  exact ⟨f64_exact hm (by omega), f64_exact hm (by omega)⟩

end Verif.Fp
