import Verif.Model.Station
import Verif.Lemmas.Num
import Verif.Lemmas.Rounding
/-! Rounding of the lengths in the station messages. -/
namespace Verif
open Spec

/-- rounding `x * m` in `double` -/
theorem cround_f64 (x : ℚ) {m : ℚ} (hm : 1 ≤ m) :
    |(cround (Fp.f64 (x * m)) : ℚ) * (1 / m) - x| ≤ 1 / m / 2 + |x| / 2 ^ 50 + 1 / 2 ^ 150 := by
  have hp : 0 < m := by linarith
  have h1 := cround_abs (Fp.f64 (x * m))
  have h2 := Fp.f64_err (x * m)
  rw [abs_mul, abs_of_pos hp] at h2
  have e : (cround (Fp.f64 (x * m)) : ℚ) * (1 / m) - x = ((cround (Fp.f64 (x * m)) : ℚ) - Fp.f64 (x * m) + (Fp.f64 (x * m) - x * m)) / m := by
    field_simp; ring
  rw [e, abs_div, abs_of_pos hp, div_le_iff₀ hp]
  refine le_trans (abs_add_le _ _) ?_
  have e2 : (1 / m / 2 + |x| / 2 ^ 50 + 1 / 2 ^ 150) * m = 1 / 2 + |x| * m / 2 ^ 50 + m * (1 / 2 ^ 150) := by
    field_simp
  rw [e2]
  have hx : 0 ≤ |x| * m := by positivity
  have h3 : (1 / 2 ^ 200 : ℚ) ≤ 1 / 2 ^ 150 := by norm_num
  have h4 : (1 / 2 ^ 150 : ℚ) ≤ m * (1 / 2 ^ 150) := by
    have : (0 : ℚ) < 1 / 2 ^ 150 := by positivity
    nlinarith
  have h5 : |x| * m / 9007199254740992 ≤ |x| * m / 2 ^ 50 := by
    apply div_le_div_of_nonneg_left hx (by norm_num) (by norm_num)
  generalize (1 / 2 ^ 200 : ℚ) = a at *
  generalize m * (1 / 2 ^ 150 : ℚ) = b at *
  generalize (1 / 2 ^ 150 : ℚ) = c at *
  linarith

theorem rounded_f64 (x : ℚ) : Rounded (Fp.f64 x) x := by
  have h := Fp.f64_err x
  unfold Rounded
  have h5 : |x| / 9007199254740992 ≤ |x| / 2 ^ 50 := by
    apply div_le_div_of_nonneg_left (abs_nonneg x) (by norm_num) (by norm_num)
  have h3 : (1 / 2 ^ 200 : ℚ) ≤ 1 / 2 ^ 150 := by norm_num
  linarith

theorem nonneg_f64 {x : ℚ} (h : 0 ≤ x) : 0 ≤ Fp.f64 x := by
  unfold Fp.f64 Fp.fl
  split
  · exact le_rfl
  · have h1 : 0 ≤ Fp.rne (x / 2 ^ Fp.ulpExp 53 (-1022) x) := by
      have : 0 ≤ ⌊x / 2 ^ Fp.ulpExp 53 (-1022) x⌋ := Int.floor_nonneg.mpr (div_nonneg h (le_of_lt (Fp.two_pos _)))
      unfold Fp.rne; split_ifs <;> omega
    exact mul_nonneg (by exact_mod_cast h1) (le_of_lt (Fp.two_pos _))

/-- a coordinate on the wire -/
theorem quant_mm (x : ℚ) : Quant (1 / 10000) x (ofTenthMm (toTenthMm x)) := by
  refine ⟨toTenthMm x, ?_, cround_f64 x (by norm_num)⟩
  unfold ofTenthMm
  rw [mul_one_div]
  exact rounded_f64 _

theorem two_cm : Fp.f64 (2 / 100) = 5764607523034235 / 288230376151711744 := by decide +kernel

theorem ofTwoCm_rounded (t : ℤ) : Rounded (ofTwoCm t) ((t : ℚ) * (1 / 50)) := by
  unfold ofTwoCm
  rw [two_cm]
  have h := Fp.f64_err ((t : ℚ) * (5764607523034235 / 288230376151711744))
  unfold Rounded
  have e : (Fp.f64 ((t : ℚ) * (5764607523034235 / 288230376151711744))) - (t : ℚ) * (1 / 50) =
      (Fp.f64 ((t : ℚ) * (5764607523034235 / 288230376151711744)) - (t : ℚ) * (5764607523034235 / 288230376151711744)) +
      (t : ℚ) * (3 / 7205759403792793600) := by ring
  rw [e]
  refine le_trans (abs_add_le _ _) ?_
  rw [abs_mul] at h ⊢
  rw [abs_mul]
  have ht := abs_nonneg (t : ℚ)
  rw [abs_of_pos (show (0 : ℚ) < 5764607523034235 / 288230376151711744 by norm_num)] at h
  rw [abs_of_pos (show (0 : ℚ) < 3 / 7205759403792793600 by norm_num), abs_of_pos (show (0 : ℚ) < 1 / 50 by norm_num)]
  have h3 : (1 / 2 ^ 200 : ℚ) ≤ 1 / 2 ^ 150 := by norm_num
  generalize (1 / 2 ^ 200 : ℚ) = a at *
  generalize (1 / 2 ^ 150 : ℚ) = c at *
  linarith

/-- a coordinate that is the `double` nearest to a multiple of 0.1 mm is transmitted exactly -/
theorem tenthMm_exact {k : ℤ} (hk : |k| ≤ 2 ^ 40) : toTenthMm (ofTenthMm k) = k := by
  apply cround_near
  unfold ofTenthMm
  have hq : |((k : ℤ) : ℚ)| ≤ 2 ^ 40 := by exact_mod_cast hk
  have h := (((Fp.Rel.refl ((k : ℚ) / 10000)).rnd (by norm_num)).mul 10000).rnd (by norm_num)
  rw [div_mul_cancel₀ _ (by norm_num : (10000 : ℚ) ≠ 0)] at h
  refine lt_of_le_of_lt (h.abs hq) ?_
  norm_num

/-- a coordinate within the field is not cut -/
theorem tenthMm_range {x : ℚ} {n : ℤ} (h : |x| * 10000 ≤ n) (hn : n ≤ 2 ^ 40) : |toTenthMm x| ≤ n := by
  have h1 := cround_abs (Fp.f64 (x * 10000))
  have h2 := Fp.f64_err (x * 10000)
  rw [abs_mul, abs_of_pos (show (0 : ℚ) < 10000 by norm_num)] at h2
  have hnq : (n : ℚ) ≤ 2 ^ 40 := by exact_mod_cast hn
  have h3 : |(toTenthMm x : ℚ)| < n + 1 := by
    have hx : |x * 10000| ≤ n := by rw [abs_mul, abs_of_pos (show (0 : ℚ) < 10000 by norm_num)]; exact h
    have h3 : (1 / 2 ^ 200 : ℚ) ≤ 1 / 16 := by norm_num
    generalize (1 / 2 ^ 200 : ℚ) = a at *
    unfold toTenthMm
    rw [abs_le] at h1 h2 hx
    rw [abs_lt]
    constructor <;> linarith [h1.1, h1.2, h2.1, h2.2, hx.1, hx.2]
  have : |toTenthMm x| < n + 1 := by exact_mod_cast h3
  omega
end Verif
