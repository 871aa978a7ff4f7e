import Verif.Spec.NmeaMath
import Mathlib.Analysis.SpecialFunctions.Pow.Real
/-
A library that is as accurate as required exists: roots rounded down to 60 bits, the other functions to some rational number close enough.
-/
namespace Verif.Nmea
open Verif.Nmea.Spec

/-- rounded down to 61 significant bits -/
noncomputable def down (t : ℝ) : ℚ := if t ≤ 0 then 0 else (⌊t * 2 ^ (60 - Int.log 2 t)⌋ : ℚ) * 2 ^ (Int.log 2 t - 60)

theorem two_inv (e : Int) : (2 : ℝ) ^ (60 - e) * 2 ^ (e - 60) = 1 := by
  rw [← zpow_add₀ (by norm_num), show 60 - e + (e - 60) = 0 by ring, zpow_zero]

theorem down_facts {t : ℝ} (h : 0 < t) : (down t : ℝ) ≤ t ∧ t - down t ≤ t / 2 ^ 60 ∧ (2 : ℝ) ^ Int.log 2 t ≤ down t := by
  have h1 : (2 : ℝ) ^ Int.log 2 t ≤ t := by exact_mod_cast Int.zpow_log_le_self (b := 2) (R := ℝ) (by norm_num) h
  unfold down
  rw [if_neg (not_le.2 h)]
  generalize Int.log 2 t = e at *
  have hp : (0 : ℝ) < 2 ^ (e - 60) := zpow_pos (by norm_num) _
  have hq : (0 : ℝ) < 2 ^ (60 - e) := zpow_pos (by norm_num) _
  have hi := two_inv e
  have f1 := Int.floor_le (t * 2 ^ (60 - e))
  have f2 := Int.lt_floor_add_one (t * 2 ^ (60 - e))
  have et : t = t * 2 ^ (60 - e) * 2 ^ (e - 60) := by rw [mul_assoc, hi, mul_one]
  push_cast
  refine ⟨?_, ?_, ?_⟩
  · have := mul_le_mul_of_nonneg_right f1 hp.le
    rwa [← et] at this
  · have h2 := mul_le_mul_of_nonneg_right f2.le hp.le
    rw [← et, add_mul, one_mul] at h2
    have h3 : (2 : ℝ) ^ (e - 60) ≤ t / 2 ^ 60 := by
      rw [zpow_sub₀ (by norm_num)]
      exact div_le_div_of_nonneg_right h1 (by positivity)
    linarith
  · have h4 : (2 : ℤ) ^ 60 ≤ ⌊t * 2 ^ (60 - e)⌋ := by
      apply Int.le_floor.2
      push_cast
      have := mul_le_mul_of_nonneg_right h1 hq.le
      rw [← zpow_add₀ (by norm_num), show e + (60 - e) = 60 by ring] at this
      exact_mod_cast this
    have h5 : (2 : ℝ) ^ 60 ≤ (⌊t * 2 ^ (60 - e)⌋ : ℝ) := by exact_mod_cast h4
    have := mul_le_mul_of_nonneg_right h5 hp.le
    refine le_trans (le_of_eq ?_) this
    rw [zpow_sub₀ (by norm_num)]
    have : (2 : ℝ) ^ (60 : Int) = 2 ^ 60 := by exact_mod_cast rfl
    rw [this]; field_simp

theorem down_mono {s t : ℝ} (h0 : 0 ≤ s) (h : s ≤ t) : down s ≤ down t := by
  rcases eq_or_lt_of_le h0 with rfl | hs
  · have : down 0 = 0 := by unfold down; simp
    rw [this]
    unfold down
    split
    · exact le_rfl
    · rename_i ht
      rw [not_le] at ht
      have : 0 ≤ ⌊t * 2 ^ (60 - Int.log 2 t)⌋ := Int.floor_nonneg.2 (mul_nonneg ht.le (zpow_nonneg (by norm_num) _))
      exact mul_nonneg (by exact_mod_cast this) (zpow_nonneg (by norm_num) _)
  have ht : 0 < t := lt_of_lt_of_le hs h
  rcases eq_or_lt_of_le (Int.log_mono_right (b := 2) hs h) with he | he
  · unfold down
    rw [if_neg (not_le.2 hs), if_neg (not_le.2 ht), he]
    apply mul_le_mul_of_nonneg_right _ (zpow_nonneg (by norm_num) _)
    exact_mod_cast Int.floor_mono (mul_le_mul_of_nonneg_right h (zpow_nonneg (by norm_num) _))
  · have a := (down_facts hs).1
    have b := (down_facts ht).2.2
    have c : s < (2 : ℝ) ^ (Int.log 2 s + 1) := by exact_mod_cast Int.lt_zpow_succ_log_self (b := 2) (R := ℝ) (by norm_num) s
    have d : (2 : ℝ) ^ (Int.log 2 s + 1) ≤ 2 ^ Int.log 2 t := zpow_le_zpow_right₀ (by norm_num) (by omega)
    have : (down s : ℝ) ≤ down t := by linarith
    exact_mod_cast this

theorem near_rat (x : ℝ) {ε : ℝ} (h : 0 < ε) : ∃ q : ℚ, |(q : ℝ) - x| ≤ ε := by
  obtain ⟨q, hq⟩ := exists_rat_near x h
  exact ⟨q, by rw [abs_sub_comm]; exact hq.le⟩

theorem accurate_exists : ∃ m, Accurate m := by
  have hf : ∀ x : ℚ, ∃ q : ℚ, 0 ≤ x → |(q : ℝ) - √x| ≤ √x / 2 ^ 23 := by
    intro x
    rcases eq_or_lt_of_le (Real.sqrt_nonneg (x : ℝ)) with h | h
    · exact ⟨0, fun _ => by rw [← h]; simp⟩
    · obtain ⟨q, hq⟩ := near_rat √(x : ℝ) (ε := √x / 2 ^ 23) (by positivity)
      exact ⟨q, fun _ => hq⟩
  choose sf hsf using hf
  choose at1 hat1 using fun x : ℚ => near_rat (Real.arctan x) (ε := 1 / 2 ^ 50) (by positivity)
  choose at2 hat2 using fun y x : ℚ => near_rat (Complex.arg ⟨x, y⟩) (ε := 1 / 2 ^ 50) (by positivity)
  obtain ⟨r, hr⟩ := near_rat (180 / Real.pi) (ε := 1 / 2 ^ 46) (by positivity)
  refine ⟨⟨fun x => down √(x : ℝ), sf, at1, at2, r⟩, ?_, ?_, ?_, hsf, hat1, hat2, hr⟩
  · intro x hx
    rcases eq_or_lt_of_le (Real.sqrt_nonneg (x : ℝ)) with h | h
    · show |(down √(x : ℝ) : ℝ) - √(x : ℝ)| ≤ _
      rw [← h]
      have : down 0 = 0 := by unfold down; simp
      rw [this]; simp
    · obtain ⟨a, b, -⟩ := down_facts h
      show |(down √(x : ℝ) : ℝ) - √(x : ℝ)| ≤ _
      generalize √(x : ℝ) = s at *
      rw [abs_le]
      norm_num at b ⊢
      constructor <;> linarith
  · intro x y h0 h
    exact down_mono (Real.sqrt_nonneg _) (Real.sqrt_le_sqrt (by exact_mod_cast h))
  · intro x h0 _
    show down √((x / 2 * (x / 2) : ℚ) : ℝ) ≤ x / 2
    have hx : (0 : ℝ) ≤ (x : ℝ) / 2 := by have : (0 : ℝ) ≤ x := by exact_mod_cast h0
                                          positivity
    have e : √((x / 2 * (x / 2) : ℚ) : ℝ) = (x : ℝ) / 2 := by push_cast; exact Real.sqrt_mul_self hx
    rw [e]
    rcases eq_or_lt_of_le hx with h | h
    · rw [← h]
      have : down 0 = 0 := by unfold down; simp
      rw [this]; linarith
    · have := (down_facts h).1
      have : ((down ((x : ℝ) / 2) : ℚ) : ℝ) ≤ ((x / 2 : ℚ) : ℝ) := by push_cast; exact this
      exact_mod_cast this

end Verif.Nmea
