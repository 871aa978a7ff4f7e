import Verif.Spec.EphStream
import Verif.Props.C50
namespace Verif.EphStream
open Verif.EphSbp Verif.EphSbp.Spec Verif.Time Verif.Fp Verif.EphStream.Spec

/-! ### rounding to a field and back -/

theorem round_base {z y : ℚ} {B : Int} (h : |z - y| ≤ 1 / 10000) (hy : |y| ≤ B + 1 / 1000) :
    |cround z| ≤ B ∧ |(cround z : ℚ) - y| ≤ 1 / 2 + 1 / 10000 := by
  have a := cround_abs z
  have h1 : |(cround z : ℚ) - y| ≤ 1 / 2 + 1 / 10000 := by
    have := abs_add_le ((cround z : ℚ) - z) (z - y)
    rw [sub_add_sub_cancel] at this
    linarith
  refine ⟨?_, h1⟩
  have h2 := abs_add_le ((cround z : ℚ) - y) y
  rw [sub_add_cancel] at h2
  have h3 : ((|cround z| : Int) : ℚ) < ((B + 1 : Int) : ℚ) := by
    push_cast
    linarith
  have : |cround z| < B + 1 := by exact_mod_cast h3
  omega

theorem round_nonneg {z y : ℚ} (h : |z - y| ≤ 1 / 10000) (hy : 0 ≤ y) : 0 ≤ cround z := by
  have a := (cround_bounds z).1
  rw [abs_le] at h
  have h3 : ((-1 : Int) : ℚ) < cround z := by push_cast; linarith
  have : (-1 : Int) < cround z := by exact_mod_cast h3
  omega

theorem f64_small {y : ℚ} (hy : |y| ≤ 4294967296) : |f64 y - y| ≤ 1 / 100000 := by
  have h := f64_err y
  have h2 : |y| / 9007199254740992 ≤ 1 / 200000 := by rw [div_le_iff₀ (by norm_num)]; linarith
  have h3 : (1 : ℚ) / 2 ^ 200 ≤ 1 / 200000 := by norm_num
  linarith

theorem unit_pos (n : Nat) : (0 : ℚ) < 2 ^ n := by positivity

/-- a linear field -/
theorem lin {n b : Nat} {x : ℚ} (hb : b ≤ 32) (h : Fits b n x) :
    |unsc n x| ≤ 2 ^ (b - 1) - 1 ∧ Near n x ((unsc n x : ℚ) / 2 ^ n) := by
  unfold Fits at h
  have hp := unit_pos n
  rw [le_div_iff₀ hp] at h
  have e : x / 2 ^ (-(n : Int)) = x * 2 ^ n := by rw [zpow_neg, zpow_natCast, div_inv_eq_mul]
  have hB : |x * 2 ^ n| ≤ ((2 ^ (b - 1) - 1 : Int) : ℚ) := by
    rw [abs_mul, abs_of_pos hp]; push_cast; exact h
  have hB2 : |x * 2 ^ n| ≤ 4294967296 := by
    have : (2 : ℚ) ^ (b - 1) ≤ 2 ^ 32 := pow_le_pow_right₀ (by norm_num) (by omega)
    push_cast at hB
    linarith
  obtain ⟨r1, r2⟩ := round_base (z := f64 (x * 2 ^ n)) (y := x * 2 ^ n) (B := 2 ^ (b - 1) - 1) ((f64_small hB2).trans (by norm_num))
    (by linarith)
  unfold unsc
  rw [e]
  refine ⟨r1, ?_⟩
  unfold Near half
  have e2 : (cround (f64 (x * 2 ^ n)) : ℚ) / 2 ^ n - x = ((cround (f64 (x * 2 ^ n)) : ℚ) - x * 2 ^ n) / 2 ^ n := by
    field_simp
  rw [e2, abs_div, abs_of_pos hp]
  apply div_le_div_of_nonneg_right _ hp.le
  linarith

/-- an unsigned field -/
theorem linU {n b : Nat} {x : ℚ} (hb : b ≤ 32) (h : FitsU b n x) :
    (unsc n x).toNat < 2 ^ b ∧ Near n x (((unsc n x).toNat : ℚ) / 2 ^ n) := by
  obtain ⟨h0, h1⟩ := h
  have hf : Fits (b + 1) n x := by
    unfold Fits
    rw [abs_of_nonneg h0]; exact h1
  have hp := unit_pos n
  rw [le_div_iff₀ hp] at h1
  have e : x / 2 ^ (-(n : Int)) = x * 2 ^ n := by rw [zpow_neg, zpow_natCast, div_inv_eq_mul]
  have hy0 : 0 ≤ x * 2 ^ n := by positivity
  have hB2 : |x * 2 ^ n| ≤ 4294967296 := by
    have : (2 : ℚ) ^ b ≤ 2 ^ 32 := pow_le_pow_right₀ (by norm_num) (by omega)
    rw [abs_of_nonneg hy0]
    linarith
  have hs : |f64 (x * 2 ^ n) - x * 2 ^ n| ≤ 1 / 10000 := (f64_small hB2).trans (by norm_num)
  obtain ⟨r1, r2⟩ := round_base (z := f64 (x * 2 ^ n)) (y := x * 2 ^ n) (B := 2 ^ b - 1) hs (by
    rw [abs_of_nonneg hy0]; push_cast; linarith)
  have r3 := round_nonneg hs hy0
  unfold unsc
  rw [e]
  have r4 := (abs_le.1 r1).2
  constructor
  · have : ((cround (f64 (x * 2 ^ n))).toNat : Int) < 2 ^ b := by rw [Int.toNat_of_nonneg r3]; omega
    exact_mod_cast this
  · unfold Near half
    have e3 : (((cround (f64 (x * 2 ^ n))).toNat : Nat) : ℚ) = cround (f64 (x * 2 ^ n)) := by
      have := Int.toNat_of_nonneg r3
      exact_mod_cast congrArg (Int.cast (R := ℚ)) this
    rw [e3]
    have e2 : (cround (f64 (x * 2 ^ n)) : ℚ) / 2 ^ n - x = ((cround (f64 (x * 2 ^ n)) : ℚ) - x * 2 ^ n) / 2 ^ n := by
      field_simp
    rw [e2, abs_div, abs_of_pos hp]
    apply div_le_div_of_nonneg_right _ hp.le
    linarith

theorem angle_unit (n : Nat) (hn : n ≤ 50) : f64 ((2 : ℚ) ^ (-(n : Int)) * mPi) = mPi / 2 ^ n := by
  have e : (2 : ℚ) ^ (-(n : Int)) * mPi = ((884279719003555 : Int) : ℚ) * 2 ^ (-(n : Int) - 48) := by
    unfold mPi
    rw [zpow_sub₀ (by norm_num)]
    norm_num
    ring
  rw [e, f64_exact (by norm_num) (by omega), ← e, zpow_neg, zpow_natCast]
  ring

theorem mPi_le : (mPi : ℝ) ≤ Real.pi := by
  have := Real.pi_gt_d20
  unfold mPi
  push_cast
  norm_num at this ⊢
  linarith

/-- an angle -/
theorem ang {n b : Nat} {x : ℚ} (hb : b ≤ 32) (hn : n ≤ 50) (h : FitsAngle b n x) :
    |unscA n x| ≤ 2 ^ (b - 1) - 1 ∧ NearAngle n x (scA n (unscA n x)) := by
  have hp := unit_pos n
  have hc : 0 < mPi / 2 ^ n := div_pos mPi_pos hp
  have hpow : (2 : ℚ) ^ (b - 1) ≤ 2 ^ 31 := pow_le_pow_right₀ (by norm_num) (by omega)
  have hpow1 : (1 : ℚ) ≤ 2 ^ (b - 1) := one_le_pow₀ (by norm_num)
  -- the angle in units
  have hy : |x / (mPi / 2 ^ n)| ≤ (2 ^ (b - 1) - 1 : ℚ) + 1 / 1000 := by
    rw [abs_div, abs_of_pos hc, div_le_iff₀ hc]
    have hR : ((|x| : ℚ) : ℝ) ≤ (((2 ^ (b - 1) - 1 + 1 / 1000) * (mPi / 2 ^ n) : ℚ) : ℝ) := by
      unfold FitsAngle at h
      push_cast
      refine h.trans ?_
      have hpi : Real.pi ≤ (mPi : ℝ) + 1 / 10 ^ 15 := by
        have := (abs_le.1 mPi_near).1; linarith
      have hm3 : (3 : ℝ) ≤ (mPi : ℝ) := by
        have : (3 : ℚ) ≤ mPi := by unfold mPi; norm_num
        exact_mod_cast this
      have hpR : (0 : ℝ) < 2 ^ n := by positivity
      have e : ((2 : ℝ) ^ (b - 1) - 1) / 2 ^ n * Real.pi = ((2 ^ (b - 1) - 1) * Real.pi) / 2 ^ n := by ring
      have e2 : ((2 : ℝ) ^ (b - 1) - 1 + 1 / 1000) * ((mPi : ℝ) / 2 ^ n) = ((2 ^ (b - 1) - 1 + 1 / 1000) * (mPi : ℝ)) / 2 ^ n := by ring
      rw [e, e2]
      apply div_le_div_of_nonneg_right _ hpR.le
      have hpowR : (2 : ℝ) ^ (b - 1) ≤ 2 ^ 31 := pow_le_pow_right₀ (by norm_num) (by omega)
      have hpowR1 : (1 : ℝ) ≤ 2 ^ (b - 1) := one_le_pow₀ (by norm_num)
      generalize (2 : ℝ) ^ (b - 1) = P at *
      have h1 : (P - 1) * Real.pi ≤ (P - 1) * ((mPi : ℝ) + 1 / 10 ^ 15) := mul_le_mul_of_nonneg_left hpi (by linarith)
      have h2 : (P - 1) * (1 / 10 ^ 15 : ℝ) ≤ 1 / 1000 * 3 := by
        have : (P - 1) * (1 / 10 ^ 15 : ℝ) ≤ 2 ^ 31 * (1 / 10 ^ 15) := mul_le_mul_of_nonneg_right (by linarith) (by norm_num)
        exact this.trans (by norm_num)
      nlinarith
    exact_mod_cast hR
  have hy2 : |x / (mPi / 2 ^ n)| ≤ 4294967296 := by linarith
  obtain ⟨r1, r2⟩ := round_base (z := f64 (x / (mPi / 2 ^ n))) (y := x / (mPi / 2 ^ n)) (B := 2 ^ (b - 1) - 1)
    ((f64_small hy2).trans (by norm_num)) (by push_cast; linarith)
  have hu : unscA n x = cround (f64 (x / (mPi / 2 ^ n))) := by unfold unscA; rw [angle_unit n hn]
  rw [hu]
  refine ⟨r1, ?_⟩
  generalize hk : cround (f64 (x / (mPi / 2 ^ n))) = k at *
  have hk2 : |k| ≤ 4294967296 := by
    have : ((2 : Int) ^ (b - 1)) ≤ 2 ^ 31 := pow_le_pow_right₀ (by norm_num) (by omega)
    omega
  have hs := scA_near n k hn hk2
  have e0 : (k : ℚ) * (2 ^ (-(n : Int)) * mPi) = k * (mPi / 2 ^ n) := by rw [zpow_neg, zpow_natCast]; ring
  rw [e0, abs_mul, abs_of_pos hc] at hs
  have hkq : |(k : ℚ)| ≤ 4294967296 := by exact_mod_cast hk2
  generalize hcc : mPi / 2 ^ n = c at *
  have hc60 : (1 : ℚ) / 2 ^ 60 ≤ c := by
    rw [← hcc, div_le_div_iff₀ (by positivity) hp, one_mul]
    have h1 : (2 : ℚ) ^ n ≤ 2 ^ 50 := pow_le_pow_right₀ (by norm_num) hn
    have h2 : (1 : ℚ) ≤ mPi := by unfold mPi; norm_num
    nlinarith [unit_pos 60]
  -- rational bound
  have hq : |scA n k - x| ≤ (1 / 2 + 1 / 2000) * c := by
    have t1 : |(k : ℚ) * c - x| ≤ (1 / 2 + 1 / 10000) * c := by
      have e : (k : ℚ) * c - x = (k - x / c) * c := by field_simp
      rw [e, abs_mul, abs_of_pos hc]
      exact mul_le_mul_of_nonneg_right r2 hc.le
    have t2 : |(k : ℚ)| * c / 9007199254740992 ≤ 1 / 10000 * c := by
      rw [div_le_iff₀ (by norm_num)]
      nlinarith
    have t3 : (1 : ℚ) / 2 ^ 200 ≤ 1 / 10000 * c := by
      have : (1 : ℚ) / 10000 * (1 / 2 ^ 60) ≤ 1 / 10000 * c := mul_le_mul_of_nonneg_left hc60 (by norm_num)
      refine le_trans ?_ this
      norm_num
    have t4 := abs_add_le (scA n k - k * c) (k * c - x)
    rw [sub_add_sub_cancel] at t4
    linarith
  have hqR : ((|scA n k - x| : ℚ) : ℝ) ≤ (((1 / 2 + 1 / 2000) * c : ℚ) : ℝ) := by exact_mod_cast hq
  push_cast at hqR
  unfold NearAngle half
  refine hqR.trans ?_
  have hcR : (c : ℝ) ≤ Real.pi / 2 ^ n := by
    rw [← hcc]; push_cast
    exact div_le_div_of_nonneg_right mPi_le (by positivity)
  have hc0R : (0 : ℝ) < c := by exact_mod_cast hc
  push_cast
  have e3 : ((1 : ℝ) / 2 + 1 / 1000) * Real.pi / 2 ^ n = (1 / 2 + 1 / 1000) * (Real.pi / 2 ^ n) := by ring
  rw [e3]
  nlinarith

theorem near_unit {n : Nat} {x y : ℚ} (h : Near n x y) : NearUnit (1 / 2 ^ n) x y := by
  unfold NearUnit; unfold Near at h
  rw [mul_one_div]; exact h
theorem fits_unit {n b : Nat} {x : ℚ} (h : FitsUnit b (1 / 2 ^ n) x) : Fits b n x := by
  unfold Fits; unfold FitsUnit at h
  rw [mul_one_div] at h; exact h

/-- a BeiDou group delay -/
theorem delayT {x : ℚ} (h : FitsUnit 10 (1 / 10 ^ 10) x) :
    |unscT x| ≤ 511 ∧ NearUnit (1 / 10 ^ 10) x (scT (unscT x)) := by
  unfold FitsUnit at h
  have hT : |tenth10 - 1 / 10 ^ 10| ≤ 1 / 10 ^ 24 := by decide +kernel
  have hT0 : 0 < tenth10 := by decide +kernel
  norm_num at h
  have hx : |x| ≤ 511 / 10 ^ 10 := by norm_num; linarith
  rw [abs_le] at hT
  have hy : |x / tenth10| ≤ 511 + 1 / 1000 := by
    rw [abs_div, abs_of_pos hT0, div_le_iff₀ hT0]
    nlinarith [hT.1]
  obtain ⟨r1, r2⟩ := round_base (z := f64 (x / tenth10)) (y := x / tenth10) (B := 511) ((f64_small (by linarith)).trans (by norm_num))
    (by push_cast; linarith)
  have hu : unscT x = cround (f64 (x / tenth10)) := rfl
  rw [hu]
  refine ⟨r1, ?_⟩
  generalize cround (f64 (x / tenth10)) = k at *
  have hk := abs_le.1 r1
  have hs := (scT_ok k (by omega)).2
  have hkq : |(k : ℚ)| ≤ 511 := by exact_mod_cast r1
  unfold NearUnit half
  have t1 : |(k : ℚ) * tenth10 - x| ≤ (1 / 2 + 1 / 10000) * tenth10 := by
    have e : (k : ℚ) * tenth10 - x = (k - x / tenth10) * tenth10 := by field_simp
    rw [e, abs_mul, abs_of_pos hT0]
    exact mul_le_mul_of_nonneg_right r2 hT0.le
  have t2 : |(k : ℚ) * (1 / 10 ^ 10) - k * tenth10| ≤ 511 / 10 ^ 24 := by
    rw [← mul_sub, abs_mul]
    have : |(1 : ℚ) / 10 ^ 10 - tenth10| ≤ 1 / 10 ^ 24 := by rw [abs_sub_comm]; exact abs_le.2 hT
    calc |(k : ℚ)| * |1 / 10 ^ 10 - tenth10| ≤ 511 * (1 / 10 ^ 24) := mul_le_mul hkq this (abs_nonneg _) (by norm_num)
      _ = 511 / 10 ^ 24 := by norm_num
  have t3 : |(k : ℚ) * (1 / 10 ^ 10)| / 10 ^ 7 ≤ 511 / 10 ^ 17 := by
    rw [abs_mul, abs_of_pos (a := (1 : ℚ) / 10 ^ 10) (by norm_num)]
    rw [div_le_iff₀ (by norm_num)]
    norm_num; linarith
  have t4 := abs_sub_le (scT k) (k * (1 / 10 ^ 10)) x
  have t5 := abs_sub_le ((k : ℚ) * (1 / 10 ^ 10)) (k * tenth10) x
  have t6 : (1 / 2 + 1 / 10000) * tenth10 ≤ (1 / 2 + 1 / 10000) * (1 / 10 ^ 10 + 1 / 10 ^ 24) :=
    mul_le_mul_of_nonneg_left (by linarith [hT.2]) (by norm_num)
  have t7 : (1 / 2 + 1 / 10000) * ((1 : ℚ) / 10 ^ 10 + 1 / 10 ^ 24) + 511 / 10 ^ 24 + 511 / 10 ^ 17 ≤ (1 / 2 + 1 / 1000) * (1 / 10 ^ 10) := by norm_num
  linarith

/-- a GLONASS coordinate -/
theorem coord {n b : Nat} {x : ℚ} (hb : b ≤ 27) (h : FitsUnit b (1000 / 2 ^ n) x) :
    |unscK n x| ≤ 2 ^ (b - 1) - 1 ∧ NearUnit (1000 / 2 ^ n) x ((unscK n x : ℚ) * 1000 / 2 ^ n) := by
  have hp := unit_pos n
  have hc : (0 : ℚ) < 1000 / 2 ^ n := by positivity
  unfold FitsUnit at h
  have e : x / 2 ^ (-(n : Int)) = x * 2 ^ n := by rw [zpow_neg, zpow_natCast, div_inv_eq_mul]
  have hpow : (2 : ℚ) ^ (b - 1) ≤ 2 ^ 26 := pow_le_pow_right₀ (by norm_num) (by omega)
  have hy : |x * 2 ^ n / 1000| ≤ 2 ^ (b - 1) - 1 := by
    rw [abs_div, abs_mul, abs_of_pos hp, abs_of_pos (a := (1000 : ℚ)) (by norm_num), div_le_iff₀ (by norm_num)]
    have := mul_le_mul_of_nonneg_right h hp.le
    have e3 : ((2 : ℚ) ^ (b - 1) - 1) * (1000 / 2 ^ n) * 2 ^ n = (2 ^ (b - 1) - 1) * 1000 := by field_simp
    rw [e3] at this
    exact this
  have hz : |f64 (f64 (x * 2 ^ n) / 1000) - x * 2 ^ n / 1000| ≤ 1 / 10000 := by
    have hy1 : |x * 2 ^ n| ≤ 2 ^ 26 * 1000 := by
      rw [abs_div, abs_of_pos (a := (1000 : ℚ)) (by norm_num), div_le_iff₀ (by norm_num)] at hy
      nlinarith
    have h1 := f64_err (x * 2 ^ n)
    have h2 : |x * 2 ^ n| / 9007199254740992 ≤ 1 / 20000 := by rw [div_le_iff₀ (by norm_num)]; norm_num at hy1 ⊢; linarith
    have h3 : (1 : ℚ) / 2 ^ 200 ≤ 1 / 20000 := by norm_num
    have h4 : |f64 (x * 2 ^ n) / 1000 - x * 2 ^ n / 1000| ≤ 1 / 20000 := by
      rw [← sub_div, abs_div, abs_of_pos (a := (1000 : ℚ)) (by norm_num), div_le_iff₀ (by norm_num)]
      norm_num at *; linarith
    have h5 : |f64 (x * 2 ^ n) / 1000| ≤ 4294967296 := by
      have := abs_add_le (f64 (x * 2 ^ n) / 1000 - x * 2 ^ n / 1000) (x * 2 ^ n / 1000)
      rw [sub_add_cancel] at this
      norm_num at hpow
      linarith
    have h6 := f64_small h5
    have h7 := abs_sub_le (f64 (f64 (x * 2 ^ n) / 1000)) (f64 (x * 2 ^ n) / 1000) (x * 2 ^ n / 1000)
    linarith
  obtain ⟨r1, r2⟩ := round_base (B := 2 ^ (b - 1) - 1) hz (by push_cast; linarith)
  unfold unscK
  rw [e]
  refine ⟨r1, ?_⟩
  generalize cround (f64 (f64 (x * 2 ^ n) / 1000)) = k at *
  unfold NearUnit half
  have e2 : (k : ℚ) * 1000 / 2 ^ n - x = (k - x * 2 ^ n / 1000) * (1000 / 2 ^ n) := by field_simp
  rw [e2, abs_mul, abs_of_pos hc]
  exact mul_le_mul_of_nonneg_right (by linarith) hc.le

end Verif.EphStream
