import Verif.Spec.EphSbp
import Verif.Lemmas.Float
import Verif.Lemmas.Num
namespace Verif.EphSbp
open Verif.Fp Verif.EphSbp.Spec Verif.Time

theorem scD_eq (n : Nat) (x : Int) (hn : n ≤ 100) (hx : |x| ≤ 9007199254740992) : scD n x = (x : ℚ) / 2 ^ n := by
  unfold scD
  rw [f64_exact hx (by omega), zpow_neg, zpow_natCast, div_eq_mul_inv]

theorem scF_eq (n : Nat) (x : Int) (hn : n ≤ 100) (hx : |x| ≤ 16777216) : scF n x = (x : ℚ) / 2 ^ n := by
  unfold scF
  rw [f64_exact (by omega) (by omega), f32_exact hx (by omega), zpow_neg, zpow_natCast, div_eq_mul_inv]

theorem f64_int (x : Int) (hx : |x| ≤ 9007199254740992) : f64 (x : ℚ) = x := by
  have := f64_exact (k := 0) hx (by omega)
  simpa using this

theorem unsc_eq (n : Nat) (x : Int) (hx : |x| ≤ 9007199254740992) : unsc n ((x : ℚ) / 2 ^ n) = x := by
  unfold unsc
  have e : (x : ℚ) / 2 ^ n / 2 ^ (-(n : Int)) = x := by
    rw [zpow_neg, zpow_natCast]
    field_simp
  rw [e, f64_int x hx, cround_int]

theorem unsc_scF (n : Nat) (x : Int) (hn : n ≤ 100) (hx : |x| ≤ 16777216) : unsc n (scF n x) = x := by
  rw [scF_eq n x hn hx, unsc_eq n x (by omega)]
theorem unsc_scD (n : Nat) (x : Int) (hn : n ≤ 100) (hx : |x| ≤ 9007199254740992) : unsc n (scD n x) = x := by
  rw [scD_eq n x hn hx, unsc_eq n x hx]

theorem cround_near {y : ℚ} {x : Int} (h : |y - x| < 1 / 2) : cround y = x := by
  rw [abs_lt] at h
  have b := cround_bounds y
  have h1 : ((x - 1 : Int) : ℚ) < cround y := by push_cast; linarith [b.1, h.1]
  have h2 : ((cround y : Int) : ℚ) < ((x + 1 : Int) : ℚ) := by push_cast; linarith [b.2, h.2]
  have h1' : x - 1 < cround y := by exact_mod_cast h1
  have h2' : cround y < x + 1 := by exact_mod_cast h2
  omega

/-- scaling by `c`, rounding with relative error `r`, and unscaling -/
theorem back_near (c y : ℚ) (x : Int) (hc : 1 / 2 ^ 60 ≤ c) (hx : |x| ≤ 4294967296)
    (hy : |y - x * c| ≤ |(x : ℚ) * c| / 10 ^ 15 + 1 / 2 ^ 100) : cround (f64 (y / c)) = x := by
  have hc0 : 0 < c := lt_of_lt_of_le (by positivity) hc
  have hxq : |(x : ℚ)| ≤ 4294967296 := by exact_mod_cast hx
  have h1 : |y / c - x| ≤ 1 / 100000 := by
    have e : y / c - x = (y - x * c) / c := by field_simp
    rw [e, abs_div, abs_of_pos hc0, div_le_iff₀ hc0]
    rw [abs_mul, abs_of_pos hc0] at hy
    have h2 : |(x : ℚ)| * c / 10 ^ 15 ≤ 4294967296 * c / 10 ^ 15 := by
      apply div_le_div_of_nonneg_right _ (by norm_num)
      exact mul_le_mul_of_nonneg_right hxq hc0.le
    have h3 : (1 : ℚ) / 2 ^ 100 ≤ 1 / 2 ^ 40 * c := by
      have : (1 : ℚ) / 2 ^ 40 * (1 / 2 ^ 60) ≤ 1 / 2 ^ 40 * c := mul_le_mul_of_nonneg_left hc (by positivity)
      calc (1 : ℚ) / 2 ^ 100 = 1 / 2 ^ 40 * (1 / 2 ^ 60) := by norm_num
        _ ≤ _ := this
    have h4 : (4294967296 : ℚ) * c / 10 ^ 15 + 1 / 2 ^ 40 * c ≤ 1 / 100000 * c := by
      have : (4294967296 : ℚ) * c / 10 ^ 15 + 1 / 2 ^ 40 * c = (4294967296 / 10 ^ 15 + 1 / 2 ^ 40) * c := by ring
      rw [this]
      exact mul_le_mul_of_nonneg_right (by norm_num) hc0.le
    linarith
  apply cround_near
  have h2 := f64_err (y / c)
  have h3 : |y / c| ≤ 4294967297 := by
    have := abs_add_le (y / c - x) x
    rw [sub_add_cancel] at this
    linarith
  have h4 : |y / c| / 9007199254740992 ≤ 1 / 100000 := by
    rw [div_le_iff₀ (by norm_num)]; linarith
  have h5 := abs_add_le (f64 (y / c) - y / c) (y / c - x)
  rw [sub_add_sub_cancel] at h5
  have h6 : (1 : ℚ) / 2 ^ 200 ≤ 1 / 100000 := by norm_num
  linarith

theorem mPi_pos : 0 < mPi := by unfold mPi; norm_num

theorem scA_near (n : Nat) (x : Int) (hn : n ≤ 50) (hx : |x| ≤ 4294967296) :
    |scA n x - x * (2 ^ (-(n : Int)) * mPi)| ≤ |(x : ℚ) * (2 ^ (-(n : Int)) * mPi)| / 9007199254740992 + 1 / 2 ^ 200 := by
  unfold scA
  rw [f64_exact (by omega) (by omega)]
  have := f64_err ((x : ℚ) * 2 ^ (-(n : Int)) * mPi)
  rw [mul_assoc] at this ⊢
  exact this

theorem unscA_scA (n : Nat) (x : Int) (hn : n ≤ 50) (hx : |x| ≤ 4294967296) : unscA n (scA n x) = x := by
  unfold unscA
  have e : f64 ((2 : ℚ) ^ (-(n : Int)) * mPi) = 2 ^ (-(n : Int)) * mPi := by
    have : (2 : ℚ) ^ (-(n : Int)) * mPi = ((884279719003555 : Int) : ℚ) * 2 ^ (-(n : Int) - 48) := by
      unfold mPi
      rw [zpow_sub₀ (by norm_num)]
      norm_num
      ring
    rw [this]
    exact f64_exact (by norm_num) (by omega)
  rw [e]
  apply back_near _ _ _ _ hx
  · refine le_trans (scA_near n x hn hx) ?_
    have h1 : (0 : ℚ) ≤ |(x : ℚ) * (2 ^ (-(n : Int)) * mPi)| := abs_nonneg _
    have h2 : |(x : ℚ) * (2 ^ (-(n : Int)) * mPi)| / 9007199254740992 ≤ |(x : ℚ) * (2 ^ (-(n : Int)) * mPi)| / 10 ^ 15 :=
      div_le_div_of_nonneg_left h1 (by norm_num) (by norm_num)
    have h3 : (1 : ℚ) / 2 ^ 200 ≤ 1 / 2 ^ 100 := by norm_num
    linarith
  · have h1 : (2 : ℚ) ^ (-(50 : Int)) ≤ 2 ^ (-(n : Int)) := zpow_le_zpow_right₀ (by norm_num) (by omega)
    have h2 : (1 : ℚ) ≤ mPi := by unfold mPi; norm_num
    have h3 : (1 : ℚ) / 2 ^ 60 ≤ 2 ^ (-(50 : Int)) := by rw [zpow_neg]; norm_num
    have h4 : (2 : ℚ) ^ (-(n : Int)) * 1 ≤ 2 ^ (-(n : Int)) * mPi := mul_le_mul_of_nonneg_left h2 (by positivity)
    rw [mul_one] at h4
    exact h3.trans (h1.trans h4)

theorem mPi_near : |(mPi : ℝ) - Real.pi| ≤ 1 / 10 ^ 15 := by
  have h1 := Real.pi_gt_d20
  have h2 := Real.pi_lt_d20
  unfold mPi
  push_cast
  rw [abs_le]
  constructor <;> norm_num at h1 h2 ⊢ <;> linarith

theorem scA_radians (n : Nat) (x : Int) (hn : n ≤ 50) (hx : |x| ≤ 4294967296) : Radians ((x : ℚ) / 2 ^ n) (scA n x) := by
  unfold Radians
  have h := scA_near n x hn hx
  have hz : (x : ℚ) * (2 ^ (-(n : Int)) * mPi) = (x : ℚ) / 2 ^ n * mPi := by
    rw [zpow_neg, zpow_natCast]; ring
  rw [hz] at h
  by_cases h0 : x = 0
  · subst h0
    have : scA n 0 = 0 := by unfold scA f64 fl; simp
    rw [this]; simp
  have hq : |(((x : ℚ) / 2 ^ n : ℚ) : ℝ)| = ((|(x : ℚ) / 2 ^ n| : ℚ) : ℝ) := by push_cast; rfl
  generalize hv : (x : ℚ) / 2 ^ n = v at *
  have hvpos : (1 : ℚ) / 2 ^ 50 ≤ |v| := by
    rw [← hv, abs_div, abs_of_pos (by positivity : (0 : ℚ) < 2 ^ n)]
    have h1 : (1 : ℚ) ≤ |(x : ℚ)| := by
      have : 1 ≤ |x| := Int.one_le_abs h0
      exact_mod_cast this
    have h2 : (2 : ℚ) ^ n ≤ 2 ^ 50 := pow_le_pow_right₀ (by norm_num) hn
    rw [div_le_div_iff₀ (by positivity) (by positivity), one_mul]
    nlinarith
  have hR : |((scA n x : ℚ) : ℝ) - (v : ℝ) * (mPi : ℝ)| ≤ |(v : ℝ)| * (mPi : ℝ) / 9007199254740992 + 1 / 2 ^ 200 := by
    have : ((|scA n x - v * mPi| : ℚ) : ℝ) ≤ ((|v * mPi| / 9007199254740992 + 1 / 2 ^ 200 : ℚ) : ℝ) := by exact_mod_cast h
    push_cast at this
    rw [abs_mul, abs_of_pos (a := (mPi : ℝ)) (by exact_mod_cast mPi_pos)] at this
    exact this
  have hvR : (1 : ℝ) / 2 ^ 50 ≤ |(v : ℝ)| := by
    have : (((1 : ℚ) / 2 ^ 50 : ℚ) : ℝ) ≤ ((|v| : ℚ) : ℝ) := by exact_mod_cast hvpos
    push_cast at this
    exact this
  have hpi := mPi_near
  have hpg := Real.pi_gt_d20
  have hm4 : (mPi : ℝ) ≤ 4 := by
    have : mPi ≤ 4 := by unfold mPi; norm_num
    exact_mod_cast this
  have key := abs_sub_le ((scA n x : ℚ) : ℝ) ((v : ℝ) * (mPi : ℝ)) ((v : ℝ) * Real.pi)
  have e2 : |(v : ℝ) * (mPi : ℝ) - (v : ℝ) * Real.pi| ≤ |(v : ℝ)| * (1 / 10 ^ 15) := by
    rw [← mul_sub, abs_mul]
    exact mul_le_mul_of_nonneg_left hpi (abs_nonneg _)
  have e3 : |(v : ℝ)| * (mPi : ℝ) / 9007199254740992 ≤ |(v : ℝ)| * (1 / 10 ^ 15) := by
    rw [mul_div_assoc]
    apply mul_le_mul_of_nonneg_left _ (abs_nonneg _)
    rw [div_le_iff₀ (by norm_num)]; norm_num; linarith
  have e4 : (1 : ℝ) / 2 ^ 200 ≤ |(v : ℝ)| * (1 / 10 ^ 16) := by
    have : (1 : ℝ) / 2 ^ 200 ≤ 1 / 2 ^ 50 * (1 / 10 ^ 16) := by norm_num
    exact this.trans (mul_le_mul_of_nonneg_right hvR (by norm_num))
  have e5 : |(v : ℝ)| * (31 / 10) / 10 ^ 15 ≤ |(v : ℝ)| * Real.pi / 10 ^ 15 := by
    apply div_le_div_of_nonneg_right _ (by norm_num)
    apply mul_le_mul_of_nonneg_left _ (abs_nonneg _)
    norm_num at hpg ⊢; linarith
  have e6 : |(v : ℝ)| * (31 / 10) / 10 ^ 15 = |(v : ℝ)| * (31 / 10 ^ 16) := by ring
  have e7 : |(v : ℝ)| * (1 / 10 ^ 15) + |(v : ℝ)| * (1 / 10 ^ 16) + |(v : ℝ)| * (1 / 10 ^ 15) ≤ |(v : ℝ)| * (31 / 10 ^ 16) := by
    rw [← mul_add, ← mul_add]
    exact mul_le_mul_of_nonneg_left (by norm_num) (abs_nonneg _)
  linarith

/-! ### BeiDou group delays -/

/-- every value of the 10-bit field (and its negation) -/
theorem scT_all : ∀ i : Fin 1025, unscT (scT ((i : Nat) - 512 : Int)) = ((i : Nat) - 512 : Int) ∧
    |scT ((i : Nat) - 512 : Int) - (((i : Nat) - 512 : Int) : ℚ) * (1 / 10 ^ 10)| ≤ |(((i : Nat) - 512 : Int) : ℚ) * (1 / 10 ^ 10)| / 10 ^ 7 := by
  decide +kernel

theorem scT_ok (x : Int) (h : -512 ≤ x ∧ x ≤ 512) : unscT (scT x) = x ∧ |scT x - x * (1 / 10 ^ 10)| ≤ |(x : ℚ) * (1 / 10 ^ 10)| / 10 ^ 7 := by
  have := scT_all ⟨(x + 512).toNat, by omega⟩
  simp only at this
  rw [show (((x + 512).toNat : Nat) : Int) - 512 = x by omega] at this
  exact this

/-! ### GLONASS -/

theorem scK_eq (n : Nat) (x : Int) (hn : n ≤ 100) (hx : |x| ≤ 134217728) : scK n x = (x : ℚ) * 1000 / 2 ^ n := by
  unfold scK
  rw [f64_exact (by omega) (by omega)]
  have e : (x : ℚ) * 2 ^ (-(n : Int)) * 1000 = ((x * 1000 : Int) : ℚ) * 2 ^ (-(n : Int)) := by push_cast; ring
  rw [e, f64_exact (by rw [abs_mul]; norm_num; omega) (by omega), zpow_neg, zpow_natCast]
  push_cast; rw [div_eq_mul_inv]

theorem unscK_eq (n : Nat) (x : Int) (hx : |x| ≤ 134217728) : unscK n ((x : ℚ) * 1000 / 2 ^ n) = x := by
  unfold unscK
  have e : (x : ℚ) * 1000 / 2 ^ n / 2 ^ (-(n : Int)) = ((x * 1000 : Int) : ℚ) := by
    rw [zpow_neg, zpow_natCast]; push_cast
    field_simp
  rw [e, f64_int _ (by rw [abs_mul]; norm_num; omega)]
  have e2 : ((x * 1000 : Int) : ℚ) / 1000 = x := by push_cast; ring
  rw [e2, f64_int x (by omega), cround_int]

theorem accF_eq (x : Int) (hx : |x| ≤ 16) : f32 (scK 30 x) = (x : ℚ) * 1000 / 2 ^ 30 := by
  rw [scK_eq 30 x (by omega) (by omega)]
  have e : (x : ℚ) * 1000 / 2 ^ 30 = ((x * 1000 : Int) : ℚ) * 2 ^ (-30 : Int) := by
    rw [zpow_neg]; push_cast; norm_num; ring
  rw [e, f32_exact (by rw [abs_mul]; norm_num; omega) (by omega)]

/-! ### weeks -/

theorem matchWeeks_some {tow : Nat} {rover : GpsTime} {w : Int} (ht : tow < 604800) (h : matchWeeks tow rover = some w) :
    rover.valid ∧ |secs w tow - secs rover.wn rover.tow| ≤ 302400 := by
  unfold matchWeeks at h
  by_cases hr : rover.valid
  · rw [if_neg (not_not.mpr hr)] at h
    simp only [Option.some.injEq, weekSecs] at h
    refine ⟨hr, ?_⟩
    obtain ⟨r0, r1, r2, r3⟩ := id hr
    simp only [weekSecs] at r3
    have ht' : (tow : ℚ) < 604800 := by exact_mod_cast ht
    have ht0 : (0 : ℚ) ≤ tow := by positivity
    subst h
    unfold secs
    rw [abs_le]
    split_ifs <;> push_cast <;> constructor <;> linarith
  · rw [if_pos hr] at h; simp at h

theorem timeSecMatch_some {tow : Nat} {rover : GpsTime} {t : TimeSec} (h : timeSecMatch tow rover = some t) :
    t.tow = tow ∧ tow < 604800 ∧ rover.valid ∧ |secs t.wn tow - secs rover.wn rover.tow| ≤ 302400 ∧ t.wn ≤ 32767 := by
  unfold timeSecMatch at h
  cases hm : matchWeeks tow rover with
  | none => rw [hm] at h; simp at h
  | some w =>
    rw [hm] at h
    simp only at h
    by_cases hv : GpsTime.valid ⟨w, tow⟩
    · rw [if_pos hv] at h
      simp only [Option.some.injEq] at h
      subst h
      obtain ⟨v0, v1, v2, v3⟩ := hv
      simp only [weekSecs] at v0 v1 v2 v3 ⊢
      have h604 : tow < 604800 := by exact_mod_cast v3
      have := matchWeeks_some h604 hm
      rw [Int.toNat_of_nonneg v0]
      exact ⟨trivial, h604, this.1, this.2, by omega⟩
    · rw [if_neg hv] at h; simp at h

theorem near_unique {rover : GpsTime} {a b tow : Nat} (h1 : |secs a tow - secs rover.wn rover.tow| ≤ 302400)
    (h2 : NearRover rover b tow) : a = b := by
  unfold NearRover at h2
  unfold secs at h1 h2
  rw [abs_le] at h1
  rw [abs_lt] at h2
  have e1 : ((a : Int) : ℚ) < ((b : Int) : ℚ) + 1 := by linarith [h1.2, h2.1]
  have e2 : ((b : Int) : ℚ) < ((a : Int) : ℚ) + 1 := by linarith [h1.1, h2.2]
  have e1' : (a : Int) < b + 1 := by exact_mod_cast e1
  have e2' : (b : Int) < a + 1 := by exact_mod_cast e2
  omega

end Verif.EphSbp
