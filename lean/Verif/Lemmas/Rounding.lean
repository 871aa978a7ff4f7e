import Verif.Lemmas.Float
import Verif.Spec.Num
import Mathlib.Tactic.Linarith
import Mathlib.Tactic.Positivity
/-! Errors of chains of `double` operations. -/
namespace Verif.Fp

/-- `y` is `x` up to a relative error `a` and an absolute error `b` -/
structure Rel (a b y x : ℚ) : Prop where
  ha : 0 ≤ a
  hb : 0 ≤ b
  err : |y - x| ≤ |x| * a + b

variable {a b y x : ℚ}

theorem Rel.refl (x : ℚ) : Rel 0 0 x x := ⟨le_refl _, le_refl _, by simp⟩

theorem Rel.rnd (h : Rel a b y x) (h1 : a ≤ 1) : Rel (a + 2 / 9007199254740992) (2 * b + 1 / 2 ^ 200) (f64 y) x := by
  obtain ⟨ha, hb, h⟩ := h
  refine ⟨by positivity, by positivity, ?_⟩
  have e := f64_err y
  have hx := abs_nonneg x
  have t1 : |f64 y - x| ≤ |f64 y - y| + |y - x| := by
    have : f64 y - x = (f64 y - y) + (y - x) := by ring
    rw [this]; exact abs_add_le _ _
  have t2 : |y| ≤ |y - x| + |x| := by
    have : y = (y - x) + x := by ring
    calc |y| = |(y - x) + x| := by rw [← this]
      _ ≤ _ := abs_add_le _ _
  have t3 : |x| * a ≤ |x| := by nlinarith
  generalize (1 / 2 ^ 200 : ℚ) = η at *
  linarith

theorem Rel.mul (h : Rel a b y x) (c : ℚ) : Rel a (b * |c|) (y * c) (x * c) := by
  obtain ⟨ha, hb, h⟩ := h
  refine ⟨ha, by positivity, ?_⟩
  rw [← sub_mul, abs_mul, abs_mul]
  have := mul_le_mul_of_nonneg_right h (abs_nonneg c)
  linarith

theorem Rel.div (h : Rel a b y x) (c : ℚ) : Rel a (b / |c|) (y / c) (x / c) := by
  have := h.mul (c⁻¹)
  rw [abs_inv] at this
  simpa only [div_eq_mul_inv] using this

theorem Rel.mono {a' b' : ℚ} (h : Rel a b y x) (h1 : a ≤ a') (h2 : b ≤ b') : Rel a' b' y x := by
  refine ⟨le_trans h.ha h1, le_trans h.hb h2, le_trans h.err ?_⟩
  have := mul_le_mul_of_nonneg_left h1 (abs_nonneg x)
  linarith

/-- division by at least 1 -/
theorem Rel.div' (h : Rel a b y x) {c : ℚ} (hc : 1 ≤ c) : Rel a b (y / c) (x / c) := by
  refine (h.div c).mono (le_refl _) ?_
  rw [abs_of_pos (by linarith)]
  exact div_le_self h.hb hc

theorem Rel.rounded (h : Rel a b y x) (h1 : a ≤ 1 / 2 ^ 50) (h2 : b ≤ 1 / 2 ^ 150) : Spec.Rounded y x := by
  have := (h.mono h1 h2).err
  unfold Spec.Rounded
  rwa [mul_one_div] at this

/-- a bound on the absolute error -/
theorem Rel.abs (h : Rel a b y x) {m : ℚ} (hx : |x| ≤ m) : |y - x| ≤ m * a + b := by
  have := mul_le_mul_of_nonneg_right hx h.ha
  linarith [h.err]

theorem _root_.Verif.Spec.Rounded.abs (h : Spec.Rounded y x) {m : ℚ} (hx : |x| ≤ m) : |y - x| ≤ m / 2 ^ 50 + 1 / 2 ^ 150 := by
  unfold Spec.Rounded at h
  have : |x| / 2 ^ 50 ≤ m / 2 ^ 50 := div_le_div_of_nonneg_right hx (by positivity)
  linarith

end Verif.Fp
