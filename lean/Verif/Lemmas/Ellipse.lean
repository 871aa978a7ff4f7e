import Verif.Spec.NmeaMath
import Mathlib.Analysis.SpecialFunctions.Trigonometric.Bounds
import Mathlib.Analysis.SpecialFunctions.Trigonometric.ArctanDeriv
import Mathlib.Analysis.Calculus.MeanValue
import Mathlib.Analysis.Real.Pi.Bounds
/-
The error ellipse in real numbers.
-/
namespace Verif.Nmea
open Verif.Nmea.Spec

/-- half the difference of the eigenvalues, squared -/
noncomputable def disc (a b c : ℝ) : ℝ := ((a - c) / 2) ^ 2 + b ^ 2

theorem disc_nonneg (a b c : ℝ) : 0 ≤ disc a b c := by unfold disc; positivity

theorem disc_eq (a b c : ℝ) : disc a b c = (a + c) ^ 2 / 4 - (a * c - b ^ 2) := by unfold disc; ring

theorem variance_eq (a b c φ : ℝ) : variance a b c φ = (a + c) / 2 + ((a - c) / 2 * Real.cos (2 * φ) + b * Real.sin (2 * φ)) := by
  unfold variance
  rw [Real.cos_two_mul, Real.sin_two_mul]
  have : Real.sin φ ^ 2 = 1 - Real.cos φ ^ 2 := by rw [← Real.sin_sq_add_cos_sq φ]; ring
  rw [this]; ring

theorem swing (a b c t : ℝ) : |(a - c) / 2 * Real.cos t + b * Real.sin t| ≤ √(disc a b c) := by
  apply Real.abs_le_sqrt
  unfold disc
  have h := Real.sin_sq_add_cos_sq t
  nlinarith [sq_nonneg ((a - c) / 2 * Real.sin t - b * Real.cos t)]

theorem swing_max (a b c : ℝ) : ∃ t, (a - c) / 2 * Real.cos t + b * Real.sin t = √(disc a b c) := by
  by_cases h : (⟨(a - c) / 2, b⟩ : ℂ) = 0
  · have h1 := congrArg Complex.re h
    have h2 := congrArg Complex.im h
    simp only [Complex.zero_re, Complex.zero_im] at h1 h2
    exact ⟨0, by unfold disc; rw [h1, h2]; simp⟩
  · have hn : ‖(⟨(a - c) / 2, b⟩ : ℂ)‖ = √(disc a b c) := by
      rw [Complex.norm_def, Complex.normSq_mk]; congr 1; unfold disc; ring
    refine ⟨Complex.arg ⟨(a - c) / 2, b⟩, ?_⟩
    rw [Complex.cos_arg h, Complex.sin_arg, hn]
    have hp : 0 < √(disc a b c) := by rw [← hn]; exact norm_pos_iff.2 h
    have e : √(disc a b c) * √(disc a b c) = disc a b c := Real.mul_self_sqrt (disc_nonneg a b c)
    field_simp
    rw [sq (√_), e]; unfold disc; ring

theorem variance_max (a b c : ℝ) : IsGreatest (Set.range (variance a b c)) ((a + c) / 2 + √(disc a b c)) := by
  constructor
  · obtain ⟨t, ht⟩ := swing_max a b c
    exact ⟨t / 2, by rw [variance_eq, show 2 * (t / 2) = t by ring, ht]⟩
  · rintro _ ⟨φ, rfl⟩
    rw [variance_eq]
    have := (abs_le.1 (swing a b c (2 * φ))).2
    linarith

theorem variance_min (a b c : ℝ) : IsLeast (Set.range (variance a b c)) ((a + c) / 2 - √(disc a b c)) := by
  constructor
  · obtain ⟨t, ht⟩ := swing_max a b c
    refine ⟨t / 2 + Real.pi / 2, ?_⟩
    rw [variance_eq, show 2 * (t / 2 + Real.pi / 2) = t + Real.pi by ring, Real.cos_add_pi, Real.sin_add_pi]
    linarith
  · rintro _ ⟨φ, rfl⟩
    rw [variance_eq]
    have := (abs_le.1 (swing a b c (2 * φ))).1
    linarith

/-- in the direction `arctan (b / u)`, close to the direction of the major axis (`u = λ - c` for the greater eigenvalue `λ`) -/
theorem variance_dir {a b c u : ℝ} (hu : 0 < u) :
    (a + c) / 2 + √(disc a b c) - variance a b c (Real.arctan (b / u)) =
      (u - ((a + c) / 2 + √(disc a b c) - c)) ^ 2 * ((a + c) / 2 + √(disc a b c) - a) / (u ^ 2 + b ^ 2) := by
  have hs : √(disc a b c) ^ 2 = disc a b c := Real.sq_sqrt (disc_nonneg a b c)
  generalize √(disc a b c) = r at hs
  have h1 : Real.cos (Real.arctan (b / u)) ^ 2 = u ^ 2 / (u ^ 2 + b ^ 2) := by rw [Real.cos_sq_arctan]; field_simp
  have h2 : Real.sin (Real.arctan (b / u)) ^ 2 = b ^ 2 / (u ^ 2 + b ^ 2) := by rw [Real.sin_sq_arctan]; field_simp
  have h3 : Real.cos (Real.arctan (b / u)) * Real.sin (Real.arctan (b / u)) = u * b / (u ^ 2 + b ^ 2) := by
    have : Real.sin (Real.arctan (b / u)) = Real.tan (Real.arctan (b / u)) * Real.cos (Real.arctan (b / u)) :=
      (Real.tan_mul_cos (Real.cos_arctan_pos _).ne').symm
    rw [this, Real.tan_arctan, mul_comm, mul_assoc, ← sq, h1]
    field_simp
  unfold variance
  rw [h1, h2, h3]
  have hp : u ^ 2 + b ^ 2 ≠ 0 := by positivity
  unfold disc at hs
  field_simp
  linear_combination (16 * u - 4 * a + 4 * c - 8 * r) * hs

/-- the variance changes slowly with the direction -/
theorem variance_lip (a b c φ ψ : ℝ) : |variance a b c φ - variance a b c ψ| ≤ (|a - c| + 2 * |b|) * |φ - ψ| := by
  rw [variance_eq, variance_eq]
  have h1 := Real.abs_cos_sub_cos_le (2 * φ) (2 * ψ)
  have h2 := Real.abs_sin_sub_sin_le (2 * φ) (2 * ψ)
  have e : |2 * φ - 2 * ψ| = 2 * |φ - ψ| := by rw [← mul_sub, abs_mul]; norm_num
  rw [e] at h1 h2
  have : (a + c) / 2 + ((a - c) / 2 * Real.cos (2 * φ) + b * Real.sin (2 * φ)) - ((a + c) / 2 + ((a - c) / 2 * Real.cos (2 * ψ) + b * Real.sin (2 * ψ)))
      = (a - c) / 2 * (Real.cos (2 * φ) - Real.cos (2 * ψ)) + b * (Real.sin (2 * φ) - Real.sin (2 * ψ)) := by ring
  rw [this]
  refine (abs_add_le _ _).trans ?_
  rw [abs_mul, abs_mul, abs_div, abs_two]
  have k1 := mul_le_mul_of_nonneg_left h1 (by positivity : 0 ≤ |a - c| / 2)
  have k2 := mul_le_mul_of_nonneg_left h2 (abs_nonneg b)
  linarith

/-- square roots of numbers close to each other -/
theorem sqrt_near {x y d : ℝ} (hx : 0 ≤ x) (hy : 0 ≤ y) (hd : 0 ≤ d) (h : |x - y| ≤ d ^ 2) : |√x - √y| ≤ d := by
  have key : ∀ x y : ℝ, 0 ≤ x → 0 ≤ y → x - y ≤ d ^ 2 → √x - √y ≤ d := by
    intro x y hx hy h
    have : √x ≤ √y + d := by
      apply Real.sqrt_le_iff.2
      refine ⟨by positivity, ?_⟩
      have := Real.sq_sqrt hy
      nlinarith [Real.sqrt_nonneg y]
    linarith
  rw [abs_le] at h ⊢
  constructor
  · have := key y x hy hx (by linarith [h.1]); linarith
  · exact key x y hx hy h.2

theorem sqrt_near' {x y d e : ℝ} (hx : 0 ≤ x) (he : 0 < e) (hy : e ≤ √y) (h : |x - y| ≤ d) : |√x - √y| ≤ d / e := by
  have hy0 : 0 ≤ y := by
    by_contra hc
    rw [Real.sqrt_eq_zero_of_nonpos (by linarith)] at hy
    linarith
  have e1 : x - y = (√x - √y) * (√x + √y) := by
    have a := Real.mul_self_sqrt hx
    have b := Real.mul_self_sqrt hy0
    linarith [(by ring : (√x - √y) * (√x + √y) = √x * √x - √y * √y)]
  rw [le_div_iff₀ he]
  refine le_trans ?_ h
  rw [e1, abs_mul, abs_of_nonneg (by positivity : 0 ≤ √x + √y)]
  exact mul_le_mul_of_nonneg_left (by linarith [Real.sqrt_nonneg x]) (abs_nonneg _)

theorem arctan_lip (x y : ℝ) : |Real.arctan x - Real.arctan y| ≤ |x - y| := by
  have h : LipschitzWith 1 Real.arctan := by
    apply lipschitzWith_of_nnnorm_deriv_le Real.differentiable_arctan
    intro x
    rw [Real.deriv_arctan]
    have : (0:ℝ) < 1 + x ^ 2 := by positivity
    rw [← NNReal.coe_le_coe]
    simp only [coe_nnnorm, Real.norm_eq_abs, NNReal.coe_one]
    rw [abs_of_nonneg (by positivity), div_le_one this]
    nlinarith [sq_nonneg x]
  have := h.dist_le_mul x y
  simpa [Real.dist_eq] using this

end Verif.Nmea
