import Verif.Lemmas.NmeaGst
/-
Rounding errors of speed and course over ground.
-/
namespace Verif.Nmea
open Verif.Nmea.Spec Verif.Fp

/-- rounding of numbers that are zero or not tiny -/
theorem f64_relz {x : ℚ} (h : x = 0 ∨ 1 / 10 ^ 15 ≤ |x|) : |f64 x - x| ≤ |x| / 2 ^ 52 := by
  rcases h with rfl | h
  · have : f64 0 = 0 := rfl
    rw [this]; norm_num
  · exact f64_abs' le_rfl (le_trans (by norm_num) h)

theorem castR {a b M : ℚ} {B N : ℝ} (h : |a - b| ≤ M) (hb : (b : ℝ) = B) (hM : (M : ℝ) = N) : |(a : ℝ) - B| ≤ N := by
  rw [← hb, ← hM]; exact_mod_cast h

theorem mm_near (n : Int) : |mm2m n - (n : ℚ) / 1000| ≤ |(n : ℚ) / 1000| / 2 ^ 52 := by
  apply f64_relz
  by_cases h : n = 0
  · subst h; left; norm_num
  · right
    have h1 : (1 : ℚ) ≤ |(n : ℚ)| := by
      have := Int.one_le_abs h
      exact_mod_cast this
    rw [abs_div, abs_of_pos (by norm_num : (0 : ℚ) < 1000)]
    rw [le_div_iff₀ (by norm_num)]
    exact le_trans (by norm_num) h1

/-- relative error of a product of two rounded numbers -/
theorem sq_near {x a : ℚ} (h : |x - a| ≤ |a| / 2 ^ 52) : |x * x - a * a| ≤ a * a * (3 / 2 ^ 52) := by
  have e : x * x - a * a = (x - a) * (x + a) := by ring
  have h2 : |x + a| ≤ |a| * (21 / 10) := by
    have : x + a = (x - a) + 2 * a := by ring
    rw [this]
    refine (abs_add_le _ _).trans ?_
    rw [abs_mul, abs_two]
    norm_num at h
    linarith [abs_nonneg a]
  rw [e, abs_mul]
  refine (mul_le_mul h h2 (abs_nonneg _) (by positivity)).trans ?_
  rw [show |a| / 2 ^ 52 * (|a| * (21 / 10)) = |a| * |a| * (21 / 10 / 2 ^ 52) by ring, abs_mul_abs_self]
  exact mul_le_mul_of_nonneg_left (by norm_num) (mul_self_nonneg a)

/-- the number under the root -/
def sumSq (n e : Int) : ℚ := f64 (f64 (mm2m n * mm2m n) + f64 (mm2m e * mm2m e))

theorem mm_sq (n : Int) : |f64 (mm2m n * mm2m n) - (n : ℚ) / 1000 * ((n : ℚ) / 1000)| ≤ (n : ℚ) / 1000 * ((n : ℚ) / 1000) * (5 / 2 ^ 52) := by
  have h := sq_near (mm_near n)
  by_cases hn : n = 0
  · subst hn
    have : mm2m 0 = 0 := by unfold mm2m; norm_num; rfl
    rw [this]
    have : f64 (0 * 0) = 0 := by rw [mul_zero]; rfl
    rw [this]; norm_num
  · have h1 : (1 : ℚ) ≤ (n : ℚ) * n := by
      have : (1 : Int) ≤ n * n := by
        have := mul_self_pos.2 hn
        omega
      exact_mod_cast this
    have h2 : (1 : ℚ) / 10 ^ 6 ≤ (n : ℚ) / 1000 * ((n : ℚ) / 1000) := by
      rw [div_mul_div_comm, div_le_div_iff₀ (by norm_num) (by norm_num)]
      norm_num; linarith
    generalize (n : ℚ) / 1000 * ((n : ℚ) / 1000) = A at *
    generalize mm2m n * mm2m n = B at *
    have hA : 0 < A := lt_of_lt_of_le (by norm_num) h2
    have h3 : |B| ≤ A * (11 / 10) := by
      rw [abs_le] at h ⊢; norm_num at h
      constructor <;> linarith [h.1, h.2]
    have h4 := f64_abs' h3 (le_trans (by norm_num) (by linarith : (1 : ℚ) / 10 ^ 6 ≤ A * (11 / 10)))
    rw [abs_le] at *
    norm_num at *
    constructor <;> linarith [h.1, h.2, h4.1, h4.2]

theorem sumSq_near (n e : Int) : |sumSq n e - ((n : ℚ) / 1000 * ((n : ℚ) / 1000) + (e : ℚ) / 1000 * ((e : ℚ) / 1000))| ≤
    ((n : ℚ) / 1000 * ((n : ℚ) / 1000) + (e : ℚ) / 1000 * ((e : ℚ) / 1000)) * (8 / 2 ^ 52) := by
  have h1 := mm_sq n
  have h2 := mm_sq e
  unfold sumSq
  by_cases hz : n = 0 ∧ e = 0
  · obtain ⟨rfl, rfl⟩ := hz
    have : f64 (f64 (mm2m 0 * mm2m 0) + f64 (mm2m 0 * mm2m 0)) = 0 := by decide +kernel
    rw [this]; norm_num
  · have h0 : (1 : ℚ) ≤ (n : ℚ) * n + (e : ℚ) * e := by
      have : (1 : Int) ≤ n * n + e * e := by
        rcases not_and_or.1 hz with h | h
        · have := mul_self_pos.2 h
          have := mul_self_nonneg e
          omega
        · have := mul_self_pos.2 h
          have := mul_self_nonneg n
          omega
      exact_mod_cast this
    have h5 : (1 : ℚ) / 10 ^ 6 ≤ (n : ℚ) / 1000 * ((n : ℚ) / 1000) + (e : ℚ) / 1000 * ((e : ℚ) / 1000) := by
      have e1 : (n : ℚ) / 1000 * ((n : ℚ) / 1000) + (e : ℚ) / 1000 * ((e : ℚ) / 1000) = ((n : ℚ) * n + (e : ℚ) * e) / 10 ^ 6 := by ring
      rw [e1]
      exact div_le_div_of_nonneg_right h0 (by norm_num)
    have hA0 := mul_self_nonneg ((n : ℚ) / 1000)
    have hB0 := mul_self_nonneg ((e : ℚ) / 1000)
    generalize (n : ℚ) / 1000 * ((n : ℚ) / 1000) = A at *
    generalize (e : ℚ) / 1000 * ((e : ℚ) / 1000) = B at *
    generalize f64 (mm2m n * mm2m n) = a at *
    generalize f64 (mm2m e * mm2m e) = b at *
    have h3 : |a + b| ≤ (A + B) * (11 / 10) := by
      rw [abs_le] at *; norm_num at h1 h2
      constructor <;> linarith [h1.1, h1.2, h2.1, h2.2]
    have h4 := f64_abs' h3 (le_trans (by norm_num) (by linarith : (1 : ℚ) / 10 ^ 6 ≤ (A + B) * (11 / 10)))
    rw [abs_le] at *
    norm_num at *
    constructor <;> linarith [h1.1, h1.2, h2.1, h2.2, h4.1, h4.2]

theorem sqrt_rel {x y d : ℝ} (hy : 0 ≤ y) (hd0 : 0 ≤ d) (hd : d ≤ 1) (h : |x - y| ≤ y * d) : |√x - √y| ≤ √y * d := by
  have hs := Real.sq_sqrt hy
  have h0 := Real.sqrt_nonneg y
  rw [abs_le] at h ⊢
  constructor
  · have : √y * (1 - d) ≤ √x := by
      apply Real.le_sqrt_of_sq_le
      rw [mul_pow, hs]
      nlinarith [h.1, mul_nonneg hy hd0, mul_nonneg (mul_nonneg hy hd0) (sub_nonneg.2 hd)]
    linarith
  · have : √x ≤ √y * (1 + d) := by
      apply Real.sqrt_le_iff.2
      refine ⟨by positivity, ?_⟩
      rw [mul_pow, hs]
      nlinarith [h.2, mul_nonneg hy hd0, mul_nonneg hy (sq_nonneg d)]
    linarith

theorem speed_near {m : Libm} (hm : Accurate m) (n e : Int) : |(speed m n e : ℝ) - groundSpeed n e| ≤ groundSpeed n e * (10 / 2 ^ 52) := by
  have h := sumSq_near n e
  have hs : 0 ≤ sumSq n e := f64_nonneg (add_nonneg (f64_nonneg (mul_self_nonneg _)) (f64_nonneg (mul_self_nonneg _)))
  have h1 : |((sumSq n e - ((n : ℚ) / 1000 * ((n : ℚ) / 1000) + (e : ℚ) / 1000 * ((e : ℚ) / 1000)) : ℚ) : ℝ)| ≤
      ((((n : ℚ) / 1000 * ((n : ℚ) / 1000) + (e : ℚ) / 1000 * ((e : ℚ) / 1000)) * (8 / 2 ^ 52) : ℚ) : ℝ) := by exact_mod_cast h
  have eqn : ((n / 1000 : ℝ) ^ 2 + (e / 1000 : ℝ) ^ 2) = (n : ℝ) / 1000 * ((n : ℝ) / 1000) + (e : ℝ) / 1000 * ((e : ℝ) / 1000) := by ring
  unfold groundSpeed
  rw [eqn]
  push_cast at h1
  have hy : 0 ≤ (n : ℝ) / 1000 * ((n : ℝ) / 1000) + (e : ℝ) / 1000 * ((e : ℝ) / 1000) :=
    add_nonneg (mul_self_nonneg _) (mul_self_nonneg _)
  have h2 := sqrt_rel hy (by positivity) (by norm_num) h1
  have h3 := hm.sqrt (sumSq n e) hs
  have es : speed m n e = m.sqrt (sumSq n e) := rfl
  rw [es]
  have h0 := Real.sqrt_nonneg ((n : ℝ) / 1000 * ((n : ℝ) / 1000) + (e : ℝ) / 1000 * ((e : ℝ) / 1000))
  generalize √((n : ℝ) / 1000 * ((n : ℝ) / 1000) + (e : ℝ) / 1000 * ((e : ℝ) / 1000)) = G at *
  generalize √((sumSq n e : ℚ) : ℝ) = S at *
  rw [abs_le] at *
  norm_num at *
  constructor <;> linarith [h2.1, h2.2, h3.1, h3.2]

theorem ground_cases (n e : Int) : groundSpeed n e = 0 ∨ 1 / 1000 ≤ groundSpeed n e := by
  by_cases hz : n = 0 ∧ e = 0
  · obtain ⟨rfl, rfl⟩ := hz
    left; unfold groundSpeed; simp
  · right
    apply Real.le_sqrt_of_sq_le
    have : (1 : Int) ≤ n * n + e * e := by
      rcases not_and_or.1 hz with h | h
      · have := mul_self_pos.2 h
        have := mul_self_nonneg e
        omega
      · have := mul_self_pos.2 h
        have := mul_self_nonneg n
        omega
    have : (1 : ℝ) ≤ (n : ℝ) * n + (e : ℝ) * e := by exact_mod_cast this
    have e1 : ((n / 1000 : ℝ) ^ 2 + (e / 1000 : ℝ) ^ 2) = ((n : ℝ) * n + (e : ℝ) * e) / 1000 ^ 2 := by ring
    rw [e1, div_pow, one_pow]
    exact div_le_div_of_nonneg_right this (by norm_num)

/-- a speed times a constant, rounded -/
theorem scaled_near {m : Libm} (hm : Accurate m) (n e : Int) {k : ℚ} {K : ℝ} (hK1 : 1 ≤ K) (hK2 : K ≤ 4) (hk : |(k : ℝ) - K| ≤ 1 / 10 ^ 14) :
    |(f64 (speed m n e * k) : ℝ) - groundSpeed n e * K| ≤ groundSpeed n e * (1 / 10 ^ 12) := by
  have h := speed_near hm n e
  have hg := ground_cases n e
  rcases hg with hg | hg
  · rw [hg] at h ⊢
    simp only [zero_mul] at h ⊢
    have h0 : (speed m n e : ℝ) = 0 := by
      have := abs_nonneg ((speed m n e : ℝ) - 0)
      have h2 : |(speed m n e : ℝ) - 0| = 0 := le_antisymm h this
      simpa using h2
    have h1 : speed m n e = 0 := by exact_mod_cast h0
    rw [h1, zero_mul]
    have : f64 0 = 0 := rfl
    rw [this]; simp
  · generalize groundSpeed n e = G at *
    generalize speed m n e = s at *
    have hs : |(s : ℝ)| ≤ G * (11 / 10) := by
      rw [abs_le] at *; norm_num at h; constructor <;> linarith [h.1, h.2]
    have hp : |((s * k : ℚ) : ℝ) - G * K| ≤ G * (7 / 10 ^ 14) := by
      push_cast
      have : (s : ℝ) * k - G * K = s * (k - K) + (s - G) * K := by ring
      rw [this]
      refine (abs_add_le _ _).trans ?_
      rw [abs_mul, abs_mul, abs_of_pos (by linarith : 0 < K)]
      have a1 := mul_le_mul hs hk (abs_nonneg _) (by linarith)
      have a2 := mul_le_mul h hK2 (by linarith) (by linarith [mul_nonneg (by linarith : 0 ≤ G) (by positivity : (0 : ℝ) ≤ 10 / 2 ^ 52)])
      norm_num at a1 a2 ⊢
      linarith
    have hK3 : G * K ≤ 4 * G := by nlinarith
    have hK4 : G ≤ G * K := by nlinarith
    have hb : |((s * k : ℚ) : ℝ)| ≤ 5 * G := by
      generalize ((s * k : ℚ) : ℝ) = P at *
      rw [abs_le] at *; norm_num at hp; constructor <;> linarith [hp.1, hp.2]
    -- rounding
    have hr := f64_relz (x := s * k) (Or.inr (by
      have : (1 : ℝ) / 10 ^ 15 ≤ |((s * k : ℚ) : ℝ)| := by
        refine le_trans ?_ (le_abs_self _)
        rw [abs_le] at hp
        generalize ((s * k : ℚ) : ℝ) = P at *
        norm_num at hp ⊢
        linarith [hp.1]
      have e : (1 : ℝ) / 10 ^ 15 = ((1 / 10 ^ 15 : ℚ) : ℝ) := by norm_num
      rw [e] at this
      exact_mod_cast this))
    have hr' : |(f64 (s * k) : ℝ) - ((s * k : ℚ) : ℝ)| ≤ |((s * k : ℚ) : ℝ)| / 2 ^ 52 := by exact_mod_cast hr
    generalize ((s * k : ℚ) : ℝ) = P at *
    generalize ((f64 (s * k) : ℚ) : ℝ) = Q at *
    have hr2 : |Q - P| ≤ 5 * G / 2 ^ 52 := hr'.trans (div_le_div_of_nonneg_right hb (by positivity))
    rw [abs_le] at hr2 hp ⊢
    norm_num at *
    constructor <;> linarith [hr2.1, hr2.2, hp.1, hp.2]

theorem knots_near {m : Libm} (hm : Accurate m) (n e : Int) :
    |(sogKnots m n e : ℝ) - groundSpeed n e * (3600 / 1852)| ≤ groundSpeed n e * (1 / 10 ^ 12) := by
  apply scaled_near hm n e (by norm_num) (by norm_num)
  have h : |knotsFactor - 3600 / 1852| ≤ 1 / 10 ^ 14 := by decide +kernel
  exact castR h (by norm_num) (by norm_num)

theorem kph_near {m : Libm} (hm : Accurate m) (n e : Int) :
    |(sogKph m n e : ℝ) - groundSpeed n e * (36 / 10)| ≤ groundSpeed n e * (1 / 10 ^ 12) := by
  apply scaled_near hm n e (by norm_num) (by norm_num)
  have h : |f64 (3600 / 1000) - 36 / 10| ≤ 1 / 10 ^ 14 := by decide +kernel
  exact castR h (by norm_num) (by norm_num)

/-! ### course -/

theorem mm_sign (n : Int) : (0 ≤ n → 0 ≤ mm2m n) ∧ (n < 0 → mm2m n < 0) := by
  have h := mm_near n
  constructor
  · intro hn
    exact f64_nonneg (div_nonneg (by exact_mod_cast hn) (by norm_num))
  · intro hn
    have hq : (n : ℚ) < 0 := by exact_mod_cast hn
    rw [abs_of_neg (div_neg_of_neg_of_pos hq (by norm_num))] at h
    rw [abs_le] at h
    norm_num at h
    linarith [h.2]

/-- directions of two vectors whose coordinates agree to a relative error -/
theorem arg_near {x y x' y' d : ℝ} (hd0 : 0 ≤ d) (hd : d ≤ 1 / 10) (hx : |x' - x| ≤ |x| * d) (hy : |y' - y| ≤ |y| * d)
    (hs : 0 ≤ y ∧ 0 ≤ y' ∨ y < 0 ∧ y' < 0) : |Complex.arg ⟨x', y'⟩ - Complex.arg ⟨x, y⟩| ≤ 4 * d := by
  by_cases hz : (⟨x, y⟩ : ℂ) = 0
  · have h1 := congrArg Complex.re hz
    have h2 := congrArg Complex.im hz
    simp only [Complex.zero_re, Complex.zero_im] at h1 h2
    subst h1 h2
    simp only [abs_zero, zero_mul, sub_zero, abs_nonpos_iff] at hx hy
    subst hx hy
    simp only [sub_self, abs_zero]
    positivity
  have key : ∀ a b : ℝ, |b - a| ≤ |a| * d → a * a * (9 / 10) ≤ a * b ∧ a * a * (8 / 10) ≤ b * b := by
    intro a b h
    have hm := mul_le_mul_of_nonneg_left h (abs_nonneg a)
    rw [← abs_mul, ← mul_assoc, abs_mul_abs_self] at hm
    have h1 : a * a * d ≤ a * a * (1 / 10) := mul_le_mul_of_nonneg_left hd (mul_self_nonneg a)
    have h2 := (abs_le.1 (hm.trans h1)).1
    have h3 : a * a * (9 / 10) ≤ a * b := by linarith [(by ring : a * (b - a) = a * b - a * a)]
    refine ⟨h3, ?_⟩
    nlinarith [sq_nonneg (b - a)]
  obtain ⟨kx1, kx2⟩ := key x x' hx
  obtain ⟨ky1, ky2⟩ := key y y' hy
  have hN : 0 < x * x + y * y := by
    have := Complex.normSq_pos.2 hz
    rwa [Complex.normSq_mk] at this
  have hz' : (⟨x', y'⟩ : ℂ) ≠ 0 := by
    apply Complex.normSq_pos.1
    rw [Complex.normSq_mk]
    linarith
  have hn : ‖(⟨x, y⟩ : ℂ)‖ ^ 2 = x * x + y * y := by rw [← Complex.normSq_eq_norm_sq, Complex.normSq_mk]
  have hn' : ‖(⟨x', y'⟩ : ℂ)‖ ^ 2 = x' * x' + y' * y' := by rw [← Complex.normSq_eq_norm_sq, Complex.normSq_mk]
  have hp : 0 < ‖(⟨x, y⟩ : ℂ)‖ := norm_pos_iff.2 hz
  have hp' : 0 < ‖(⟨x', y'⟩ : ℂ)‖ := norm_pos_iff.2 hz'
  have c1 : Real.cos (Complex.arg ⟨x, y⟩) = x / ‖(⟨x, y⟩ : ℂ)‖ := Complex.cos_arg hz
  have c2 : Real.cos (Complex.arg ⟨x', y'⟩) = x' / ‖(⟨x', y'⟩ : ℂ)‖ := Complex.cos_arg hz'
  have s1 : Real.sin (Complex.arg ⟨x, y⟩) = y / ‖(⟨x, y⟩ : ℂ)‖ := Complex.sin_arg _
  have s2 : Real.sin (Complex.arg ⟨x', y'⟩) = y' / ‖(⟨x', y'⟩ : ℂ)‖ := Complex.sin_arg _
  have l1 := Complex.neg_pi_lt_arg ⟨x, y⟩
  have l2 := Complex.arg_le_pi ⟨x, y⟩
  have l1' := Complex.neg_pi_lt_arg ⟨x', y'⟩
  have l2' := Complex.arg_le_pi ⟨x', y'⟩
  have hdiff : |Complex.arg ⟨x', y'⟩ - Complex.arg ⟨x, y⟩| ≤ Real.pi := by
    rcases hs with ⟨ha, hb⟩ | ⟨ha, hb⟩
    · have q1 : 0 ≤ Complex.arg ⟨x, y⟩ := Complex.arg_nonneg_iff.2 ha
      have q2 : 0 ≤ Complex.arg ⟨x', y'⟩ := Complex.arg_nonneg_iff.2 hb
      rw [abs_le]; constructor <;> linarith
    · have q1 : Complex.arg ⟨x, y⟩ < 0 := Complex.arg_neg_iff.2 ha
      have q2 : Complex.arg ⟨x', y'⟩ < 0 := Complex.arg_neg_iff.2 hb
      rw [abs_le]; constructor <;> linarith
  generalize Complex.arg ⟨x', y'⟩ = B at *
  generalize Complex.arg ⟨x, y⟩ = A at *
  generalize ‖(⟨x, y⟩ : ℂ)‖ = N at *
  generalize ‖(⟨x', y'⟩ : ℂ)‖ = N' at *
  have hsin : Real.sin (B - A) = (y' * x - x' * y) / (N' * N) := by
    rw [Real.sin_sub, c1, c2, s1, s2]; field_simp
  have hcos : Real.cos (B - A) = (x' * x + y' * y) / (N' * N) := by
    rw [Real.cos_sub, c1, c2, s1, s2]; field_simp
  have hcp : 0 < Real.cos (B - A) := by
    rw [hcos]
    apply div_pos _ (by positivity)
    linarith [mul_comm x x', mul_comm y y']
  have hhalf : |B - A| ≤ Real.pi / 2 := by
    by_contra hc
    rw [not_le] at hc
    have : Real.cos |B - A| ≤ 0 := Real.cos_nonpos_of_pi_div_two_le_of_le hc.le (by linarith [Real.pi_pos])
    rw [Real.cos_abs] at this
    linarith
  have hjor : 2 / Real.pi * |B - A| ≤ |Real.sin (B - A)| := Real.mul_abs_le_abs_sin hhalf
  -- the sine
  have hnum : |y' * x - x' * y| ≤ 2 * d * (|x| * |y|) := by
    have : y' * x - x' * y = (y' - y) * x - (x' - x) * y := by ring
    rw [this]
    refine (abs_sub _ _).trans ?_
    rw [abs_mul, abs_mul]
    have a1 := mul_le_mul_of_nonneg_right hy (abs_nonneg x)
    have a2 := mul_le_mul_of_nonneg_right hx (abs_nonneg y)
    linarith
  have hxy : |x| * |y| ≤ N ^ 2 / 2 := by
    rw [hn]
    have := sq_nonneg (|x| - |y|)
    have e1 := abs_mul_abs_self x
    have e2 := abs_mul_abs_self y
    linarith [(by ring : (|x| - |y|) ^ 2 = |x| * |x| + |y| * |y| - 2 * (|x| * |y|))]
  have hNN : N * (8 / 10) ≤ N' := by
    by_contra hc
    rw [not_le] at hc
    have : N' ^ 2 < (N * (8 / 10)) ^ 2 := pow_lt_pow_left₀ hc hp'.le (by norm_num)
    rw [hn', mul_pow, hn] at this
    norm_num at this
    linarith
  have hsb : |Real.sin (B - A)| ≤ d * (125 / 100) := by
    rw [hsin, abs_div, abs_of_pos (by positivity : 0 < N' * N), div_le_iff₀ (by positivity)]
    have h1 : 2 * d * (|x| * |y|) ≤ d * N ^ 2 := by
      have := mul_le_mul_of_nonneg_left hxy (by linarith : 0 ≤ 2 * d)
      linarith [(by ring : 2 * d * (N ^ 2 / 2) = d * N ^ 2)]
    have h2 : d * N ^ 2 ≤ d * (125 / 100) * (N' * N) := by
      have : N ^ 2 ≤ 125 / 100 * (N' * N) := by
        have := mul_le_mul_of_nonneg_right hNN hp.le
        linarith [(by ring : N * (8 / 10) * N = N ^ 2 * (8 / 10))]
      calc d * N ^ 2 ≤ d * (125 / 100 * (N' * N)) := mul_le_mul_of_nonneg_left this hd0
        _ = _ := by ring
    linarith
  have hpi := Real.pi_le_four
  have hpp := Real.pi_pos
  have h9 : |B - A| ≤ Real.pi / 2 * |Real.sin (B - A)| := by
    have := mul_le_mul_of_nonneg_left hjor (by positivity : 0 ≤ Real.pi / 2)
    have e : Real.pi / 2 * (2 / Real.pi * |B - A|) = |B - A| := by field_simp
    rwa [e] at this
  refine h9.trans ((mul_le_mul (by linarith : Real.pi / 2 ≤ 2) hsb (abs_nonneg _) (by norm_num)).trans ?_)
  linarith

theorem arg_mm (n e : Int) : |Complex.arg ⟨(mm2m n : ℝ), (mm2m e : ℝ)⟩ - Complex.arg ⟨(n : ℝ), (e : ℝ)⟩| ≤ 1 / 2 ^ 50 := by
  have hsc : Complex.arg ⟨(n : ℝ), (e : ℝ)⟩ = Complex.arg ⟨(n : ℝ) / 1000, (e : ℝ) / 1000⟩ := by
    have : (⟨(n : ℝ), (e : ℝ)⟩ : ℂ) = ((1000 : ℝ) : ℂ) * ⟨(n : ℝ) / 1000, (e : ℝ) / 1000⟩ := by
      apply Complex.ext
      · rw [Complex.re_ofReal_mul]; simp; ring
      · rw [Complex.im_ofReal_mul]; simp; ring
    rw [this, Complex.arg_real_mul _ (by norm_num)]
  rw [hsc]
  have hn : |(mm2m n : ℝ) - (n : ℝ) / 1000| ≤ |(n : ℝ) / 1000| * (1 / 2 ^ 52) := by
    have := mm_near n
    rw [mul_one_div]
    exact_mod_cast this
  have he : |(mm2m e : ℝ) - (e : ℝ) / 1000| ≤ |(e : ℝ) / 1000| * (1 / 2 ^ 52) := by
    have := mm_near e
    rw [mul_one_div]
    exact_mod_cast this
  refine (arg_near (by positivity) (by norm_num) hn he ?_).trans (by norm_num)
  rcases lt_or_ge e 0 with h | h
  · right
    exact ⟨div_neg_of_neg_of_pos (by exact_mod_cast h) (by norm_num), by exact_mod_cast (mm_sign e).2 h⟩
  · left
    exact ⟨div_nonneg (by exact_mod_cast h) (by norm_num), by exact_mod_cast (mm_sign e).1 h⟩

theorem course_near {m : Libm} (hm : Accurate m) (n e : Int) : |(courseDeg m n e : ℝ) - trueCourse n e| ≤ 1 / 10 ^ 11 := by
  have h1 := hm.atan2 (mm2m e) (mm2m n)
  have h2 := arg_mm n e
  have ht : |Complex.arg ⟨(n : ℝ), (e : ℝ)⟩| ≤ 4 := (Complex.abs_arg_le_pi _).trans Real.pi_le_four
  have h3 : |(m.atan2 (mm2m e) (mm2m n) : ℝ) - Complex.arg ⟨(n : ℝ), (e : ℝ)⟩| ≤ 1 / 2 ^ 49 := by
    rw [abs_le] at *
    norm_num at *
    constructor <;> linarith [h1.1, h1.2, h2.1, h2.2]
  have h4 := degrees_near hm ht (by positivity) (by norm_num) h3
  unfold courseDeg trueCourse
  rw [mul_comm m.r2d]
  exact h4.trans (by norm_num)

end Verif.Nmea
