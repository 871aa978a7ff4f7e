import Verif.Lemmas.Ellipse
import Verif.Lemmas.FloatMono
/-
Rounding errors of the error ellipse.
-/
namespace Verif.Nmea
open Verif.Nmea.Spec Verif.Fp

theorem f32_abs {x M : ℚ} (h : |x| ≤ M) (hM : 1 / 10 ^ 20 ≤ M) : |f32 x - x| ≤ M / 16000000 := by
  refine (f32_err x).trans ?_
  have h1 : |x| / 16777216 ≤ M / 16777216 := div_le_div_of_nonneg_right h (by norm_num)
  have h2 : (1 : ℚ) / 2 ^ 150 ≤ M / 10 ^ 12 := by
    have h3 : (1 : ℚ) / 2 ^ 150 ≤ 1 / 10 ^ 20 / 10 ^ 12 := by norm_num
    exact h3.trans (div_le_div_of_nonneg_right hM (by norm_num))
  generalize (1 : ℚ) / 2 ^ 150 = t at *
  have : 0 < M := lt_of_lt_of_le (by positivity) hM
  rw [div_eq_mul_inv] at h1 h2 ⊢
  norm_num at h1 h2 ⊢
  linarith

theorem f64_abs' {x M : ℚ} (h : |x| ≤ M) (hM : 1 / 10 ^ 20 ≤ M) : |f64 x - x| ≤ M / 2 ^ 52 := by
  refine (f64_err x).trans ?_
  have h1 : |x| / 9007199254740992 ≤ M / 9007199254740992 := div_le_div_of_nonneg_right h (by norm_num)
  have h2 : (1 : ℚ) / 2 ^ 200 ≤ M / 2 ^ 53 := by
    have h3 : (1 : ℚ) / 2 ^ 200 ≤ 1 / 10 ^ 20 / 2 ^ 53 := by norm_num
    exact h3.trans (div_le_div_of_nonneg_right hM (by norm_num))
  generalize (1 : ℚ) / 2 ^ 200 = t at *
  norm_num at h1 h2 ⊢
  linarith

variable {nn ne ee : ℚ}

theorem trace_near (h : CovOk nn ne ee) : |gstTrace nn ee - (nn + ee)| ≤ (nn + ee) / 16000000 :=
  f32_abs (abs_of_nonneg (by linarith [h.north, h.east])).le ((by norm_num : (1 : ℚ) / 10 ^ 20 ≤ 1 / 10 ^ 6).trans h.low)

theorem prod_le (h : CovOk nn ne ee) : 0 ≤ nn * ee ∧ nn * ee ≤ (nn + ee) ^ 2 / 4 :=
  ⟨mul_nonneg h.north h.east, by nlinarith [sq_nonneg (nn - ee)]⟩

theorem det_near (h : CovOk nn ne ee) : |gstDet nn ne ee - (nn * ee - ne * ne)| ≤ (nn + ee) ^ 2 / 10000000 := by
  obtain ⟨p0, p1⟩ := prod_le h
  have q0 : 0 ≤ ne * ne := mul_self_nonneg ne
  have hl : (1 : ℚ) / 10 ^ 12 ≤ (nn + ee) ^ 2 := by
    have := pow_le_pow_left₀ (by norm_num) h.low 2
    refine le_trans ?_ this; norm_num
  have hT : (1 : ℚ) / 10 ^ 20 ≤ (nn + ee) ^ 2 / 4 := by
    refine le_trans ?_ (div_le_div_of_nonneg_right hl (by norm_num)); norm_num
  have e1 := f32_abs (x := nn * ee) (by rw [abs_of_nonneg p0]; exact p1) hT
  have e2 := f32_abs (x := ne * ne) (by rw [abs_of_nonneg q0]; exact h.det.trans p1) hT
  have hb : |f32 (nn * ee) - f32 (ne * ne)| ≤ (nn + ee) ^ 2 / 2 := by
    have hd := h.det
    generalize (nn + ee) ^ 2 = S at *
    rw [abs_le] at e1 e2 ⊢
    constructor <;> linarith [e1.1, e1.2, e2.1, e2.2, (by positivity : (0 : ℚ) ≤ 1 / 10 ^ 12)]
  have e3 := f32_abs hb (by linarith [(by positivity : (0 : ℚ) ≤ 1 / 10 ^ 12)])
  show |f32 (f32 (nn * ee) - f32 (ne * ne)) - _| ≤ _
  have hS : 0 ≤ (nn + ee) ^ 2 := sq_nonneg _
  generalize (nn + ee) ^ 2 = S at *
  generalize f32 (f32 (nn * ee) - f32 (ne * ne)) = x at *
  rw [abs_le] at e1 e2 e3 ⊢
  constructor <;> linarith [e1.1, e1.2, e2.1, e2.2, e3.1, e3.2]

/-- the number under the root, before rounding: the square of half the difference of the eigenvalues -/
def disc' (nn ne ee : ℚ) : ℚ := max 0 (f64 (f64 (f64 (gstTrace nn ee * gstTrace nn ee) / 4) - gstDet nn ne ee))

theorem disc_near (h : CovOk nn ne ee) :
    |disc' nn ne ee - ((nn + ee) ^ 2 / 4 - (nn * ee - ne * ne))| ≤ (nn + ee) ^ 2 / 7000000 := by
  have ht := trace_near h
  have hd := det_near h
  obtain ⟨p0, p1⟩ := prod_le h
  have q0 : 0 ≤ ne * ne := mul_self_nonneg ne
  have hdet := h.det
  have hl : (1 : ℚ) / 10 ^ 12 ≤ (nn + ee) ^ 2 := by
    have := pow_le_pow_left₀ (by norm_num) h.low 2
    refine le_trans ?_ this; norm_num
  have hT : 0 < nn + ee := lt_of_lt_of_le (by norm_num) h.low
  unfold disc'
  generalize gstTrace nn ee = t at *
  generalize gstDet nn ne ee = d at *
  have hsq : |t * t - (nn + ee) ^ 2| ≤ (nn + ee) ^ 2 / 7500000 := by
    rw [abs_le] at ht
    have e : t * t - (nn + ee) ^ 2 = (t - (nn + ee)) * (t + (nn + ee)) := by ring
    rw [e, abs_mul]
    have a1 : |t - (nn + ee)| ≤ (nn + ee) / 16000000 := abs_le.2 ht
    have a2 : |t + (nn + ee)| ≤ 2.1 * (nn + ee) := by
      rw [abs_le]; constructor <;> linarith [ht.1, ht.2]
    have := mul_le_mul a1 a2 (abs_nonneg _) (by positivity)
    refine this.trans ?_
    have hS := sq_nonneg (nn + ee)
    rw [show (nn + ee) / 16000000 * (2.1 * (nn + ee)) = (nn + ee) ^ 2 * (2.1 / 16000000) by ring,
      show (nn + ee) ^ 2 / 7500000 = (nn + ee) ^ 2 * (1 / 7500000) by ring]
    exact mul_le_mul_of_nonneg_left (by norm_num) hS
  generalize (nn + ee) ^ 2 = S at *
  have hS : 0 < S := lt_of_lt_of_le (by norm_num) hl
  have hm : (1 : ℚ) / 10 ^ 20 ≤ 2 * S := by
    have : (1 : ℚ) / 10 ^ 20 ≤ 1 / 10 ^ 12 := by norm_num
    linarith
  have e1 := f64_abs' (x := t * t) (M := 2 * S) (by rw [abs_le] at hsq ⊢; constructor <;> linarith [hsq.1, hsq.2]) hm
  generalize f64 (t * t) = s at *
  have e2 := f64_abs' (x := s / 4) (M := 2 * S) (by
    rw [abs_le] at hsq e1 ⊢; norm_num at e1; constructor <;> linarith [hsq.1, hsq.2, e1.1, e1.2]) hm
  generalize f64 (s / 4) = u at *
  have e3 := f64_abs' (x := u - d) (M := 2 * S) (by
    rw [abs_le] at hsq e1 e2 hd ⊢; norm_num at e1 e2; constructor <;> linarith [hsq.1, hsq.2, e1.1, e1.2, e2.1, e2.2, hd.1, hd.2]) hm
  generalize f64 (u - d) = v at *
  have hv : |v - (S / 4 - (nn * ee - ne * ne))| ≤ S / 7000000 := by
    rw [abs_le] at *
    norm_num at e1 e2 e3
    constructor <;> linarith [hsq.1, hsq.2, e1.1, e1.2, e2.1, e2.2, hd.1, hd.2, e3.1, e3.2]
  have hD : 0 ≤ S / 4 - (nn * ee - ne * ne) := by linarith
  rw [abs_le] at hv ⊢
  rcases le_total 0 v with h0 | h0
  · rw [max_eq_right h0]; exact hv
  · rw [max_eq_left h0]; constructor <;> linarith [hv.1, hv.2]

/-! ### eigenvalues -/

/-- real eigenvalues -/
noncomputable def eig1 (a b c : ℝ) : ℝ := (a + c) / 2 + √(disc a b c)
noncomputable def eig2 (a b c : ℝ) : ℝ := (a + c) / 2 - √(disc a b c)

theorem disc_bounds (h : CovOk nn ne ee) : √(disc nn ne ee) ≤ ((nn + ee : ℚ) : ℝ) / 2 ∧ |(ne : ℝ)| ≤ √(disc nn ne ee) := by
  have hT : (0 : ℝ) ≤ ((nn + ee : ℚ) : ℝ) := by exact_mod_cast add_nonneg h.north h.east
  constructor
  · apply Real.sqrt_le_iff.2
    refine ⟨by positivity, ?_⟩
    rw [disc_eq]
    have : ((ne * ne : ℚ) : ℝ) ≤ ((nn * ee : ℚ) : ℝ) := by exact_mod_cast h.det
    push_cast at this ⊢
    linarith [(by ring : ((nn : ℝ) + ee) ^ 2 / 4 = (((nn : ℝ) + ee) / 2) ^ 2), (by ring : (ne : ℝ) * ne = (ne : ℝ) ^ 2)]
  · apply Real.abs_le_sqrt
    unfold disc
    linarith [sq_nonneg (((nn : ℝ) - ee) / 2)]

theorem disc'_nonneg : 0 ≤ disc' nn ne ee := le_max_left _ _

theorem disc_nearR (h : CovOk nn ne ee) : |(disc' nn ne ee : ℝ) - disc nn ne ee| ≤ ((nn + ee : ℚ) : ℝ) ^ 2 / 7000000 := by
  have := disc_near h
  have e : |((disc' nn ne ee - ((nn + ee) ^ 2 / 4 - (nn * ee - ne * ne)) : ℚ) : ℝ)| ≤ (((nn + ee) ^ 2 / 7000000 : ℚ) : ℝ) := by exact_mod_cast this
  rw [disc_eq]
  push_cast at e ⊢
  rw [sq (ne : ℝ)]
  exact e

theorem root_gen {m : Libm} (hm : Accurate m) (h : CovOk nn ne ee) {d : ℝ} (hd0 : 0 ≤ d) (hd1 : d ≤ ((nn + ee : ℚ) : ℝ) / 2)
    (hd : |√(disc' nn ne ee : ℝ) - √(disc nn ne ee)| ≤ d) :
    |(gstRoot m nn ne ee : ℝ) - √(disc nn ne ee)| ≤ d + ((nn + ee : ℚ) : ℝ) / 2 ^ 52 := by
  have h1 := hm.sqrt (disc' nn ne ee) disc'_nonneg
  have h2 := (disc_bounds h).1
  have e : gstRoot m nn ne ee = m.sqrt (disc' nn ne ee) := rfl
  rw [e]
  have h3 : √(disc' nn ne ee : ℝ) ≤ ((nn + ee : ℚ) : ℝ) := by rw [abs_le] at hd; linarith [hd.2]
  have h4 : √(disc' nn ne ee : ℝ) / 2 ^ 52 ≤ ((nn + ee : ℚ) : ℝ) / 2 ^ 52 := div_le_div_of_nonneg_right h3 (by positivity)
  rw [abs_le] at *
  constructor <;> linarith [h1.1, h1.2, hd.1, hd.2]

theorem root_near {m : Libm} (hm : Accurate m) (h : CovOk nn ne ee) :
    |(gstRoot m nn ne ee : ℝ) - √(disc nn ne ee)| ≤ ((nn + ee : ℚ) : ℝ) / 2600 := by
  have hT : (0 : ℝ) ≤ ((nn + ee : ℚ) : ℝ) := by exact_mod_cast add_nonneg h.north h.east
  refine (root_gen hm h (d := ((nn + ee : ℚ) : ℝ) / 2645) (by positivity) (by linarith) ?_).trans ?_
  · apply sqrt_near (by exact_mod_cast disc'_nonneg) (disc_nonneg _ _ _) (by positivity)
    refine (disc_nearR h).trans ?_
    rw [div_pow]
    exact div_le_div_of_nonneg_left (by positivity) (by norm_num) (by norm_num)
  · generalize ((nn + ee : ℚ) : ℝ) = T at *
    norm_num
    linarith

theorem root_near' {m : Libm} (hm : Accurate m) (h : CovOk nn ne ee) (hn : ((nn + ee : ℚ) : ℝ) / 200 ≤ √(disc nn ne ee)) :
    |(gstRoot m nn ne ee : ℝ) - √(disc nn ne ee)| ≤ ((nn + ee : ℚ) : ℝ) / 34000 := by
  have hT : (0 : ℝ) < ((nn + ee : ℚ) : ℝ) := by exact_mod_cast lt_of_lt_of_le (by norm_num) h.low
  refine (root_gen hm h (d := ((nn + ee : ℚ) : ℝ) / 35000) (by positivity) (by linarith) ?_).trans ?_
  · refine (sqrt_near' (by exact_mod_cast disc'_nonneg) (by positivity) hn (disc_nearR h)).trans (le_of_eq ?_)
    field_simp
    norm_num
  · generalize ((nn + ee : ℚ) : ℝ) = T at *
    norm_num
    linarith

theorem f64R {x M : ℚ} (h : |x| ≤ M) (hM : 1 / 10 ^ 20 ≤ M) : |(f64 x : ℝ) - (x : ℝ)| ≤ (M : ℝ) / 2 ^ 52 := by
  have := f64_abs' h hM
  exact_mod_cast this

/-- both eigenvalues with an error bound `d` of the root -/
theorem eig_gen {m : Libm} (h : CovOk nn ne ee) {d : ℝ} (hd1 : d ≤ ((nn + ee : ℚ) : ℝ) / 2)
    (hd : |(gstRoot m nn ne ee : ℝ) - √(disc nn ne ee)| ≤ d) :
    |(gstEig1 m nn ne ee : ℝ) - eig1 nn ne ee| ≤ d + ((nn + ee : ℚ) : ℝ) / 30000000 ∧
    |(gstEig2 m nn ne ee : ℝ) - eig2 nn ne ee| ≤ d + ((nn + ee : ℚ) : ℝ) / 30000000 := by
  have hTq : 1 / 10 ^ 6 ≤ nn + ee := h.low
  have ht := trace_near h
  have hb := (disc_bounds h).1
  have hb0 := Real.sqrt_nonneg (disc (nn : ℝ) ne ee)
  have hT : (0 : ℝ) < ((nn + ee : ℚ) : ℝ) := by exact_mod_cast lt_of_lt_of_le (by norm_num) h.low
  have hM : (1 : ℚ) / 10 ^ 20 ≤ nn + ee := (by norm_num : (1 : ℚ) / 10 ^ 20 ≤ 1 / 10 ^ 6).trans hTq
  have hM3 : (1 : ℚ) / 10 ^ 20 ≤ 3 * (nn + ee) := by linarith [(by positivity : (0 : ℚ) ≤ 1 / 10 ^ 20)]
  have hT0 : 0 < nn + ee := lt_of_lt_of_le (by norm_num) hTq
  have e1 := f64R (x := gstTrace nn ee / 2) (M := nn + ee) (by rw [abs_le] at ht ⊢; constructor <;> linarith [ht.1, ht.2]) hM
  have htR : |(gstTrace nn ee : ℝ) - ((nn + ee : ℚ) : ℝ)| ≤ ((nn + ee : ℚ) : ℝ) / 16000000 := by exact_mod_cast ht
  have hes : ∀ r : ℚ, |(r : ℝ)| ≤ ((nn + ee : ℚ) : ℝ) * 1.5 → |f64 (gstTrace nn ee / 2) + r| ≤ 3 * (nn + ee) := by
    intro r hr
    have : |((f64 (gstTrace nn ee / 2) + r : ℚ) : ℝ)| ≤ ((3 * (nn + ee) : ℚ) : ℝ) := by
      push_cast at e1 ⊢
      push_cast at hr htR hT
      rw [abs_le] at *
      norm_num at e1
      constructor <;> linarith [e1.1, e1.2, hr.1, hr.2, htR.1, htR.2]
    exact_mod_cast this
  have hr : |(gstRoot m nn ne ee : ℝ)| ≤ ((nn + ee : ℚ) : ℝ) * 1.5 := by
    rw [abs_le] at *
    constructor <;> linarith [hd.1, hd.2]
  have k1 := f64R (hes (gstRoot m nn ne ee) hr) hM3
  have k2 := f64R (hes (-gstRoot m nn ne ee) (by rw [Rat.cast_neg, abs_neg]; exact hr)) hM3
  have g1 : gstEig1 m nn ne ee = f64 (f64 (gstTrace nn ee / 2) + gstRoot m nn ne ee) := rfl
  have g2 : gstEig2 m nn ne ee = f64 (f64 (gstTrace nn ee / 2) + -gstRoot m nn ne ee) := by rw [← sub_eq_add_neg]; rfl
  rw [g1, g2]
  unfold eig1 eig2
  generalize f64 (f64 (gstTrace nn ee / 2) + gstRoot m nn ne ee) = x at *
  generalize f64 (f64 (gstTrace nn ee / 2) + -gstRoot m nn ne ee) = y at *
  generalize gstRoot m nn ne ee = r at *
  push_cast at *
  generalize √(disc (nn : ℝ) ne ee) = q at *
  generalize (gstTrace nn ee : ℝ) = t at *
  generalize ((f64 (gstTrace nn ee / 2) : ℚ) : ℝ) = u at *
  have hh : ((nn : ℝ) + ee) / 2 = ((nn : ℝ) + ee) * (1 / 2) := by ring
  rw [hh]
  generalize (nn : ℝ) + ee = T at *
  norm_num at e1 k1 k2
  rw [abs_le] at e1 k1 k2 htR hd
  refine ⟨abs_le.2 ⟨?_, ?_⟩, abs_le.2 ⟨?_, ?_⟩⟩ <;> linarith [e1.1, e1.2, k1.1, k1.2, k2.1, k2.2, htR.1, htR.2, hd.1, hd.2]

theorem eig_near {m : Libm} (hm : Accurate m) (h : CovOk nn ne ee) :
    |(gstEig1 m nn ne ee : ℝ) - eig1 nn ne ee| ≤ ((nn + ee : ℚ) : ℝ) / 2000 ∧
    |(gstEig2 m nn ne ee : ℝ) - eig2 nn ne ee| ≤ ((nn + ee : ℚ) : ℝ) / 2000 := by
  have hT : (0 : ℝ) < ((nn + ee : ℚ) : ℝ) := by exact_mod_cast lt_of_lt_of_le (by norm_num) h.low
  obtain ⟨a, b⟩ := eig_gen h (by linarith) (root_near hm h)
  exact ⟨a.trans (by linarith), b.trans (by linarith)⟩

theorem eig_near' {m : Libm} (hm : Accurate m) (h : CovOk nn ne ee) (hn : ((nn + ee : ℚ) : ℝ) / 200 ≤ √(disc nn ne ee)) :
    |(gstEig1 m nn ne ee : ℝ) - eig1 nn ne ee| ≤ ((nn + ee : ℚ) : ℝ) / 33000 := by
  have hT : (0 : ℝ) < ((nn + ee : ℚ) : ℝ) := by exact_mod_cast lt_of_lt_of_le (by norm_num) h.low
  obtain ⟨a, -⟩ := eig_gen h (by linarith) (root_near' hm h hn)
  exact a.trans (by linarith)

/-! ### the semi-axes -/

theorem sqrt_sq {m : Libm} (hm : Accurate m) {x : ℚ} (h : 0 ≤ x) : |(m.sqrt x : ℝ) ^ 2 - x| ≤ (x : ℝ) / 2 ^ 50 := by
  have h1 := hm.sqrt x h
  have hx : (0 : ℝ) ≤ (x : ℝ) := by exact_mod_cast h
  have h2 := Real.sq_sqrt hx
  have h0 := Real.sqrt_nonneg (x : ℝ)
  rw [← h2]
  generalize √(x : ℝ) = s at *
  generalize (m.sqrt x : ℝ) = y at *
  have e : y ^ 2 - s ^ 2 = (y - s) * (y + s) := by ring
  rw [e, abs_mul]
  have hs : |y + s| ≤ 3 * s := by
    rw [abs_le] at h1 ⊢
    norm_num at h1
    constructor <;> linarith [h1.1, h1.2]
  refine (mul_le_mul h1 hs (abs_nonneg _) (by positivity)).trans ?_
  have := sq_nonneg s
  rw [show s / 2 ^ 52 * (3 * s) = s ^ 2 * (3 / 2 ^ 52) by ring, show s ^ 2 / 2 ^ 50 = s ^ 2 * (1 / 2 ^ 50) by ring]
  exact mul_le_mul_of_nonneg_left (by norm_num) this

theorem eig_bounds (h : CovOk nn ne ee) : 0 ≤ eig2 nn ne ee ∧ eig2 nn ne ee ≤ eig1 nn ne ee ∧ eig1 nn ne ee ≤ ((nn + ee : ℚ) : ℝ) ∧
    ((nn + ee : ℚ) : ℝ) / 2 ≤ eig1 nn ne ee := by
  have h1 := (disc_bounds h).1
  have h0 := Real.sqrt_nonneg (disc (nn : ℝ) ne ee)
  unfold eig1 eig2
  push_cast at *
  refine ⟨?_, ?_, ?_, ?_⟩ <;> linarith

theorem axis_near {m : Libm} (hm : Accurate m) {x : ℚ} (h : 0 ≤ x) {T y : ℝ} (hT : 0 ≤ T) (h1 : |(x : ℝ) - y| ≤ T / 2000) (hy : y ≤ T) :
    |(m.sqrt x : ℝ) ^ 2 - y| ≤ T / 1900 := by
  have h2 := sqrt_sq hm h
  rw [abs_le] at *
  have h3 : (x : ℝ) / 2 ^ 50 ≤ (2 * T) / 2 ^ 50 := div_le_div_of_nonneg_right (by linarith [h1.2]) (by positivity)
  norm_num at h3 h2
  constructor <;> linarith [h1.1, h1.2, h2.1, h2.2]

theorem eig1_pos {m : Libm} (hm : Accurate m) (h : CovOk nn ne ee) : 0 < gstEig1 m nn ne ee := by
  have h1 := (eig_near hm h).1
  obtain ⟨-, -, -, h4⟩ := eig_bounds h
  have hT : (0 : ℝ) < ((nn + ee : ℚ) : ℝ) := by exact_mod_cast lt_of_lt_of_le (by norm_num) h.low
  have : (0 : ℝ) < (gstEig1 m nn ne ee : ℝ) := by
    rw [abs_le] at h1
    linarith [h1.1]
  exact_mod_cast this

/-- the smaller eigenvalue is never negative for a positive semidefinite matrix -/
theorem eig2_nonneg {m : Libm} (hm : Accurate m) (h0 : 0 ≤ nn) (h1 : 0 ≤ ee) (h2 : ne * ne ≤ nn * ee) : 0 ≤ gstEig2 m nn ne ee := by
  have hd : 0 ≤ gstDet nn ne ee := f32_nonneg (sub_nonneg.2 (f32_mono (mul_self_nonneg ne) h2))
  have ht : 0 ≤ gstTrace nn ee := f32_nonneg (add_nonneg h0 h1)
  obtain ⟨s1, s2⟩ := f64_square (nn + ee)
  have hh := f64_half (nn + ee)
  have hr : gstRoot m nn ne ee ≤ gstTrace nn ee / 2 := by
    unfold gstRoot
    unfold gstTrace at ht ⊢
    rw [s1, s2]
    have hid : f32 (f32 (nn + ee)) = f32 (nn + ee) := f32_idem _
    generalize f32 (nn + ee) = t at *
    refine le_trans (hm.sqrtMono _ (t * t / 4) (le_max_left _ _) ?_) ?_
    · apply max_le (by positivity)
      rcases le_total 0 (t * t / 4 - gstDet nn ne ee) with hp | hp
      · have := f64_mono hp (sub_le_self _ hd)
        rw [s2] at this
        exact this
      · refine le_trans ?_ (by positivity : 0 ≤ t * t / 4)
        exact f64_nonpos hp
    · rw [show t * t / 4 = t / 2 * (t / 2) by ring]
      exact hm.sqrtSquare t ht hid
  unfold gstEig2
  have e : f64 (gstTrace nn ee / 2) = gstTrace nn ee / 2 := hh
  rw [e]
  exact f64_nonneg (by linarith)

/-! ### the orientation -/

theorem tilt_disc (h : CovOk nn ne ee) (ht : Tilted nn ne ee) : ((nn + ee : ℚ) : ℝ) / 200 ≤ √(disc nn ne ee) := by
  have hT : (0 : ℝ) < ((nn + ee : ℚ) : ℝ) := by exact_mod_cast lt_of_lt_of_le (by norm_num) h.low
  rcases ht with ht | ht
  · have h1 := (disc_bounds h).2
    have : ((nn + ee : ℚ) : ℝ) / 100 ≤ |(ne : ℝ)| := by exact_mod_cast ht
    linarith
  · have h1 : ((nn + ee : ℚ) : ℝ) / 100 ≤ (nn : ℝ) - ee := by exact_mod_cast ht
    apply Real.le_sqrt_of_sq_le
    unfold disc
    have : (((nn + ee : ℚ) : ℝ) / 200) ^ 2 ≤ (((nn : ℝ) - ee) / 2) ^ 2 := pow_le_pow_left₀ (by positivity) (by linarith) 2
    linarith [sq_nonneg (ne : ℝ)]

theorem eig_char (a b c : ℝ) : (eig1 a b c - a) * (eig1 a b c - c) = b ^ 2 := by
  have hs : √(disc a b c) ^ 2 = disc a b c := Real.sq_sqrt (disc_nonneg a b c)
  unfold eig1
  generalize √(disc a b c) = r at hs
  unfold disc at hs
  linear_combination hs

theorem tilt_gap (h : CovOk nn ne ee) (ht : Tilted nn ne ee) : ((nn + ee : ℚ) : ℝ) / 10000 ≤ eig1 nn ne ee - ee ∧
    (((nn + ee : ℚ) : ℝ) / 100 ≤ |(ne : ℝ)| ∨ ((nn + ee : ℚ) : ℝ) / 100 ≤ eig1 nn ne ee - ee) := by
  have hT : (0 : ℝ) < ((nn + ee : ℚ) : ℝ) := by exact_mod_cast lt_of_lt_of_le (by norm_num) h.low
  obtain ⟨-, -, h3, h4⟩ := eig_bounds h
  have hc := eig_char (nn : ℝ) ne ee
  have hn : (0 : ℝ) ≤ nn := by exact_mod_cast h.north
  rcases ht with ht | ht
  · have h1 : ((nn + ee : ℚ) : ℝ) / 100 ≤ |(ne : ℝ)| := by exact_mod_cast ht
    refine ⟨?_, Or.inl h1⟩
    have h2 : (((nn + ee : ℚ) : ℝ) / 100) ^ 2 ≤ (ne : ℝ) ^ 2 := by
      rw [← sq_abs (ne : ℝ)]; exact pow_le_pow_left₀ (by positivity) h1 2
    rw [← hc] at h2
    have hTe : ((nn + ee : ℚ) : ℝ) = nn + ee := by push_cast; rfl
    generalize eig1 (nn : ℝ) ne ee = l at *
    generalize ((nn + ee : ℚ) : ℝ) = T at *
    by_contra hcon
    rw [not_le] at hcon
    have ha : l - nn ≤ T := by linarith
    have hb0 : 0 < (T / 100) ^ 2 := by positivity
    rcases le_total (l - nn) 0 with hneg | hpos
    · -- both factors are negative: impossible, their sum is 2 l - T
      have hb : (l - (ee : ℝ)) ≤ 0 := by
        by_contra hq
        rw [not_le] at hq
        have := mul_nonpos_of_nonpos_of_nonneg hneg hq.le
        linarith
      have hsum : (0 : ℝ) ≤ (l - nn) + (l - ee) := by linarith
      have : l - (nn : ℝ) = 0 := by linarith
      rw [this, zero_mul] at h2
      linarith
    · have hb : 0 < l - (ee : ℝ) := by
        by_contra hq
        rw [not_lt] at hq
        have := mul_nonpos_of_nonneg_of_nonpos hpos hq
        linarith
      have := mul_lt_mul_of_nonneg_of_pos' ha hcon hb.le (by linarith)
      have e : (T / 100) ^ 2 = T * (T / 10000) := by ring
      linarith
  · have h1 : ((nn + ee : ℚ) : ℝ) / 100 ≤ (nn : ℝ) - ee := by exact_mod_cast ht
    have h5 : |((nn : ℝ) - ee) / 2| ≤ √(disc nn ne ee) := by
      apply Real.abs_le_sqrt
      unfold disc
      linarith [sq_nonneg (ne : ℝ)]
    have h6 := (abs_le.1 h5).2
    have h7 : ((nn + ee : ℚ) : ℝ) / 100 ≤ eig1 nn ne ee - ee := by
      unfold eig1
      have := le_trans (le_abs_self _) h5
      linarith
    exact ⟨by linarith, Or.inr h7⟩

/-- converting to degrees with rounding and back -/
theorem degrees_near {m : Libm} (hm : Accurate m) {x : ℚ} {t d : ℝ} (ht : |t| ≤ 4) (hd0 : 0 ≤ d) (hd : d ≤ 1) (h : |(x : ℝ) - t| ≤ d) :
    |(f64 (x * m.r2d) : ℝ) - t * (180 / Real.pi)| ≤ 60 * d + 1 / 2 ^ 40 := by
  have hp := Real.pi_gt_three
  have hr := hm.r2d
  have hpb : 180 / Real.pi ≤ 60 := by rw [div_le_iff₀ (by linarith)]; linarith
  have hp0 : 0 < 180 / Real.pi := by positivity
  generalize 180 / Real.pi = R at *
  have hxR : |(x : ℝ)| ≤ 5 := by rw [abs_le] at *; constructor <;> linarith [h.1, h.2]
  have hrR : |(m.r2d : ℝ)| ≤ 61 := by
    rw [abs_le] at *; norm_num at hr
    constructor <;> linarith [hr.1, hr.2]
  have hprod : |((x * m.r2d : ℚ) : ℝ)| ≤ 305 := by
    push_cast
    rw [abs_mul]
    exact (mul_le_mul hxR hrR (abs_nonneg _) (by norm_num)).trans (by norm_num)
  have hq : |x * m.r2d| ≤ 305 := by exact_mod_cast hprod
  have e1 := f64R hq (by norm_num)
  have e2 : |((x * m.r2d : ℚ) : ℝ) - t * R| ≤ 5 * (1 / 2 ^ 46) + d * 60 := by
    push_cast
    have : (x : ℝ) * m.r2d - t * R = x * (m.r2d - R) + (x - t) * R := by ring
    rw [this]
    refine (abs_add_le _ _).trans ?_
    rw [abs_mul, abs_mul, abs_of_pos hp0]
    exact add_le_add (mul_le_mul hxR hr (abs_nonneg _) (by norm_num)) (mul_le_mul h hpb hp0.le hd0)
  generalize ((x * m.r2d : ℚ) : ℝ) = y at *
  rw [abs_le] at *
  norm_num at e1 e2
  constructor <;> linarith [e1.1, e1.2, e2.1, e2.2]

theorem orient_near {m : Libm} (hm : Accurate m) (h : CovOk nn ne ee) (ht : Tilted nn ne ee) :
    eig1 nn ne ee - ((nn + ee : ℚ) : ℝ) / 50000 ≤ variance nn ne ee (gstOrientation m nn ne ee * (Real.pi / 180)) ∧
    |(gstOrientation m nn ne ee : ℝ)| ≤ 90 + 1 / 10 ^ 9 := by
  have hT : (0 : ℝ) < ((nn + ee : ℚ) : ℝ) := by exact_mod_cast lt_of_lt_of_le (by norm_num) h.low
  have hev := eig_near' hm h (tilt_disc h ht)
  obtain ⟨hg1, hg2⟩ := tilt_gap h ht
  obtain ⟨-, -, hl3, hl4⟩ := eig_bounds h
  have hpos := eig1_pos hm h
  have hn : (0 : ℝ) ≤ nn := by exact_mod_cast h.north
  have he : (0 : ℝ) ≤ ee := by exact_mod_cast h.east
  have hTe : ((nn + ee : ℚ) : ℝ) = nn + ee := by push_cast; rfl
  have hne : |(ne : ℝ)| ≤ ((nn + ee : ℚ) : ℝ) / 2 := (disc_bounds h).2.trans (disc_bounds h).1
  have hgap : ((nn + ee : ℚ) : ℝ) * (6 / 100000) ≤ ((gstEig1 m nn ne ee - ee : ℚ) : ℝ) := by
    push_cast at *
    rw [abs_le] at hev
    linarith [hev.1]
  have hlt : ee < gstEig1 m nn ne ee := by
    have : (0 : ℝ) < ((gstEig1 m nn ne ee - ee : ℚ) : ℝ) := by linarith
    have : 0 < gstEig1 m nn ne ee - ee := by exact_mod_cast this
    linarith
  unfold gstOrientation
  simp only
  rw [if_pos ⟨hpos, hlt⟩]
  -- the difference, rounded
  have hb1 : |gstEig1 m nn ne ee - ee| ≤ 2 * (nn + ee) := by
    have : |((gstEig1 m nn ne ee - ee : ℚ) : ℝ)| ≤ ((2 * (nn + ee) : ℚ) : ℝ) := by
      push_cast at *
      rw [abs_le] at *
      constructor <;> linarith [hev.1, hev.2]
    exact_mod_cast this
  have hM : (1 : ℚ) / 10 ^ 20 ≤ 2 * (nn + ee) := by
    have := h.low
    have : (1 : ℚ) / 10 ^ 20 ≤ 1 / 10 ^ 6 := by norm_num
    have h6 : (0 : ℚ) ≤ 1 / 10 ^ 6 := by norm_num
    linarith
  have r1 := f64R hb1 hM
  generalize f64 (gstEig1 m nn ne ee - ee) = u at *
  have hu1 : |(u : ℝ) - (eig1 nn ne ee - ee)| ≤ ((nn + ee : ℚ) : ℝ) / 32000 := by
    push_cast at *
    rw [abs_le] at *
    norm_num at r1
    constructor <;> linarith [hev.1, hev.2, r1.1, r1.2]
  have hu2 : ((nn + ee : ℚ) : ℝ) * (5 / 100000) ≤ (u : ℝ) := by
    rw [abs_le] at hu1
    push_cast at *
    linarith [hu1.1]
  have hu0 : (0 : ℝ) < u := lt_of_lt_of_le (by positivity) hu2
  -- the quotient, rounded
  have hq : |((ne / u : ℚ) : ℝ)| ≤ 10000 := by
    push_cast
    rw [abs_div, abs_of_pos hu0, div_le_iff₀ hu0]
    linarith
  have hq' : |ne / u| ≤ 10000 := by exact_mod_cast hq
  have r2 := f64R hq' (by norm_num)
  generalize f64 (ne / u) = g at *
  have ha := arctan_lip (g : ℝ) ((ne / u : ℚ) : ℝ)
  have hat := hm.atan g
  push_cast at r2 ha
  have hlo := Real.neg_pi_div_two_lt_arctan ((ne : ℝ) / u)
  have hhi := Real.arctan_lt_pi_div_two ((ne : ℝ) / u)
  have hpi := Real.pi_le_four
  have hpi3 := Real.pi_gt_three
  have hatt : |(m.atan g : ℝ) - Real.arctan ((ne : ℝ) / u)| ≤ 1 / 10 ^ 11 := by
    generalize Real.arctan ((ne : ℝ) / u) = A at *
    generalize Real.arctan (g : ℝ) = B at *
    have hBA := ha.trans r2
    rw [abs_le] at hBA hat ⊢
    norm_num at *
    constructor <;> linarith [hBA.1, hBA.2, hat.1, hat.2]
  have hdeg := degrees_near hm (t := Real.arctan ((ne : ℝ) / u)) (by rw [abs_le]; constructor <;> linarith) (by positivity) (by norm_num) hatt
  generalize f64 (m.atan g * m.r2d) = θ at *
  have hθ : |(θ : ℝ) * (Real.pi / 180) - Real.arctan ((ne : ℝ) / u)| ≤ 1 / 10 ^ 9 := by
    have e : (θ : ℝ) * (Real.pi / 180) - Real.arctan ((ne : ℝ) / u) =
        ((θ : ℝ) - Real.arctan ((ne : ℝ) / u) * (180 / Real.pi)) * (Real.pi / 180) := by
      field_simp
    rw [e, abs_mul, abs_of_pos (by positivity : 0 < Real.pi / 180)]
    refine (mul_le_mul hdeg (by linarith : Real.pi / 180 ≤ 1) (by positivity) (by positivity)).trans (by norm_num)
  have hlip := variance_lip (nn : ℝ) ne ee ((θ : ℝ) * (Real.pi / 180)) (Real.arctan ((ne : ℝ) / u))
  have hdir := variance_dir (a := (nn : ℝ)) (b := ne) (c := ee) hu0
  have hsmall : (((u : ℝ) - (eig1 nn ne ee - ee)) ^ 2 * (eig1 nn ne ee - nn) / ((u : ℝ) ^ 2 + (ne : ℝ) ^ 2)) ≤ ((nn + ee : ℚ) : ℝ) / 60000 := by
    have d1 : ((u : ℝ) - (eig1 nn ne ee - ee)) ^ 2 ≤ (((nn + ee : ℚ) : ℝ) / 32000) ^ 2 := by
      rw [← sq_abs]; exact pow_le_pow_left₀ (abs_nonneg _) hu1 2
    have d2 : eig1 (nn : ℝ) ne ee - nn ≤ ((nn + ee : ℚ) : ℝ) := by linarith
    have d3 : (((nn + ee : ℚ) : ℝ) * (99 / 10000)) ^ 2 ≤ (u : ℝ) ^ 2 + (ne : ℝ) ^ 2 := by
      rcases hg2 with hg | hg
      · have := pow_le_pow_left₀ (by positivity) (by linarith : ((nn + ee : ℚ) : ℝ) * (99 / 10000) ≤ |(ne : ℝ)|) 2
        rw [sq_abs] at this
        linarith [sq_nonneg (u : ℝ)]
      · have hu3 : ((nn + ee : ℚ) : ℝ) * (99 / 10000) ≤ (u : ℝ) := by
          rw [abs_le] at hu1
          linarith [hu1.1]
        have := pow_le_pow_left₀ (by positivity) hu3 2
        linarith [sq_nonneg (ne : ℝ)]
    have hden : 0 < (u : ℝ) ^ 2 + (ne : ℝ) ^ 2 := by positivity
    rw [div_le_iff₀ hden]
    have k1 : ((u : ℝ) - (eig1 nn ne ee - ee)) ^ 2 * (eig1 nn ne ee - nn) ≤ (((nn + ee : ℚ) : ℝ) / 32000) ^ 2 * ((nn + ee : ℚ) : ℝ) := by
      refine (mul_le_mul_of_nonneg_left d2 (sq_nonneg _)).trans (mul_le_mul_of_nonneg_right d1 hT.le)
    have k2 := mul_le_mul_of_nonneg_left d3 (by positivity : (0 : ℝ) ≤ ((nn + ee : ℚ) : ℝ) / 60000)
    refine k1.trans (le_trans ?_ k2)
    generalize ((nn + ee : ℚ) : ℝ) = T at *
    rw [show (T / 32000) ^ 2 * T = T ^ 3 * (1 / 32000 ^ 2) by ring, show T / 60000 * (T * (99 / 10000)) ^ 2 = T ^ 3 * ((99 / 10000) ^ 2 / 60000) by ring]
    exact mul_le_mul_of_nonneg_left (by norm_num) (by positivity)
  constructor
  · have hcoef : |(nn : ℝ) - ee| + 2 * |(ne : ℝ)| ≤ 2 * ((nn + ee : ℚ) : ℝ) := by
      have : |(nn : ℝ) - ee| ≤ ((nn + ee : ℚ) : ℝ) := by rw [hTe, abs_le]; constructor <;> linarith
      linarith
    have hl2 := hlip.trans (mul_le_mul hcoef hθ (abs_nonneg _) (by positivity))
    have hl5 := (abs_le.1 hl2).1
    change eig1 (nn : ℝ) ne ee - _ = ((u : ℝ) - (eig1 (nn : ℝ) ne ee - ee)) ^ 2 * (eig1 (nn : ℝ) ne ee - nn) / _ at hdir
    linarith
  · have e : (90 : ℝ) = Real.pi / 2 * (180 / Real.pi) := by field_simp; norm_num
    have hA : |Real.arctan ((ne : ℝ) / u) * (180 / Real.pi)| ≤ 90 := by
      rw [abs_mul, abs_of_pos (by positivity : 0 < 180 / Real.pi), e]
      exact mul_le_mul_of_nonneg_right (abs_le.2 ⟨by linarith, hhi.le⟩) (by positivity)
    rw [abs_le] at *
    norm_num at hdeg
    norm_num
    constructor <;> linarith [hdeg.1, hdeg.2, hA.1, hA.2]

end Verif.Nmea
