import Verif.Spec.NovSbp
import Verif.Lemmas.Float
import Verif.Lemmas.Num
/-! Floating point values of the NovAtel converter. -/
namespace Verif.Nov
open Verif.Fp
open Verif.Ubx (Fl dbl flt castTo)
open Verif.EphSbp (mPi)

/-! ### relative errors, in units of 2^-50 -/

def Rel (k : ℕ) (x y : ℝ) : Prop := |x - y| ≤ |y| * (k / 2 ^ 50)

/-- zero, or not too small -/
def Big (e : ℕ) (y : ℝ) : Prop := y = 0 ∨ 1 / 2 ^ e ≤ |y|

theorem Rel.refl (x : ℝ) : Rel 0 x x := by simp [Rel]

theorem Rel.mono {k l : ℕ} {x y : ℝ} (h : Rel k x y) (hkl : k ≤ l) : Rel l x y := by
  refine h.trans (mul_le_mul_of_nonneg_left ?_ (abs_nonneg y))
  have : (k : ℝ) ≤ l := by exact_mod_cast hkl
  gcongr

theorem Rel.mul {k l : ℕ} {a A b B : ℝ} (h1 : Rel k a A) (h2 : Rel l b B) (hk : k ≤ 1000) (hl : l ≤ 1000) : Rel (k + l + 1) (a * b) (A * B) := by
  unfold Rel at *
  have hk' : (k : ℝ) ≤ 1000 := by exact_mod_cast hk
  have hl' : (l : ℝ) ≤ 1000 := by exact_mod_cast hl
  have h0k : (0 : ℝ) ≤ k := Nat.cast_nonneg k
  have h0l : (0 : ℝ) ≤ l := Nat.cast_nonneg l
  have e : a * b - A * B = (a - A) * (b - B) + (a - A) * B + A * (b - B) := by ring
  have hA := abs_nonneg A
  have hB := abs_nonneg B
  calc |a * b - A * B| ≤ |a - A| * |b - B| + |a - A| * |B| + |A| * |b - B| := by
        rw [e]
        refine (abs_add_le _ _).trans (add_le_add ((abs_add_le _ _).trans (add_le_add ?_ ?_)) ?_) <;> rw [abs_mul]
    _ ≤ |A| * (k / 2 ^ 50) * (|B| * (l / 2 ^ 50)) + |A| * (k / 2 ^ 50) * |B| + |A| * (|B| * (l / 2 ^ 50)) := by gcongr
    _ = |A| * |B| * (k / 2 ^ 50 * (l / 2 ^ 50) + k / 2 ^ 50 + l / 2 ^ 50) := by ring
    _ ≤ |A| * |B| * (1000 / 2 ^ 50 * (1000 / 2 ^ 50) + k / 2 ^ 50 + l / 2 ^ 50) := by gcongr
    _ ≤ |A * B| * ((k + l + 1 : ℕ) / 2 ^ 50) := by
        rw [abs_mul]
        refine mul_le_mul_of_nonneg_left ?_ (by positivity)
        push_cast
        have : (1000 : ℝ) / 2 ^ 50 * (1000 / 2 ^ 50) ≤ 1 / 2 ^ 50 := by norm_num
        calc _ ≤ 1 / 2 ^ 50 + (k : ℝ) / 2 ^ 50 + l / 2 ^ 50 := by linarith
          _ = _ := by ring

theorem Rel.inv {l : ℕ} {b B : ℝ} (h : Rel l b B) (hB : B ≠ 0) (hl : l ≤ 1000) : Rel (l + 1) b⁻¹ B⁻¹ := by
  unfold Rel at *
  have hl' : (l : ℝ) ≤ 1000 := by exact_mod_cast hl
  have h0l : (0 : ℝ) ≤ l := Nat.cast_nonneg l
  have hBp : 0 < |B| := abs_pos.2 hB
  have hb : |B| * (1 - 1000 / 2 ^ 50) ≤ |b| := by
    have h1 : |B| ≤ |b| + |b - B| := by
      have := abs_sub_abs_le_abs_sub B b
      rw [abs_sub_comm] at this; linarith
    have h2 : |B| * (l / 2 ^ 50) ≤ |B| * (1000 / 2 ^ 50) := by gcongr
    linarith
  have hbp : 0 < |b| := lt_of_lt_of_le (by positivity) hb
  have hb0 : b ≠ 0 := abs_pos.1 hbp
  have e : b⁻¹ - B⁻¹ = -(b - B) / (b * B) := by field_simp; ring
  rw [e, abs_div, abs_neg, abs_mul, abs_inv]
  rw [div_le_iff₀ (by positivity)]
  refine h.trans ?_
  have e2 : |B|⁻¹ * ((l + 1 : ℕ) / 2 ^ 50) * (|b| * |B|) = |b| * ((l + 1 : ℕ) / 2 ^ 50) := by field_simp
  rw [e2]
  calc |B| * (l / 2 ^ 50) ≤ |B| * (1 - 1000 / 2 ^ 50) * ((l + 1 : ℕ) / 2 ^ 50) := by
        rw [mul_assoc]
        refine mul_le_mul_of_nonneg_left ?_ hBp.le
        push_cast
        rw [← mul_div_assoc]
        refine div_le_div_of_nonneg_right ?_ (by norm_num)
        nlinarith
    _ ≤ _ := by gcongr

theorem Rel.div {k l : ℕ} {a A b B : ℝ} (h1 : Rel k a A) (h2 : Rel l b B) (hB : B ≠ 0) (hk : k ≤ 900) (hl : l ≤ 900) :
    Rel (k + l + 2) (a / b) (A / B) := by
  rw [div_eq_mul_inv, div_eq_mul_inv]
  exact (h1.mul (h2.inv hB (by omega)) (by omega) (by omega)).mono (by omega)

theorem Big.mul {a b : ℕ} {x y : ℝ} (h1 : Big a x) (h2 : Big b y) : Big (a + b) (x * y) := by
  rcases h1 with rfl | h1
  · left; simp
  rcases h2 with rfl | h2
  · left; simp
  right
  rw [abs_mul, pow_add]
  calc (1 : ℝ) / (2 ^ a * 2 ^ b) = 1 / 2 ^ a * (1 / 2 ^ b) := by field_simp
    _ ≤ _ := by gcongr

theorem Big.mono {a b : ℕ} {x : ℝ} (h : Big a x) (hab : a ≤ b) : Big b x := by
  rcases h with rfl | h
  · left; rfl
  · right
    refine le_trans ?_ h
    gcongr
    norm_num

theorem Big.int (n : ℤ) : Big 0 (n : ℝ) := by
  by_cases h : n = 0
  · left; simp [h]
  · right
    have : 1 ≤ |n| := Int.one_le_abs h
    simp only [pow_zero, div_one]
    exact_mod_cast this

theorem f64_zero : f64 0 = 0 := by simp [f64, fl]
theorem f32_zero : f32 0 = 0 := by simp [f32, fl]

/-- one operation -/
theorem Rel.f64 {k : ℕ} {z : ℚ} {y : ℝ} (h : Rel k z y) (hy : Big 140 y) (hk : k ≤ 1000) : Rel (k + 2) (f64 z : ℚ) y := by
  have hk' : (k : ℝ) ≤ 1000 := by exact_mod_cast hk
  have h0k : (0 : ℝ) ≤ k := Nat.cast_nonneg k
  unfold Rel at *
  rcases hy with rfl | hy
  · have : (z : ℝ) = 0 := by simpa using h
    have hz : z = 0 := by exact_mod_cast this
    rw [hz, f64_zero]; simp
  · have he := f64_err z
    have he' : |((Fp.f64 z : ℚ) : ℝ) - z| ≤ |(z : ℝ)| / 9007199254740992 + 1 / 2 ^ 200 := by
      have := (Rat.cast_le (K := ℝ)).2 he
      push_cast at this
      exact this
    have hz : |(z : ℝ)| ≤ |y| * 2 := by
      have h1 : |(z : ℝ)| ≤ |(z : ℝ) - y| + |y| := by
        have := abs_sub_abs_le_abs_sub (z : ℝ) y; linarith
      have h2 : |y| * (k / 2 ^ 50) ≤ |y| * (1000 / 2 ^ 50) := by gcongr
      have h3 : |y| * (1000 / 2 ^ 50) ≤ |y| := mul_le_of_le_one_right (abs_nonneg y) (by norm_num)
      linarith
    have h4 : (1 : ℝ) / 2 ^ 200 ≤ |y| * (1 / 2 ^ 60) := by
      calc (1 : ℝ) / 2 ^ 200 = 1 / 2 ^ 140 * (1 / 2 ^ 60) := by norm_num
        _ ≤ _ := by gcongr
    calc |((Fp.f64 z : ℚ) : ℝ) - y| ≤ |((Fp.f64 z : ℚ) : ℝ) - z| + |(z : ℝ) - y| := abs_sub_le _ _ _
      _ ≤ |y| * 2 / 9007199254740992 + |y| * (1 / 2 ^ 60) + |y| * (k / 2 ^ 50) := by
        have : |(z : ℝ)| / 9007199254740992 ≤ |y| * 2 / 9007199254740992 := by gcongr
        linarith
      _ = |y| * (2 / 9007199254740992 + 1 / 2 ^ 60 + k / 2 ^ 50) := by ring
      _ ≤ |y| * ((k + 2 : ℕ) / 2 ^ 50) := by
        refine mul_le_mul_of_nonneg_left ?_ (abs_nonneg y)
        push_cast
        have : (2 : ℝ) / 9007199254740992 + 1 / 2 ^ 60 ≤ 2 / 2 ^ 50 := by norm_num
        calc _ ≤ (2 : ℝ) / 2 ^ 50 + k / 2 ^ 50 := by linarith
          _ = _ := by ring

theorem mPi_rel : Rel 4 (mPi : ℚ) Real.pi := by
  have h1 := Real.pi_gt_d20
  have h2 := Real.pi_lt_d20
  unfold Rel mPi
  rw [abs_of_pos Real.pi_pos]
  push_cast
  rw [abs_le]
  norm_num at h1 h2 ⊢
  constructor <;> linarith

/-! ### saturation -/

def clampR (lo hi x : ℝ) : ℝ := max lo (min hi x)

theorem clampR_lip (lo hi x y : ℝ) : |clampR lo hi x - clampR lo hi y| ≤ |x - y| := by
  have h1 : ∀ a b : ℝ, a ≤ b → clampR lo hi a ≤ clampR lo hi b ∧ clampR lo hi b ≤ clampR lo hi a + (b - a) := by
    intro a b hab
    unfold clampR
    refine ⟨max_le_max le_rfl (min_le_min le_rfl hab), ?_⟩
    refine max_le ?_ ?_
    · have := le_max_left lo (min hi a); linarith
    · have h2 := le_max_right lo (min hi a)
      have h3 : min hi b ≤ min hi a + (b - a) := by
        rcases le_total hi a with h | h
        · rw [min_eq_left h]; have := min_le_left hi b; linarith
        · rw [min_eq_right h]; have := min_le_right hi b; linarith
      linarith
  rcases le_total x y with hxy | hxy
  · have := h1 x y hxy
    rw [abs_le]; constructor <;> linarith [le_abs_self (x - y), neg_abs_le (x - y)]
  · have := h1 y x hxy
    rw [abs_le]; constructor <;> linarith [le_abs_self (x - y), neg_abs_le (x - y)]

theorem clampR_rel {lo hi : ℝ} (hlo : -2147483648 ≤ lo) (hhi : hi ≤ 2147483648) (hhi0 : 0 ≤ hi) {k : ℕ} (hk : k ≤ 1000) {x y : ℝ}
    (h : Rel k x y) : |clampR lo hi x - clampR lo hi y| ≤ 1 / 100 := by
  have hk' : (k : ℝ) ≤ 1000 := by exact_mod_cast hk
  unfold Rel at h
  have h2 : |x - y| ≤ |y| * (1000 / 2 ^ 50) := h.trans (by gcongr)
  by_cases h1 : |y| ≤ 4294967296
  · refine (clampR_lip _ _ _ _).trans (h2.trans ?_)
    calc |y| * (1000 / 2 ^ 50) ≤ 4294967296 * (1000 / 2 ^ 50) := by gcongr
      _ ≤ _ := by norm_num
  · push Not at h1
    rw [abs_le] at h2
    unfold clampR
    rcases le_total 0 y with hy | hy
    · rw [abs_of_nonneg hy] at h2 h1
      norm_num at h2
      rw [min_eq_left (by linarith [h2.1]), min_eq_left (by linarith)]; norm_num
    · rw [abs_of_nonpos hy] at h2 h1
      norm_num at h2
      rw [max_eq_left (by rw [min_eq_right (by linarith [h2.2])]; linarith [h2.2]), max_eq_left (by rw [min_eq_right (by linarith)]; linarith)]
      norm_num

theorem doubleTo_some {lo hi : Int} (x : ℚ) (h : lo < hi) : ∃ v, doubleTo lo hi (.fin x) = some v ∧ lo ≤ v ∧ v ≤ hi ∧
    |(v : ℝ) - clampR lo hi x| ≤ 1 / 2 := by
  have hc := cround_bounds x
  have hc1 : (x : ℝ) - 1 / 2 ≤ (cround x : ℝ) := by
    have := (Rat.cast_le (K := ℝ)).2 hc.1
    push_cast at this
    exact this
  have hc2 : (cround x : ℝ) ≤ (x : ℝ) + 1 / 2 := by
    have := (Rat.cast_le (K := ℝ)).2 hc.2
    push_cast at this
    exact this
  have hlh : (lo : ℝ) < hi := by exact_mod_cast h
  simp only [doubleTo]
  split
  · rename_i h1
    have h1' : (cround x : ℝ) ≤ lo := by exact_mod_cast h1
    refine ⟨lo, rfl, le_rfl, h.le, ?_⟩
    unfold clampR
    rw [abs_le]
    refine ⟨?_, by linarith [le_max_left (lo : ℝ) (min hi x)]⟩
    have : max (lo : ℝ) (min hi x) ≤ lo + 1 / 2 := max_le (by linarith) ((min_le_right _ _).trans (by linarith))
    linarith
  · rename_i h1
    split
    · rename_i h2
      have h2' : (hi : ℝ) ≤ cround x := by exact_mod_cast h2
      refine ⟨hi, rfl, h.le, le_rfl, ?_⟩
      unfold clampR
      have a1 : max (lo : ℝ) (min hi x) ≤ hi := max_le hlh.le (min_le_left _ _)
      have a2 : (hi : ℝ) - 1 / 2 ≤ max (lo : ℝ) (min (hi : ℝ) (x : ℝ)) := le_max_of_le_right (le_min (by linarith) (by linarith))
      rw [abs_le]; constructor <;> linarith
    · rename_i h2
      have hct : ctrunc ((cround x : Int) : ℚ) = cround x := by
        unfold ctrunc
        split
        · exact Int.floor_intCast _
        · rw [← Int.cast_neg, Int.floor_intCast]; omega
      refine ⟨cround x, ?_, by omega, by omega, ?_⟩
      · unfold castTo
        rw [hct, if_pos ⟨by omega, by omega⟩]
      · have h1' : (lo : ℝ) + 1 ≤ cround x := by exact_mod_cast (by omega : lo + 1 ≤ cround x)
        have h2' : (cround x : ℝ) ≤ hi - 1 := by exact_mod_cast (by omega : cround x ≤ hi - 1)
        unfold clampR
        rw [min_eq_right (by linarith), max_eq_right (by linarith), abs_le]
        constructor <;> linarith

theorem s32_some {x : ℚ} {y : ℝ} {k : ℕ} (hk : k ≤ 1000) (h : Rel k x y) : ∃ v, doubleToS32 (.fin x) = some v ∧ -2147483648 ≤ v ∧ v ≤ 2147483647 ∧
    Spec.Says32 v y := by
  obtain ⟨v, h1, h2, h3, h4⟩ := doubleTo_some (lo := -2147483648) (hi := 2147483647) x (by norm_num)
  refine ⟨v, h1, h2, h3, ?_⟩
  unfold Spec.Says32
  have h5 := clampR_rel (lo := -2147483648) (hi := 2147483647) (by norm_num) (by norm_num) (by norm_num) hk h
  push_cast at h4
  exact (abs_sub_le _ (clampR (-2147483648) 2147483647 x) _).trans (add_le_add h4 h5)

theorem s16_some {x : ℚ} {y : ℝ} {k : ℕ} (hk : k ≤ 1000) (h : Rel k x y) : ∃ v, doubleToS16 (.fin x) = some v ∧ Spec.Says16 v y := by
  obtain ⟨v, h1, h2, h3, h4⟩ := doubleTo_some (lo := -32768) (hi := 32767) x (by norm_num)
  refine ⟨v, h1, ?_⟩
  unfold Spec.Says16
  have h5 := clampR_rel (lo := -32768) (hi := 32767) (by norm_num) (by norm_num) (by norm_num) hk h
  push_cast at h4
  exact (abs_sub_le _ (clampR (-32768) 32767 x) _).trans (add_le_add h4 h5)

end Verif.Nov
