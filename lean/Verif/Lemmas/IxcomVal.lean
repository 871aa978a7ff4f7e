import Verif.Lemmas.Ixcom
import Verif.Lemmas.IxcomCrc
import Verif.Props.C43
/-! Values of the iXCOM converter. -/
namespace Verif.Ixcom
open Verif.Fp Verif.Crc
open Verif.Ixcom.Spec
open Verif.Ubx (Fl flt clampS16 castTo clamp16 clamp_near accScale)
open Verif.EphSbp (mPi)

/-! ### floats -/

theorem f32_rel {z y δ η : ℚ} (h : |z - y| ≤ |y| * δ + η) :
    |f32 z - y| ≤ |y| * (δ + (1 + δ) / 16777216) + (η + η / 16777216 + 1 / 2 ^ 150) := by
  have h1 := f32_err z
  have h2 : |z| ≤ |y| + (|y| * δ + η) := by
    have : |z| ≤ |z - y| + |y| := by simpa using abs_sub_abs_le_abs_sub z y |> fun h => by linarith
    linarith
  calc |f32 z - y| ≤ |f32 z - z| + |z - y| := abs_sub_le _ _ _
    _ ≤ |y| * (δ + (1 + δ) / 16777216) + (η + η / 16777216 + 1 / 2 ^ 150) := by
      have : |z| / 16777216 ≤ (|y| + (|y| * δ + η)) / 16777216 := by gcongr
      calc _ ≤ (|y| + (|y| * δ + η)) / 16777216 + 1 / 2 ^ 150 + (|y| * δ + η) := by linarith
        _ = _ := by ring

theorem scale_rel {z y q δ : ℚ} (h : z = y * q) (hq : |q - 1| ≤ δ) : |z - y| ≤ |y| * δ + 0 := by
  rw [h, show y * q - y = y * (q - 1) by ring, abs_mul, add_zero]
  gcongr

theorem acc_close (x : ℚ) :
    |accUnits x - x * (32768 / (4 * 9.80665))| ≤ |x * (32768 / (4 * 9.80665))| / 4500000 + 1 / 2 ^ 100 := by
  unfold accUnits
  rw [accScale]
  have h := f32_rel (scale_rel (z := x / (10283018 / 2 ^ 33)) (y := x * (32768 / (4 * 9.80665)))
    (q := 2 ^ 33 * (4 * 9.80665) / 32768 / 10283018) (δ := 1 / 16000000) (by norm_num; ring) (by norm_num [abs_le]))
  refine h.trans ?_
  have := abs_nonneg (x * (32768 / (4 * 9.80665)))
  generalize |x * (32768 / (4 * 9.80665))| = y at *
  norm_num
  linarith

theorem gyrScale : f32 (f64 (180 / mPi)) = 15019745 / 2 ^ 18 := by decide +kernel
theorem gyrScale2 : f32 (f64 (125 / 32768)) = 125 / 32768 := by decide +kernel

theorem gyr_close (x : ℚ) :
    |gyrUnits x - x * (180 / mPi * (32768 / 125))| ≤ |x * (180 / mPi * (32768 / 125))| / 4500000 + 1 / 2 ^ 100 := by
  unfold gyrUnits
  rw [gyrScale, gyrScale2]
  have h := f32_rel (scale_rel (z := x * (15019745 / 2 ^ 18)) (y := x * (180 / mPi))
    (q := 15019745 / 2 ^ 18 / (180 / mPi)) (δ := 1 / 16000000) (by unfold mPi; norm_num; ring) (by unfold mPi; norm_num [abs_le]))
  have h2 : |f32 (x * (15019745 / 2 ^ 18)) / (125 / 32768) - x * (180 / mPi * (32768 / 125))| ≤
      |x * (180 / mPi * (32768 / 125))| * (1 / 16000000 + (1 + 1 / 16000000) / 16777216) + 1 / 2 ^ 140 := by
    have e : f32 (x * (15019745 / 2 ^ 18)) / (125 / 32768) - x * (180 / mPi * (32768 / 125)) =
        (f32 (x * (15019745 / 2 ^ 18)) - x * (180 / mPi)) * (32768 / 125) := by ring
    have e2 : |x * (180 / mPi * (32768 / 125))| = |x * (180 / mPi)| * (32768 / 125) := by
      rw [← mul_assoc, abs_mul _ (32768 / 125 : ℚ), abs_of_pos (by norm_num : (0 : ℚ) < 32768 / 125)]
    rw [e, e2, abs_mul, abs_of_pos (by norm_num : (0 : ℚ) < 32768 / 125)]
    generalize |f32 (x * (15019745 / 2 ^ 18)) - x * (180 / mPi)| = a at *
    generalize |x * (180 / mPi)| = b at *
    norm_num at h ⊢
    linarith
  refine (f32_rel h2).trans ?_
  have := abs_nonneg (x * (180 / mPi * (32768 / 125)))
  generalize |x * (180 / mPi * (32768 / 125))| = y at *
  norm_num
  linarith

theorem clamp_lip (x y : ℚ) : |clamp16 x - clamp16 y| ≤ |x - y| := by
  have h : clamp16 = fun x : ℚ => max (-32768) (min 32767 x) := rfl
  have h1 : ∀ a b : ℚ, a ≤ b → clamp16 a ≤ clamp16 b ∧ clamp16 b ≤ clamp16 a + (b - a) := by
    intro a b hab
    rw [h]
    refine ⟨max_le_max le_rfl (min_le_min le_rfl hab), ?_⟩
    simp only
    refine max_le ?_ ?_
    · have := le_max_left (-32768 : ℚ) (min 32767 a); linarith
    · have h2 := le_max_right (-32768 : ℚ) (min 32767 a)
      have h3 : min 32767 b ≤ min 32767 a + (b - a) := by
        rcases le_total 32767 a with h | h
        · rw [min_eq_left h]; have := min_le_left 32767 b; linarith
        · rw [min_eq_right h]; have := min_le_right 32767 b; linarith
      linarith
  rcases le_total x y with hxy | hxy
  · have := h1 x y hxy
    rw [abs_le]; have := neg_abs_le (x - y); constructor <;> linarith [le_abs_self (x - y)]
  · have := h1 y x hxy
    rw [abs_le]; have := neg_abs_le (x - y); constructor <;> linarith [le_abs_self (x - y)]

theorem clamp_says {x y : ℚ} (h : |x - y| ≤ |y| / 4500000 + 1 / 2 ^ 100) : Ubx.Spec.Says16 (clampS16 x) y := by
  have hc : |clamp16 x - clamp16 y| ≤ 1 / 128 := by
    by_cases h1 : |y| ≤ 32780
    · refine (clamp_lip x y).trans (h.trans ?_)
      norm_num; linarith
    · push Not at h1
      rw [abs_le] at h
      unfold clamp16
      rcases le_total 0 y with hy | hy
      · rw [abs_of_nonneg hy] at h h1
        norm_num at h
        rw [min_eq_left (by linarith [h.1]), min_eq_left (by linarith)]; norm_num
      · rw [abs_of_nonpos hy] at h h1
        norm_num at h
        rw [max_eq_left (by rw [min_eq_right (by linarith [h.2])]; linarith [h.2]), max_eq_left (by rw [min_eq_right (by linarith)]; linarith)]
        norm_num
  have a2 := clamp_near x
  unfold Ubx.Spec.Says16
  change |_ - clamp16 _| ≤ _
  exact (abs_sub_le _ (clamp16 x) _).trans (by linarith)

theorem clampFl_says {f : ℚ → ℚ} {k : ℚ} (hf : ∀ x, |f x - x * k| ≤ |x * k| / 4500000 + 1 / 2 ^ 100) {x : Fl} (h : x ≠ .nan) :
    ∃ r, clampFl f x = some r ∧ SaysFl r k x := by
  match x, h with
  | .fin x, _ => exact ⟨_, rfl, clamp_says (hf x)⟩
  | .inf true, _ => exact ⟨_, rfl, rfl⟩
  | .inf false, _ => exact ⟨_, rfl, rfl⟩

theorem ctrunc_spec (x : ℚ) : |(ctrunc x : ℚ) - x| ≤ 1 ∧ (0 ≤ x → 0 ≤ ctrunc x) ∧ (x ≤ 0 → ctrunc x ≤ 0) := by
  unfold ctrunc
  split
  · rename_i h
    refine ⟨?_, fun _ => ?_, fun h2 => ?_⟩
    · have := Int.floor_le x; have := Int.lt_floor_add_one x
      rw [abs_le]; constructor <;> linarith
    · exact Int.floor_nonneg.2 h
    · rw [show x = 0 by linarith]; simp
  · rename_i h
    push Not at h
    refine ⟨?_, fun h2 => absurd h2 (by linarith), fun _ => ?_⟩
    · have := Int.floor_le (-x); have := Int.lt_floor_add_one (-x)
      push_cast
      rw [abs_le]; constructor <;> linarith
    · have : 0 ≤ ⌊-x⌋ := Int.floor_nonneg.2 (by linarith)
      omega

theorem rne_nonneg {x : ℚ} (h : 0 ≤ x) : 0 ≤ rne x := by
  have := rne_err x
  rw [abs_le] at this
  by_contra hn
  push Not at hn
  have : (rne x : ℚ) ≤ -1 := by exact_mod_cast (by omega : rne x ≤ -1)
  linarith

theorem rne_nonpos {x : ℚ} (h : x ≤ 0) : rne x ≤ 0 := by
  have := rne_err x
  rw [abs_le] at this
  by_contra hn
  push Not at hn
  have : (1 : ℚ) ≤ rne x := by exact_mod_cast (by omega : 1 ≤ rne x)
  linarith

theorem f32_sign (x : ℚ) : (0 ≤ x → 0 ≤ f32 x) ∧ (x ≤ 0 → f32 x ≤ 0) := by
  unfold f32 fl
  split
  · exact ⟨fun _ => le_rfl, fun _ => le_rfl⟩
  · have hp := two_pos (ulpExp 24 (-126) x)
    refine ⟨fun h => ?_, fun h => ?_⟩
    · have : (0 : ℚ) ≤ rne (x / 2 ^ ulpExp 24 (-126) x) := by exact_mod_cast rne_nonneg (by positivity)
      positivity
    · have : (rne (x / 2 ^ ulpExp 24 (-126) x) : ℚ) ≤ 0 := by
        exact_mod_cast rne_nonpos (div_nonpos_of_nonpos_of_nonneg h hp.le)
      exact mul_nonpos_of_nonpos_of_nonneg this hp.le

theorem speed_says {x : ℚ} (h : |x| ≤ 2147483) : ∃ v, speedMm (.fin x) = some v ∧ SaysSpeed v (.fin x) := by
  have he := f32_err (x * 1000)
  have hx : |x * 1000| = |x| * 1000 := by rw [abs_mul]; norm_num
  rw [hx] at he
  obtain ⟨h1, h2, h3⟩ := ctrunc_spec (f32 (x * 1000))
  obtain ⟨s1, s2⟩ := f32_sign (x * 1000)
  have hd : |(ctrunc (f32 (x * 1000)) : ℚ) - 1000 * x| ≤ 1001 / 1000 + |x| / 16000 := by
    have := abs_sub_le (ctrunc (f32 (x * 1000)) : ℚ) (f32 (x * 1000)) (x * 1000)
    rw [mul_comm x] at *
    have := abs_nonneg x
    norm_num at he
    linarith
  have hr : -2147483648 ≤ ctrunc (f32 (x * 1000)) ∧ ctrunc (f32 (x * 1000)) ≤ 2147483647 := by
    rw [abs_le] at hd h
    have hx0 : |x| ≤ 2147483 := abs_le.2 h
    constructor
    · exact_mod_cast (by linarith [hd.1, h.1] : (-2147483648 : ℚ) ≤ ctrunc (f32 (x * 1000)))
    · exact_mod_cast (by linarith [hd.2, h.2] : (ctrunc (f32 (x * 1000)) : ℚ) ≤ 2147483647)
  refine ⟨ctrunc (f32 (x * 1000)), ?_, hd, fun h => h2 (s1 (by linarith)), fun h => h3 (s2 (by linarith))⟩
  show castTo _ _ _ = _
  unfold castTo
  rw [if_pos hr]

end Verif.Ixcom
