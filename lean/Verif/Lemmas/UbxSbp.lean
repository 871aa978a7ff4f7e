import Verif.Spec.UbxSbp
import Verif.Lemmas.Float
import Verif.Lemmas.Num
import Verif.Lemmas.UbxCodecRep
import Mathlib.Tactic.IntervalCases
/-! Lemmas on the values in the UBX to SBP converter. -/
namespace Verif.Ubx
open Verif.Fp Verif.Ubx.Spec

theorem f64_grid (x : ℚ) : ∃ m k : Int, f64 x = (m : ℚ) * 2 ^ k ∧ |m| ≤ 9007199254740992 ∧ -1074 ≤ k := by
  obtain ⟨m, k, h, h1, h2⟩ := fl_grid (p := 53) (by norm_num) (-1022) x
  exact ⟨m, k, h, by simpa using h1, by norm_num at h2 ⊢; exact h2⟩

/-- multiplying by a power of two is exact -/
theorem f64_scale (x : ℚ) (n : Nat) : f64 (f64 x * 2 ^ n) = f64 x * 2 ^ n := by
  obtain ⟨m, k, h, h1, h2⟩ := f64_grid x
  have e : f64 x * 2 ^ n = (m : ℚ) * 2 ^ (k + n) := by
    rw [h, zpow_add₀ (by norm_num), zpow_natCast]; ring
  rw [e]; exact f64_exact h1 (by omega)

theorem f64_int (n : Int) (h : |n| ≤ 9007199254740992) : f64 n = n := by
  have := f64_exact (k := 0) (m := n) h (by norm_num)
  simpa using this

theorem rne_nonneg {x : ℚ} (h : 0 ≤ x) : 0 ≤ rne x := by
  have : 0 ≤ ⌊x⌋ := Int.floor_nonneg.mpr h
  unfold rne; split_ifs <;> omega

theorem f64_nonneg {x : ℚ} (h : 0 ≤ x) : 0 ≤ f64 x := by
  unfold f64 fl
  split
  · exact le_rfl
  · have h1 : 0 ≤ rne (x / 2 ^ ulpExp 53 (-1022) x) := rne_nonneg (div_nonneg h (le_of_lt (two_pos _)))
    exact mul_nonneg (by exact_mod_cast h1) (le_of_lt (two_pos _))

theorem frac256_near (x : ℚ) : 0 ≤ frac256 x ∧ frac256 x ≤ 256 ∧
    |(frac256 x : ℚ) / 256 - (x - ⌊x⌋)| ≤ 1 / 512 + 1 / 2 ^ 52 := by
  have h0 : 0 ≤ x - ⌊x⌋ := by linarith [Int.floor_le x]
  have h1 : x - ⌊x⌋ < 1 := by linarith [Int.lt_floor_add_one x]
  have e := f64_err (x - ⌊x⌋)
  rw [abs_of_nonneg h0] at e
  have hs : f64 (f64 (x - ⌊x⌋) * 256) = f64 (x - ⌊x⌋) * 256 := by
    have := f64_scale (x - ⌊x⌋) 8
    norm_num at this ⊢; exact this
  unfold frac256
  rw [hs]
  generalize f64 (x - ⌊x⌋) = y at e ⊢
  generalize x - ⌊x⌋ = z at e h0 h1 ⊢
  have h2 : |y - z| ≤ 1 / 2 ^ 52 := by
    refine e.trans ?_
    have : z / 9007199254740992 ≤ 1 / 9007199254740992 := by gcongr
    refine le_trans (add_le_add this le_rfl) (by norm_num)
  have c := cround_bounds (y * 256)
  rw [abs_le] at h2
  obtain ⟨c1, c2⟩ := c
  refine ⟨?_, ?_, ?_⟩
  · have : (-1 : ℚ) < cround (y * 256) := by
      have : -(1 / 2 : ℚ) < y * 256 := by linarith [h2.1]
      linarith
    exact_mod_cast (by exact_mod_cast this : (-1 : Int) < cround (y * 256))
  · have : (cround (y * 256) : ℚ) < 257 := by
      have : y * 256 < 256 + 1 / 2 := by linarith [h2.2]
      linarith
    have h : cround (y * 256) < 257 := by exact_mod_cast this
    omega
  · rw [abs_le]; constructor <;> linarith [h2.1, h2.2]

theorem near_of_frac (x : ℚ) :
    Near256 (if 255 < frac256 x then (⌊x⌋ + 1, 0) else (⌊x⌋, (frac256 x).toNat)) x := by
  obtain ⟨h0, h1, h2⟩ := frac256_near x
  unfold Near256
  split
  · have : frac256 x = 256 := by omega
    rw [this] at h2
    refine ⟨by simp, ?_⟩
    push_cast at h2 ⊢
    rw [abs_le] at h2 ⊢
    constructor <;> linarith [h2.1, h2.2]
  · refine ⟨by simp only; omega, ?_⟩
    have e : (((frac256 x).toNat : Nat) : ℚ) = frac256 x := by exact_mod_cast Int.toNat_of_nonneg h0
    simp only [e]
    rw [abs_le] at h2 ⊢
    constructor <;> linarith [h2.1, h2.2]

end Verif.Ubx
