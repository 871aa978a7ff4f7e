import Verif.Spec.NmeaNum
import Verif.Lemmas.Float
import Verif.Lemmas.Num
import Verif.Lemmas.Nmea
namespace Verif.Nmea
open Verif.Nmea.Spec Verif.Fp

theorem digitsN_length (w n : Nat) : (digitsN w n).length = w := by
  induction w generalizing n with
  | zero => rfl
  | succ w ih => simp [digitsN, ih]

theorem digitsN_zero (w : Nat) : digitsN w 0 = List.replicate w '0' := by
  induction w with
  | zero => rfl
  | succ w ih =>
    simp only [digitsN, Nat.zero_div, Nat.zero_mod, ih]
    exact (List.replicate_succ' (n := w) (a := '0')).symm

theorem pad_toDigits (w n : Nat) (hw : 1 ≤ w) (h : n < 10 ^ w) : pad w (Nat.toDigits 10 n) = digitsN w n := by
  induction w generalizing n with
  | zero => omega
  | succ w ih =>
    by_cases hn : n < 10
    · rw [Nat.toDigits_of_lt_base hn]
      simp only [digitsN, Nat.mod_eq_of_lt hn, Nat.div_eq_of_lt hn, digitsN_zero]
      simp [pad]
    · have hn' : 10 ≤ n := by omega
      rw [Nat.toDigits_of_base_le (by omega) hn']
      have hw' : 1 ≤ w := by
        rcases Nat.eq_zero_or_pos w with h0 | h0
        · subst h0; simp at h; omega
        · exact h0
      have := ih (n / 10) hw' (by rw [Nat.pow_succ] at h; omega)
      simp only [digitsN, ← this]
      unfold pad
      simp only [List.length_append, List.length_singleton]
      rw [show w + 1 - ((Nat.toDigits 10 (n / 10)).length + 1) = w - (Nat.toDigits 10 (n / 10)).length by omega]
      simp

theorem fmtU_digitsN (w n : Nat) (hw : 1 ≤ w) (h : n < 10 ^ w) : fmtU w n = digitsN w n := pad_toDigits w n hw h

/-- `%0{w}.{p}f` of a number with at most `w - p - 1` integer digits -/
theorem pad_fixed (i p k : Nat) (hi : 1 ≤ i) (hp : 1 ≤ p) (h : k < 10 ^ (i + p)) :
    pad (i + 1 + p) (fixedDigits p k) = digitsN i (k / 10 ^ p) ++ ['.'] ++ digitsN p (k % 10 ^ p) := by
  have h1 : k % 10 ^ p < 10 ^ p := Nat.mod_lt _ (by positivity)
  have h2 : k / 10 ^ p < 10 ^ i := by
    rw [Nat.div_lt_iff_lt_mul (by positivity), ← Nat.pow_add]; exact h
  unfold fixedDigits
  rw [pad_toDigits p _ hp h1, ← pad_toDigits i _ hi h2]
  unfold pad
  simp only [List.length_append, List.length_cons, digitsN_length]
  rw [show i + 1 + p - ((Nat.toDigits 10 (k / 10 ^ p)).length + (p + 1)) = i - (Nat.toDigits 10 (k / 10 ^ p)).length by omega]
  simp

theorem rne_nonneg {x : ℚ} (h : 0 ≤ x) : 0 ≤ rne x := by
  have hf : 0 ≤ ⌊x⌋ := Int.floor_nonneg.2 h
  unfold rne; split_ifs <;> omega

theorem f64_nonneg {x : ℚ} (h : 0 ≤ x) : 0 ≤ f64 x := by
  unfold f64 fl
  split_ifs
  · exact le_refl _
  · apply mul_nonneg
    · have : 0 ≤ rne (x / 2 ^ ulpExp 53 (-1022) x) := rne_nonneg (div_nonneg h (two_pos _).le)
      exact_mod_cast this
    · exact (two_pos _).le

theorem f64_int {n : Int} (h : |n| ≤ 9007199254740992) : f64 n = n := by
  have := f64_exact (k := 0) (m := n) h (by omega)
  simpa using this

theorem f64_near {x b : ℚ} (h : |x| ≤ b) : |f64 x - x| ≤ b / 9007199254740992 + 1 / 10 ^ 60 := by
  refine (f64_err x).trans ?_
  have : |x| / 9007199254740992 ≤ b / 9007199254740992 := div_le_div_of_nonneg_right h (by norm_num)
  have h2 : (1 : ℚ) / 2 ^ 200 ≤ 1 / 10 ^ 60 := by norm_num
  linarith

/-- splitting of a coordinate: the whole degrees, and the minutes to 10^-11 -/
theorem splitAngle_spec (q : ℚ) (hq : |q| ≤ 360) :
    ∃ (deg r : Nat) (m : ℚ), splitAngle (.fin q) = some (deg, m, decide (q < 0)) ∧ deg ≤ 360 ∧ r < 100000000 ∧ 0 ≤ m ∧
      |m - 60 * r / 100000000| ≤ 1 / 10 ^ 11 ∧ abs (((deg : ℚ) + r / 100000000) - |q|) ≤ 5 / 10 ^ 9 + 1 / 10 ^ 13 := by
  have h8 : |q * 100000000| ≤ 36000000000 := by rw [abs_mul, abs_of_nonneg (by norm_num : (0:ℚ) ≤ 100000000)]; linarith
  have e1 := f64_near h8
  set y := f64 (q * 100000000) with hy
  have e1' : |y - q * 100000000| ≤ 4 / 10 ^ 6 := e1.trans (by norm_num)
  have hk := cround_abs y
  set K := cround y with hK
  have hKq : |(K : ℚ) - q * 100000000| ≤ 1 / 2 + 4 / 10 ^ 6 := by
    have := abs_add_le ((K : ℚ) - y) (y - q * 100000000)
    rw [sub_add_sub_cancel] at this; linarith
  -- magnitude of K
  have hKabs : abs (|(K : ℚ)| - |q| * 100000000) ≤ 1 / 2 + 4 / 10 ^ 6 := by
    have := abs_abs_sub_abs_le (K : ℚ) (q * 100000000)
    rw [abs_mul, abs_of_nonneg (by norm_num : (0:ℚ) ≤ 100000000)] at this
    exact this.trans hKq
  obtain ⟨N, hN⟩ : ∃ N : Nat, |K| = N := ⟨K.natAbs, Int.abs_eq_natAbs K⟩
  have hNq : |(K : ℚ)| = N := by rw [← Int.cast_abs, hN]; rfl
  rw [hNq] at hKabs
  rw [abs_le] at hKabs
  have hNle : N ≤ 36000000000 := by
    have : (N : ℚ) < 36000000001 := by linarith [hKabs.2, (by norm_num : (1:ℚ) / 2 + 4 / 10 ^ 6 < 1)]
    have : N < 36000000001 := by exact_mod_cast this
    omega
  have hNleq : (N : ℚ) ≤ 36000000000 := by exact_mod_cast hNle
  set d := N / 100000000 with hd
  set r := N % 100000000 with hr
  have hNd : N = 100000000 * d + r := by omega
  have hrlt : r < 100000000 := by omega
  have hNdq : (N : ℚ) / 100000000 = d + r / 100000000 := by rw [hNd]; push_cast; ring
  have hdle : d ≤ 360 := by omega
  -- the rounded angle
  set a := |f64 ((K : ℚ) / 100000000)| with ha
  have hdiv : |(K : ℚ) / 100000000| = N / 100000000 := by rw [abs_div, hNq]; norm_num
  have e2 := f64_near (x := (K : ℚ) / 100000000) (b := 360) (by rw [hdiv, div_le_iff₀ (by norm_num)]; linarith)
  have ha1 : |a - N / 100000000| ≤ 1 / 10 ^ 13 := by
    have := abs_abs_sub_abs_le (f64 ((K : ℚ) / 100000000)) ((K : ℚ) / 100000000)
    rw [hdiv] at this
    exact this.trans (e2.trans (by norm_num))
  rw [abs_le] at ha1
  have hdq : (0 : ℚ) ≤ d := Nat.cast_nonneg _
  have hrq0 : (0 : ℚ) ≤ r := Nat.cast_nonneg _
  have hrq : (r : ℚ) ≤ 99999999 := by have : r ≤ 99999999 := by omega
                                      exact_mod_cast this
  have halo : (d : ℚ) ≤ a := by
    rcases Nat.eq_zero_or_pos r with h0 | h0
    · -- whole degrees are exact
      have hKd : (K : ℚ) / 100000000 = ((K / 100000000 : Int) : ℚ) := by
        have hdvd : (100000000 : Int) ∣ K := by
          have : (100000000 : Int) ∣ |K| := by rw [hN, hNd, h0]; exact ⟨d, by push_cast; ring⟩
          exact (dvd_abs _ _).1 this
        rw [Int.cast_div hdvd (by norm_num)]; norm_num
      have hex : f64 ((K : ℚ) / 100000000) = (K : ℚ) / 100000000 := by
        rw [hKd]; apply f64_int
        have h1 : |K| ≤ 36000000000 := by rw [hN]; exact_mod_cast hNle
        rw [abs_le] at h1 ⊢
        omega
      rw [ha, hex, hdiv, hNdq, h0]; simp
    · have : (1 : ℚ) ≤ r := by exact_mod_cast h0
      rw [hNdq] at ha1
      have : (1 : ℚ) / 100000000 ≤ r / 100000000 := div_le_div_of_nonneg_right this (by norm_num)
      linarith [ha1.1, (by norm_num : (1 : ℚ) / 10 ^ 13 ≤ 1 / 100000000)]
  have hrf : (r : ℚ) / 100000000 ≤ 99999999 / 100000000 := div_le_div_of_nonneg_right hrq (by norm_num)
  have hahi : a < d + 1 := by
    rw [hNdq] at ha1
    linarith [ha1.2, (by norm_num : (99999999 : ℚ) / 100000000 + 1 / 10 ^ 13 < 1)]
  have hfloor : ctrunc a = d := by
    rw [ctrunc_of_nonneg (by rw [ha]; exact abs_nonneg _), Int.floor_eq_iff]
    push_cast
    exact ⟨halo, hahi⟩
  have hdr : (d : ℚ) ≤ 360 := by exact_mod_cast hdle
  have hale : a ≤ 65535 := by linarith
  refine ⟨d, r, f64 (f64 (a - d) * 60), ?_, hdle, hrlt, ?_, ?_, ?_⟩
  · simp only [splitAngle]
    rw [← hy, ← hK, ← ha, if_pos hale, hfloor]
    simp
  · exact f64_nonneg (mul_nonneg (f64_nonneg (by linarith)) (by norm_num))
  · have hf0 : |a - d| ≤ 1 := by rw [abs_of_nonneg (by linarith)]; linarith
    have e3 := f64_near hf0
    set u := f64 (a - d) with hu
    have e3' : |u - (a - d)| ≤ 2 / 10 ^ 16 := e3.trans (by norm_num)
    have hu1 : |u * 60| ≤ 61 := by
      rw [abs_le] at e3' hf0 ⊢
      constructor <;> linarith [(by norm_num : (2:ℚ) / 10 ^ 16 ≤ 1 / 100)]
    have e4 := f64_near hu1
    have e4' : |f64 (u * 60) - u * 60| ≤ 1 / 10 ^ 14 := e4.trans (by norm_num)
    rw [abs_le] at e4' e3' ⊢
    rw [hNdq] at ha1
    constructor <;> linarith [(by norm_num : (1 : ℚ) / 10 ^ 14 + 60 * (2 / 10 ^ 16) + 60 * (1 / 10 ^ 13) ≤ 1 / 10 ^ 11), ha1.1, ha1.2, e3'.1, e3'.2, e4'.1, e4'.2]
  · rw [← hNdq, abs_le]
    constructor
    · rw [neg_le_sub_iff_le_add]
      have : |q| ≤ (N + (1 / 2 + 4 / 10 ^ 6)) / 100000000 := by rw [le_div_iff₀ (by norm_num)]; linarith [hKabs.1]
      refine this.trans ?_
      rw [add_div]
      linarith [(by norm_num : (1 / 2 + 4 / 10 ^ 6 : ℚ) / 100000000 ≤ 5 / 10 ^ 9 + 1 / 10 ^ 13)]
    · have : (N : ℚ) / 100000000 ≤ |q| + (1 / 2 + 4 / 10 ^ 6) / 100000000 := by
        rw [div_le_iff₀ (by norm_num), add_mul, div_mul_cancel₀ _ (by norm_num)]; linarith [hKabs.2]
      linarith [(by norm_num : (1 / 2 + 4 / 10 ^ 6 : ℚ) / 100000000 ≤ 5 / 10 ^ 9 + 1 / 10 ^ 13)]

/-- rounding to decimals by `printf` -/
theorem rne_toNat {x : ℚ} (h : 0 ≤ x) : ((rne x).natAbs : ℚ) - x ≤ 1 / 2 ∧ x - (rne x).natAbs ≤ 1 / 2 := by
  have h0 := rne_nonneg h
  have e : ((rne x).natAbs : ℚ) = rne x := by
    have : ((rne x).natAbs : Int) = rne x := Int.natAbs_of_nonneg h0
    rw [← Int.cast_natCast, this]
  rw [e]
  have := rne_err x
  rw [abs_le] at this
  constructor <;> linarith [this.1, this.2]

/-- the printed minutes: seven decimals, below 60 -/
theorem minutes_print {m : ℚ} {r : Nat} (hr : r < 100000000) (hm0 : 0 ≤ m) (hm : |m - 60 * r / 100000000| ≤ 1 / 10 ^ 11) :
    ∃ m7 : Nat, fmtF 10 7 (.fin m) = digitsN 2 (m7 / 10 ^ 7) ++ ['.'] ++ digitsN 7 (m7 % 10 ^ 7) ∧ m7 < 60 * 10 ^ 7 ∧
      |(m7 : ℚ) / (60 * 10 ^ 7) - r / 100000000| ≤ 9 / 10 ^ 10 := by
  rw [abs_le] at hm
  have hrq : (r : ℚ) ≤ 99999999 := by have : r ≤ 99999999 := by omega
                                      exact_mod_cast this
  have hrf : 60 * (r : ℚ) / 100000000 ≤ 60 * 99999999 / 100000000 := div_le_div_of_nonneg_right (by linarith) (by norm_num)
  obtain ⟨h1, h2⟩ := rne_toNat (x := m * 10 ^ 7) (by positivity)
  set m7 := (rne (m * 10 ^ 7)).natAbs with hm7
  have hlt : m7 < 60 * 10 ^ 7 := by
    have : (m7 : ℚ) < 600000000 := by
      have hmm : m * 10 ^ 7 ≤ (60 * 99999999 / 100000000 + 1 / 10 ^ 11) * 10 ^ 7 := by
        apply mul_le_mul_of_nonneg_right _ (by norm_num); linarith [hm.2]
      linarith [(by norm_num : ((60 * 99999999 / 100000000 + 1 / 10 ^ 11) * 10 ^ 7 : ℚ) + 1 / 2 < 600000000)]
    have : m7 < 600000000 := by exact_mod_cast this
    omega
  refine ⟨m7, ?_, hlt, ?_⟩
  · simp only [fmtF]
    rw [if_neg (by linarith), ← hm7]
    exact pad_fixed 2 7 m7 (by omega) (by omega) (lt_of_lt_of_le hlt (by norm_num))
  · rw [abs_le]
    have e1 : (m7 : ℚ) / (60 * 10 ^ 7) = m7 / 600000000 := by norm_num
    rw [e1]
    have hs : (r : ℚ) / 100000000 = (60 * r / 100000000) / 60 := by ring
    have a1 : (m7 : ℚ) / 600000000 ≤ (m * 10 ^ 7 + 1 / 2) / 600000000 := div_le_div_of_nonneg_right (by linarith) (by norm_num)
    have a2 : (m * 10 ^ 7 - 1 / 2) / 600000000 ≤ (m7 : ℚ) / 600000000 := div_le_div_of_nonneg_right (by linarith) (by norm_num)
    rw [hs]
    constructor
    · have : (m * 10 ^ 7 - 1 / 2) / 600000000 = m / 60 - 1 / 1200000000 := by ring
      rw [this] at a2
      have : m / 60 ≥ (60 * r / 100000000 - 1 / 10 ^ 11) / 60 := div_le_div_of_nonneg_right (by linarith [hm.1]) (by norm_num)
      rw [sub_div] at this
      linarith [(by norm_num : (1 : ℚ) / 1200000000 + 1 / 10 ^ 11 / 60 ≤ 9 / 10 ^ 10)]
    · have : (m * 10 ^ 7 + 1 / 2) / 600000000 = m / 60 + 1 / 1200000000 := by ring
      rw [this] at a1
      have : m / 60 ≤ (60 * r / 100000000 + 1 / 10 ^ 11) / 60 := div_le_div_of_nonneg_right (by linarith [hm.2]) (by norm_num)
      rw [add_div] at this
      linarith [(by norm_num : (1 : ℚ) / 1200000000 + 1 / 10 ^ 11 / 60 ≤ 9 / 10 ^ 10)]

end Verif.Nmea
