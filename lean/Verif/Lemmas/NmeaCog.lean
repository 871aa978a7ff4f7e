import Verif.Spec.NmeaHeading
import Verif.Lemmas.NmeaNum
import Verif.Lemmas.NmeaRun
import Verif.Lemmas.Nmea
/-
Range of the printed course and heading.
-/
namespace Verif.Nmea
open Verif.Nmea.Spec Verif.Fp

theorem fmtU_digits1 (n : Nat) : Nat.toDigits 10 n = fmtU 0 n := by
  unfold fmtU pad; simp

/-- printing a non-negative value close to `k / 10^p` -/
theorem fmtF_near {p k : Nat} {q : ℚ} (hp : 1 ≤ p) (h0 : 0 ≤ q) (h : |q * 10 ^ p - k| < 1 / 2) :
    DecField p (fmtF 0 p (.fin q)) k := by
  have hk : (rne (q * 10 ^ p)).natAbs = k := by
    obtain ⟨h1, h2⟩ := rne_toNat (x := q * 10 ^ p) (by positivity)
    rw [abs_lt] at h
    have a : ((rne (q * 10 ^ p)).natAbs : ℚ) < k + 1 := by linarith
    have b : (k : ℚ) < (rne (q * 10 ^ p)).natAbs + 1 := by linarith
    have a' : (rne (q * 10 ^ p)).natAbs < k + 1 := by exact_mod_cast a
    have b' : k < (rne (q * 10 ^ p)).natAbs + 1 := by exact_mod_cast b
    omega
  simp only [fmtF]
  rw [if_neg (by linarith), hk]
  unfold DecField fixedDigits
  have : pad 0 (Nat.toDigits 10 (k / 10 ^ p) ++ '.' :: pad p (Nat.toDigits 10 (k % 10 ^ p))) =
      Nat.toDigits 10 (k / 10 ^ p) ++ '.' :: pad p (Nat.toDigits 10 (k % 10 ^ p)) := by
    conv_lhs => unfold pad
    simp
    rfl
  rw [this, pad_toDigits p _ hp (Nat.mod_lt _ (by positivity))]
  simp

/-- a course as the code keeps it: a multiple of a tenth of a degree in [0, 360) -/
def CogOk (c : ℚ) : Prop := ∃ k : Nat, k < 3600 ∧ c = f64 ((k : ℚ) / 10)

theorem cogOk_zero : CogOk 0 := ⟨0, by omega, by simp [f64, fl]⟩

theorem f64_tenth (k : Nat) (hk : k ≤ 3600) : |f64 ((k : ℚ) / 10) - k / 10| ≤ 1 / 10 ^ 10 := by
  have hq : (k : ℚ) ≤ 3600 := by exact_mod_cast hk
  have h0 : (0 : ℚ) ≤ k := Nat.cast_nonneg _
  refine (f64_near (x := (k : ℚ) / 10) (b := 360) ?_).trans (by norm_num)
  rw [abs_of_nonneg (by positivity), div_le_iff₀ (by norm_num)]; linarith

theorem course_step {c : ℚ} (h : |c| ≤ 181) :
    ∃ k : Nat, k ≤ 3600 ∧ (cround (f64 ((if c < 0 then f64 (c + 360) else c) * 10)) : ℚ) = k ∧
      ∃ turns : Int, |(k : ℚ) / 10 - (c + turns * 360)| ≤ 5 / 100 + 1 / 10 ^ 9 := by
  rw [abs_le] at h
  have key : ∀ d : ℚ, 0 ≤ d → d ≤ 360 + 1 / 10 ^ 10 →
      ∃ k : Nat, k ≤ 3600 ∧ (cround (f64 (d * 10)) : ℚ) = k ∧ |(k : ℚ) / 10 - d| ≤ 5 / 100 + 1 / 10 ^ 10 := by
    intro d h0 h1
    have e := f64_near (x := d * 10) (b := 3601) (by rw [abs_of_nonneg (by positivity)]; linarith)
    have e' := e.trans (by norm_num : (3601 : ℚ) / 9007199254740992 + 1 / 10 ^ 60 ≤ 1 / 10 ^ 10)
    rw [abs_le] at e'
    have hn := cround_nonneg (f64_nonneg (x := d * 10) (by positivity))
    have hb := cround_bounds (f64 (d * 10))
    obtain ⟨k, hk⟩ := Int.eq_ofNat_of_zero_le hn
    rw [hk] at hb ⊢
    simp only [Int.cast_natCast] at hb ⊢
    refine ⟨k, ?_, rfl, ?_⟩
    · have : (k : ℚ) < 3601 := by linarith
      have : k < 3601 := by exact_mod_cast this
      omega
    · rw [abs_le]; constructor <;> linarith
  split
  · rename_i hc
    have e := f64_near (x := c + 360) (b := 360) (by rw [abs_le]; constructor <;> linarith)
    have e' := e.trans (by norm_num : (360 : ℚ) / 9007199254740992 + 1 / 10 ^ 60 ≤ 1 / 10 ^ 10)
    rw [abs_le] at e'
    obtain ⟨k, hk, he, ha⟩ := key (f64 (c + 360)) (f64_nonneg (by linarith)) (by linarith)
    refine ⟨k, hk, he, 1, ?_⟩
    rw [abs_le] at ha ⊢
    push_cast
    constructor <;> linarith
  · obtain ⟨k, hk, he, ha⟩ := key c (by linarith) (by linarith)
    refine ⟨k, hk, he, 0, ?_⟩
    rw [abs_le] at ha ⊢
    push_cast
    constructor <;> linarith

theorem f64_zero : f64 0 = 0 := by simp [f64, fl]

theorem calcCog_ok {L : Lib} {v : Vel} {th last : ℚ} (hc : |L.courseDeg v.n v.e| ≤ 181) (hl : CogOk last) :
    CogOk (calcCog L v th last) ∧
    (f64 (knotsFactor * th) ≤ L.sogKnots v.n v.e → ∃ k : Nat, k < 3600 ∧ calcCog L v th last = f64 ((k : ℚ) / 10) ∧
      ∃ turns : Int, |(k : ℚ) / 10 - (L.courseDeg v.n v.e + turns * 360)| ≤ 5 / 100 + 1 / 10 ^ 9) := by
  obtain ⟨k, hk, he, turns, ht⟩ := course_step hc
  have main : L.sogKnots v.n v.e ≥ f64 (knotsFactor * th) → ∃ k : Nat, k < 3600 ∧ calcCog L v th last = f64 ((k : ℚ) / 10) ∧
      ∃ turns : Int, |(k : ℚ) / 10 - (L.courseDeg v.n v.e + turns * 360)| ≤ 5 / 100 + 1 / 10 ^ 9 := by
    intro hs
    unfold calcCog
    rw [if_pos hs]
    simp only
    rw [he]
    by_cases h36 : k = 3600
    · refine ⟨0, by omega, ?_, turns - 1, ?_⟩
      · have e1 : f64 (((k : Nat) : ℚ) / 10) = 360 := by
          rw [h36]
          have := f64_int (n := 360) (by norm_num)
          norm_num at this ⊢
          exact this
        rw [e1]
        have e2 : |f64 (360 - 360)| < f64 (1 / 10) := by
          rw [sub_self, f64_zero, abs_zero]
          have := f64_tenth 1 (by omega)
          rw [abs_le] at this
          norm_num at this ⊢
          linarith
        rw [if_pos e2]; simp [f64_zero]
      · rw [h36] at ht
        rw [abs_le] at ht ⊢
        push_cast at ht ⊢
        constructor <;> linarith
    · refine ⟨k, by omega, ?_, turns, ht⟩
      have hk' : (k : ℚ) ≤ 3599 := by exact_mod_cast (by omega : k ≤ 3599)
      have hk0 : (0 : ℚ) ≤ k := Nat.cast_nonneg _
      have e1 := f64_tenth k hk
      rw [abs_le] at e1
      by_cases hk9 : k = 3599
      · subst hk9
        exact if_neg (by decide +kernel)
      · have hk8 : (k : ℚ) ≤ 3598 := by exact_mod_cast (by omega : k ≤ 3598)
        apply if_neg
        have e2 := f64_near (x := 360 - f64 ((k : ℚ) / 10)) (b := 400) (by rw [abs_le]; constructor <;> linarith)
        have e2' := e2.trans (by norm_num : (400 : ℚ) / 9007199254740992 + 1 / 10 ^ 60 ≤ 1 / 10 ^ 10)
        rw [abs_le] at e2'
        have e3 := f64_tenth 1 (by omega)
        rw [abs_le] at e3
        intro hlt
        rw [abs_lt] at hlt
        norm_num at e3 hlt e2' e1
        linarith
  refine ⟨?_, main⟩
  by_cases hs : L.sogKnots v.n v.e ≥ f64 (knotsFactor * th)
  · obtain ⟨k, h1, h2, -⟩ := main hs
    exact ⟨k, h1, h2⟩
  · unfold calcCog; rw [if_neg hs]; exact hl

theorem cog_print {c : ℚ} (h : CogOk c) : ∃ k : Nat, c = f64 ((k : ℚ) / 10) ∧ CourseField (fmtF 0 1 (.fin c)) k := by
  obtain ⟨k, hk, rfl⟩ := h
  have e := f64_tenth k (by omega)
  refine ⟨k, rfl, fmtF_near (by omega) (f64_nonneg (by positivity)) ?_, hk⟩
  rw [abs_le] at e
  rw [abs_lt]
  constructor <;> (norm_num; linarith)

end Verif.Nmea
