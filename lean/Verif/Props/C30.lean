import Verif.Model.Accuracy
import Verif.Spec.Accuracy
import Verif.Lemmas.Float
import Mathlib.Tactic.IntervalCases
/-! C30: accuracy indices and fit intervals. -/
namespace Verif.Acc
open Verif.Fp Verif.Acc.Spec

/-- the comparisons with an exact test -/
def lookup0 (uri : ℚ) : List (ℚ × Nat) → Option Nat
  | [] => none
  | (v, i) :: r => if f32 (uri - v) = 0 then some i else lookup0 uri r

theorem lookup_eq (env : Env) (uri : ℚ) (l : List (ℚ × Nat)) (hp : 0 < env.eps) (hl : env.eps ≤ 1 / 10)
    (h : ∀ p ∈ l, f32 (uri - p.1) = 0 ∨ 1 / 10 ≤ |f32 (uri - p.1)|) :
    lookup env uri l = (lookup0 uri l).getD ((ctrunc (env.log2f uri + 2)).toNat % 256) := by
  induction l with
  | nil => rfl
  | cons p r ih =>
    obtain ⟨v, i⟩ := p
    have ih := ih (fun q hq => h q (List.mem_cons_of_mem _ hq))
    unfold lookup lookup0
    rcases h (v, i) (List.mem_cons_self ..) with h0 | h0
    · simp only at h0
      have he : eqf env uri v := by unfold eqf; rw [h0]; simpa using hp
      rw [if_pos he, if_pos h0]; rfl
    · simp only at h0
      have he : ¬ eqf env uri v := by unfold eqf; linarith
      rw [if_neg he, if_neg (by intro hc; rw [hc] at h0; norm_num at h0), ih]

theorem tail_pow (env : Env) (h : LibOk env.eps env.log2f) (k : Nat) (hk : k ≤ 14) :
    (ctrunc (env.log2f (2 ^ k) + 2)).toNat % 256 = k + 2 := by
  rw [h.log k hk]
  have : ((k : ℚ) + 2) = ((k + 2 : Nat) : ℚ) := by push_cast; ring
  rw [this, ctrunc_of_nonneg (by positivity), Int.floor_natCast]
  simp only [Int.toNat_natCast]
  omega

/-- **C30** GPS: every index survives the conversion to metres and back, and the metres are the nominal value. -/
theorem C30_gps_ura (env : Env) (h : LibOk env.eps env.log2f) (ura : Nat) (hu : ura ≤ 15) :
    gpsUriToUra env (uraToUri ura) = ura ∧ |uraToUri ura - gpsNominal.getD ura 0| ≤ 1 / 1000000 := by
  have tail := tail_pow env h
  constructor
  · unfold gpsUriToUra
    rw [lookup_eq env _ _ h.pos h.le (by interval_cases ura <;> decide +kernel)]
    by_cases h1 : ura ≤ 6 ∨ ura = 15
    · have : lookup0 (uraToUri ura) [(2, 0), (f32 (28 / 10), 1), (4, 2), (f32 (57 / 10), 3), (8, 4), (f32 (113 / 10), 5), (16, 6), (6144, 15)] =
          some ura := by
        interval_cases ura <;> first | decide +kernel | omega
      rw [this]; rfl
    · have h2 : lookup0 (uraToUri ura) [(2, 0), (f32 (28 / 10), 1), (4, 2), (f32 (57 / 10), 3), (8, 4), (f32 (113 / 10), 5), (16, 6), (6144, 15)] =
          none := by
        interval_cases ura <;> first | decide +kernel | omega
      have h3 : uraToUri ura = 2 ^ (ura - 2) := by
        unfold uraToUri
        rw [if_neg (by omega), if_neg (by omega), if_neg (by omega), if_neg (by omega), if_pos (by omega)]
      rw [h2, h3]
      have := tail (ura - 2) (by omega)
      simp only [Option.getD_none]
      omega
  · interval_cases ura <;> decide +kernel

/-- **C30** GLONASS: every index survives and means its nominal value. -/
theorem C30_glo_ura (env : Env) (h : LibOk env.eps env.log2f) (ft : Nat) (hu : ft ≤ 15) :
    gloUriToUra env (gloFtToMeters ft) = ft ∧ gloFtToMeters ft = gloNominal.getD ft 0 := by
  constructor
  · unfold gloUriToUra
    rw [lookup_eq env _ _ h.pos h.le (by interval_cases ft <;> decide +kernel)]
    have : lookup0 (gloFtToMeters ft) [(1, 0), (2, 1), (5 / 2, 2), (4, 3), (5, 4), (7, 5), (10, 6), (12, 7), (14, 8), (16, 9), (32, 10), (64, 11), (128, 12),
        (256, 13), (512, 14), (6144, 15)] = some ft := by
      interval_cases ft <;> decide +kernel
    rw [this]; rfl
  · interval_cases ft <;> decide +kernel

/-- **C30** BeiDou: every index survives and means its nominal value. -/
theorem C30_bds_ura (env : Env) (h : LibOk env.eps env.log2f) (ura : Nat) (hu : ura ≤ 15) :
    bdsUriToUra env (bdsUraToMeters ura) = ura ∧ |bdsUraToMeters ura - bdsNominal.getD ura 0| ≤ 1 / 1000000 := by
  constructor
  · unfold bdsUriToUra
    rw [lookup_eq env _ _ h.pos h.le (by interval_cases ura <;> decide +kernel)]
    by_cases h1 : ura ≤ 14
    · have : lookup0 (bdsUraToMeters ura) [(2, 0), (f32 (28 / 10), 1), (4, 2), (f32 (57 / 10), 3), (8, 4), (f32 (113 / 10), 5), (16, 6), (32, 7), (64, 8), (128, 9),
          (256, 10), (512, 11), (1024, 12), (2048, 13), (4096, 14), (8196, 15)] = some ura := by
        interval_cases ura <;> decide +kernel
      rw [this]; rfl
    · have h2 : ura = 15 := by omega
      subst h2
      have h3 : lookup0 (bdsUraToMeters 15) [(2, 0), (f32 (28 / 10), 1), (4, 2), (f32 (57 / 10), 3), (8, 4), (f32 (113 / 10), 5), (16, 6), (32, 7), (64, 8), (128, 9),
          (256, 10), (512, 11), (1024, 12), (2048, 13), (4096, 14), (8196, 15)] = none := by decide +kernel
      have h4 : bdsUraToMeters 15 = 2 ^ 13 := by decide +kernel
      rw [h3, h4]
      exact tail_pow env h 13 (by omega)
  · interval_cases ura <;> decide +kernel

/-- **C30** Galileo: every index with a meaning (0..125 and 255, no accuracy prediction available) survives; reserved
indices become 255; the metres are the nominal value. -/
theorem C30_sisa (s : Nat) (hs : s ≤ 255) :
    metersToSisa (sisaToMeters s) = (if s ≤ 125 then s else 255) ∧ (s ≤ 125 → |sisaToMeters s - sisaNominal s| ≤ 1 / 1000000) := by
  by_cases h : s ≤ 125
  · rw [if_pos h]
    have : ∀ s : Fin 126, metersToSisa (sisaToMeters s) = s ∧ |sisaToMeters s - sisaNominal s| ≤ 1 / 1000000 := by decide +kernel
    have := this ⟨s, by omega⟩
    exact ⟨this.1, fun _ => this.2⟩
  · rw [if_neg h]
    refine ⟨?_, fun hc => absurd hc h⟩
    unfold sisaToMeters
    rw [if_neg (by omega), if_neg (by omega), if_neg (by omega), if_neg h]
    decide +kernel

theorem f32_near {x y d : ℚ} (h : |y - x| ≤ d) (hx : |x| ≤ 200) (hd : d ≤ 1) : |f32 y - x| ≤ d + 1 / 50000 := by
  have h1 := f32_err y
  have h2 : |y| ≤ 201 := by
    have := abs_add_le (y - x) x
    rw [sub_add_cancel] at this
    linarith
  have h3 := abs_sub_le (f32 y) y x
  norm_num at h1
  linarith
theorem f64_near {x y d : ℚ} (h : |y - x| ≤ d) (hx : |x| ≤ 200) (hd : d ≤ 1) : |f64 y - x| ≤ d + 1 / 1000000 := by
  have h1 := f64_err y
  have h2 : |y| ≤ 201 := by
    have := abs_add_le (y - x) x
    rw [sub_add_cancel] at this
    linarith
  have h3 := abs_sub_le (f64 y) y x
  have h4 : (1 : ℚ) / 2 ^ 200 ≤ 1 / 10000000 := by norm_num
  linarith

/-- a value rounded by `(uint8_t)(v + 0.5)` -/
theorem trunc_near {c v d : ℚ} (h : |c - (v + 1 / 2)| ≤ d) (hd : d ≤ 1 / 10) (hv : 0 ≤ v) (n : Nat) (hn : n = (ctrunc c).toNat) :
    |(n : ℚ) - v| ≤ 1 / 2 + d := by
  rw [abs_le] at h
  have hc : 0 ≤ c := by linarith [h.1]
  have h0 : 0 ≤ ⌊c⌋ := Int.floor_nonneg.mpr hc
  have h1 : ((n : Int) : ℚ) = ⌊c⌋ := by
    rw [hn, ctrunc_of_nonneg hc, Int.toNat_of_nonneg h0]
  have h2 : (n : ℚ) = ⌊c⌋ := by rw [← h1]; norm_cast
  have h3 := Int.floor_le c
  have h4 := Int.lt_floor_add_one c
  rw [h2, abs_le]
  constructor <;> linarith [h.1, h.2]

theorem div_near {a x : ℚ} (r r0 : ℚ) {d : ℚ} (h : |a - x| ≤ d) (hr : 0 < r) (h0 : 0 < r0) (hx : |x| ≤ 4)
    (hrr : |1 / r - 1 / r0| ≤ 1 / 100000) : |a / r - x / r0| ≤ d / r + 1 / 20000 := by
  have e : a / r - x / r0 = (a - x) / r + x * (1 / r - 1 / r0) := by field_simp; ring
  rw [e]
  refine le_trans (abs_add_le _ _) ?_
  rw [abs_div, abs_of_pos hr, abs_mul]
  have h1 : |a - x| / r ≤ d / r := by gcongr
  have h2 : |x| * |1 / r - 1 / r0| ≤ 4 * (1 / 100000) := mul_le_mul hx hrr (abs_nonneg _) (by norm_num)
  linarith

theorem step_near (res x lo : ℚ) (K : Nat) (hres : 1 / 100 ≤ res) (hlo : lo ≤ x)
    (c : ℚ) (hc : |c - ((x - lo) / res + K + 1 / 2)| ≤ 1 / 50) (n : Nat) (hn : n = (ctrunc c).toNat) :
    |lo + ((n : ℚ) - K) * res - x| ≤ res / 2 + res / 50 := by
  have hv : 0 ≤ (x - lo) / res + K := add_nonneg (div_nonneg (by linarith) (by linarith)) (by positivity)
  have h := trunc_near hc (by norm_num) hv n hn
  have hp : 0 < res := by linarith
  have e : lo + ((n : ℚ) - K) * res - x = ((n : ℚ) - ((x - lo) / res + K)) * res := by field_simp; ring
  rw [e, abs_mul, abs_of_pos hp]
  have := mul_le_mul_of_nonneg_right h (le_of_lt hp)
  linarith

/-- the float computation of one step is close to the exact one -/
theorem quot_near (res r x lo : ℚ) (hres : 1 / 100 ≤ res) (hr : 1 / 101 ≤ r) (hrr : |1 / r - 1 / res| ≤ 1 / 100000) (hlo : lo ≤ x)
    (hhi : x - lo ≤ 4) (hv : (x - lo) / res ≤ 50) :
    |f32 (f32 (x - lo) / r) - (x - lo) / res| ≤ 1 / 200 := by
  have h0 : |x - lo| ≤ 4 := by rw [abs_of_nonneg (by linarith)]; exact hhi
  have h1 : |f32 (x - lo) - (x - lo)| ≤ 0 + 1 / 50000 := f32_near (by simp) (by linarith) (by norm_num)
  have hr0 : 0 < r := by linarith
  have h2 := div_near r res h1 hr0 (by linarith) h0 hrr
  have h3 : (0 + 1 / 50000 : ℚ) / r ≤ 101 / 50000 := by
    rw [div_le_iff₀ hr0]; linarith
  have h4 : 0 ≤ (x - lo) / res := div_nonneg (by linarith) (by linarith)
  have h5 := f32_near (x := (x - lo) / res) (y := f32 (x - lo) / r) (d := 101 / 50000 + 1 / 20000) (by linarith) (by rw [abs_of_nonneg h4]; linarith : |(x - lo) / res| ≤ 200) (by norm_num)
  norm_num at h5 ⊢
  linarith

theorem r1 : 1 / 101 ≤ f32 (1 / 100) ∧ |1 / f32 (1 / 100) - 1 / (1 / 100)| ≤ 1 / 100000 := by decide +kernel
theorem r2 : 1 / 101 ≤ f32 (2 / 100) ∧ |1 / f32 (2 / 100) - 1 / (2 / 100)| ≤ 1 / 100000 := by decide +kernel
theorem r3 : 1 / 101 ≤ f32 (4 / 100) ∧ |1 / f32 (4 / 100) - 1 / (4 / 100)| ≤ 1 / 100000 := by decide +kernel
theorem r4 : 1 / 101 ≤ f32 (16 / 100) ∧ |1 / f32 (16 / 100) - 1 / (16 / 100)| ≤ 1 / 100000 := by decide +kernel

theorem branch (res r x lo : ℚ) (K : Nat) (hres : 1 / 100 ≤ res) (hr : 1 / 101 ≤ r ∧ |1 / r - 1 / res| ≤ 1 / 100000) (hlo : lo ≤ x)
    (hhi : x - lo ≤ 4) (hv : (x - lo) / res ≤ 50) (hK : K ≤ 100) :
    |f64 (f32 (f32 (f32 (x - lo) / r) + K) + 1 / 2) - ((x - lo) / res + K + 1 / 2)| ≤ 1 / 50 := by
  have h1 := quot_near res r x lo hres hr.1 hr.2 hlo hhi hv
  have h0 : 0 ≤ (x - lo) / res := div_nonneg (by linarith) (by linarith)
  have hKq : (K : ℚ) ≤ 100 := by exact_mod_cast hK
  have hK0 : (0 : ℚ) ≤ K := by positivity
  have h2 := f32_near (x := (x - lo) / res + K) (y := f32 (f32 (x - lo) / r) + K) (d := 1 / 200)
    (by rw [add_sub_add_right_eq_sub]; exact h1) (by rw [abs_of_nonneg (by linarith)]; linarith) (by norm_num)
  have h3 := f64_near (x := (x - lo) / res + K + 1 / 2) (y := f32 (f32 (f32 (x - lo) / r) + K) + 1 / 2) (d := 1 / 200 + 1 / 50000)
    (by rw [add_sub_add_right_eq_sub]; exact h2) (by rw [abs_of_nonneg (by linarith)]; linarith) (by norm_num)
  linarith

theorem sisaRes_cases (x : ℚ) : (x ≤ 1 / 2 → sisaRes x = 1 / 100) ∧ (¬ x ≤ 1 / 2 → x ≤ 1 → sisaRes x = 2 / 100) ∧
    (¬ x ≤ 1 → x ≤ 2 → sisaRes x = 4 / 100) ∧ (¬ x ≤ 2 → sisaRes x = 16 / 100) := by
  have e : sisaRes x = if x ≤ 1 / 2 then 1 / 100 else if x ≤ 1 then 2 / 100 else if x ≤ 2 then 4 / 100 else 16 / 100 := by
    unfold sisaRes; norm_num
  rw [e]
  refine ⟨fun h => if_pos h, fun h1 h2 => ?_, fun h1 h2 => ?_, fun h1 => ?_⟩
  · rw [if_neg h1, if_pos h2]
  · rw [if_neg (by intro h; apply h1; linarith), if_neg h1, if_pos h2]
  · rw [if_neg (by intro h; apply h1; linarith), if_neg (by intro h; apply h1; linarith), if_neg h1]

/-- **C30** Galileo: any accuracy from 0 to 6 m is converted to the index whose value is nearest to it (half a resolution
step plus 2 % of a step); the index is at most 125. -/
theorem C30_sisa_nearest (x : ℚ) (h0 : 0 ≤ x) (h6 : x ≤ 6) :
    metersToSisa x ≤ 125 ∧ |sisaNominal (metersToSisa x) - x| ≤ sisaRes x * (1 / 2 + 1 / 50) := by
  obtain ⟨n, hn⟩ : ∃ n, n = metersToSisa x := ⟨_, rfl⟩
  rw [← hn]
  obtain ⟨c1, c2, c3, c4⟩ := sisaRes_cases x
  -- from the error of a step to the statement
  have fin : ∀ (K M : Nat) (lo res : ℚ), 1 / 100 ≤ res → |lo + ((n : ℚ) - K) * res - x| ≤ res / 2 + res / 50 → lo ≤ x →
      x ≤ lo + (M - K) * res → K ≤ n ∧ n ≤ M := by
    intro K M lo res hr h hl hh
    rw [abs_le] at h
    constructor
    · by_contra hc
      have : (n : ℚ) + 1 ≤ K := by exact_mod_cast not_le.mp hc
      nlinarith [h.1]
    · by_contra hc
      have : (M : ℚ) + 1 ≤ n := by exact_mod_cast not_le.mp hc
      nlinarith [h.2]
  unfold metersToSisa at hn
  rw [if_neg (by linarith)] at hn
  by_cases h1 : x ≤ 1 / 2
  · rw [if_pos h1] at hn
    have hb := branch (1 / 100) _ x 0 0 (by norm_num) r1 h0 (by linarith) (by rw [div_le_iff₀ (by norm_num)]; linarith) (by norm_num)
    have e : f32 (f32 (f32 (x - 0) / f32 (1 / 100)) + ((0 : Nat) : ℚ)) = f32 (f32 (x - 0) / f32 (1 / 100)) := by
      rw [Nat.cast_zero, add_zero]; exact f32_idem _
    rw [e] at hb
    have hs := step_near (1 / 100) x 0 0 (by norm_num) h0 _ hb n hn
    obtain ⟨k1, k2⟩ := fin 0 50 0 (1 / 100) (by norm_num) hs h0 (by norm_num; linarith)
    refine ⟨by omega, ?_⟩
    rw [c1 h1]
    unfold sisaNominal
    rw [if_pos k2]
    refine le_trans (le_of_eq ?_) (le_trans hs (by norm_num))
    congr 1; push_cast; ring
  · rw [if_neg h1] at hn
    push Not at h1
    by_cases h2 : x ≤ 1
    · rw [if_pos h2] at hn
      have hb := branch (2 / 100) _ x (1 / 2) 50 (by norm_num) r2 (by linarith) (by linarith) (by rw [div_le_iff₀ (by norm_num)]; linarith) (by norm_num)
      have hs := step_near (2 / 100) x (1 / 2) 50 (by norm_num) (by linarith) _ hb n hn
      obtain ⟨k1, k2⟩ := fin 50 75 (1 / 2) (2 / 100) (by norm_num) hs (by linarith) (by norm_num; linarith)
      refine ⟨by omega, ?_⟩
      rw [c2 (by linarith) h2]
      refine le_trans (le_of_eq ?_) (le_trans hs (by norm_num))
      unfold sisaNominal
      by_cases hk : n ≤ 50
      · have : n = 50 := by omega
        subst this; norm_num
      · rw [if_neg hk, if_pos k2]
        congr 1; push_cast; ring
    · rw [if_neg h2] at hn
      push Not at h2
      by_cases h3 : x ≤ 2
      · rw [if_pos h3] at hn
        have hb := branch (4 / 100) _ x 1 75 (by norm_num) r3 (by linarith) (by linarith) (by rw [div_le_iff₀ (by norm_num)]; linarith) (by norm_num)
        have hs := step_near (4 / 100) x 1 75 (by norm_num) (by linarith) _ hb n hn
        obtain ⟨k1, k2⟩ := fin 75 100 1 (4 / 100) (by norm_num) hs (by linarith) (by norm_num; linarith)
        refine ⟨by omega, ?_⟩
        rw [c3 (by linarith) h3]
        refine le_trans (le_of_eq ?_) (le_trans hs (by norm_num))
        unfold sisaNominal
        by_cases hk : n ≤ 75
        · have : n = 75 := by omega
          subst this; norm_num
        · rw [if_neg (by omega), if_neg hk, if_pos k2]
          congr 1; push_cast; ring
      · rw [if_neg h3, if_pos h6] at hn
        push Not at h3
        have hb := branch (16 / 100) _ x 2 100 (by norm_num) r4 (by linarith) (by linarith) (by rw [div_le_iff₀ (by norm_num)]; linarith) (by norm_num)
        have hs := step_near (16 / 100) x 2 100 (by norm_num) (by linarith) _ hb n hn
        obtain ⟨k1, k2⟩ := fin 100 125 2 (16 / 100) (by norm_num) hs (by linarith) (by norm_num; linarith)
        refine ⟨k2, ?_⟩
        rw [c4 (by linarith)]
        refine le_trans (le_of_eq ?_) (le_trans hs (by norm_num))
        unfold sisaNominal
        by_cases hk : n ≤ 100
        · have : n = 100 := by omega
          subst this; norm_num
        · rw [if_neg (by omega), if_neg (by omega), if_neg hk]
          congr 1; push_cast; ring

/-- **C30** GPS fit interval: for every flag and IODC the decoded interval is that of the signal specification, and the
flag survives. -/
theorem C30_fit_gps (flag : Bool) (iodc : Nat) :
    decodeFitGps flag.toNat iodc = fitHours flag iodc * 3600 ∧ encodeFitGps (decodeFitGps flag.toNat iodc) = flag.toNat := by
  by_cases h : iodc < 1024
  · have : ∀ (f : Bool) (i : Fin 1024), decodeFitGps f.toNat i = fitHours f i * 3600 ∧ encodeFitGps (decodeFitGps f.toNat i) = f.toNat := by
      decide +kernel
    exact this flag ⟨iodc, h⟩
  · have h1 : fitHours flag iodc = if flag then 6 else 4 := by
      unfold fitHours
      cases flag
      · rfl
      · have : (fitTable.find? fun r => decide (r.1 ≤ iodc ∧ iodc ≤ r.2.1)) = none := by
          rw [List.find?_eq_none]
          intro r hr
          have : r.2.1 < 1024 := by revert r; decide
          simp only [decide_eq_true_eq]; omega
        rw [this]
    have h2 : decodeFitGps flag.toNat iodc = (if flag then 6 else 4) * 60 * 60 := by
      unfold decodeFitGps
      cases flag
      · rfl
      · rw [if_neg (by decide), if_neg (by omega), if_neg (by omega), if_neg (by omega), if_neg (by omega), if_neg (by omega), if_neg (by omega)]; rfl
    rw [h1, h2]
    cases flag <;> decide

/-- **C30** GLONASS fit interval: the interval in seconds survives the conversion to the index and back, and so does every
index except 3, which means the same as 0. -/
theorem C30_fit_glo (p1 : Nat) : decodeFitGlo (encodeFitGlo (decodeFitGlo p1)) = decodeFitGlo p1 ∧
    (p1 < 3 → encodeFitGlo (decodeFitGlo p1) = p1) := by
  match p1 with
  | 0 | 1 | 2 | 3 => decide
  | n + 4 => exact ⟨by simp [decodeFitGlo, encodeFitGlo], by omega⟩

/-- C30 does not hold in full: 20 m becomes index 6, which means 16 m: the accuracy is understated. -/
theorem C30_understates_bug (env : Env) (h : LibOk env.eps env.log2f) (hm : env.log2f 16 ≤ env.log2f 20 ∧ env.log2f 20 < env.log2f 32) :
    gpsUriToUra env 20 = 6 ∧ gpsNominal.getD 6 0 < 20 := by
  refine ⟨?_, by decide +kernel⟩
  unfold gpsUriToUra
  rw [lookup_eq env _ _ h.pos h.le (by decide +kernel)]
  have h1 : lookup0 20 [(2, 0), (f32 (28 / 10), 1), (4, 2), (f32 (57 / 10), 3), (8, 4), (f32 (113 / 10), 5), (16, 6), (6144, 15)] = none := by
    decide +kernel
  have h2 := h.log 4 (by omega)
  have h3 := h.log 5 (by omega)
  norm_num at h2 h3
  rw [h2, h3] at hm
  rw [h1, Option.getD_none, ctrunc_of_nonneg (by linarith [hm.1])]
  have : ⌊env.log2f 20 + 2⌋ = 6 := by
    rw [Int.floor_eq_iff]; push_cast; constructor <;> linarith [hm.1, hm.2]
  rw [this]; rfl

/-- C30 does not hold in full: an accuracy of 16384 m becomes index 16, which the 4-bit field cannot hold (it is sent as
0, the best accuracy). -/
theorem C30_index_overflow_bug (env : Env) (h : LibOk env.eps env.log2f) :
    gpsUriToUra env 16384 = 16 ∧ gpsUriToUra env 16384 % 2 ^ 4 = 0 := by
  have : gpsUriToUra env 16384 = 16 := by
    unfold gpsUriToUra
    rw [lookup_eq env _ _ h.pos h.le (by decide +kernel)]
    have h1 : lookup0 16384 [(2, 0), (f32 (28 / 10), 1), (4, 2), (f32 (57 / 10), 3), (8, 4), (f32 (113 / 10), 5), (16, 6), (6144, 15)] = none := by
      decide +kernel
    rw [h1]
    have := tail_pow env h 14 (by omega)
    norm_num at this ⊢
    exact this
  rw [this]; exact ⟨rfl, rfl⟩

/-- a library meeting the assumptions -/
example : LibOk (1 / 10 ^ 12) (fun x => (Int.log 2 x : ℚ)) where
  pos := by norm_num
  le := by norm_num
  log k _ := by
    have := Int.log_zpow (R := ℚ) (b := 2) (by norm_num) (k : Int)
    rw [zpow_natCast] at this
    push_cast at this
    rw [this]; rfl

end Verif.Acc
