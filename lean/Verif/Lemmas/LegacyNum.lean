import Verif.Model.LegacyObs
import Verif.Lemmas.Num
import Verif.Lemmas.Rounding
import Verif.Lemmas.StationNum
/-! Rounding in the legacy observation codec. -/
namespace Verif.Obs
open Verif

theorem f64_le {x M : ℚ} (h : |x| ≤ M) (hM : 1 ≤ M) : |Fp.f64 x - x| ≤ M / 4503599627370496 := by
  have := Fp.f64_err x
  have h2 : |x| / 9007199254740992 ≤ M / 9007199254740992 := div_le_div_of_nonneg_right h (by norm_num)
  have h3 : (1 / 2 ^ 200 : ℚ) ≤ 1 / 9007199254740992 := by norm_num
  generalize (1 / 2 ^ 200 : ℚ) = a at *
  linarith

theorem f64_rel {x : ℚ} (h : 1 / 2 ^ 100 ≤ x) : |Fp.f64 x - x| ≤ x / 4503599627370496 := by
  have := Fp.f64_err x
  have hx : 0 < x := lt_of_lt_of_le (by positivity) h
  rw [abs_of_pos hx] at this
  have h3 : (1 / 2 ^ 200 : ℚ) ≤ 1 / 2 ^ 100 / 9007199254740992 := by norm_num
  have h4 : (1 / 2 ^ 100 : ℚ) / 9007199254740992 ≤ x / 9007199254740992 := div_le_div_of_nonneg_right h (by norm_num)
  generalize (1 / 2 ^ 200 : ℚ) = a at *
  generalize (1 / 2 ^ 100 / 9007199254740992 : ℚ) = b at *
  linarith

theorem c002_eq : c002 = 1 / 50 + 3 / 7205759403792793600 := by decide +kernel
theorem c0005_eq : c0005 = 1 / 2000 + 3 / 288230376151711744000 := by decide +kernel
theorem unit_near (k : Kind) : |Fp.f64 k.unit - k.unit| ≤ 1 / 8589934592 := by cases k <;> decide +kernel
theorem unit_le (k : Kind) : 299792 ≤ k.unit ∧ k.unit ≤ 599585 := by cases k <;> norm_num [Kind.unit]

theorem close {x y a : ℚ} : |x - y| ≤ a ↔ y - a ≤ x ∧ x ≤ y + a := by
  rw [abs_le]; constructor <;> rintro ⟨h1, h2⟩ <;> constructor <;> linarith
theorem within {x a : ℚ} : |x| ≤ a ↔ -a ≤ x ∧ x ≤ a := abs_le

/-- multiples of the light millisecond -/
theorem ambM_near (k : Kind) {n : Nat} (h : (n : ℚ) ≤ 257) (h2 : (n : ℚ) * k.unit ≤ 77000000) : |ambM k n - (n : ℚ) * k.unit| ≤ 1 / 16777216 := by
  have hu := unit_near k
  obtain ⟨u0, u1⟩ := unit_le k
  have hn : (0 : ℚ) ≤ n := Nat.cast_nonneg n
  have e1 : |(n : ℚ) * Fp.f64 k.unit - (n : ℚ) * k.unit| ≤ 257 / 8589934592 := by
    rw [← mul_sub, abs_mul, abs_of_nonneg hn]
    have := mul_le_mul h hu (abs_nonneg _) (by norm_num)
    linarith
  rw [close] at e1
  have hnu : 0 ≤ (n : ℚ) * k.unit := mul_nonneg hn (by linarith)
  have e2 := f64_le (x := (n : ℚ) * Fp.f64 k.unit) (M := 77000001) (by rw [within]; constructor <;> linarith [e1.1, e1.2]) (by norm_num)
  unfold ambM
  rw [close] at e2 ⊢
  constructor <;> linarith [e1.1, e1.2, e2.1, e2.2]

/-- the integer ambiguity: the whole units in the pseudorange, up to rounding -/
theorem amb_near (k : Kind) {pr : ℚ} (h0 : 0 ≤ pr) (h1 : pr < 76746869) :
    (amb k pr : ℚ) * k.unit ≤ pr + 1 / 8388608 ∧ pr ≤ ((amb k pr : ℚ) + 1) * k.unit + 1 / 8388608 ∧ amb k pr < 2 ^ k.ambBits := by
  have hu := unit_near k
  obtain ⟨u0, u1⟩ := unit_le k
  rw [close] at hu
  have hup : 0 < Fp.f64 k.unit := by linarith [hu.1]
  have hq0 : 0 ≤ pr / Fp.f64 k.unit := div_nonneg h0 hup.le
  have hq1 : pr / Fp.f64 k.unit ≤ 257 := by
    rw [div_le_iff₀ hup]; linarith [hu.1]
  have e := f64_le (x := pr / Fp.f64 k.unit) (M := 257) (by rw [within]; constructor <;> linarith) (by norm_num)
  set q := Fp.f64 (pr / Fp.f64 k.unit) with hq
  have hqn : 0 ≤ q := by rw [hq]; exact nonneg_f64 hq0
  -- `q * unit` is the pseudorange
  have e1 : |q * Fp.f64 k.unit - pr| ≤ 1 / 16777216 := by
    have : q * Fp.f64 k.unit - pr = (q - pr / Fp.f64 k.unit) * Fp.f64 k.unit := by field_simp
    rw [this, abs_mul, abs_of_pos hup]
    have := mul_le_mul e (show Fp.f64 k.unit ≤ 599586 by linarith [hu.2]) hup.le (by norm_num)
    linarith
  have e2 : |q * k.unit - pr| ≤ 1 / 8388608 := by
    have h3 : |q * (k.unit - Fp.f64 k.unit)| ≤ 258 * (1 / 8589934592) := by
      rw [abs_mul, abs_of_nonneg hqn]
      refine mul_le_mul ?_ (by rw [within]; constructor <;> linarith [hu.1, hu.2]) (abs_nonneg _) (by norm_num)
      rw [close] at e; linarith [e.2]
    rw [within, mul_sub] at h3
    rw [close] at e1 ⊢
    constructor <;> linarith [e1.1, e1.2, h3.1, h3.2]
  have hf : 0 ≤ ⌊q⌋ := Int.floor_nonneg.mpr hqn
  have ea : ((amb k pr : ℤ)) = ⌊q⌋ := by
    unfold amb; rw [ctrunc_of_nonneg hqn, Int.toNat_of_nonneg hf]
  have eaq : (amb k pr : ℚ) = (⌊q⌋ : ℚ) := by exact_mod_cast congrArg (Int.cast : ℤ → ℚ) ea
  have f1 := Int.floor_le q
  have f2 := Int.lt_floor_add_one q
  have hk : 0 < k.unit := by linarith
  rw [close] at e2
  rw [eaq]
  refine ⟨?_, ?_, ?_⟩
  · have := mul_le_mul_of_nonneg_right f1 hk.le; linarith [e2.2]
  · have := mul_le_mul_of_nonneg_right f2.le hk.le; linarith [e2.1]
  · have hlt : (⌊q⌋ : ℚ) < 2 ^ k.ambBits := by
      have h4 : (⌊q⌋ : ℚ) * k.unit ≤ pr + 1 / 8388608 := by
        have := mul_le_mul_of_nonneg_right f1 hk.le; linarith [e2.2]
      by_contra hc
      have hc : (2 : ℚ) ^ k.ambBits ≤ ⌊q⌋ := not_lt.mp hc
      have := mul_le_mul_of_nonneg_right hc hk.le
      cases k <;> norm_num [Kind.unit, Kind.ambBits] at this h4 <;> linarith
    rw [← eaq] at hlt
    exact_mod_cast hlt

/-- a pseudorange in units of 2 cm -/
theorem modPr_near (k : Kind) {pr x : ℚ} (h0 : 0 ≤ pr) (h1 : pr < 76746869) (hx : |x - pr| ≤ 200) :
    |(modPr k pr x : ℚ) / 50 - (x - (amb k pr : ℚ) * k.unit)| ≤ 1 / 100 + 1 / 4194304 := by
  obtain ⟨a1, a2, a3⟩ := amb_near k h0 h1
  obtain ⟨u0, u1⟩ := unit_le k
  have hn : (amb k pr : ℚ) ≤ 256 := by
    have : amb k pr < 256 := lt_of_lt_of_le a3 (by cases k <;> decide)
    exact_mod_cast this.le
  have hA := ambM_near k (n := amb k pr) (by linarith) (by linarith)
  unfold modPr
  set A := ambM k (amb k pr)
  set N := (amb k pr : ℚ) * k.unit
  rw [close] at hA hx
  have hN : ((amb k pr : ℚ) + 1) * k.unit = N + k.unit := by ring
  rw [hN] at a2
  have e1 := f64_le (x := x - A) (M := 600000) (by rw [within]; constructor <;> linarith [hA.1, hA.2, hx.1, hx.2]) (by norm_num)
  set y := Fp.f64 (x - A)
  rw [close] at e1
  have hy : |y| ≤ 600001 := by rw [within]; constructor <;> linarith [e1.1, e1.2, hA.1, hA.2, hx.1, hx.2]
  have hc : 0 < c002 := by rw [c002_eq]; norm_num
  have e2 : |y / c002 - y * 50| ≤ 1 / 1000000 := by
    have : y / c002 - y * 50 = y * (-(150 / 7205759403792793600) / c002) := by
      rw [eq_comm]; field_simp; rw [c002_eq]; ring
    rw [this, abs_mul, abs_div, abs_of_pos hc, c002_eq]
    have := mul_le_mul_of_nonneg_right hy (show (0 : ℚ) ≤ |(-(150 / 7205759403792793600) : ℚ)| / (1 / 50 + 3 / 7205759403792793600) by positivity)
    refine le_trans this ?_
    norm_num
  rw [close] at e2
  have e3 := f64_le (x := y / c002) (M := 30000100) (by rw [within] at hy ⊢; constructor <;> linarith [hy.1, hy.2, e2.1, e2.2]) (by norm_num)
  have e4 := cround_abs (Fp.f64 (y / c002))
  rw [close] at e3 e4 ⊢
  constructor <;> linarith [hA.1, hA.2, e1.1, e1.2, e2.1, e2.2, e3.1, e3.2, e4.1, e4.2]

theorem modPr_self (k : Kind) {pr : ℚ} (h0 : 0 ≤ pr) (h1 : pr < 76746869) :
    0 ≤ modPr k pr pr ∧ modPr k pr pr < 2 ^ k.prBits := by
  have h := modPr_near k h0 h1 (x := pr) (by simp)
  obtain ⟨a1, a2, a3⟩ := amb_near k h0 h1
  rw [close] at h
  constructor
  · have : (-1 : ℚ) < modPr k pr pr := by linarith [h.1]
    have : (-1 : ℤ) < modPr k pr pr := by exact_mod_cast this
    omega
  · have hq : (modPr k pr pr : ℚ) < (2 : ℚ) ^ k.prBits := by
      cases k <;> norm_num [Kind.unit, Kind.prBits] at a2 h ⊢ <;> linarith [h.2]
    exact_mod_cast hq

/-- a pseudorange from its field and the ambiguity -/
theorem code_near {m A N δ : ℚ} (hm : |m| ≤ 33554432) (hN : |N| ≤ 77600000) (hd : δ ≤ 1) (hA : |A - N| ≤ δ) :
    |Fp.f64 (Fp.f64 (c002 * m) + A) - (m / 50 + N)| ≤ δ + 1 / 33554432 := by
  have e0 : |c002 * m - m / 50| ≤ 1 / 1000000000 := by
    rw [c002_eq, show (1 / 50 + 3 / 7205759403792793600) * m - m / 50 = m * (3 / 7205759403792793600) by ring, abs_mul]
    have := mul_le_mul_of_nonneg_right hm (show (0 : ℚ) ≤ |(3 / 7205759403792793600 : ℚ)| by positivity)
    refine le_trans this ?_
    norm_num
  rw [close] at e0 hA
  rw [within] at hm hN
  have e1 := f64_le (x := c002 * m) (M := 671090) (by rw [within]; constructor <;> linarith [e0.1, e0.2, hm.1, hm.2]) (by norm_num)
  rw [close] at e1
  have e2 := f64_le (x := Fp.f64 (c002 * m) + A) (M := 79000000) (by rw [within]; constructor <;> linarith [e0.1, e0.2, e1.1, e1.2, hA.1, hA.2, hm.1, hm.2, hN.1, hN.2]) (by norm_num)
  rw [close] at e2 ⊢
  constructor <;> linarith [e0.1, e0.2, e1.1, e1.2, e2.1, e2.2, hA.1, hA.2]

/-! ### phases -/

/-- carrier frequencies in use -/
def Carrier (freq : ℚ) : Prop := 1220000000 ≤ freq ∧ freq ≤ 1620000000

variable {freq : ℚ}

theorem wl_range (h : Carrier freq) : 185 / 1000 ≤ gpsC / freq ∧ gpsC / freq ≤ 246 / 1000 := by
  have hp : 0 < freq := by linarith [h.1]
  constructor
  · rw [le_div_iff₀ hp]; norm_num; linarith [h.2]
  · rw [div_le_iff₀ hp]; norm_num; linarith [h.1]

theorem wvl_near (h : Carrier freq) : |wvl freq - gpsC / freq| ≤ 1 / 18000000000000000 := by
  obtain ⟨h1, h2⟩ := wl_range h
  have := f64_rel (x := gpsC / freq) (le_trans (by norm_num) h1)
  unfold wvl
  linarith

theorem wvl_range (h : Carrier freq) : 184 / 1000 ≤ wvl freq ∧ wvl freq ≤ 247 / 1000 := by
  have := wvl_near h
  obtain ⟨h1, h2⟩ := wl_range h
  rw [close] at this
  constructor <;> linarith [this.1, this.2]

/-- a length divided by the wavelength -/
theorem div_wvl (h : Carrier freq) {S M : ℚ} (hS : |S| ≤ M) (hM : 1 ≤ M) :
    |Fp.f64 (S / wvl freq) * (gpsC / freq) - S| ≤ M / 1000000000000000 := by
  obtain ⟨h1, h2⟩ := wl_range h
  obtain ⟨w1, w2⟩ := wvl_range h
  have hw := wvl_near h
  set w := gpsC / freq
  set w' := wvl freq
  have hp : 0 < w' := by linarith
  have hQ : |S / w'| ≤ 6 * M := by
    rw [abs_div, abs_of_pos hp, div_le_iff₀ hp]
    nlinarith
  have e1 := f64_le hQ (by linarith)
  have e : Fp.f64 (S / w') * w - S = (Fp.f64 (S / w') - S / w') * w + S / w' * (w - w') := by field_simp; ring
  rw [e]
  refine le_trans (abs_add_le _ _) ?_
  rw [abs_mul, abs_mul, abs_of_pos (show 0 < w by linarith)]
  have t1 := mul_le_mul e1 h2 (by linarith) (show 0 ≤ 6 * M / 4503599627370496 by positivity)
  have t2 := mul_le_mul hQ (show |w - w'| ≤ 1 / 18000000000000000 by rw [abs_sub_comm]; exact hw) (abs_nonneg _) (by linarith)
  linarith

/-- the decoder's carrier phase -/
theorem phase_near (h : Carrier freq) {l : ℚ} {d : ℤ} (hl : |l| ≤ 78000000) (hd : |(d : ℚ)| ≤ 524288) :
    |phase l d freq * (gpsC / freq) - (l + (d : ℚ) / 2000)| ≤ 1 / 8388608 := by
  have e0 : |c0005 * d - (d : ℚ) / 2000| ≤ 1 / 100000000 := by
    rw [c0005_eq, show (1 / 2000 + 3 / 288230376151711744000) * (d : ℚ) - (d : ℚ) / 2000 = (d : ℚ) * (3 / 288230376151711744000) by ring, abs_mul]
    have := mul_le_mul_of_nonneg_right hd (show (0 : ℚ) ≤ |(3 / 288230376151711744000 : ℚ)| by positivity)
    refine le_trans this ?_
    norm_num
  rw [close] at e0
  rw [within] at hl hd
  have e1 := f64_le (x := c0005 * d) (M := 263) (by rw [within]; constructor <;> linarith [e0.1, e0.2, hd.1, hd.2]) (by norm_num)
  rw [close] at e1
  have e2 := f64_le (x := l + Fp.f64 (c0005 * d)) (M := 78001000) (by rw [within]; constructor <;> linarith [e0.1, e0.2, e1.1, e1.2, hd.1, hd.2, hl.1, hl.2]) (by norm_num)
  rw [close] at e2
  unfold phase
  have e3 := div_wvl h (S := Fp.f64 (l + Fp.f64 (c0005 * d))) (M := 78002000)
    (by rw [within]; constructor <;> linarith [e0.1, e0.2, e1.1, e1.2, e2.1, e2.2, hd.1, hd.2, hl.1, hl.2]) (by norm_num)
  rw [close] at e3 ⊢
  constructor <;> linarith [e0.1, e0.2, e1.1, e1.2, e2.1, e2.2, e3.1, e3.2]

theorem phaseUnit_near (h : Carrier freq) : |phaseUnit freq - gpsC / freq * 2000| ≤ 1 / 1000000000000 := by
  have hw := wvl_near h
  obtain ⟨w1, w2⟩ := wvl_range h
  have hc : 0 < c0005 := by rw [c0005_eq]; norm_num
  have e2 : |wvl freq / c0005 - wvl freq * 2000| ≤ 1 / 10000000000000 := by
    have : wvl freq / c0005 - wvl freq * 2000 = wvl freq * (-(6000 / 288230376151711744000) / c0005) := by
      rw [eq_comm]; field_simp; rw [c0005_eq]; ring
    rw [this, abs_mul, abs_div, abs_of_pos hc, c0005_eq, abs_of_pos (show 0 < wvl freq by linarith)]
    have := mul_le_mul_of_nonneg_right w2 (show (0 : ℚ) ≤ |(-(6000 / 288230376151711744000) : ℚ)| / (1 / 2000 + 3 / 288230376151711744000) by positivity)
    refine le_trans this ?_
    norm_num
  rw [close] at hw e2
  have e3 := f64_le (x := wvl freq / c0005) (M := 500) (by rw [within]; constructor <;> linarith [e2.1, e2.2]) (by norm_num)
  unfold phaseUnit
  rw [close] at e3 ⊢
  constructor <;> linarith [hw.1, hw.2, e2.1, e2.2, e3.1, e3.2]

/-- rounding to the phase unit -/
theorem round_near (h : Carrier freq) {y : ℚ} (hy : |y| ≤ 20000000) :
    |(cround (Fp.f64 (y * phaseUnit freq)) : ℚ) / 2000 - y * (gpsC / freq)| ≤ 1 / 4000 + 1 / 10000000 := by
  have hu := phaseUnit_near h
  obtain ⟨w1, w2⟩ := wl_range h
  set w := gpsC / freq
  have e1 : |y * phaseUnit freq - y * w * 2000| ≤ 1 / 10000 := by
    rw [show y * phaseUnit freq - y * w * 2000 = y * (phaseUnit freq - w * 2000) by ring, abs_mul]
    have := mul_le_mul hy hu (abs_nonneg _) (by norm_num)
    linarith
  have e0 : |y * w| ≤ 5000000 := by
    rw [abs_mul, abs_of_pos (show 0 < w by linarith)]
    have := mul_le_mul hy w2 (by linarith) (by norm_num)
    linarith
  rw [close] at e1
  rw [within] at e0
  have e2 := f64_le (x := y * phaseUnit freq) (M := 10000001000) (by rw [within]; constructor <;> linarith [e0.1, e0.2, e1.1, e1.2]) (by norm_num)
  have e3 := cround_abs (Fp.f64 (y * phaseUnit freq))
  rw [close] at e2 e3 ⊢
  constructor <;> linarith [e1.1, e1.2, e2.1, e2.2, e3.1, e3.2]

theorem i32_id {n : ℤ} (h1 : -2147483648 ≤ n) (h2 : n ≤ 2147483647) : i32 n = n := by unfold i32; omega


/-- a phase in cycles, from metres -/
theorem cycles {w y M : ℚ} (h1 : 185 / 1000 ≤ w) (hy : |y * w| ≤ M) : |y| ≤ M * 6 := by
  rw [abs_mul, abs_of_pos (show 0 < w by linarith)] at hy
  have := abs_nonneg y
  nlinarith

theorem toPpr_near (h : Carrier freq) {y : ℚ} (hy : |y * (gpsC / freq)| ≤ 1050000) :
    |(toPpr y freq : ℚ) / 2000 - y * (gpsC / freq)| ≤ 1 / 4000 + 1 / 10000000 := by
  have hc := cycles (wl_range h).1 hy
  have h1 := round_near h (y := y) (by linarith)
  have e : toPpr y freq = cround (Fp.f64 (y * phaseUnit freq)) := by
    unfold toPpr
    rw [close] at h1
    rw [within] at hy
    have b1 : (-2147483648 : ℚ) ≤ (cround (Fp.f64 (y * phaseUnit freq)) : ℚ) := by linarith [h1.1, hy.1]
    have b2 : (cround (Fp.f64 (y * phaseUnit freq)) : ℚ) ≤ 2147483647 := by linarith [h1.2, hy.2]
    exact i32_id (by exact_mod_cast b1) (by exact_mod_cast b2)
  rw [e]; exact h1

/-- the limit of the field, in cycles -/
theorem limit_near (h : Carrier freq) {s : ℚ} (hs : |s| ≤ 524288) :
    |Fp.f64 (s / phaseUnit freq)| ≤ 1500 ∧ |Fp.f64 (s / phaseUnit freq) * (gpsC / freq) - s / 2000| ≤ 1 / 1000000000 := by
  have hu := phaseUnit_near h
  obtain ⟨w1, w2⟩ := wl_range h
  set w := gpsC / freq
  set u := phaseUnit freq
  rw [close] at hu
  have hp : 0 < u := by linarith [hu.1]
  have hq : |s / u| ≤ 1450 := by
    rw [abs_div, abs_of_pos hp, div_le_iff₀ hp]
    linarith [hu.1]
  have e := f64_le hq (by norm_num)
  have e3 : |s / u * (w * 2000 - u)| ≤ 1450 / 1000000000000 := by
    rw [abs_mul]
    have := mul_le_mul hq (show |w * 2000 - u| ≤ 1 / 1000000000000 by rw [within]; constructor <;> linarith [hu.1, hu.2]) (abs_nonneg _) (by norm_num)
    linarith
  have e4 : |(Fp.f64 (s / u) - s / u) * w| ≤ 1 / 1000000000000 := by
    rw [abs_mul, abs_of_pos (show 0 < w by linarith)]
    have := mul_le_mul e w2 (by linarith) (by norm_num)
    linarith
  have e5 : s / u * (w * 2000 - u) = s / u * w * 2000 - s := by field_simp
  rw [e5, within] at e3
  rw [sub_mul, within] at e4
  rw [close] at e
  rw [within] at hq
  refine ⟨?_, ?_⟩
  · rw [within]; constructor <;> linarith [e.1, e.2, hq.1, hq.2]
  · rw [within]; constructor <;> linarith [e3.1, e3.2, e4.1, e4.2]

/-- the roll-over: the phase (here the distance `t` from the limit) plus a multiple of 1500 cycles -/
theorem roll {B c : ℚ} (hB : |B| ≤ 1500) (hc : |c| ≤ 6300000) :
    ∃ n : ℤ, n = ⌈Fp.f64 (Fp.f64 (B - c) / 1500)⌉ ∧ |(n : ℚ)| ≤ 4203 ∧
      |Fp.f64 (c + Fp.f64 (1500 * (n : ℚ))) - (c + 1500 * n)| ≤ 1 / 100000000 ∧
      |Fp.f64 (-c - Fp.f64 (1500 * (n : ℚ))) - (-c - 1500 * n)| ≤ 1 / 100000000 ∧
      B - 1 / 50000000 ≤ c + 1500 * n ∧ c + 1500 * n ≤ B + 1500 + 1 / 50000000 := by
  rw [within] at hB hc
  have e1 := f64_le (x := B - c) (M := 6301500) (by rw [within]; constructor <;> linarith [hB.1, hB.2, hc.1, hc.2]) (by norm_num)
  rw [close] at e1
  have e2 := f64_le (x := Fp.f64 (B - c) / 1500) (M := 4202) (by rw [within]; constructor <;> linarith [hB.1, hB.2, hc.1, hc.2, e1.1, e1.2]) (by norm_num)
  rw [close] at e2
  set q := Fp.f64 (Fp.f64 (B - c) / 1500)
  have l1 := Int.le_ceil q
  have l2 := Int.ceil_lt_add_one q
  have hn : |(⌈q⌉ : ℚ)| ≤ 4203 := by rw [within]; constructor <;> linarith [hB.1, hB.2, hc.1, hc.2, e1.1, e1.2, e2.1, e2.2]
  refine ⟨⌈q⌉, rfl, hn, ?_, ?_, ?_, ?_⟩
  · rw [within] at hn
    have e3 := f64_le (x := 1500 * (⌈q⌉ : ℚ)) (M := 6304500) (by rw [within]; constructor <;> linarith [hn.1, hn.2]) (by norm_num)
    rw [close] at e3
    have e4 := f64_le (x := c + Fp.f64 (1500 * (⌈q⌉ : ℚ))) (M := 13000000) (by rw [within]; constructor <;> linarith [hn.1, hn.2, e3.1, e3.2, hc.1, hc.2]) (by norm_num)
    rw [close] at e4 ⊢
    constructor <;> linarith [e3.1, e3.2, e4.1, e4.2]
  · rw [within] at hn
    have e3 := f64_le (x := 1500 * (⌈q⌉ : ℚ)) (M := 6304500) (by rw [within]; constructor <;> linarith [hn.1, hn.2]) (by norm_num)
    rw [close] at e3
    have e4 := f64_le (x := -c - Fp.f64 (1500 * (⌈q⌉ : ℚ))) (M := 13000000) (by rw [within]; constructor <;> linarith [hn.1, hn.2, e3.1, e3.2, hc.1, hc.2]) (by norm_num)
    rw [close] at e4 ⊢
    constructor <;> linarith [e3.1, e3.2, e4.1, e4.2]
  · linarith [e1.1, e1.2, e2.1, e2.2]
  · linarith [e1.1, e1.2, e2.1, e2.2]

/-- `encode_diff_phaserange`: within the field, exact up to a whole number of 1500-cycle roll-overs. -/
theorem encDiff_spec (h : Carrier freq) {c : ℚ} (hc : |c * (gpsC / freq)| ≤ 1049000) :
    (-524288 ≤ encDiff c freq ∧ encDiff c freq ≤ 524288) ∧
    (∃ n : ℤ, |(encDiff c freq : ℚ) / 2000 - (c + 1500 * n) * (gpsC / freq)| ≤ 1 / 4000 + 1 / 5000000) ∧
    (|c * (gpsC / freq)| < 262 + 1 / 100 →
      |(encDiff c freq : ℚ) / 2000 - c * (gpsC / freq)| ≤ 1 / 4000 + 1 / 5000000 ∧ -524288 < encDiff c freq ∧ encDiff c freq < 524288) := by
  obtain ⟨w1, w2⟩ := wl_range h
  have n0 := toPpr_near h (y := c) (by linarith)
  have hcy := cycles w1 hc
  rw [close] at n0
  -- a rolled-over phase
  have fin : ∀ (y z : ℚ), |y - z| ≤ 1 / 100000000 → -262144 / 1000 - 1 / 10000000 ≤ z * (gpsC / freq) → z * (gpsC / freq) ≤ 262144 / 1000 + 1 / 10000000 →
      -524288 ≤ toPpr y freq ∧ toPpr y freq ≤ 524288 ∧ |(toPpr y freq : ℚ) / 2000 - z * (gpsC / freq)| ≤ 1 / 4000 + 1 / 5000000 := by
    intro y z hyz z1 z2
    have e : |(y - z) * (gpsC / freq)| ≤ 1 / 100000000 := by
      rw [abs_mul, abs_of_pos (show 0 < gpsC / freq by linarith)]
      have := mul_le_mul hyz w2 (by linarith) (by norm_num)
      linarith
    rw [sub_mul, within] at e
    have n1 := toPpr_near h (y := y) (by rw [within]; constructor <;> linarith [e.1, e.2])
    rw [close] at n1
    have b1 : (-524289 : ℚ) < toPpr y freq := by linarith [n1.1, e.1]
    have b2 : (toPpr y freq : ℚ) < 524289 := by linarith [n1.2, e.2]
    have b1 : (-524289 : ℤ) < toPpr y freq := by exact_mod_cast b1
    have b2 : toPpr y freq < (524289 : ℤ) := by exact_mod_cast b2
    refine ⟨by omega, by omega, ?_⟩
    rw [close]; constructor <;> linarith [n1.1, n1.2, e.1, e.2]
  unfold encDiff
  by_cases h1 : toPpr c freq ≤ -524288
  · rw [if_pos h1]
    obtain ⟨B1, B2⟩ := limit_near h (s := -524288) (by norm_num)
    rw [close] at B2
    obtain ⟨n, hn, _, y1, _, y2, y3⟩ := roll B1 (c := c) (by linarith)
    rw [← hn]
    set B := Fp.f64 (-524288 / phaseUnit freq)
    have z1 : (B - 1 / 50000000) * (gpsC / freq) ≤ (c + 1500 * n) * (gpsC / freq) := mul_le_mul_of_nonneg_right y2 (by linarith)
    have z2 : (c + 1500 * n) * (gpsC / freq) ≤ (B + 1500 + 1 / 50000000) * (gpsC / freq) := mul_le_mul_of_nonneg_right y3 (by linarith)
    obtain ⟨r1, r2, r3⟩ := fin _ _ y1 (by linarith [B2.1]) (by linarith [B2.2])
    refine ⟨⟨r1, r2⟩, ⟨n, r3⟩, ?_⟩
    intro hcl
    have hq : (toPpr c freq : ℚ) ≤ -524288 := by exact_mod_cast h1
    have := (abs_lt.mp hcl).1
    linarith [n0.1]
  · rw [if_neg h1]
    by_cases h2 : toPpr c freq ≥ 524288
    · rw [if_pos h2]
      obtain ⟨B1, B2⟩ := limit_near h (s := 524288) (by norm_num)
      rw [close] at B2
      set B := Fp.f64 (524288 / phaseUnit freq)
      obtain ⟨n, hn, _, _, y1, y2, y3⟩ := roll (B := -B) (c := -c) (by rw [abs_neg]; exact B1) (by rw [abs_neg]; linarith)
      rw [show -B - -c = c - B by ring] at hn
      rw [← hn]
      rw [neg_neg] at y1
      have z1 : (-B - 1 / 50000000) * (gpsC / freq) ≤ (-c + 1500 * n) * (gpsC / freq) := mul_le_mul_of_nonneg_right y2 (by linarith)
      have z2 : (-c + 1500 * n) * (gpsC / freq) ≤ (-B + 1500 + 1 / 50000000) * (gpsC / freq) := mul_le_mul_of_nonneg_right y3 (by linarith)
      have yy : |Fp.f64 (c - Fp.f64 (1500 * (n : ℚ))) - (c + 1500 * ((-n : ℤ) : ℚ))| ≤ 1 / 100000000 := by
        rw [close] at y1 ⊢
        push_cast
        constructor <;> linarith [y1.1, y1.2]
      obtain ⟨r1, r2, r3⟩ := fin _ (c + 1500 * ((-n : ℤ) : ℚ)) yy (by push_cast; linarith [B2.1, B2.2]) (by push_cast; linarith [B2.1, B2.2])
      refine ⟨⟨r1, r2⟩, ⟨-n, r3⟩, ?_⟩
      intro hcl
      have hq : (524288 : ℚ) ≤ (toPpr c freq : ℚ) := by exact_mod_cast h2
      have := (abs_lt.mp hcl).2
      linarith [n0.2]
    · rw [if_neg h2]
      have n1 : |(toPpr c freq : ℚ) / 2000 - c * (gpsC / freq)| ≤ 1 / 4000 + 1 / 5000000 := by
        rw [close]; constructor <;> linarith [n0.1, n0.2]
      exact ⟨⟨by omega, by omega⟩, ⟨0, by simpa using n1⟩, fun _ => ⟨n1, by omega, by omega⟩⟩

theorem f1_ok (k : Kind) {fcn : Nat} (hf : fcn ≤ 20) : Carrier (k.f1 fcn) := by
  have hn : (0 : ℚ) ≤ fcn := Nat.cast_nonneg _
  have hn2 : (fcn : ℚ) ≤ 20 := by exact_mod_cast hf
  unfold Kind.f1 Carrier; split <;> constructor <;> linarith
theorem f2_ok (k : Kind) {fcn : Nat} (hf : fcn ≤ 20) : Carrier (k.f2 fcn) := by
  have hn : (0 : ℚ) ≤ fcn := Nat.cast_nonneg _
  have hn2 : (fcn : ℚ) ≤ 20 := by exact_mod_cast hf
  unfold Kind.f2 Carrier; split <;> constructor <;> linarith

/-- the difference between phase and pseudorange -/
theorem diff_near (h : Carrier freq) {cp L : ℚ} (hL : |L| ≤ 78000000) (hd : |cp * (gpsC / freq) - L| ≤ 1000001) :
    |Fp.f64 (cp - Fp.f64 (L / wvl freq)) * (gpsC / freq) - (cp * (gpsC / freq) - L)| ≤ 1 / 10000000 := by
  obtain ⟨w1, w2⟩ := wl_range h
  have e1 := div_wvl h hL (by norm_num)
  set w := gpsC / freq
  set q := Fp.f64 (L / wvl freq)
  rw [close] at e1
  rw [within] at hd
  have hw : |(cp - q) * w| ≤ 1000002 := by rw [sub_mul, within]; constructor <;> linarith [e1.1, e1.2, hd.1, hd.2]
  have e2 := f64_le (cycles w1 hw) (by norm_num)
  have e3 : |(Fp.f64 (cp - q) - (cp - q)) * w| ≤ 1 / 1000000000 := by
    rw [abs_mul, abs_of_pos (show 0 < w by linarith)]
    have := mul_le_mul e2 w2 (by linarith) (by norm_num)
    linarith
  rw [show (Fp.f64 (cp - q) - (cp - q)) * w = Fp.f64 (cp - q) * w - (cp * w - q * w) by ring, within] at e3
  rw [close]
  constructor <;> linarith [e1.1, e1.2, e3.1, e3.2]

end Verif.Obs
