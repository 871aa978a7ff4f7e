import Verif.Lemmas.NovVal
import Verif.Lemmas.NovSbp
import Verif.Lemmas.NovEx
import Mathlib.Tactic.IntervalCases
/-! C62: NovAtel IMU data. -/
namespace Verif.Nov
open Verif.Fp Verif.Nov.Spec
open Verif.Ubx (Fl dbl flt castTo)
open Verif.EphSbp (mPi)

/-! ### operations -/

theorem Rel.fmul {k l : ℕ} {a b : ℚ} {A B : ℝ} (h1 : Rel k a A) (h2 : Rel l b B) (hk : k ≤ 400) (hl : l ≤ 400) (hb : Big 140 (A * B)) :
    Rel (k + l + 3) (Fp.f64 (a * b) : ℚ) (A * B) := by
  have : Rel (k + l + 1) ((a * b : ℚ) : ℝ) (A * B) := by
    push_cast; exact h1.mul h2 (by omega) (by omega)
  exact this.f64 hb (by omega)

theorem Rel.fdiv {k l : ℕ} {a b : ℚ} {A B : ℝ} (h1 : Rel k a A) (h2 : Rel l b B) (hB : B ≠ 0) (hk : k ≤ 400) (hl : l ≤ 400)
    (hb : Big 140 (A / B)) : Rel (k + l + 4) (Fp.f64 (a / b) : ℚ) (A / B) := by
  have : Rel (k + l + 2) ((a / b : ℚ) : ℝ) (A / B) := by
    push_cast; exact h1.div h2 hB (by omega) (by omega)
  exact this.f64 hb (by omega)

theorem Rel.lit {q : ℚ} {x : ℝ} (h : (q : ℝ) = x) : Rel 0 q x := h ▸ Rel.refl _

theorem Rel.flit {q : ℚ} {x : ℝ} (h : (q : ℝ) = x) (hx : 1 / 2 ^ 100 ≤ x) : Rel 2 (Fp.f64 q : ℚ) x :=
  (Rel.lit h).f64 (.inr (by
    rw [abs_of_nonneg (le_trans (by positivity) hx)]
    exact le_trans (by norm_num) hx)) (by norm_num)

theorem Big.of_le {e : ℕ} {x y : ℝ} (hy : 0 < y) (h : 1 / 2 ^ e ≤ y) (hxy : y ≤ x) : Big e x :=
  .inr (by rw [abs_of_pos (lt_of_lt_of_le hy hxy)]; exact h.trans hxy)

theorem pi_deg : (3 : ℝ) / 180 ≤ Real.pi / 180 := by have := Real.pi_gt_three; gcongr

theorem degToRad_rel {k : ℕ} {q : ℚ} {x : ℝ} (h : Rel k q x) (hk : k ≤ 100) (hx : 1 / 2 ^ 100 ≤ x) :
    Rel (k + 11) (degToRad q : ℚ) (x * (Real.pi / 180)) := by
  unfold degToRad
  have hx0 : (0 : ℝ) < x := lt_of_lt_of_le (by positivity) hx
  have hp := Real.pi_gt_three
  have h1 := h.fmul mPi_rel (by omega) (by norm_num) (Big.of_le hx0 (e := 140) (le_trans (by norm_num) hx) (by nlinarith))
  have h2 := h1.fdiv (Rel.lit (q := 180) (x := 180) (by norm_num)) (by norm_num) (by omega) (by norm_num)
    (Big.of_le (e := 140) (y := x / 180) (by positivity)
      (by
        rw [le_div_iff₀ (by norm_num)]
        exact le_trans (by norm_num) hx)
      (by gcongr; nlinarith))
  rw [← mul_div_assoc]
  exact h2.mono (by omega)

/-! ### rates and units -/

theorem rate_eq {L : Lib} {before : List Msg} {st : St} (hs : stateAfter L before = some st) (m : Msg) (b : RawImuSx) :
    (∀ R, rateOf before m b = some R → ∃ q, imuRate st.imuRecv m.header b = some q ∧ Rel 2 (q : ℝ) R ∧ 1 / 2 ^ 23 ≤ R ∧ R ≤ 1000) ∧
    (rateOf before m b = none → imuRate st.imuRecv m.header b = none) := by
  have htype : (∀ R, typeRate b.imu_type.toNat = some R → ∃ q, imuRateFromType b.imu_type = some q ∧ Rel 2 (q : ℝ) R ∧ 1 / 2 ^ 23 ≤ R ∧ R ≤ 1000) ∧
      (typeRate b.imu_type.toNat = none → imuRateFromType b.imu_type = none) := by
    unfold imuRateFromType
    generalize b.imu_type.toNat = n
    by_cases hn : n ≤ 62
    · interval_cases n
      all_goals
        refine ⟨fun R hR => ?_, fun h => ?_⟩
        · first
          | (cases hR; done)
          | (obtain rfl := Option.some.inj hR
             exact ⟨_, rfl, (Rel.lit (by norm_num)).mono (by norm_num), by norm_num, by norm_num⟩)
        · first
          | rfl
          | (cases h; done)
    · have h1 : typeRate n = none := by
        unfold typeRate; split <;> first | rfl | (exfalso; omega)
      rw [h1]
      refine ⟨fun R hR => (by cases hR), fun _ => ?_⟩
      rw [if_neg, if_neg, if_neg] <;>
      first | (simp only [List.mem_cons, List.not_mem_nil, or_false]; omega) | omega
  obtain ⟨_, h2, _⟩ := hist before hs
  have hcomp : computeImuRate st.imuRecv m.header = match lastImu before with
      | some m' => if m'.header.week ≠ 0 ∧ m'.header.ms ≠ 0 ∧ m'.header.ms.toNat < m.header.ms.toNat then
          some (f64 (1000 / ((m.header.ms - m'.header.ms).toNat : ℚ))) else none
      | none => none := by
    unfold computeImuRate
    rcases hl : lastImu before with _ | m'
    · rw [hl] at h2
      obtain ⟨a, c⟩ := Prod.mk.inj h2
      simp only [a]
      simp
    · rw [hl] at h2
      obtain ⟨a, c⟩ := Prod.mk.inj h2
      simp only [a, c]
      by_cases hc : m'.header.week ≠ 0 ∧ m'.header.ms ≠ 0 ∧ m'.header.ms.toNat < m.header.ms.toNat
      · obtain ⟨c1, c2, c3⟩ := hc
        have c4 : m.header.ms ≠ 0#32 := by
          intro h; rw [h] at c3; simp at c3
        rw [if_pos ⟨c1, c1, c2, c4⟩, if_pos ⟨c3, trivial⟩, if_pos ⟨c1, c2, c3⟩]
      · rw [if_neg hc]
        split
        · rename_i h
          rw [if_neg (fun h' => hc ⟨h.1, h.2.2.1, h'.1⟩), if_neg (by omega)]
        · rfl
  unfold imuRate rateOf
  rw [hcomp]
  rcases hl : lastImu before with _ | m'
  · exact htype
  · simp only
    by_cases hc : m'.header.week ≠ 0 ∧ m'.header.ms ≠ 0 ∧ m'.header.ms.toNat < m.header.ms.toNat
    · simp only [if_pos hc]
      refine ⟨fun R hR => ?_, fun h => (by cases h)⟩
      obtain rfl := Option.some.inj hR
      have hsub : (m.header.ms - m'.header.ms).toNat = m.header.ms.toNat - m'.header.ms.toNat := by
        rw [BitVec.toNat_sub_of_le]; exact hc.2.2.le
      have hlt := m.header.ms.isLt
      obtain ⟨d, hd⟩ : ∃ d, m.header.ms.toNat - m'.header.ms.toNat = d := ⟨_, rfl⟩
      have hd2 : ((m.header.ms.toNat : ℝ) - m'.header.ms.toNat) = d := by
        rw [← hd, Nat.cast_sub hc.2.2.le]
      have hd1 : 1 ≤ d := by omega
      have hd3 : d ≤ 4294967296 := by omega
      have hd1' : (1 : ℝ) ≤ d := by exact_mod_cast hd1
      have hd3' : (d : ℝ) ≤ 4294967296 := by exact_mod_cast hd3
      rw [hd2, hsub, hd]
      have hlow : (1 : ℝ) / 2 ^ 23 ≤ 1000 / d := by
        rw [le_div_iff₀ (by linarith)]
        calc (1 : ℝ) / 2 ^ 23 * d ≤ 1 / 2 ^ 23 * 4294967296 := by gcongr
          _ ≤ 1000 := by norm_num
      exact ⟨_, rfl, Rel.flit (by push_cast; rfl) (le_trans (by norm_num) hlow), hlow, by
        rw [div_le_iff₀ (by linarith)]; linarith⟩
    · simp only [if_neg hc]
      exact htype

theorem epson_rel {c : ℚ} {x R : ℝ} {q : ℚ} (hc : (c : ℝ) = x) (hx : 1 / 2 ^ 10 ≤ x) (hq : Rel 2 (q : ℝ) R) (h0 : 1 / 2 ^ 23 ≤ R) (h1 : R ≤ 1000) :
    Rel 20 (f64 (f64 (f64 c / 65536) / q) : ℚ) (x / 65536 / R) ∧ 1 / 2 ^ 40 ≤ x / 65536 / R := by
  have hR : 0 < R := lt_of_lt_of_le (by positivity) h0
  have hx0 : 0 < x := lt_of_lt_of_le (by positivity) hx
  have a1 := Rel.flit (q := c) hc (le_trans (by norm_num) hx)
  have e1 : (1 : ℝ) / 2 ^ 26 ≤ x / 65536 := by
    rw [le_div_iff₀ (by norm_num)]; exact le_trans (by norm_num) hx
  have a2 := a1.fdiv (Rel.lit (q := 65536) (x := 65536) (by norm_num)) (by norm_num) (by norm_num) (by norm_num)
    (Big.of_le (e := 140) (y := 1 / 2 ^ 26) (by positivity) (by norm_num) e1)
  have e2 : (1 : ℝ) / 2 ^ 40 ≤ x / 65536 / R := by
    rw [le_div_iff₀ hR]
    calc (1 : ℝ) / 2 ^ 40 * R ≤ 1 / 2 ^ 40 * 1000 := by gcongr
      _ ≤ 1 / 2 ^ 26 := by norm_num
      _ ≤ _ := e1
  have a3 := a2.fdiv hq hR.ne' (by norm_num) (by norm_num) (Big.of_le (e := 140) (y := 1 / 2 ^ 40) (by positivity) (by norm_num) e2)
  exact ⟨a3.mono (by norm_num), e2⟩

theorem deg_big {x : ℝ} (h : 1 / 2 ^ 50 ≤ x) : 1 / 2 ^ 60 ≤ x * (Real.pi / 180) := by
  have := pi_deg
  calc (1 : ℝ) / 2 ^ 60 ≤ 1 / 2 ^ 50 * (3 / 180) := by norm_num
    _ ≤ _ := by gcongr

theorem gyro_eq {q : ℚ} {R : ℝ} (hq : Rel 2 (q : ℝ) R) (h0 : 1 / 2 ^ 23 ≤ R) (h1 : R ≤ 1000) (t : BitVec 8) :
    (∀ G, gyroUnit R t.toNat = some G → ∃ s, imuScaleGyro t q = some s ∧ Rel 40 (s : ℝ) G ∧ 1 / 2 ^ 60 ≤ G) ∧
    (gyroUnit R t.toNat = none → imuScaleGyro t q = none) := by
  have g33 : Rel 40 ((1 / 2 ^ 33 : ℚ) : ℝ) (1 / 2 ^ 33) := (Rel.lit (by norm_num)).mono (by norm_num)
  have g19 : Rel 40 ((1 / 2 ^ 19 : ℚ) : ℝ) (1 / 2 ^ 19) := (Rel.lit (by norm_num)).mono (by norm_num)
  have gkvh : Rel 40 (f64 (f64 (1 / 10) / f64 (3600 * 256)) : ℚ) (0.1 / (3600 * 256)) := by
    have a := Rel.flit (q := 1 / 10) (x := 0.1) (by norm_num) (by norm_num)
    have b := Rel.flit (q := 3600 * 256) (x := 3600 * 256) (by norm_num) (by norm_num)
    exact (a.fdiv b (by norm_num) (by norm_num) (by norm_num) (Big.of_le (e := 140) (y := 1 / 2 ^ 60) (by norm_num) (by norm_num) (by norm_num))).mono
      (by norm_num)
  have gfsas : Rel 40 (arcsecToRad (f64 (1 / 10) / 2 ^ 8) : ℚ) (0.1 / 2 ^ 8 / 3600 * (Real.pi / 180)) := by
    unfold arcsecToRad
    have a := Rel.flit (q := 1 / 10) (x := 0.1) (by norm_num) (by norm_num)
    have b : Rel 4 ((f64 (1 / 10) / 2 ^ 8 : ℚ) : ℝ) (0.1 / 2 ^ 8) := by
      push_cast
      exact a.div (Rel.refl _) (by norm_num) (by norm_num) (by norm_num)
    have c := b.fdiv (Rel.lit (q := 3600) (x := 3600) (by norm_num)) (by norm_num) (by norm_num) (by norm_num)
      (Big.of_le (e := 140) (y := 1 / 2 ^ 60) (by norm_num) (by norm_num) (by norm_num))
    exact (degToRad_rel c (by norm_num) (by norm_num)).mono (by norm_num)
  have gisa : Rel 40 (f64 (1 / 1000000000) : ℚ) (1 / 10 ^ 9) := (Rel.flit (by norm_num) (by norm_num)).mono (by norm_num)
  have gadis : Rel 40 (degToRad (720 / 2 ^ 31) : ℚ) (720 / 2 ^ 31 * (Real.pi / 180)) :=
    (degToRad_rel (Rel.lit (by norm_num)) (by norm_num) (by norm_num)).mono (by norm_num)
  have gstim : Rel 40 (degToRad (1 / 2 ^ 21) : ℚ) (1 / 2 ^ 21 * (Real.pi / 180)) :=
    (degToRad_rel (Rel.lit (by norm_num)) (by norm_num) (by norm_num)).mono (by norm_num)
  obtain ⟨e1, e2⟩ := epson_rel (c := 8 / 1000) (x := 0.008) (by norm_num) (by norm_num) hq h0 h1
  have geps : Rel 40 (degToRad (f64 (f64 (f64 (8 / 1000) / 65536) / q)) : ℚ) (0.008 / 65536 / R * (Real.pi / 180)) :=
    (degToRad_rel e1 (by norm_num) (le_trans (by norm_num) e2)).mono (by norm_num)
  obtain ⟨e3, e4⟩ := epson_rel (c := 151515 / 10000000) (x := 0.0151515) (R := 200) (q := 200) (by norm_num) (by norm_num)
    ((Rel.lit (by norm_num)).mono (by norm_num)) (by norm_num) (by norm_num)
  have g370 : Rel 40 (degToRad (f64 (f64 (f64 (151515 / 10000000) / 65536) / 200)) : ℚ) (0.0151515 / 65536 / 200 * (Real.pi / 180)) :=
    (degToRad_rel e3 (by norm_num) (le_trans (by norm_num) e4)).mono (by norm_num)
  have b1 : (1 : ℝ) / 2 ^ 60 ≤ 1 / 2 ^ 33 := by norm_num
  have b2 : (1 : ℝ) / 2 ^ 60 ≤ 1 / 2 ^ 19 := by norm_num
  have b3 : (1 : ℝ) / 2 ^ 60 ≤ 0.1 / (3600 * 256) := by norm_num
  have b4 : (1 : ℝ) / 2 ^ 60 ≤ 0.1 / 2 ^ 8 / 3600 * (Real.pi / 180) := deg_big (by norm_num)
  have b5 : (1 : ℝ) / 2 ^ 60 ≤ 1 / 10 ^ 9 := by norm_num
  have b6 : (1 : ℝ) / 2 ^ 60 ≤ 720 / 2 ^ 31 * (Real.pi / 180) := deg_big (by norm_num)
  have b7 : (1 : ℝ) / 2 ^ 60 ≤ 1 / 2 ^ 21 * (Real.pi / 180) := deg_big (by norm_num)
  have b8 : (1 : ℝ) / 2 ^ 60 ≤ 0.008 / 65536 / R * (Real.pi / 180) := deg_big (le_trans (by norm_num) e2)
  have b9 : (1 : ℝ) / 2 ^ 60 ≤ 0.0151515 / 65536 / 200 * (Real.pi / 180) := deg_big (le_trans (by norm_num) e4)
  unfold imuScaleGyro
  generalize t.toNat = n
  by_cases hn : n ≤ 62
  · interval_cases n
    all_goals
      refine ⟨fun G hG => ?_, fun h => ?_⟩
      · first
        | (cases hG; done)
        | (obtain rfl := Option.some.inj hG
           first
           | exact ⟨_, rfl, g33, b1⟩
           | exact ⟨_, rfl, g19, b2⟩
           | exact ⟨_, rfl, gkvh, b3⟩
           | exact ⟨_, rfl, gfsas, b4⟩
           | exact ⟨_, rfl, gisa, b5⟩
           | exact ⟨_, rfl, gadis, b6⟩
           | exact ⟨_, rfl, gstim, b7⟩
           | exact ⟨_, rfl, geps, b8⟩
           | exact ⟨_, rfl, g370, b9⟩)
      · first
        | rfl
        | (cases h; done)
  · have h1 : gyroUnit R n = none := by
      unfold gyroUnit; split <;> first | rfl | (exfalso; omega)
    rw [h1]
    refine ⟨fun R hR => (by cases hR), fun _ => ?_⟩
    rw [if_neg, if_neg, if_neg, if_neg, if_neg, if_neg, if_neg, if_neg, if_neg] <;>
      first | (simp only [List.mem_cons, List.not_mem_nil, or_false]; omega) | omega

theorem milligee_rel {q : ℚ} {x : ℝ} (h : Rel 20 (q : ℝ) x) (hx : 1 / 2 ^ 60 ≤ x) :
    Rel 40 (milligeeToMetres q : ℚ) (1000000 * (x * (9.806 / 1000))) := by
  unfold milligeeToMetres gravity
  have hx0 : 0 < x := lt_of_lt_of_le (by positivity) hx
  have h1 := h.fmul (Rel.lit (q := 1000) (x := 1000) (by norm_num)) (by norm_num) (by norm_num)
    (Big.of_le (e := 140) (y := x) hx0 (le_trans (by norm_num) hx) (by linarith))
  have h2 := h1.fmul (Rel.flit (q := 9806 / 1000) (x := 9.806) (by norm_num) (by norm_num)) (by norm_num) (by norm_num)
    (Big.of_le (e := 140) (y := x) hx0 (le_trans (by norm_num) hx) (by linarith))
  rw [show (1000000 : ℝ) * (x * (9.806 / 1000)) = x * 1000 * 9.806 by ring]
  exact h2.mono (by norm_num)

/-- the acceleration, as it is: a million times too much for the types with milligee -/
noncomputable def asIs (t : Nat) (A : ℝ) : ℝ := if t = 41 ∨ t = 61 ∨ t = 62 then 1000000 * A else A

theorem accel_eq {q : ℚ} {R : ℝ} (hq : Rel 2 (q : ℝ) R) (h0 : 1 / 2 ^ 23 ≤ R) (h1 : R ≤ 1000) (t : BitVec 8) :
    (∀ A, accelUnit R t.toNat = some A → ∃ s, imuScaleAccel t q = some s ∧ Rel 40 (s : ℝ) (asIs t.toNat A) ∧ 1 / 2 ^ 60 ≤ asIs t.toNat A) ∧
    (accelUnit R t.toNat = none → imuScaleAccel t q = none) := by
  have hft : ∀ c : ℚ, ∀ x : ℝ, (c : ℝ) = x → 1 / 2 ^ 30 ≤ x → Rel 40 (feetToMetres c : ℚ) (x * 0.3048) := by
    intro c x hc hx
    unfold feetToMetres
    have hx0 : 0 < x := lt_of_lt_of_le (by positivity) hx
    have a := Rel.flit (q := 3048 / 10000) (x := 0.3048) (by norm_num) (by norm_num)
    refine ((Rel.lit hc).fmul a (by norm_num) (by norm_num) (Big.of_le (e := 140) (y := x / 4) (by positivity) ?_ (by linarith))).mono (by norm_num)
    rw [le_div_iff₀ (by norm_num)]
    exact le_trans (by norm_num) hx
  have a27 := hft (1 / 2 ^ 27) (1 / 2 ^ 27) (by norm_num) (by norm_num)
  have a26 := hft (1 / 2 ^ 26) (1 / 2 ^ 26) (by norm_num) (by norm_num)
  have a29 : Rel 40 ((1 / 2 ^ 29 : ℚ) : ℝ) (1 / 2 ^ 29) := (Rel.lit (by norm_num)).mono (by norm_num)
  have a14 : Rel 40 ((1 / 2 ^ 14 : ℚ) : ℝ) (1 / 2 ^ 14) := (Rel.lit (by norm_num)).mono (by norm_num)
  have a22 : Rel 40 ((1 / 2 ^ 22 : ℚ) : ℝ) (1 / 2 ^ 22) := (Rel.lit (by norm_num)).mono (by norm_num)
  have a31 : Rel 40 ((200 / 2 ^ 31 : ℚ) : ℝ) (200 / 2 ^ 31) := (Rel.lit (by norm_num)).mono (by norm_num)
  have a15 : Rel 40 ((f64 (5 / 100) / 2 ^ 15 : ℚ) : ℝ) (0.05 / 2 ^ 15) := by
    have a := Rel.flit (q := 5 / 100) (x := 0.05) (by norm_num) (by norm_num)
    push_cast
    exact (a.div (Rel.refl _) (by norm_num) (by norm_num) (by norm_num)).mono (by norm_num)
  have aisa : Rel 40 (f64 (2 / 100000000) : ℚ) (2 / 10 ^ 8) := (Rel.flit (by norm_num) (by norm_num)).mono (by norm_num)
  obtain ⟨e1, e2⟩ := epson_rel (c := 200 / 1000) (x := 0.2) (by norm_num) (by norm_num) hq h0 h1
  have aeps := milligee_rel e1 (le_trans (by norm_num) e2)
  obtain ⟨e3, e4⟩ := epson_rel (c := 400 / 1000) (x := 0.4) (R := 200) (q := 200) (by norm_num) (by norm_num)
    ((Rel.lit (by norm_num)).mono (by norm_num)) (by norm_num) (by norm_num)
  have a370 := milligee_rel e3 (le_trans (by norm_num) e4)
  have b1 : (1 : ℝ) / 2 ^ 60 ≤ 1 / 2 ^ 27 * 0.3048 := by norm_num
  have b2 : (1 : ℝ) / 2 ^ 60 ≤ 1 / 2 ^ 26 * 0.3048 := by norm_num
  have b3 : (1 : ℝ) / 2 ^ 60 ≤ 1 / 2 ^ 29 := by norm_num
  have b4 : (1 : ℝ) / 2 ^ 60 ≤ 1 / 2 ^ 14 := by norm_num
  have b5 : (1 : ℝ) / 2 ^ 60 ≤ 1 / 2 ^ 22 := by norm_num
  have b6 : (1 : ℝ) / 2 ^ 60 ≤ 200 / 2 ^ 31 := by norm_num
  have b7 : (1 : ℝ) / 2 ^ 60 ≤ 0.05 / 2 ^ 15 := by norm_num
  have b8 : (1 : ℝ) / 2 ^ 60 ≤ 2 / 10 ^ 8 := by norm_num
  have b9 : (1 : ℝ) / 2 ^ 60 ≤ 1000000 * (0.2 / 65536 / R * (9.806 / 1000)) := by
    have : (1 : ℝ) / 2 ^ 60 ≤ 0.2 / 65536 / R := le_trans (by norm_num) e2
    have h3 : (0 : ℝ) ≤ 0.2 / 65536 / R := le_trans (by norm_num) e2
    linarith
  have b10 : (1 : ℝ) / 2 ^ 60 ≤ 1000000 * (0.4 / 65536 / 200 * (9.806 / 1000)) := by norm_num
  unfold imuScaleAccel
  generalize t.toNat = n
  by_cases hn : n ≤ 62
  · interval_cases n
    all_goals
      refine ⟨fun G hG => ?_, fun h => ?_⟩
      · first
        | (cases hG; done)
        | (obtain rfl := Option.some.inj hG
           simp only [asIs, Nat.reduceEqDiff, or_self, or_true, true_or, or_false, false_or, if_true, if_false]
           first
           | exact ⟨_, rfl, a27, b1⟩
           | exact ⟨_, rfl, a26, b2⟩
           | exact ⟨_, rfl, a29, b3⟩
           | exact ⟨_, rfl, a14, b4⟩
           | exact ⟨_, rfl, a22, b5⟩
           | exact ⟨_, rfl, a31, b6⟩
           | exact ⟨_, rfl, a15, b7⟩
           | exact ⟨_, rfl, aisa, b8⟩
           | exact ⟨_, rfl, aeps, b9⟩
           | exact ⟨_, rfl, a370, b10⟩)
      · first
        | rfl
        | (cases h; done)
  · have h1 : accelUnit R n = none := by
      unfold accelUnit; split <;> first | rfl | (exfalso; omega)
    rw [h1]
    refine ⟨fun R hR => (by cases hR), fun _ => ?_⟩
    rw [if_neg, if_neg, if_neg, if_neg, if_neg, if_neg, if_neg, if_neg, if_neg, if_neg] <;>
      first | (simp only [List.mem_cons, List.not_mem_nil, or_false]; omega) | omega

theorem units_same (R : ℝ) (n : Nat) : (accelUnit R n).isSome = (gyroUnit R n).isSome := by
  by_cases hn : n ≤ 62
  · interval_cases n <;> rfl
  · have h1 : accelUnit R n = none := by
      unfold accelUnit; split <;> first | rfl | (exfalso; omega)
    have h2 : gyroUnit R n = none := by
      unfold gyroUnit; split <;> first | rfl | (exfalso; omega)
    rw [h1, h2]

/-! ### axes -/

theorem prod_rel {v : Int} {s q : ℚ} {S R : ℝ} (hs : Rel 40 (s : ℝ) S) (hS : 1 / 2 ^ 60 ≤ S) (hq : Rel 2 (q : ℝ) R) (h0 : 1 / 2 ^ 23 ≤ R) :
    Rel 48 (f64 (f64 (v * s) * q) : ℚ) (v * S * R) ∧ Big 83 ((v : ℝ) * S * R) := by
  have hS0 : 0 < S := lt_of_lt_of_le (by positivity) hS
  have hR0 : 0 < R := lt_of_lt_of_le (by positivity) h0
  have b1 : Big 60 ((v : ℝ) * S) := by
    have := (Big.int v).mul (Big.of_le hS0 hS le_rfl)
    simpa using this
  have b2 : Big 83 ((v : ℝ) * S * R) := b1.mul (Big.of_le hR0 h0 le_rfl)
  have a1 := (Rel.lit (q := v) (x := v) (by norm_num)).fmul hs (by norm_num) (by norm_num) (b1.mono (by norm_num))
  have a2 := a1.fmul hq (by norm_num) (by norm_num) (b2.mono (by norm_num))
  exact ⟨a2.mono (by norm_num), b2⟩

theorem radToDeg_rel {q : ℚ} {x : ℝ} (h : Rel 48 (q : ℝ) x) (hb : Big 83 x) : Rel 60 (radToDeg q : ℚ) (x * (180 / Real.pi)) ∧ Big 90 (x * (180 / Real.pi)) := by
  unfold radToDeg
  have hp := Real.pi_pos
  have h4 := Real.pi_lt_four
  have e : (1 : ℝ) ≤ 180 / Real.pi := by rw [le_div_iff₀ hp]; linarith
  have b2 : Big 83 (x * (180 / Real.pi)) := by
    have := hb.mul (Big.of_le (e := 0) (x := 180 / Real.pi) (y := 1) (by norm_num) (by norm_num) e)
    simpa using this
  have a1 := h.fmul (Rel.lit (q := 180) (x := 180) (by norm_num)) (by norm_num) (by norm_num)
    ((hb.mul (Big.of_le (e := 0) (x := 180) (y := 1) (by norm_num) (by norm_num) (by norm_num))).mono (by norm_num))
  have a2 := a1.fdiv mPi_rel hp.ne' (by norm_num) (by norm_num) (by rw [mul_div_assoc]; exact b2.mono (by norm_num))
  rw [mul_div_assoc] at a2
  exact ⟨a2.mono (by norm_num), b2.mono (by norm_num)⟩

theorem angular_says {v : Int} {s q : ℚ} {S R : ℝ} (hs : Rel 40 (s : ℝ) S) (hS : 1 / 2 ^ 60 ≤ S) (hq : Rel 2 (q : ℝ) R) (h0 : 1 / 2 ^ 23 ≤ R) :
    ∃ x, angularAxis v s q = some x ∧ Says32 x (v * S * R * (180 / Real.pi) * 1000000) := by
  obtain ⟨a1, b1⟩ := prod_rel (v := v) hs hS hq h0
  obtain ⟨a2, b2⟩ := radToDeg_rel a1 b1
  have a3 := a2.fmul (Rel.lit (q := 1000000) (x := 1000000) (by norm_num)) (by norm_num) (by norm_num)
    ((b2.mul (Big.of_le (e := 0) (x := 1000000) (y := 1) (by norm_num) (by norm_num) (by norm_num))).mono (by norm_num))
  obtain ⟨x, h1, _, _, h2⟩ := s32_some (by norm_num) a3
  exact ⟨x, h1, h2⟩

theorem gyr_says {v : Int} {s q : ℚ} {S R : ℝ} (hs : Rel 40 (s : ℝ) S) (hS : 1 / 2 ^ 60 ≤ S) (hq : Rel 2 (q : ℝ) R) (h0 : 1 / 2 ^ 23 ≤ R) :
    ∃ x, gyrAxis v s q = some x ∧ Says16 x (v * S * R * (180 / Real.pi) / (125 / 32768)) := by
  obtain ⟨a1, b1⟩ := prod_rel (v := v) hs hS hq h0
  obtain ⟨a2, b2⟩ := radToDeg_rel a1 b1
  have b3 := b2.mul (Big.of_le (e := 0) (x := 32768) (y := 1) (by norm_num) (by norm_num) (by norm_num))
  have a3 := a2.fmul (Rel.lit (q := 32768) (x := 32768) (by norm_num)) (by norm_num) (by norm_num) (b3.mono (by norm_num))
  have b4 := b3.mul (Big.of_le (e := 10) (x := 1 / 125) (y := 1 / 2 ^ 10) (by norm_num) (by norm_num) (by norm_num))
  have a4 := a3.fdiv (Rel.lit (q := 125) (x := 125) (by norm_num)) (by norm_num) (by norm_num) (by norm_num)
    (by rw [div_eq_mul_one_div]; exact b4.mono (by norm_num))
  obtain ⟨x, h1, h2⟩ := s16_some (by norm_num) a4
  refine ⟨x, h1, ?_⟩
  rw [show (v : ℝ) * S * R * (180 / Real.pi) / (125 / 32768) = v * S * R * (180 / Real.pi) * 32768 / 125 by ring]
  exact h2

theorem acc_says {v : Int} {s q : ℚ} {S R : ℝ} (hs : Rel 40 (s : ℝ) S) (hS : 1 / 2 ^ 60 ≤ S) (hq : Rel 2 (q : ℝ) R) (h0 : 1 / 2 ^ 23 ≤ R) :
    ∃ x, accAxis v s q = some x ∧ Says16 x (v * S * R / (8 * 9.806 / 32768)) := by
  obtain ⟨a1, b1⟩ := prod_rel (v := v) hs hS hq h0
  have b3 := b1.mul (Big.of_le (e := 0) (x := 32768) (y := 1) (by norm_num) (by norm_num) (by norm_num))
  have a3 := a1.fmul (Rel.lit (q := 32768) (x := 32768) (by norm_num)) (by norm_num) (by norm_num) (b3.mono (by norm_num))
  have hg : Rel 5 (f64 (8 * gravity) : ℚ) (8 * 9.806) := by
    unfold gravity
    exact ((Rel.lit (q := 8) (x := 8) (by norm_num)).fmul (Rel.flit (q := 9806 / 1000) (x := 9.806) (by norm_num) (by norm_num)) (by norm_num)
      (by norm_num) (Big.of_le (e := 140) (y := 1) (by norm_num) (by norm_num) (by norm_num))).mono (by norm_num)
  have b4 := b3.mul (Big.of_le (e := 10) (x := 1 / (8 * 9.806)) (y := 1 / 2 ^ 10) (by norm_num) (by norm_num) (by norm_num))
  have a4 := a3.fdiv hg (by norm_num) (by norm_num) (by norm_num) (by rw [div_eq_mul_one_div]; exact b4.mono (by norm_num))
  obtain ⟨x, h1, h2⟩ := s16_some (by norm_num) a4
  refine ⟨x, h1, ?_⟩
  rw [show (v : ℝ) * S * R / (8 * 9.806 / 32768) = v * S * R * 32768 / (8 * 9.806) by ring]
  exact h2

/-! ### messages -/

/-- no error (bit 0) and not encrypted (bit 1) -/
theorem info_ok (b : RawImuSx) : (b.imu_info &&& 1#8 ≠ 0#8 ∨ b.imu_info &&& 2#8 ≠ 0#8) ↔ b.imu_info.getLsbD 0 = true ∨ b.imu_info.getLsbD 1 = true := by
  have key : ∀ i < 8, b.imu_info &&& BitVec.twoPow 8 i ≠ 0#8 ↔ b.imu_info.getLsbD i = true := by
    intro i hi
    rw [BitVec.and_twoPow]
    by_cases h : b.imu_info.getLsbD i = true
    · have : BitVec.twoPow 8 i ≠ 0#8 := by
        intro e
        have := congrArg (fun v => BitVec.getLsbD v i) e
        simp [hi] at this
      simp [this, h]
    · simp only [Bool.not_eq_true] at h
      simp [h]
  exact or_congr (key 0 (by norm_num)) (key 1 (by norm_num))

/-- what may follow the data -/
def auxOf (st : St) (h : Header) : List Out := if sendsAux st.imuAux h then [.imuAux 1 0 0x42] else []

theorem imu_messages {L : Lib} {before : List Msg} {st : St} (hs : stateAfter L before = some st) {m : Msg} {b : RawImuSx} (hb : m.body = .rawimusx b)
    (hi : b.imu_info.getLsbD 0 = false ∧ b.imu_info.getLsbD 1 = false) {R G A : ℝ} (hR : rateOf before m b = some R)
    (hG : gyroUnit R b.imu_type.toNat = some G) (hA : accelUnit R b.imu_type.toNat = some A) :
    ∃ a r, sentFor L before m = some ([.angularRate a, .imuRaw r] ++ auxOf st m.header) ∧ SaysRate m b G R a ∧
      SaysImu m b G (asIs b.imu_type.toNat A) R r := by
  obtain ⟨q, hq, hq2, h0, h1⟩ := (rate_eq hs m b).1 R hR
  obtain ⟨g, hg, hg2, hg3⟩ := (gyro_eq hq2 h0 h1 b.imu_type).1 G hG
  obtain ⟨s, hsc, hs2, hs3⟩ := (accel_eq hq2 h0 h1 b.imu_type).1 A hA
  obtain ⟨ax, ax1, ax2⟩ := angular_says (v := b.x_gyro) hg2 hg3 hq2 h0
  obtain ⟨ay, ay1, ay2⟩ := angular_says (v := -b.y_gyro) hg2 hg3 hq2 h0
  obtain ⟨az, az1, az2⟩ := angular_says (v := b.z_gyro) hg2 hg3 hq2 h0
  obtain ⟨gx, gx1, gx2⟩ := gyr_says (v := b.x_gyro) hg2 hg3 hq2 h0
  obtain ⟨gy, gy1, gy2⟩ := gyr_says (v := -b.y_gyro) hg2 hg3 hq2 h0
  obtain ⟨gz, gz1, gz2⟩ := gyr_says (v := b.z_gyro) hg2 hg3 hq2 h0
  obtain ⟨cx, cx1, cx2⟩ := acc_says (v := b.x_accel) hs2 hs3 hq2 h0
  obtain ⟨cy, cy1, cy2⟩ := acc_says (v := -b.y_accel) hs2 hs3 hq2 h0
  obtain ⟨cz, cz1, cz2⟩ := acc_says (v := b.z_accel) hs2 hs3 hq2 h0
  push_cast at ay2 gy2 cy2
  refine ⟨{ tow := m.header.ms, x := ax, y := ay, z := az, flags := 1 },
    { tow := m.header.ms, towF := 0, accX := cx, accY := cy, accZ := cz, gyrX := gx, gyrY := gy, gyrZ := gz }, ?_,
    ⟨rfl, ax2, ay2, az2, rfl⟩, ⟨rfl, rfl, cx2, cy2, cz2, gx2, gy2, gz2⟩⟩
  rw [sentFor_eq hs]
  unfold convert
  rw [hb]
  have hno : ¬ (b.imu_info &&& 1#8 ≠ 0#8 ∨ b.imu_info &&& 2#8 ≠ 0#8) := by
    rw [info_ok, hi.1, hi.2]; simp
  simp only [writeRawImu, toAngularRate, toImuRaw, hq, hg, hsc, if_neg hno, bind, Option.bind, ax1, ay1, az1, gx1, gy1, gz1, cx1, cy1, cz1, pure,
    Option.map_some, auxOf]
  rfl

/-- **C62 (IMU data).**  A RAWIMUSX log of an IMU of a known type becomes an ANGULAR_RATE and an IMU_RAW message; an IMU_AUX message may follow.
Missing: the acceleration of the three types whose unit is given in milligee (`C62_milligee_bug`). -/
theorem C62_data_partial {L : Lib} {before : List Msg} (ha : (stateAfter L before).isSome) {m : Msg} {b : RawImuSx} (hb : m.body = .rawimusx b)
    (hi : b.imu_info.getLsbD 0 = false ∧ b.imu_info.getLsbD 1 = false) {R G A : ℝ} (hR : rateOf before m b = some R)
    (hG : gyroUnit R b.imu_type.toNat = some G) (hA : accelUnit R b.imu_type.toNat = some A) (ht : ¬ inMilligee b.imu_type.toNat) :
    ∃ a r aux, sentFor L before m = some ([.angularRate a, .imuRaw r] ++ aux) ∧ (aux = [] ∨ aux = [.imuAux 1 0 0x42]) ∧ SaysRate m b G R a ∧
      SaysImu m b G A R r := by
  obtain ⟨st, hs⟩ := Option.isSome_iff_exists.1 ha
  obtain ⟨a, r, h1, h2, h3⟩ := imu_messages hs hb hi hR hG hA
  have e : asIs b.imu_type.toNat A = A := if_neg ht
  rw [e] at h3
  refine ⟨a, r, _, h1, ?_, h2, h3⟩
  unfold auxOf
  split
  · exact .inr rfl
  · exact .inl rfl

/-- For the three types whose unit is given in milligee the acceleration is a million times too large, and saturates. -/
theorem C62_milligee_bug {L : Lib} {before : List Msg} (ha : (stateAfter L before).isSome) {m : Msg} {b : RawImuSx} (hb : m.body = .rawimusx b)
    (hi : b.imu_info.getLsbD 0 = false ∧ b.imu_info.getLsbD 1 = false) {R G A : ℝ} (hR : rateOf before m b = some R)
    (hG : gyroUnit R b.imu_type.toNat = some G) (hA : accelUnit R b.imu_type.toNat = some A) (ht : inMilligee b.imu_type.toNat) :
    ∃ a r aux, sentFor L before m = some ([.angularRate a, .imuRaw r] ++ aux) ∧ (aux = [] ∨ aux = [.imuAux 1 0 0x42]) ∧ SaysRate m b G R a ∧
      SaysImu m b G (1000000 * A) R r := by
  obtain ⟨st, hs⟩ := Option.isSome_iff_exists.1 ha
  obtain ⟨a, r, h1, h2, h3⟩ := imu_messages hs hb hi hR hG hA
  have e : asIs b.imu_type.toNat A = 1000000 * A := if_pos ht
  rw [e] at h3
  refine ⟨a, r, _, h1, ?_, h2, h3⟩
  unfold auxOf
  split
  · exact .inr rfl
  · exact .inl rfl

/-- Without a rate or a unit only IMU_AUX can be sent. -/
theorem C62_unknown {L : Lib} {before : List Msg} (ha : (stateAfter L before).isSome) {m : Msg} {b : RawImuSx} (hb : m.body = .rawimusx b)
    (hi : b.imu_info.getLsbD 0 = false ∧ b.imu_info.getLsbD 1 = false)
    (h : rateOf before m b = none ∨ ∃ R, rateOf before m b = some R ∧ gyroUnit R b.imu_type.toNat = none) :
    sentFor L before m = some [] ∨ sentFor L before m = some [.imuAux 1 0 0x42] := by
  obtain ⟨st, hs⟩ := Option.isSome_iff_exists.1 ha
  have hno : ¬ (b.imu_info &&& 1#8 ≠ 0#8 ∨ b.imu_info &&& 2#8 ≠ 0#8) := by
    rw [info_ok, hi.1, hi.2]; simp
  have key : toAngularRate st.imuRecv m.header b = some none ∧ toImuRaw st.imuRecv m.header b = some none := by
    unfold toAngularRate toImuRaw
    rcases h with h | ⟨R, hR, h⟩
    · rw [(rate_eq hs m b).2 h]; exact ⟨rfl, rfl⟩
    · obtain ⟨q, hq, hq2, h0, h1⟩ := (rate_eq hs m b).1 R hR
      rw [hq]
      simp only
      rw [(gyro_eq hq2 h0 h1 b.imu_type).2 h]
      exact ⟨rfl, rfl⟩
  rw [sentFor_eq hs]
  unfold convert
  rw [hb]
  simp only [writeRawImu, if_neg hno, bind, Option.bind, key.1, key.2, pure, Option.map_some, Option.map_none, Option.toList_none, List.nil_append]
  split
  · exact .inr rfl
  · exact .inl rfl

/-- An IMU error or encrypted data stops the program. -/
theorem C62_error_bug {L : Lib} {before : List Msg} {m : Msg} {b : RawImuSx} (hb : m.body = .rawimusx b)
    (hi : b.imu_info.getLsbD 0 = true ∨ b.imu_info.getLsbD 1 = true) : sentFor L before m = none := by
  rcases hs : stateAfter L before with _ | st
  · unfold sentFor; rw [hs]; rfl
  rw [sentFor_eq hs]
  unfold convert
  rw [hb]
  simp only [writeRawImu, if_pos ((info_ok b).2 hi), bind, Option.bind]
  rfl

/-! ### IMU_AUX -/

theorem obsLoop_aux (L : Lib) (t : BitVec 16 × Nat × Int) (total : Nat) : ∀ (k : Nat) (l : List MiniNav), ∀ o ∈ obsLoop L t total k l, isAux o = false
  | 0, _, o, h => by cases h
  | k + 1, l, o, h => by
    rcases List.mem_cons.1 h with rfl | h
    · rfl
    · exact obsLoop_aux L t total k _ o h

theorem auxFor_iff {L : Lib} {before : List Msg} {st st' : St} {m : Msg} {os : List Out} (hs : stateAfter L before = some st)
    (hc : convert L st m = some (st', os)) : AuxFor L before m ↔ (isImu m = true ∧ sendsAux st.imuAux m.header = true) := by
  have e : AuxFor L before m ↔ ∃ o ∈ os, isAux o := by
    unfold AuxFor
    rw [sentFor_eq hs, hc]
    constructor
    · rintro ⟨os', h, h2⟩
      obtain rfl := Option.some.inj h
      exact h2
    · exact fun h => ⟨_, rfl, h⟩
  rw [e]
  obtain ⟨hd, body⟩ := m
  have no : (∀ o ∈ os, isAux o = false) → isImu ⟨hd, body⟩ = false →
      ((∃ o ∈ os, isAux o) ↔ (isImu ⟨hd, body⟩ = true ∧ sendsAux st.imuAux hd = true)) := by
    intro h1 h2
    rw [h2]
    constructor
    · rintro ⟨o, h3, h4⟩
      rw [h1 o h3] at h4; cases h4
    · rintro ⟨h, _⟩; cases h
  cases body with
  | gpsephem b =>
    refine no ?_ rfl
    simp only [convert, writeGpsEphem] at hc
    rcases he : toEphGps L b with _ | e
    · rw [he] at hc; cases hc
    · rw [he] at hc
      obtain ⟨rfl, rfl⟩ := Prod.mk.inj (Option.some.inj hc)
      simp [isAux]
  | bestpos b =>
    refine no ?_ rfl
    simp only [convert, writeBestPos] at hc
    rcases he : bestposToLlh L hd b with _ | e
    · rw [he] at hc; cases hc
    · rw [he] at hc
      obtain ⟨rfl, rfl⟩ := Prod.mk.inj (Option.some.inj hc)
      unfold sendTime
      dsimp only
      split <;> simp [isAux]
  | bestvel b =>
    refine no ?_ rfl
    simp only [convert, writeBestVel] at hc
    rcases he : bestvelToNed L (sendTime st (headerTime hd)).1 hd b with _ | e
    · rw [he] at hc; cases hc
    · rw [he] at hc
      obtain ⟨rfl, rfl⟩ := Prod.mk.inj (Option.some.inj hc)
      unfold sendTime
      dsimp only
      split <;> simp [isAux]
  | rangecmp b =>
    refine no ?_ rfl
    simp only [convert, writeRangeCmp] at hc
    rcases he : sendObs L hd.week (Fp.f64 ((hd.ms.toInt : ℚ) / 1000)) (b.map toMiniNav) with _ | e
    · rw [he] at hc; cases hc
    · rw [he] at hc
      obtain ⟨rfl, rfl⟩ := Prod.mk.inj (Option.some.inj hc)
      unfold sendObs at he
      split at he
      · rcases ht : roundTime 0xFFFF#16 (-1) with _ | t
        · rw [ht] at he; cases he
        · rw [ht] at he
          obtain rfl := Option.some.inj he
          simp [isAux]
      · dsimp only at he
        rcases ht : roundTime hd.week (Fp.f64 ((hd.ms.toInt : ℚ) / 1000)) with _ | t
        · rw [ht] at he; cases he
        · rw [ht] at he
          obtain rfl := Option.some.inj he
          exact obsLoop_aux L t _ _ _
  | insatt b =>
    refine no ?_ rfl
    simp only [convert, writeInsAtt] at hc
    rcases h1 : doubleToS32 (mulFl rnd64 (dbl b.roll) (.fin 1000000)) with _ | e1
    · rw [h1] at hc; cases hc
    rcases h2 : doubleToS32 (mulFl rnd64 (dbl b.pitch) (.fin 1000000)) with _ | e2
    · rw [h1, h2] at hc; cases hc
    rcases h3 : doubleToS32 (mulFl rnd64 (dbl b.azimuth) (.fin 1000000)) with _ | e3
    · rw [h1, h2, h3] at hc; cases hc
    rw [h1, h2, h3] at hc
    obtain ⟨rfl, rfl⟩ := Prod.mk.inj (Option.some.inj hc)
    simp [isAux]
  | gloephemeris b =>
    refine no ?_ rfl
    obtain ⟨rfl, rfl⟩ := Prod.mk.inj (Option.some.inj hc)
    simp
  | rawimusx b =>
    simp only [convert, writeRawImu] at hc
    split at hc
    · cases hc
    rcases h1 : toAngularRate st.imuRecv hd b with _ | e1
    · rw [h1] at hc; cases hc
    rcases h2 : toImuRaw st.imuRecv hd b with _ | e2
    · rw [h1, h2] at hc; cases hc
    rw [h1, h2] at hc
    obtain ⟨rfl, rfl⟩ := Prod.mk.inj (Option.some.inj hc)
    simp only [isImu, true_and]
    rcases e1 with _ | e1 <;> rcases e2 with _ | e2 <;> cases sendsAux st.imuAux hd <;> simp [isAux]
  | other =>
    refine no ?_ rfl
    obtain ⟨rfl, rfl⟩ := Prod.mk.inj (Option.some.inj hc)
    simp

theorem lastAux_snoc {L : Lib} {before : List Msg} {m : Msg} {o : Option Msg} (h : LastAux L (before ++ [m]) o) :
    (AuxFor L before m ∧ o = some m) ∨ (¬ AuxFor L before m ∧ LastAux L before o) := by
  cases o with
  | none =>
    refine .inr ⟨h before m [] rfl, fun a x b e => h a x (b ++ [m]) (by rw [e]; simp)⟩
  | some y =>
    obtain ⟨a, b, e, h1, h2⟩ := h
    rcases List.eq_nil_or_concat b with rfl | ⟨b', z, rfl⟩
    · obtain ⟨rfl, e2⟩ := List.append_inj' e rfl
      obtain rfl := (List.cons.inj e2).1
      exact .inl ⟨h1, rfl⟩
    · have e' : before ++ [m] = (a ++ y :: b') ++ [z] := by rw [e]; simp
      obtain ⟨rfl, e2⟩ := List.append_inj' e' rfl
      obtain rfl := (List.cons.inj e2).1
      refine .inr ⟨h2 b' m [] (by simp), a, b', rfl, h1, fun b1 x b2 eb => h2 b1 x (b2 ++ [m]) (by rw [eb]; simp)⟩

theorem aux_state {L : Lib} (before : List Msg) : ∀ {st : St} {o : Option Msg}, stateAfter L before = some st → LastAux L before o →
    (st.imuAux.wn, st.imuAux.tow) = match o with | none => (0#16, 0#32) | some y => (y.header.week, y.header.ms) := by
  induction before using List.reverseRecOn with
  | nil =>
    intro st o h h2
    obtain rfl := Option.some.inj h
    cases o with
    | none => rfl
    | some y =>
      obtain ⟨a, b, e, _⟩ := h2
      cases a <;> cases e
  | append_singleton before m ih =>
    intro st' o h h2
    rw [stateAfter_snoc] at h
    rcases hs : stateAfter L before with _ | st
    · rw [hs] at h; cases h
    rw [hs] at h
    rcases hc : convert L st m with _ | ⟨st2, os⟩
    · simp [hc] at h
    have : st2 = st' := by simpa [hc] using h
    subst this
    rw [(convert_state hc).2.2.2]
    have hi := auxFor_iff hs hc
    rcases lastAux_snoc h2 with ⟨h3, rfl⟩ | ⟨h3, h4⟩
    · rw [if_pos (hi.1 h3)]
    · rw [if_neg (fun e => h3 (hi.2 e))]
      exact ih hs h4

/-- there is a last one, or none -/
theorem lastAux_exists (L : Lib) (before : List Msg) : ∃ o, LastAux L before o := by
  induction before using List.reverseRecOn with
  | nil => exact ⟨none, fun a x b e => by cases a <;> cases e⟩
  | append_singleton before m ih =>
    by_cases h : AuxFor L before m
    · refine ⟨some m, before, [], rfl, h, fun b1 x b2 e => by cases b1 <;> cases e⟩
    · obtain ⟨o, ho⟩ := ih
      refine ⟨o, ?_⟩
      cases o with
      | none =>
        intro a x b e
        rcases List.eq_nil_or_concat b with rfl | ⟨b', z, rfl⟩
        · obtain ⟨rfl, e2⟩ := List.append_inj' e rfl
          obtain rfl := (List.cons.inj e2).1
          exact h
        · have e' : before ++ [m] = (a ++ x :: b') ++ [z] := by rw [e]; simp
          exact ho a x b' (List.append_inj' e' rfl).1
      | some y =>
        obtain ⟨a, b, rfl, h1, h2⟩ := ho
        refine ⟨a, b ++ [m], by simp, h1, ?_⟩
        intro b1 x b2 e
        rcases List.eq_nil_or_concat b2 with rfl | ⟨b', z, rfl⟩
        · obtain ⟨rfl, e2⟩ := List.append_inj' e rfl
          obtain rfl := (List.cons.inj e2).1
          exact h
        · have e' : b ++ [m] = (b1 ++ x :: b') ++ [z] := by rw [e]; simp
          exact h2 b1 x b' (List.append_inj' e' rfl).1

/-- an IMU log without errors is always handled -/
theorem imu_alive {L : Lib} {before : List Msg} (ha : (stateAfter L before).isSome) {m : Msg} {b : RawImuSx} (hb : m.body = .rawimusx b)
    (hi : b.imu_info.getLsbD 0 = false ∧ b.imu_info.getLsbD 1 = false) : (sentFor L before m).isSome := by
  rcases hR : rateOf before m b with _ | R
  · rcases C62_unknown ha hb hi (.inl hR) with h | h <;> rw [h] <;> rfl
  rcases hG : gyroUnit R b.imu_type.toNat with _ | G
  · rcases C62_unknown ha hb hi (.inr ⟨R, hR, hG⟩) with h | h <;> rw [h] <;> rfl
  obtain ⟨st, hs⟩ := Option.isSome_iff_exists.1 ha
  have := units_same R b.imu_type.toNat
  rw [hG] at this
  obtain ⟨A, hA⟩ := Option.isSome_iff_exists.1 this
  obtain ⟨a, r, h, _⟩ := imu_messages hs hb hi hR hG hA
  rw [h]; rfl

/-- **C62 (IMU_AUX).**  An IMU_AUX message is sent for the first IMU log, and then when the time of week has advanced by at least one second
since the log for which the last one was sent, or a week or time of week is zero.  Missing: the week is not compared (`C62_aux_bug`). -/
theorem C62_aux_partial {L : Lib} {before : List Msg} (ha : (stateAfter L before).isSome) {m : Msg} {b : RawImuSx} (hb : m.body = .rawimusx b)
    (hi : b.imu_info.getLsbD 0 = false ∧ b.imu_info.getLsbD 1 = false) :
    (LastAux L before none → AuxFor L before m) ∧
    (∀ y, LastAux L before (some y) → y.header.ms.toNat < 604800000 →
      (AuxFor L before m ↔ (y.header.ms.toNat + 1000 ≤ m.header.ms.toNat ∨ y.header.week = 0 ∨ m.header.week = 0 ∨ y.header.ms = 0 ∨ m.header.ms = 0))) ∧
    ∃ o, LastAux L before o := by
  obtain ⟨st, hs⟩ := Option.isSome_iff_exists.1 ha
  have h1 := imu_alive ha hb hi
  rw [sentFor_eq hs] at h1
  rcases hc : convert L st m with _ | ⟨st', os⟩
  · rw [hc] at h1; cases h1
  have hm : isImu m = true := by unfold isImu; rw [hb]
  have hi := auxFor_iff hs hc
  rw [hm] at hi
  simp only [true_and] at hi
  refine ⟨fun hl => ?_, fun y hl hy => ?_, lastAux_exists L before⟩
  · rw [hi]
    have := aux_state before hs hl
    obtain ⟨h2, h3⟩ := Prod.mk.inj this
    unfold sendsAux
    rw [h2, h3]
    simp
  · rw [hi]
    have := aux_state before hs hl
    obtain ⟨h2, h3⟩ := Prod.mk.inj this
    unfold sendsAux
    rw [h2, h3]
    have e : (y.header.ms + 1000#32).toNat = y.header.ms.toNat + 1000 := by
      rw [BitVec.toNat_add]
      simp only [BitVec.toNat_ofNat]
      omega
    rw [e]
    simp only [Bool.not_eq_true', decide_eq_false_iff_not]
    constructor
    · intro h
      by_contra hc
      simp only [not_or, not_le] at hc
      exact h ⟨hc.2.1, hc.2.2.1, hc.2.2.2.1, hc.2.2.2.2, hc.1⟩
    · rintro h ⟨a1, a2, a3, a4, a5⟩
      rcases h with h | h | h | h | h
      · omega
      · exact a1 h
      · exact a2 h
      · exact a3 h
      · exact a4 h

/-- After an IMU_AUX message in the last second of a week none is sent in the weeks that follow, however long that is: the week is not compared. -/
theorem C62_aux_bug {L : Lib} {before : List Msg} (ha : (stateAfter L before).isSome) {m : Msg} {b : RawImuSx} (hb : m.body = .rawimusx b)
    (hi : b.imu_info.getLsbD 0 = false ∧ b.imu_info.getLsbD 1 = false) {y : Msg} (hl : LastAux L before (some y))
    (hy : 604799000 ≤ y.header.ms.toNat ∧ y.header.ms.toNat < 604800000) (hm : m.header.ms.toNat < 604800000) (h0 : m.header.ms ≠ 0)
    (hw : y.header.week ≠ 0 ∧ m.header.week ≠ 0) : ¬ AuxFor L before m := by
  rw [(C62_aux_partial ha hb hi).2.1 y hl hy.2]
  rintro (h | h | h | h | h)
  · omega
  · exact hw.1 h
  · exact hw.2 h
  · rw [h] at hy; simp at hy
  · exact h0 h

/-! ### concrete cases -/

/-- Litef microIMU (type 58): counts 8589934, -1 and 100 of the gyroscopes, 536870, 0 and 5368709 of the accelerometers -/
def exImuBody : RawImuSx where
  imu_info := 0
  imu_type := 58
  gnss_week := 2100
  gnss_week_seconds := 0
  imu_status := 0
  z_accel := 5368709
  y_accel := 0
  x_accel := 536870
  z_gyro := 100
  y_gyro := 1
  x_gyro := 8589934

def exImu (week : BitVec 16) (ms : BitVec 32) : Msg := ⟨exHeader week ms, .rawimusx exImuBody⟩

theorem exImu_first : rateOf [] (exImu 2100 604799500) exImuBody = some 100 := rfl

/-- the first: at the rate of the type, and IMU_AUX is sent -/
example (L : Lib) : ∃ a r aux, sentFor L [] (exImu 2100 604799500) = some ([.angularRate a, .imuRaw r] ++ aux) ∧
    (aux = [] ∨ aux = [.imuAux 1 0 0x42]) ∧ SaysRate (exImu 2100 604799500) exImuBody (1 / 2 ^ 33) 100 a ∧
      SaysImu (exImu 2100 604799500) exImuBody (1 / 2 ^ 33) (1 / 2 ^ 29) 100 r :=
  C62_data_partial rfl rfl ⟨rfl, rfl⟩ exImu_first rfl rfl (by unfold inMilligee; decide)

theorem exImu_alive (L : Lib) : (stateAfter L [exImu 2100 604799500]).isSome := by
  obtain ⟨os, h⟩ := Option.isSome_iff_exists.1 (imu_alive (L := L) (before := []) rfl (m := exImu 2100 604799500) (b := exImuBody) rfl ⟨rfl, rfl⟩)
  exact alive_after h

/-- the second, 4 ms later: at 250 Hz -/
example (L : Lib) : ∃ a r aux, sentFor L [exImu 2100 604799500] (exImu 2100 604799504) = some ([.angularRate a, .imuRaw r] ++ aux) ∧
    (aux = [] ∨ aux = [.imuAux 1 0 0x42]) ∧ SaysRate (exImu 2100 604799504) exImuBody (1 / 2 ^ 33) 250 a ∧
      SaysImu (exImu 2100 604799504) exImuBody (1 / 2 ^ 33) (1 / 2 ^ 29) 250 r := by
  refine C62_data_partial (exImu_alive L) rfl ⟨rfl, rfl⟩ ?_ rfl rfl (by unfold inMilligee; decide)
  have : lastImu [exImu 2100 604799500] = some (exImu 2100 604799500) := rfl
  unfold rateOf
  rw [this]
  simp only
  rw [if_pos (by decide)]
  congr 1
  have h1 : (exImu 2100 604799504).header.ms.toNat = 604799504 := rfl
  have h2 : (exImu 2100 604799500).header.ms.toNat = 604799500 := rfl
  rw [h1, h2]
  norm_num

theorem exImu_aux (L : Lib) : LastAux L [exImu 2100 604799500] (some (exImu 2100 604799500)) := by
  refine ⟨[], [], rfl, ?_, fun b1 x b2 e => by cases b1 <;> cases e⟩
  exact (C62_aux_partial rfl rfl ⟨rfl, rfl⟩).1 (fun a x b e => by cases a <;> cases e)

/-- none is sent 2.5 s later, nor a week and half a day later -/
example (L : Lib) : ¬ AuxFor L [exImu 2100 604799500] (exImu 2101 2000) ∧ ¬ AuxFor L [exImu 2100 604799500] (exImu 2102 43200000) :=
  ⟨C62_aux_bug (exImu_alive L) rfl ⟨rfl, rfl⟩ (exImu_aux L) (by decide) (by decide) (by decide) (by decide),
   C62_aux_bug (exImu_alive L) rfl ⟨rfl, rfl⟩ (exImu_aux L) (by decide) (by decide) (by decide) (by decide)⟩

/-- an Epson IMU (type 41), at the 125 Hz of its type -/
example (L : Lib) : ∃ a r aux, sentFor L [] ⟨exHeader 2100 1000, .rawimusx { exImuBody with imu_type := 41 }⟩ = some ([.angularRate a, .imuRaw r] ++ aux) ∧
    (aux = [] ∨ aux = [.imuAux 1 0 0x42]) ∧
      SaysRate ⟨exHeader 2100 1000, .rawimusx { exImuBody with imu_type := 41 }⟩ { exImuBody with imu_type := 41 } (0.008 / 65536 / 125 * (Real.pi / 180)) 125 a ∧
      SaysImu ⟨exHeader 2100 1000, .rawimusx { exImuBody with imu_type := 41 }⟩ { exImuBody with imu_type := 41 } (0.008 / 65536 / 125 * (Real.pi / 180))
        (1000000 * (0.2 / 65536 / 125 * (9.806 / 1000))) 125 r :=
  C62_milligee_bug rfl rfl ⟨rfl, rfl⟩ rfl rfl rfl (by unfold inMilligee; decide)

/-- an unknown type -/
example (L : Lib) : sentFor L [] ⟨exHeader 2100 1000, .rawimusx { exImuBody with imu_type := 3 }⟩ = some [] ∨
    sentFor L [] ⟨exHeader 2100 1000, .rawimusx { exImuBody with imu_type := 3 }⟩ = some [.imuAux 1 0 0x42] :=
  C62_unknown rfl rfl ⟨rfl, rfl⟩ (.inl rfl)

example (L : Lib) : sentFor L [] ⟨exHeader 2100 1000, .rawimusx { exImuBody with imu_info := 1 }⟩ = none :=
  C62_error_bug rfl (.inl rfl)

end Verif.Nov
