import Verif.Lemmas.NovVal
import Verif.Lemmas.NovSbp
import Verif.Lemmas.NovEx
import Mathlib.Tactic.IntervalCases
/-! C60: NovAtel position, velocity, attitude and time. -/
namespace Verif.Nov
open Verif.Fp Verif.Nov.Spec
open Verif.Ubx (Fl dbl flt castTo)
open Verif.EphSbp (mPi)

/-! ### time -/

theorem sendTime_due {L : Lib} {before : List Msg} {st : St} (h : stateAfter L before = some st) (m : Msg) :
    (sendTime st (headerTime m.header)).2 = timeDue before m := by
  obtain ⟨h1, _, _⟩ := hist before h
  unfold sendTime timeDue
  rcases hl : lastNav before with _ | m'
  · rw [hl] at h1
    simp only at h1
    rw [h1]
    simp [headerTime, timeMsg]
  · rw [hl] at h1
    simp only at h1
    rw [h1]
    simp only [headerTime, true_and, and_true, sameTime, timeMsg]

def isTime : Out → Bool
  | .gpsTime _ => true
  | _ => false

/-- **C60 (time).**  For a position or velocity log the time is sent first, unless the last such log had the same; for other logs it is not. -/
theorem C60_time {L : Lib} {before : List Msg} {m : Msg} {os : List Out} (h : sentFor L before m = some os) :
    (isPos m → ∃ p, os = timeDue before m ++ [.posLlh p]) ∧ (isVel m → ∃ v, os = timeDue before m ++ [.velNed v]) ∧
    (isPos m = false → isVel m = false → ∀ o ∈ os, isTime o = false) := by
  obtain ⟨st, st', hs, hc, _⟩ := sentFor_some h
  have ht := sendTime_due hs m
  obtain ⟨hd, body⟩ := m
  cases body with
  | bestpos b =>
    refine ⟨fun _ => ?_, by simp [isVel], by simp [isPos]⟩
    simp only [convert, writeBestPos] at hc
    rcases he : bestposToLlh L hd b with _ | e
    · rw [he] at hc; cases hc
    · rw [he] at hc
      have := congrArg Prod.snd (Option.some.inj hc)
      exact ⟨e, by rw [← ht]; exact this.symm⟩
  | bestvel b =>
    refine ⟨by simp [isPos], fun _ => ?_, by simp [isVel]⟩
    simp only [convert, writeBestVel] at hc
    rcases he : bestvelToNed L (sendTime st (headerTime hd)).1 hd b with _ | e
    · rw [he] at hc; cases hc
    · rw [he] at hc
      have := congrArg Prod.snd (Option.some.inj hc)
      exact ⟨e, by rw [← ht]; exact this.symm⟩
  | gpsephem b =>
    refine ⟨by simp [isPos], by simp [isVel], fun _ _ => ?_⟩
    simp only [convert, writeGpsEphem] at hc
    rcases he : toEphGps L b with _ | e
    · rw [he] at hc; cases hc
    · rw [he] at hc
      obtain ⟨rfl, rfl⟩ := Prod.mk.inj (Option.some.inj hc)
      simp [isTime]
  | rangecmp b =>
    refine ⟨by simp [isPos], by simp [isVel], fun _ _ => ?_⟩
    simp only [convert, writeRangeCmp] at hc
    rcases he : sendObs L hd.week (Fp.f64 ((hd.ms.toInt : ℚ) / 1000)) (b.map toMiniNav) with _ | e
    · rw [he] at hc; cases hc
    rw [he] at hc
    obtain ⟨rfl, rfl⟩ := Prod.mk.inj (Option.some.inj hc)
    have hloop : ∀ t total k l, ∀ o ∈ obsLoop L t total k l, isTime o = false := by
      intro t total k
      induction k with
      | zero => intro l o ho; cases ho
      | succ k ih =>
        intro l o ho
        rcases List.mem_cons.1 ho with rfl | ho
        · rfl
        · exact ih _ o ho
    unfold sendObs at he
    split at he
    · rcases hr : roundTime 0xFFFF#16 (-1) with _ | t
      · rw [hr] at he; cases he
      · rw [hr] at he
        obtain rfl := Option.some.inj he
        simp [isTime]
    · rcases hr : roundTime hd.week (Fp.f64 ((hd.ms.toInt : ℚ) / 1000)) with _ | t
      · simp only [hr] at he; cases he
      · simp only [hr] at he
        obtain rfl := Option.some.inj he
        exact hloop _ _ _ _
  | insatt b =>
    refine ⟨by simp [isPos], by simp [isVel], fun _ _ => ?_⟩
    simp only [convert, writeInsAtt] at hc
    rcases h1 : doubleToS32 (mulFl rnd64 (dbl b.roll) (.fin 1000000)) with _ | e1
    · rw [h1] at hc; cases hc
    rcases h2 : doubleToS32 (mulFl rnd64 (dbl b.pitch) (.fin 1000000)) with _ | e2
    · rw [h1, h2] at hc; cases hc
    rcases h3 : doubleToS32 (mulFl rnd64 (dbl b.azimuth) (.fin 1000000)) with _ | e3
    · rw [h1, h2, h3] at hc; cases hc
    rw [h1, h2, h3] at hc
    have := congrArg Prod.snd (Option.some.inj hc)
    obtain rfl : _ = os := this
    intro o ho
    rcases List.mem_singleton.1 ho with rfl
    rfl
  | rawimusx b =>
    refine ⟨by simp [isPos], by simp [isVel], fun _ _ => ?_⟩
    simp only [convert, writeRawImu] at hc
    split at hc
    · cases hc
    rcases h1 : toAngularRate st.imuRecv hd b with _ | e1
    · rw [h1] at hc; cases hc
    rcases h2 : toImuRaw st.imuRecv hd b with _ | e2
    · rw [h1, h2] at hc; cases hc
    rw [h1, h2] at hc
    have := congrArg Prod.snd (Option.some.inj hc)
    obtain rfl : _ = os := this
    intro o ho
    rcases List.mem_append.1 ho with ho | ho
    · rcases List.mem_append.1 ho with ho | ho
      · cases e1 <;> simp at ho; subst ho; rfl
      · cases e2 <;> simp at ho; subst ho; rfl
    · split at ho
      · rcases List.mem_singleton.1 ho with rfl; rfl
      · cases ho
  | gloephemeris b =>
    obtain ⟨rfl, rfl⟩ := Prod.mk.inj (Option.some.inj hc)
    simp [isPos, isVel]
  | other =>
    obtain ⟨rfl, rfl⟩ := Prod.mk.inj (Option.some.inj hc)
    simp [isPos, isVel]

/-! ### numbers -/

theorem tiny200 : (1 : ℚ) / 2 ^ 200 ≤ 1 / 1000000 := by norm_num
theorem tiny200r : (1 : ℝ) / 2 ^ 200 ≤ 1 / 1000000 := by norm_num

theorem f64_abs (x : ℚ) : |f64 x| ≤ 2 * |x| + 1 := by
  have := f64_err x
  have h1 : |f64 x| ≤ |f64 x - x| + |x| := by
    have := abs_sub_abs_le_abs_sub (f64 x) x; linarith
  have := tiny200
  have := abs_nonneg x
  generalize (1 : ℚ) / 2 ^ 200 = t at *
  linarith

theorem rnd64_fin {x : ℚ} (h : |x| ≤ 2 ^ 1000) : rnd64 x = .fin (f64 x) := by
  unfold rnd64
  rw [if_neg]
  have h2 := f64_abs x
  have e : (2 : ℚ) ^ 1024 = 2 ^ 24 * 2 ^ 1000 := by rw [← pow_add]
  have e2 : (1 : ℚ) ≤ 2 ^ 1000 := one_le_pow₀ (by norm_num)
  rw [e]
  clear e
  generalize (2 : ℚ) ^ 1000 = P at *
  push Not
  norm_num
  linarith

theorem f64_real (z : ℚ) : |((f64 z : ℚ) : ℝ) - z| ≤ |(z : ℝ)| / 9007199254740992 + 1 / 2 ^ 200 := by
  have := (Rat.cast_le (K := ℝ)).2 (f64_err z)
  push_cast at this
  exact this

theorem pow1000 {x : ℚ} (h : |x| ≤ 10 ^ 20) : |x| ≤ 2 ^ 1000 := h.trans (by
  calc (10 : ℚ) ^ 20 ≤ 2 ^ 100 := by norm_num
    _ ≤ 2 ^ 1000 := by gcongr <;> norm_num)

theorem s32_near {x : ℚ} {y : ℝ} (h : |(x : ℝ) - y| ≤ 1 / 100) :
    ∃ v, doubleToS32 (.fin x) = some v ∧ Says32 v y ∧ |(v : ℝ) - clampR (-2147483648) 2147483647 x| ≤ 1 / 2 := by
  obtain ⟨v, h1, h2, h3, h4⟩ := doubleTo_some (lo := -2147483648) (hi := 2147483647) x (by norm_num)
  push_cast at h4
  refine ⟨v, h1, ?_, h4⟩
  unfold Says32
  have h5 := (clampR_lip (-2147483648) 2147483647 x y).trans h
  exact (abs_sub_le _ (clampR (-2147483648) 2147483647 x) _).trans (add_le_add h4 h5)

theorem positionFlags_nat (k : Nat) : (if k = 0 then 0
  else if k = 16 then 1
  else if k = 17 then 2
  else if k = 18 then 6
  else if k = 34 then 3
  else if k = 48 ∨ k = 50 ∨ k = 49 then 4
  else if k = 53 then 1 ||| 8
  else if k = 52 then 6 ||| 8
  else if k = 54 then 2 ||| 8
  else if k = 55 then 3 ||| 8
  else if k = 56 then 4 ||| 8
  else 1) = posFlags k := by
  by_cases h : k ≤ 56
  · interval_cases k <;> rfl
  · rw [if_neg (by omega), if_neg (by omega), if_neg (by omega), if_neg (by omega), if_neg (by omega), if_neg (by omega), if_neg (by omega),
      if_neg (by omega), if_neg (by omega), if_neg (by omega), if_neg (by omega)]
    unfold posFlags
    split <;> first | rfl | (exfalso; omega)

theorem positionFlags_eq (t : BitVec 32) : getPositionFlags t = posFlags t.toNat := by
  rw [← positionFlags_nat]
  unfold getPositionFlags
  simp only [BitVec.toNat_eq, BitVec.toNat_ofNat]

/-! ### position -/

theorem ctrunc_int (n : Int) : ctrunc (n : ℚ) = n := by
  unfold ctrunc
  split
  · exact Int.floor_intCast _
  · rw [← Int.cast_neg, Int.floor_intCast]; omega

theorem floatToU16_fin {x : ℚ} {v : Nat} (h : floatToU16 (.fin x) = some v) : 0 ≤ cround x ∧ cround x ≤ 65535 ∧ (v : Int) = cround x := by
  unfold floatToU16 castTo at h
  simp only [ctrunc_int] at h
  split at h
  · rename_i hc
    have h2 := Option.some.inj h
    refine ⟨hc.1, hc.2, ?_⟩
    change min (cround x).toNat 65535 = v at h2
    have h3 := hc.1
    have h4 := hc.2
    omega
  · cases h

theorem floatToU16_ok {x : ℚ} (h0 : 0 ≤ x) (h1 : x ≤ 65535) : ∃ v, floatToU16 (.fin x) = some v := by
  unfold floatToU16 castTo
  simp only [ctrunc_int]
  have a := cround_nonneg h0
  have b : cround x ≤ 65535 := cround_le (by exact_mod_cast h1)
  rw [if_pos ⟨a, b⟩]
  exact ⟨_, rfl⟩

theorem f32_small {z : ℚ} (h : |f32 z| ≤ 65536) : |f32 z - z| ≤ 1 / 200 := by
  have he := f32_err z
  have h1 : |z| ≤ |f32 z - z| + |f32 z| := by
    have := abs_sub_abs_le_abs_sub z (f32 z)
    rw [abs_sub_comm] at this; linarith
  have h2 : (1 : ℚ) / 2 ^ 150 ≤ 1 / 1000000 := by norm_num
  linarith

theorem rnd32_fin {x y : ℚ} (h : rnd32 x = .fin y) : y = f32 x := by
  unfold rnd32 at h
  split at h
  · cases h
  · exact (Fl.fin.inj h).symm

theorem cround_abs_le {x : ℚ} (h0 : 0 ≤ cround x) (h1 : cround x ≤ 65535) : |x| ≤ 65536 := by
  have := cround_bounds x
  have a : (0 : ℚ) ≤ cround x := by exact_mod_cast h0
  have b : (cround x : ℚ) ≤ 65535 := by exact_mod_cast h1
  rw [abs_le]; constructor <;> linarith

theorem u16_says {x : ℚ} {v : Nat} (h : floatToU16 (mulFl rnd32 (.fin 1000) (.fin x)) = some v) : SaysMm v x := by
  simp only [mulFl] at h
  rcases hr : rnd32 (1000 * x) with y | _ | _
  · rw [hr] at h
    obtain rfl := rnd32_fin hr
    obtain ⟨h1, h2, h3⟩ := floatToU16_fin h
    have h4 := f32_small (cround_abs_le h1 h2)
    have h5 := cround_abs (f32 (1000 * x))
    unfold SaysMm
    have : (v : ℚ) = cround (f32 (1000 * x)) := by exact_mod_cast congrArg (Int.cast : Int → ℚ) h3
    rw [this]
    exact (abs_sub_le _ (f32 (1000 * x)) _).trans (by linarith)
  · rw [hr] at h; cases h
  · rw [hr] at h; cases h

theorem f32_nonneg {x : ℚ} (h : 0 ≤ x) : 0 ≤ f32 x := by
  unfold f32 fl
  split
  · rfl
  · have hp := two_pos (ulpExp 24 (-126) x)
    have : (0 : ℚ) ≤ rne (x / 2 ^ ulpExp 24 (-126) x) := by
      have hq : (0 : ℚ) ≤ x / 2 ^ ulpExp 24 (-126) x := by positivity
      have := rne_err (x / 2 ^ ulpExp 24 (-126) x)
      rw [abs_le] at this
      have h2 : (-1 : ℚ) < rne (x / 2 ^ ulpExp 24 (-126) x) := by linarith [this.1]
      have h3 : -1 < rne (x / 2 ^ ulpExp 24 (-126) x) := by exact_mod_cast h2
      exact_mod_cast (by omega : 0 ≤ rne (x / 2 ^ ulpExp 24 (-126) x))
    positivity

theorem rnd32_nonneg {x : ℚ} (h : 0 ≤ x) : rnd32 x = .inf false ∨ rnd32 x = .fin (f32 x) := by
  have := f32_nonneg h
  unfold rnd32
  split
  · left; congr 1; simpa using this
  · right; rfl

theorem u16_max_says {x y : ℚ} (hx : 0 ≤ x) (hy : 0 ≤ y) {v : Nat}
    (h : floatToU16 (fmaxFl (mulFl rnd32 (.fin 1000) (.fin x)) (mulFl rnd32 (.fin 1000) (.fin y))) = some v) : SaysMm v (max x y) := by
  simp only [mulFl] at h
  rcases rnd32_nonneg (x := 1000 * x) (by linarith) with h1 | h1 <;> rcases rnd32_nonneg (x := 1000 * y) (by linarith) with h2 | h2 <;>
    rw [h1, h2] at h
  · cases h
  · cases h
  · cases h
  · simp only [fmaxFl] at h
    obtain ⟨a1, a2, a3⟩ := floatToU16_fin h
    have hv : (v : ℚ) = cround (if f32 (1000 * x) < f32 (1000 * y) then f32 (1000 * y) else f32 (1000 * x)) := by
      exact_mod_cast congrArg (Int.cast : Int → ℚ) a3
    have hb := cround_abs_le a1 a2
    have hc := cround_abs (if f32 (1000 * x) < f32 (1000 * y) then f32 (1000 * y) else f32 (1000 * x))
    unfold SaysMm
    rw [hv]
    have n1 := f32_nonneg (x := 1000 * x) (by linarith)
    have n2 := f32_nonneg (x := 1000 * y) (by linarith)
    have key : |(if f32 (1000 * x) < f32 (1000 * y) then f32 (1000 * y) else f32 (1000 * x)) - 1000 * max x y| ≤ 1 / 200 := by
      split at hb <;> rename_i hlt
      · rw [abs_of_nonneg n2] at hb
        have e1 := f32_small (z := 1000 * x) (by rw [abs_of_nonneg n1]; linarith)
        have e2 := f32_small (z := 1000 * y) (by rw [abs_of_nonneg n2]; linarith)
        rw [if_pos hlt]
        rw [abs_le] at e1 e2 ⊢
        rcases le_total x y with hxy | hxy
        · rw [max_eq_right hxy]; exact e2
        · rw [max_eq_left hxy]; constructor <;> linarith
      · push Not at hlt
        rw [abs_of_nonneg n1] at hb
        have e1 := f32_small (z := 1000 * x) (by rw [abs_of_nonneg n1]; linarith)
        have e2 := f32_small (z := 1000 * y) (by rw [abs_of_nonneg n2]; linarith)
        rw [if_neg (by linarith)]
        rw [abs_le] at e1 e2 ⊢
        rcases le_total x y with hxy | hxy
        · rw [max_eq_right hxy]; constructor <;> linarith
        · rw [max_eq_left hxy]; exact e1
    exact (abs_sub_le _ (if f32 (1000 * x) < f32 (1000 * y) then f32 (1000 * y) else f32 (1000 * x)) _).trans (by linarith)

theorem d2r_rel : Rel 8 (f64 (mPi / 180) : ℚ) (Real.pi / 180) := by
  have h : Rel 6 ((mPi / 180 : ℚ) : ℝ) (Real.pi / 180) := by
    push_cast
    exact mPi_rel.div (Rel.refl 180) (by norm_num) (by norm_num) (by norm_num)
  refine h.f64 ?_ (by norm_num)
  right
  have := Real.pi_gt_three
  rw [abs_of_pos (by positivity)]
  calc (1 : ℝ) / 2 ^ 140 ≤ 3 / 180 := by norm_num
    _ ≤ _ := by gcongr

theorem rad_close {x : ℚ} (h : |x| ≤ 360) :
    |((f64 (x * f64 (mPi / 180)) : ℚ) : ℝ) - x * Real.pi / 180| ≤ 1 / 10 ^ 13 := by
  have h1 := f64_real (x * f64 (mPi / 180))
  push_cast at h1
  have h2 := d2r_rel
  unfold Rel at h2
  rw [abs_of_pos (by positivity : (0 : ℝ) < Real.pi / 180)] at h2
  have hpi := Real.pi_lt_d2
  have hx : |(x : ℝ)| ≤ 360 := by
    have := (Rat.cast_le (K := ℝ)).2 h
    push_cast at this
    exact this
  have h3 : |(x : ℝ) * (f64 (mPi / 180) : ℚ) - x * Real.pi / 180| ≤ 360 * (3.15 / 180 * (8 / 2 ^ 50)) := by
    rw [show (x : ℝ) * (f64 (mPi / 180) : ℚ) - x * Real.pi / 180 = x * ((f64 (mPi / 180) : ℚ) - Real.pi / 180) by ring, abs_mul]
    refine mul_le_mul hx (h2.trans ?_) (abs_nonneg _) (by norm_num)
    push_cast
    gcongr
  have h4 : |(x : ℝ) * (f64 (mPi / 180) : ℚ)| ≤ 7 := by
    have e : |(x : ℝ) * Real.pi / 180| ≤ 6.4 := by
      rw [abs_div, abs_mul, abs_of_pos Real.pi_pos, abs_of_pos (by norm_num : (0 : ℝ) < 180), div_le_iff₀ (by norm_num)]
      nlinarith [Real.pi_pos, abs_nonneg (x : ℝ)]
    have := abs_sub_abs_le_abs_sub ((x : ℝ) * (f64 (mPi / 180) : ℚ)) (x * Real.pi / 180)
    have e2 : (360 : ℝ) * (3.15 / 180 * (8 / 2 ^ 50)) ≤ 0.1 := by norm_num
    linarith
  refine (abs_sub_le _ ((x : ℝ) * (f64 (mPi / 180) : ℚ)) _).trans ?_
  have h5 : |(x : ℝ) * (f64 (mPi / 180) : ℚ)| / 9007199254740992 ≤ 7 / 9007199254740992 := by gcongr
  calc _ ≤ (7 / 9007199254740992 + 1 / 2 ^ 200 : ℝ) + 360 * (3.15 / 180 * (8 / 2 ^ 50)) := by linarith
    _ ≤ _ := by norm_num

theorem d2r_small : |f64 (mPi / 180)| ≤ 1 := by
  have := f64_err (mPi / 180)
  have h2 : |mPi / 180| ≤ 1 / 50 := by unfold mPi; norm_num [abs_le]
  have h3 : |f64 (mPi / 180)| ≤ |f64 (mPi / 180) - mPi / 180| + |mPi / 180| := by
    have := abs_sub_abs_le_abs_sub (f64 (mPi / 180)) (mPi / 180); linarith
  norm_num at this
  linarith

theorem height_says (L : Lib) {lat lon hgt : ℚ} (h1 : |lat| ≤ 90) (h2 : |lon| ≤ 360) (h3 : |hgt| ≤ 1000000) :
    SaysHeight L lat lon hgt (wgs84Height L (.fin lat) (.fin lon) (.fin hgt)) := by
  have hb : ∀ x : ℚ, |x| ≤ 360 → |x * f64 (mPi / 180)| ≤ 10 ^ 20 := by
    intro x hx
    rw [abs_mul]
    calc |x| * |f64 (mPi / 180)| ≤ 360 * 1 := mul_le_mul hx d2r_small (abs_nonneg _) (by norm_num)
      _ ≤ _ := by norm_num
  refine ⟨_, _, rad_close (h1.trans (by norm_num)), rad_close h2, fun g hg hg2 => ?_⟩
  have hz : |hgt + g| ≤ 1001000 := (abs_add_le _ _).trans (by linarith)
  refine ⟨f64 (hgt + g), ?_, ?_⟩
  · unfold wgs84Height
    simp only [mulFl]
    rw [rnd64_fin (pow1000 (hb lat (h1.trans (by norm_num)))), rnd64_fin (pow1000 (hb lon h2)), hg]
    simp only [addFl]
    rw [rnd64_fin (pow1000 (hz.trans (by norm_num)))]
  · have := f64_err (hgt + g)
    have := tiny200
    linarith

theorem llh_says {L : Lib} {m : Msg} {b : BestPos} {p : PosLlh} (h : bestposToLlh L m.header b = some p) :
    SaysPos L m b p := by
  unfold bestposToLlh at h
  rcases h1 : floatToU16 (mulFl rnd32 (.fin 1000) (flt b.hgt_stddev)) with _ | v
  · rw [h1] at h; cases h
  rcases h2 : floatToU16 (fmaxFl (mulFl rnd32 (.fin 1000) (flt b.lat_stddev)) (mulFl rnd32 (.fin 1000) (flt b.lon_stddev))) with _ | w
  · rw [h1, h2] at h; cases h
  rw [h1, h2] at h
  obtain rfl := Option.some.inj h
  refine ⟨rfl, rfl, rfl, ?_, ?_, ?_, rfl, positionFlags_eq _⟩
  · intro lat lon hgt e1 e2 e3 b1 b2 b3
    show SaysHeight L lat lon hgt (wgs84Height L (dbl b.lat) (dbl b.lon) (dbl b.hgt))
    rw [e1, e2, e3]
    exact height_says L b1 b2 b3
  · intro x y hx hy hx0 hy0
    rw [hx, hy] at h2
    exact u16_max_says hx0 hy0 h2
  · intro x hx
    rw [hx] at h1
    exact u16_says h1

theorem mul1000_ok {x : ℚ} (h0 : 0 ≤ x) (h1 : x ≤ 65) : ∃ y, mulFl rnd32 (.fin 1000) (.fin x) = .fin y ∧ 0 ≤ y ∧ y ≤ 65535 := by
  simp only [mulFl]
  have he := f32_err (1000 * x)
  have hn := f32_nonneg (x := 1000 * x) (by linarith)
  rw [abs_of_nonneg (by linarith : 0 ≤ 1000 * x), abs_le] at he
  have h2 : f32 (1000 * x) ≤ 65535 := by
    have : (1 : ℚ) / 2 ^ 150 ≤ 1 := by norm_num
    linarith [he.2]
  refine ⟨f32 (1000 * x), ?_, hn, h2⟩
  unfold rnd32
  rw [if_neg]
  push Not
  rw [abs_of_nonneg hn]
  calc f32 (1000 * x) ≤ 65535 := h2
    _ < 2 ^ 128 := by norm_num

/-- **C60 (position).**  A BESTPOS log with standard deviations of at most 65 m becomes one POS_LLH message (after the time, if due). -/
theorem C60_position_partial {L : Lib} {before : List Msg} (ha : (stateAfter L before).isSome) {m : Msg} {b : BestPos} (hb : m.body = .bestpos b)
    {x y z : ℚ} (hx : flt b.lat_stddev = .fin x) (hy : flt b.lon_stddev = .fin y) (hz : flt b.hgt_stddev = .fin z) (hx0 : 0 ≤ x ∧ x ≤ 65)
    (hy0 : 0 ≤ y ∧ y ≤ 65) (hz0 : 0 ≤ z ∧ z ≤ 65) :
    ∃ p, sentFor L before m = some (timeDue before m ++ [.posLlh p]) ∧ SaysPos L m b p := by
  obtain ⟨st, hs⟩ := Option.isSome_iff_exists.1 ha
  obtain ⟨x', ex, gx0, gx1⟩ := mul1000_ok hx0.1 hx0.2
  obtain ⟨y', ey, gy0, gy1⟩ := mul1000_ok hy0.1 hy0.2
  obtain ⟨z', ez, gz0, gz1⟩ := mul1000_ok hz0.1 hz0.2
  have hp : ∃ p, bestposToLlh L m.header b = some p := by
    unfold bestposToLlh
    rw [hx, hy, hz, ex, ey, ez]
    obtain ⟨v, hv⟩ := floatToU16_ok gz0 gz1
    obtain ⟨w, hw⟩ := floatToU16_ok (x := if x' < y' then y' else x') (by split <;> assumption) (by split <;> assumption)
    simp only [fmaxFl]
    rw [hv, hw]
    exact ⟨_, rfl⟩
  obtain ⟨p, hp⟩ := hp
  refine ⟨p, ?_, llh_says hp⟩
  rw [sentFor_eq hs]
  unfold convert
  rw [hb]
  simp only [writeBestPos]
  rw [hp, ← sendTime_due hs m]
  rfl

/-- What is sent for any BESTPOS log says what the log does. -/
theorem C60_position_sound {L : Lib} {before : List Msg} {m : Msg} {b : BestPos} (hb : m.body = .bestpos b) {os : List Out}
    (h : sentFor L before m = some os) :
    ∃ p, os = timeDue before m ++ [.posLlh p] ∧ SaysPos L m b p := by
  obtain ⟨st, st', hs, hc, _⟩ := sentFor_some h
  unfold convert at hc
  rw [hb] at hc
  simp only [writeBestPos] at hc
  rcases he : bestposToLlh L m.header b with _ | e
  · rw [he] at hc; cases hc
  · rw [he] at hc
    have := congrArg Prod.snd (Option.some.inj hc)
    exact ⟨e, by rw [← sendTime_due hs m]; exact this.symm, llh_says he⟩

/-- A standard deviation of 66 m or more is undefined behaviour: the conversion to 16 bits comes before the limit. -/
theorem C60_accuracy_bug {L : Lib} {before : List Msg} {m : Msg} {b : BestPos} (hb : m.body = .bestpos b) {z : ℚ}
    (hz : flt b.hgt_stddev = .fin z) (h : 66 ≤ z) : sentFor L before m = none := by
  rcases hs : stateAfter L before with _ | st
  · unfold sentFor; rw [hs]; rfl
  rw [sentFor_eq hs]
  unfold convert
  rw [hb]
  simp only [writeBestPos]
  have : floatToU16 (mulFl rnd32 (.fin 1000) (flt b.hgt_stddev)) = none := by
    rw [hz]
    simp only [mulFl]
    rcases rnd32_nonneg (x := 1000 * z) (by linarith) with h1 | h1
    · rw [h1]; rfl
    · rw [h1]
      have he := f32_err (1000 * z)
      rw [abs_of_nonneg (by linarith : 0 ≤ 1000 * z), abs_le] at he
      have h2 : (65536 : ℚ) ≤ f32 (1000 * z) := by
        have : (1 : ℚ) / 2 ^ 150 ≤ 1 := by norm_num
        linarith [he.1]
      have h3 : 65536 ≤ cround (f32 (1000 * z)) := le_cround (by exact_mod_cast h2)
      simp only [floatToU16, castTo, ctrunc_int]
      rw [if_neg (by omega)]; rfl
  unfold bestposToLlh
  rw [this]
  rfl

/-! ### velocity -/

theorem deg_rad {t : ℚ} (h : |t| ≤ 720) : ∃ r : ℚ, degToRadFl (.fin t) = .fin r ∧ |(r : ℝ) - t * Real.pi / 180| ≤ 2 / 10 ^ 13 := by
  have hm : |t * mPi| ≤ 2880 := by
    rw [abs_mul]
    have : |mPi| ≤ 4 := by unfold mPi; norm_num [abs_le]
    calc |t| * |mPi| ≤ 720 * 4 := mul_le_mul h this (abs_nonneg _) (by norm_num)
      _ = 2880 := by norm_num
  have e1 := f64_err (t * mPi)
  have hf : |f64 (t * mPi)| ≤ 2881 := by
    have h3 : |f64 (t * mPi)| ≤ |f64 (t * mPi) - t * mPi| + |t * mPi| := by
      have := abs_sub_abs_le_abs_sub (f64 (t * mPi)) (t * mPi); linarith
    have := tiny200
    linarith
  have hq : |f64 (t * mPi) / 180| ≤ 17 := by
    rw [abs_div, abs_of_pos (by norm_num : (0 : ℚ) < 180), div_le_iff₀ (by norm_num)]; linarith
  have e2 := f64_err (f64 (t * mPi) / 180)
  refine ⟨f64 (f64 (t * mPi) / 180), ?_, ?_⟩
  · unfold degToRadFl
    simp only [mulFl]
    rw [rnd64_fin (pow1000 (hm.trans (by norm_num)))]
    simp only [divFl]
    rw [rnd64_fin (pow1000 (hq.trans (by norm_num)))]
  · have hq2 : |f64 (f64 (t * mPi) / 180) - t * mPi / 180| ≤ 17 / 9007199254740992 + 1 / 2 ^ 200 + (2880 / 9007199254740992 + 1 / 2 ^ 200) / 180 := by
      refine (abs_sub_le _ (f64 (t * mPi) / 180) _).trans (add_le_add (e2.trans ?_) ?_)
      · gcongr
      · rw [← sub_div, abs_div, abs_of_pos (by norm_num : (0 : ℚ) < 180)]
        gcongr
        exact e1.trans (by gcongr)
    have hq3 : |((f64 (f64 (t * mPi) / 180) : ℚ) : ℝ) - t * (mPi : ℚ) / 180| ≤ 1 / 10 ^ 14 := by
      have := (Rat.cast_le (K := ℝ)).2 (hq2.trans (by norm_num : _ ≤ (1 : ℚ) / 10 ^ 14))
      push_cast at this
      exact this
    have hp := mPi_rel
    unfold Rel at hp
    rw [abs_of_pos Real.pi_pos] at hp
    have hpi := Real.pi_lt_d2
    have ht : |(t : ℝ)| ≤ 720 := by
      have := (Rat.cast_le (K := ℝ)).2 h
      push_cast at this
      exact this
    have h4 : |(t : ℝ) * (mPi : ℚ) / 180 - t * Real.pi / 180| ≤ 720 * (3.15 * (4 / 2 ^ 50)) / 180 := by
      rw [show (t : ℝ) * (mPi : ℚ) / 180 - t * Real.pi / 180 = t * ((mPi : ℚ) - Real.pi) / 180 by ring, abs_div, abs_mul,
        abs_of_pos (by norm_num : (0 : ℝ) < 180)]
      refine div_le_div_of_nonneg_right (mul_le_mul ht (hp.trans ?_) (abs_nonneg _) (by norm_num)) (by norm_num)
      push_cast
      gcongr
    refine (abs_sub_le _ _ _).trans ((add_le_add hq3 h4).trans ?_)
    norm_num

/-- a component of the velocity -/
theorem comp_says {s c : ℚ} {C : ℝ} (hs : |s| ≤ 1000000) (hC : |C| ≤ 1) (hc : |(c : ℝ) - C| ≤ 1 / 10 ^ 12) :
    ∃ v, doubleToS32 (mulFl rnd64 (mulFl rnd64 (.fin 1000) (.fin s)) (.fin c)) = some v ∧ Says32 v (1000 * s * C) := by
  have hs' : |(s : ℝ)| ≤ 1000000 := by
    have := (Rat.cast_le (K := ℝ)).2 hs
    push_cast at this
    exact this
  have hcb : |(c : ℝ)| ≤ 2 := by
    have := abs_sub_abs_le_abs_sub (c : ℝ) C
    norm_num at hc
    linarith
  have hcq : |c| ≤ 2 := by
    have : ((|c| : ℚ) : ℝ) ≤ ((2 : ℚ) : ℝ) := by push_cast; exact hcb
    exact (Rat.cast_le (K := ℝ)).1 this
  have hm : |1000 * s| ≤ 1000000000 := by
    rw [abs_mul, abs_of_pos (by norm_num : (0 : ℚ) < 1000)]; linarith
  have e1 := f64_real (1000 * s)
  push_cast at e1
  have hmr : |1000 * (s : ℝ)| ≤ 1000000000 := by
    rw [abs_mul, abs_of_pos (by norm_num : (0 : ℝ) < 1000)]; linarith
  have e1b : |((f64 (1000 * s) : ℚ) : ℝ) - 1000 * s| ≤ 1 / 10 ^ 6 := by
    have := tiny200r
    linarith
  have hfq : |f64 (1000 * s)| ≤ 1000000001 := by
    have h1 := f64_err (1000 * s)
    have h3 : |f64 (1000 * s)| ≤ |f64 (1000 * s) - 1000 * s| + |1000 * s| := by
      have := abs_sub_abs_le_abs_sub (f64 (1000 * s)) (1000 * s); linarith
    have := tiny200
    linarith
  have hp : |f64 (1000 * s) * c| ≤ 3000000000 := by
    rw [abs_mul]
    calc |f64 (1000 * s)| * |c| ≤ 1000000001 * 2 := mul_le_mul hfq hcq (abs_nonneg _) (by norm_num)
      _ ≤ _ := by norm_num
  have e2 := f64_real (f64 (1000 * s) * c)
  have hpr : |((f64 (1000 * s) * c : ℚ) : ℝ)| ≤ 3000000000 := by
    have := (Rat.cast_le (K := ℝ)).2 hp
    push_cast at this ⊢
    exact this
  have e3 : |((f64 (1000 * s) * c : ℚ) : ℝ) - 1000 * s * C| ≤ 3 / 1000 := by
    push_cast
    rw [show ((f64 (1000 * s) : ℚ) : ℝ) * c - 1000 * s * C = ((f64 (1000 * s) : ℚ) - 1000 * s) * c + 1000 * s * (c - C) by ring]
    refine (abs_add_le _ _).trans ?_
    rw [abs_mul, abs_mul (1000 * (s : ℝ))]
    have a1 : |((f64 (1000 * s) : ℚ) : ℝ) - 1000 * s| * |(c : ℝ)| ≤ 1 / 10 ^ 6 * 2 := mul_le_mul e1b hcb (abs_nonneg _) (by norm_num)
    have a2 : |1000 * (s : ℝ)| * |(c : ℝ) - C| ≤ 1000000000 * (1 / 10 ^ 12) := mul_le_mul hmr hc (abs_nonneg _) (by norm_num)
    norm_num at a1 a2 ⊢
    linarith
  obtain ⟨v, h1, h2, _⟩ := s32_near (x := f64 (f64 (1000 * s) * c)) (y := 1000 * s * C) (by
    refine (abs_sub_le _ ((f64 (1000 * s) * c : ℚ) : ℝ) _).trans ?_
    have : |((f64 (1000 * s) * c : ℚ) : ℝ)| / 9007199254740992 + 1 / 2 ^ 200 ≤ 1 / 1000 := by
      have := tiny200r
      linarith
    linarith [f64_real (f64 (1000 * s) * c)])
  refine ⟨v, ?_, h2⟩
  simp only [mulFl]
  rw [rnd64_fin (pow1000 (hm.trans (by norm_num)))]
  simp only
  rw [rnd64_fin (pow1000 (hp.trans (by norm_num)))]
  exact h1

theorem trig_close {c r : ℚ} {f : ℝ → ℝ} {t : ℝ} (hf : ∀ x y, |f x - f y| ≤ |x - y|) (h1 : |(c : ℝ) - f r| ≤ 1 / 10 ^ 14)
    (h2 : |(r : ℝ) - t| ≤ 2 / 10 ^ 13) : |(c : ℝ) - f t| ≤ 1 / 10 ^ 12 := by
  refine (abs_sub_le _ (f r) _).trans ((add_le_add h1 ((hf _ _).trans h2)).trans ?_)
  norm_num

theorem cos_lip (x y : ℝ) : |Real.cos x - Real.cos y| ≤ |x - y| := by
  have := Real.abs_cos_sub_cos_le x y
  exact this

theorem sin_lip (x y : ℝ) : |Real.sin x - Real.sin y| ≤ |x - y| := Real.abs_sin_sub_sin_le x y

theorem scaled_says {k x : ℚ} (h : |k * x| ≤ 2000000000000) {y : ℝ} (hy : y = k * x) :
    ∃ v, doubleToS32 (mulFl rnd64 (.fin k) (.fin x)) = some v ∧ Says32 v y ∧ |(v : ℝ) - clampR (-2147483648) 2147483647 (f64 (k * x) : ℚ)| ≤ 1 / 2 ∧
      |((f64 (k * x) : ℚ) : ℝ) - y| ≤ 1 / 100 := by
  have e := f64_real (k * x)
  have hr : |((k * x : ℚ) : ℝ)| ≤ 2000000000000 := by
    have := (Rat.cast_le (K := ℝ)).2 h
    push_cast at this ⊢
    exact this
  have he : |((f64 (k * x) : ℚ) : ℝ) - y| ≤ 1 / 100 := by
    rw [hy]
    push_cast at e hr
    have := tiny200r
    linarith
  obtain ⟨v, h1, h2, h3⟩ := s32_near he
  refine ⟨v, ?_, h2, h3, he⟩
  simp only [mulFl]
  rw [rnd64_fin (pow1000 (h.trans (by norm_num)))]
  exact h1

/-- **C60 (velocity).**  A BESTVEL log with speeds up to 1000 km/s becomes one VEL_NED message (after the time, if due). -/
theorem C60_velocity {L : Lib} (hL : SaneTrig L) {before : List Msg} (ha : (stateAfter L before).isSome) {m : Msg} {b : BestVel}
    (hb : m.body = .bestvel b) {s t u : ℚ} (hs : dbl b.hor_speed = .fin s) (ht : dbl b.trk_gnd = .fin t) (hu : dbl b.vert_speed = .fin u)
    (hs0 : |s| ≤ 1000000) (ht0 : |t| ≤ 720) (hu0 : |u| ≤ 1000000) :
    ∃ v, sentFor L before m = some (timeDue before m ++ [.velNed v]) ∧ SaysVel m b v := by
  obtain ⟨st, hst⟩ := Option.isSome_iff_exists.1 ha
  obtain ⟨r, hr, hr2⟩ := deg_rad ht0
  obtain ⟨⟨c, hc, hc2⟩, ⟨d, hd, hd2⟩⟩ := hL r
  have hn := comp_says hs0 (Real.abs_cos_le_one _) (trig_close cos_lip hc2 hr2)
  have he := comp_says hs0 (Real.abs_sin_le_one _) (trig_close sin_lip hd2 hr2)
  obtain ⟨n, hn, hn2⟩ := hn
  obtain ⟨e, he, he2⟩ := he
  obtain ⟨w, hw, hw2, hw3, hw4⟩ := scaled_says (k := 1000) (x := u) (y := 1000 * u) (by
    rw [abs_mul, abs_of_pos (by norm_num : (0 : ℚ) < 1000)]; linarith) (by push_cast; ring)
  have hu' : |(u : ℝ)| ≤ 1000000 := by
    have := (Rat.cast_le (K := ℝ)).2 hu0
    push_cast at this
    exact this
  have hcl : clampR (-2147483648) 2147483647 (1000 * u) = 1000 * u := by
    rw [abs_le] at hu'
    unfold clampR
    rw [min_eq_right (by linarith), max_eq_right (by linarith)]
  have hw5 : |(w : ℝ) - 1000 * u| ≤ 1 / 2 + 1 / 100 := by
    unfold Says32 at hw2
    change |_ - clampR _ _ _| ≤ _ at hw2
    rwa [hcl] at hw2
  have hne : w ≠ -2147483648 := by
    rintro rfl
    rw [abs_le] at hw5 hu'
    push_cast at hw5
    linarith [hw5.2]
  refine ⟨{ tow := m.header.ms, n, e, d := -w, hAcc := 0, vAcc := 0, nSats := 0,
            flags := if m.header.ms = (sendTime st (headerTime m.header)).1.posTow then (sendTime st (headerTime m.header)).1.posFlags else 0 },
    ?_, ⟨rfl, ?_, ?_, ?_, rfl, rfl, rfl⟩⟩
  · rw [sentFor_eq hst]
    unfold convert
    rw [hb]
    simp only [writeBestVel]
    unfold bestvelToNed
    rw [hs, ht, hu, hr, hc, hd, hn, he, hw]
    simp only [bind, Option.bind, if_neg hne]
    rw [← sendTime_due hst m]
    rfl
  · intro s' t' h1 h2 _ _
    rw [hs] at h1; rw [ht] at h2
    obtain rfl := Fl.fin.inj h1
    obtain rfl := Fl.fin.inj h2
    exact hn2
  · intro s' t' h1 h2 _ _
    rw [hs] at h1; rw [ht] at h2
    obtain rfl := Fl.fin.inj h1
    obtain rfl := Fl.fin.inj h2
    exact he2
  · intro u' h1 _
    rw [hu] at h1
    obtain rfl := Fl.fin.inj h1
    unfold Says32
    change |_ - clampR _ _ _| ≤ _
    have hcl2 : clampR (-2147483648) 2147483647 (-(1000 * u)) = -(1000 * u) := by
      rw [abs_le] at hu'
      unfold clampR
      rw [min_eq_right (by linarith), max_eq_right (by linarith)]
    rw [hcl2]
    push_cast
    rw [show -(w : ℝ) - -(1000 * u) = -(w - 1000 * u) by ring, abs_neg]
    exact hw5

/-- the flags that are sent with a velocity -/
theorem vel_flags {L : Lib} {before : List Msg} {m : Msg} (hm : isVel m) {os : List Out} (h : sentFor L before m = some os) {v : VelNed}
    (hv : .velNed v ∈ os) : v.flags = match lastPos before with
      | some ⟨h, .bestpos b⟩ => if h.ms = m.header.ms then posFlags b.pos_type.toNat else 0 | _ => 0 := by
  obtain ⟨st, st', hs, hc, _⟩ := sentFor_some h
  obtain ⟨_, _, h3⟩ := hist before hs
  obtain ⟨hd, body⟩ := m
  obtain ⟨b, rfl⟩ : ∃ b, body = .bestvel b := by
    cases body <;> first | exact ⟨_, rfl⟩ | exact absurd hm (by simp [isVel])
  simp only [convert, writeBestVel] at hc
  rcases he : bestvelToNed L (sendTime st (headerTime hd)).1 hd b with _ | e
  · rw [he] at hc; cases hc
  rw [he] at hc
  have h4 : _ = os := congrArg Prod.snd (Option.some.inj hc)
  have hve : v = e := by
    rw [← h4] at hv
    rcases List.mem_append.1 hv with h5 | h5
    · unfold sendTime at h5
      split at h5
      · cases h5
      · cases List.mem_singleton.1 h5
    · exact Out.velNed.inj (List.mem_singleton.1 h5)
  have hf : e.flags = if hd.ms = st.posTow then st.posFlags else 0 := by
    unfold bestvelToNed at he
    rcases q1 : doubleToS32 (mulFl rnd64 (mulFl rnd64 (.fin 1000) (dbl b.hor_speed)) (L.cos (degToRadFl (dbl b.trk_gnd)))) with _ | n
    · rw [q1] at he; cases he
    rcases q2 : doubleToS32 (mulFl rnd64 (mulFl rnd64 (.fin 1000) (dbl b.hor_speed)) (L.sin (degToRadFl (dbl b.trk_gnd)))) with _ | n2
    · rw [q1, q2] at he; cases he
    rcases q3 : doubleToS32 (mulFl rnd64 (.fin 1000) (dbl b.vert_speed)) with _ | n3
    · rw [q1, q2, q3] at he; cases he
    rw [q1, q2, q3] at he
    by_cases hn3 : n3 = -2147483648
    · simp [hn3] at he
    · simp only [bind, Option.bind, if_neg hn3] at he
      obtain rfl := Option.some.inj he
      rfl
  rw [hve, hf]
  obtain ⟨a, c⟩ := Prod.mk.inj h3
  rcases hl : lastPos before with _ | ⟨h, body⟩
  · rw [hl] at h3
    obtain ⟨a, c⟩ := Prod.mk.inj h3
    rw [a, c]; simp
  · rw [hl] at h3
    cases body
    case bestpos b' =>
      obtain ⟨a, c⟩ := Prod.mk.inj h3
      simp only
      rw [a, c, positionFlags_eq]
      simp only [eq_comm]
    all_goals
      obtain ⟨a, c⟩ := Prod.mk.inj h3
      rw [a, c]; simp

/-- The flags of a velocity are those of the last position if that has the same time, zero otherwise.  Missing: a position of another week at
the same time of the week (`C60_week_bug`). -/
theorem C60_velocity_flags_partial {L : Lib} {before : List Msg} {m : Msg} (hm : isVel m) {os : List Out} (h : sentFor L before m = some os)
    {v : VelNed} (hv : .velNed v ∈ os) (hw : ∀ p, lastPos before = some p → p.header.ms = m.header.ms → p.header.week = m.header.week) :
    v.flags = velFlags before m := by
  rw [vel_flags hm h hv]
  unfold velFlags
  rcases hl : lastPos before with _ | ⟨h, body⟩
  · rfl
  · cases body <;> try rfl
    simp only
    by_cases hms : h.ms = m.header.ms
    · have := hw _ hl hms
      simp only at this
      rw [if_pos hms, if_pos ⟨this, hms⟩]
    · rw [if_neg hms, if_neg (fun h => hms h.2)]

/-- A velocity gets the flags of a position that is whole weeks old. -/
theorem C60_week_bug {L : Lib} {before : List Msg} {m : Msg} (hm : isVel m) {os : List Out} (h : sentFor L before m = some os)
    {v : VelNed} (hv : .velNed v ∈ os) {hd : Header} {b : BestPos} (hp : lastPos before = some ⟨hd, .bestpos b⟩) (h1 : hd.ms = m.header.ms)
    (h2 : hd.week ≠ m.header.week) : v.flags = posFlags b.pos_type.toNat ∧ velFlags before m = 0 := by
  rw [vel_flags hm h hv]
  unfold velFlags
  rw [hp]
  simp [h1, h2]

/-! ### attitude -/

theorem micro_says {x : ℚ} (h : |x| ≤ 10000) : ∃ v, doubleToS32 (mulFl rnd64 (.fin x) (.fin 1000000)) = some v ∧ Says32 v (1000000 * x) := by
  obtain ⟨v, h1, h2, _⟩ := scaled_says (k := x) (x := 1000000) (y := 1000000 * x) (by
    rw [abs_mul, abs_of_pos (by norm_num : (0 : ℚ) < 1000000)]; linarith) (by push_cast; ring)
  exact ⟨v, h1, h2⟩

/-- **C60 (attitude).**  An INSATT log becomes one ORIENT_EULER message. -/
theorem C60_attitude {L : Lib} {before : List Msg} (ha : (stateAfter L before).isSome) {m : Msg} {b : InsAtt} (hb : m.body = .insatt b)
    {x y z : ℚ} (hx : dbl b.roll = .fin x) (hy : dbl b.pitch = .fin y) (hz : dbl b.azimuth = .fin z) (hx0 : |x| ≤ 10000) (hy0 : |y| ≤ 10000)
    (hz0 : |z| ≤ 10000) : ∃ o, sentFor L before m = some [.orient o] ∧ SaysAtt m b o := by
  obtain ⟨st, hs⟩ := Option.isSome_iff_exists.1 ha
  obtain ⟨r, hr, hr2⟩ := micro_says hx0
  obtain ⟨p, hp, hp2⟩ := micro_says hy0
  obtain ⟨w, hw, hw2⟩ := micro_says hz0
  refine ⟨{ tow := m.header.ms, roll := r, pitch := p, yaw := w, rollAcc := 0, pitchAcc := 0, yawAcc := 0, flags := if b.status = 3#32 then 1 else 0 },
    ?_, ⟨rfl, ?_, ?_, ?_, ⟨rfl, rfl, rfl⟩, rfl⟩⟩
  · rw [sentFor_eq hs]
    unfold convert
    rw [hb]
    simp only [writeInsAtt]
    rw [hx, hy, hz, hr, hp, hw]
    rfl
  · intro x' h _; rw [hx] at h; obtain rfl := Fl.fin.inj h; exact hr2
  · intro x' h _; rw [hy] at h; obtain rfl := Fl.fin.inj h; exact hp2
  · intro x' h _; rw [hz] at h; obtain rfl := Fl.fin.inj h; exact hw2

/-- An angle that is not a number is undefined behaviour. -/
theorem C60_nan_bug {L : Lib} {before : List Msg} {m : Msg} {b : InsAtt} (hb : m.body = .insatt b) (hx : dbl b.roll = .nan) :
    sentFor L before m = none := by
  rcases hs : stateAfter L before with _ | st
  · unfold sentFor; rw [hs]; rfl
  rw [sentFor_eq hs]
  unfold convert
  rw [hb]
  simp only [writeInsAtt]
  rw [hx]
  rfl

/-! ### concrete cases -/

theorem exPos_sent (L : Lib) : ∃ p, sentFor L [] exPos = some [timeMsg exPos, .posLlh p] ∧ SaysPos L exPos exPosBody p :=
  C60_position_partial (L := L) (before := []) rfl (m := exPos) (b := exPosBody) rfl (x := 1) (y := 3 / 2) (z := 5 / 2)
    (by decide +kernel) (by decide +kernel) (by decide +kernel) (by norm_num) (by norm_num) (by norm_num)

/-- the velocity of the same time after the position: the time is not sent again, the flags are those of a fixed position -/
example : ∃ v, sentFor exTrig [exPos] exVel = some [.velNed v] ∧ SaysVel exVel exVelBody v ∧ v.flags = 4 := by
  obtain ⟨p, h, _⟩ := exPos_sent exTrig
  obtain ⟨v, h1, h2⟩ := C60_velocity exTrig_sane (before := [exPos]) (alive_after h) (m := exVel) (b := exVelBody) rfl (s := 10) (t := 45)
    (u := 1 / 2) (by decide +kernel) (by decide +kernel) (by decide +kernel) (by norm_num) (by norm_num) (by norm_num)
  refine ⟨v, h1, h2, ?_⟩
  rw [C60_velocity_flags_partial rfl h1 (by simp) (by
    intro p hp _
    obtain rfl : exPos = p := Option.some.inj hp
    rfl)]
  rfl

example (L : Lib) : ∃ o, sentFor L [] exIns = some [.orient o] ∧ SaysAtt exIns exAttBody o :=
  C60_attitude (before := []) rfl (m := exIns) (b := exAttBody) rfl (x := 3 / 2) (y := -9 / 4) (z := 90) (by decide +kernel) (by decide +kernel)
    (by decide +kernel) (by norm_num) (by norm_num) (by norm_num)

/-- a height that is good to 100 m -/
example (L : Lib) : sentFor L [] ⟨exHeader 2100 345600000, .bestpos { exPosBody with hgt_stddev := 0x42C80000 }⟩ = none :=
  C60_accuracy_bug (before := []) rfl (z := 100) (by decide +kernel) (by norm_num)

example (L : Lib) : sentFor L [] ⟨exHeader 2100 345600000, .insatt { exAttBody with roll := 0x7FF8000000000000 }⟩ = none :=
  C60_nan_bug (before := []) rfl (by decide +kernel)

/-- a velocity a week after the last position -/
example : ∃ v, .velNed v ∈ (sentFor exTrig [exPos] ⟨exHeader 2101 345600000, .bestvel exVelBody⟩).getD [] ∧ v.flags = 4 ∧
    velFlags [exPos] ⟨exHeader 2101 345600000, .bestvel exVelBody⟩ = 0 := by
  obtain ⟨p, h, _⟩ := exPos_sent exTrig
  obtain ⟨v, h1, h2⟩ := C60_velocity exTrig_sane (before := [exPos]) (alive_after h) (m := ⟨exHeader 2101 345600000, .bestvel exVelBody⟩)
    (b := exVelBody) rfl (s := 10) (t := 45) (u := 1 / 2) (by decide +kernel) (by decide +kernel) (by decide +kernel) (by norm_num) (by norm_num)
    (by norm_num)
  obtain ⟨h3, h4⟩ := C60_week_bug (before := [exPos]) rfl h1 (v := v) (by simp) (hd := exPos.header) (b := exPosBody) rfl rfl (by decide)
  exact ⟨v, by rw [h1]; simp, h3, h4⟩

end Verif.Nov
