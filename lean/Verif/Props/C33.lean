import Verif.Spec.Utc
import Verif.Lemmas.Float
import Verif.Lemmas.Num
import Verif.Lemmas.Nmea
/-
C33: NMEA UTC time rounding carries correctly.
-/
namespace Verif.Nmea
open Verif.Nmea.Spec Verif.Fp

/-- the C conversion of nanoseconds to hundredths is the nearest number of hundredths -/
theorem cs_near {ns : Nat} (h : ns < 1000000000) :
    ∃ cs : Nat, cround (f64 (f64 (100 * ns) * f64 (1 / 1000000000))) = cs ∧ cs ≤ 100 ∧
      |(cs : Int) * 10000000 - ns| ≤ 5000000 := by
  have he : f64 (100 * (ns : ℚ)) = 100 * ns := by
    have := f64_exact (k := 0) (m := 100 * (ns : Int)) (by rw [abs_of_nonneg (by omega)]; omega) (by omega)
    simpa using this
  rw [he]
  have hns : (0 : ℚ) ≤ ns := Nat.cast_nonneg _
  have hns' : (ns : ℚ) ≤ 1000000000 := by exact_mod_cast h.le
  have hc := f64_err (1 / 1000000000)
  set c := f64 (1 / 1000000000) with hcd
  have hp : (1 : ℚ) / 2 ^ 200 ≤ 1 / 10 ^ 40 := by norm_num
  rw [abs_of_pos (by norm_num : (0 : ℚ) < 1 / 1000000000)] at hc
  have hc1 : |c - 1 / 1000000000| ≤ 1 / 10 ^ 24 := hc.trans (by linarith [hp, (by norm_num : (1 : ℚ) / 1000000000 / 9007199254740992 + 1 / 10 ^ 40 ≤ 1 / 10 ^ 24)])
  rw [abs_le] at hc1
  have hprod : |100 * (ns : ℚ) * c - ns / 10000000| ≤ 1 / 10 ^ 12 := by
    have e : 100 * (ns : ℚ) * c - ns / 10000000 = 100 * ns * (c - 1 / 1000000000) := by ring
    rw [e, abs_mul, abs_of_nonneg (by positivity)]
    calc 100 * (ns : ℚ) * |c - 1 / 1000000000| ≤ 100 * 1000000000 * (1 / 10 ^ 24) := by
          apply mul_le_mul (by linarith) (abs_le.2 hc1) (abs_nonneg _) (by norm_num)
      _ ≤ 1 / 10 ^ 12 := by norm_num
  rw [abs_le] at hprod
  have hv := f64_err (100 * (ns : ℚ) * c)
  have hpos : 0 ≤ 100 * (ns : ℚ) * c := by
    apply mul_nonneg (by positivity); linarith [hc1.1, (by norm_num : (1:ℚ) / 10 ^ 24 ≤ 1 / 1000000000)]
  rw [abs_of_nonneg hpos] at hv
  have hle : 100 * (ns : ℚ) * c ≤ 101 := by
    have : (ns : ℚ) / 10000000 ≤ 100 := by rw [div_le_iff₀ (by norm_num)]; linarith
    linarith [hprod.2, (by norm_num : (1 : ℚ) / 10 ^ 12 ≤ 1)]
  set v := f64 (100 * (ns : ℚ) * c) with hvd
  have hv1 : |v - 100 * ns * c| ≤ 1 / 10 ^ 12 := by
    refine hv.trans ?_
    have : 100 * (ns : ℚ) * c / 9007199254740992 ≤ 101 / 9007199254740992 := by
      apply div_le_div_of_nonneg_right hle (by norm_num)
    linarith [hp, (by norm_num : (101 : ℚ) / 9007199254740992 + 1 / 10 ^ 40 ≤ 1 / 10 ^ 12)]
  rw [abs_le] at hv1
  have hr := cround_bounds v
  set k := cround v with hk
  have hlo : (k : ℚ) * 10000000 - ns ≥ -5000000 - 1 / 10 := by
    have : (k : ℚ) ≥ ns / 10000000 - 1 / 2 - 2 / 10 ^ 12 := by linarith [hr.1, hv1.1, hprod.1]
    nlinarith [this]
  have hhi : (k : ℚ) * 10000000 - ns ≤ 5000000 + 1 / 10 := by
    have : (k : ℚ) ≤ ns / 10000000 + 1 / 2 + 2 / 10 ^ 12 := by linarith [hr.2, hv1.2, hprod.2]
    nlinarith [this]
  have hlo' : k * 10000000 - (ns : Int) ≥ -5000000 := by
    have : (-5000001 : ℚ) < ((k * 10000000 - (ns : Int) : Int) : ℚ) := by push_cast; linarith
    have : (-5000001 : Int) < k * 10000000 - (ns : Int) := by exact_mod_cast this
    omega
  have hhi' : k * 10000000 - (ns : Int) ≤ 5000000 := by
    have : ((k * 10000000 - (ns : Int) : Int) : ℚ) < 5000001 := by push_cast; linarith
    have : k * 10000000 - (ns : Int) < 5000001 := by exact_mod_cast this
    omega
  have hk0 : 0 ≤ k := by omega
  refine ⟨k.toNat, (Int.toNat_of_nonneg hk0).symm, by omega, ?_⟩
  rw [Int.toNat_of_nonneg hk0, abs_le]
  exact ⟨hlo', hhi'⟩

theorem daysBeforeMonth_succ (y m : Nat) (h : 1 ≤ m) : daysBeforeMonth y (m + 1) = daysBeforeMonth y m + monthDays y m := by
  cases m with
  | zero => omega
  | succ m => rfl

theorem monthDays_pos {y m : Nat} (h1 : 1 ≤ m) (h2 : m ≤ 12) : 28 ≤ monthDays y m ∧ monthDays y m ≤ 31 := by
  have : ∀ b : Bool, ∀ k : Fin 13, 1 ≤ k.val → 28 ≤ (match k.val with
      | 1 => 31 | 2 => if b then 29 else 28 | 3 => 31 | 4 => 30 | 5 => 31 | 6 => 30
      | 7 => 31 | 8 => 31 | 9 => 30 | 10 => 31 | 11 => 30 | 12 => 31 | _ => 0) ∧ (match k.val with
      | 1 => 31 | 2 => if b then 29 else 28 | 3 => 31 | 4 => 30 | 5 => 31 | 6 => 30
      | 7 => 31 | 8 => 31 | 9 => 30 | 10 => 31 | 11 => 30 | 12 => 31 | _ => 0) ≤ 31 := by decide
  exact this (leapYear y) ⟨m, by omega⟩ h1

theorem daysBeforeMonth_13 (y : Nat) : daysBeforeMonth y 13 = if leapYear y then 366 else 365 := by
  simp only [daysBeforeMonth, monthDays]
  cases leapYear y <;> rfl

/-- The day after the last day of a month is the first of the next month, after December that of January. -/
theorem nextDay {y m d : Nat} (h1 : 1 ≤ m) (h2 : m ≤ 12) (h3 : 1 ≤ d) (h4 : d ≤ monthDays y m) (h5 : d + 1 > monthDays y m) :
    if m + 1 > 12 then dayNumber (y + 1) 1 1 = dayNumber y m d + 1 else dayNumber y (m + 1) 1 = dayNumber y m d + 1 := by
  have hd : d = monthDays y m := by omega
  have hs := daysBeforeMonth_succ y m h1
  split
  · have hm : m = 12 := by omega
    subst hm
    rw [daysBeforeMonth_13] at hs
    unfold dayNumber
    have e1 : daysBeforeYear (y + 1) = daysBeforeYear y + (if leapYear y then 366 else 365) := rfl
    have e2 : daysBeforeMonth (y + 1) 1 = 0 := rfl
    rw [e1, e2]
    omega
  · unfold dayNumber
    omega

/-- **C33** For every legal UTC time the time printed is a legal calendar time equal to the input rounded to the nearest
hundredth of a second: seconds, minutes, hours, days, months and years carry, leap years included. -/
theorem C33_carry (L : Lib) (hL : L.daysInMonth = monthDays) (t : Utc) (hd : LegalDate t) (ht : LegalTime t)
    (hs : t.seconds < 60) (hns : t.ns < 1000000000) (hy : t.year < 65535) :
    LegalDate (roundUtc L t) ∧ LegalTime (roundUtc L t) ∧ (roundUtc L t).seconds < 60 ∧ (roundUtc L t).ns < 100 ∧
    |((secondNumber (roundUtc L t) : Int) * 100 + (roundUtc L t).ns) * 10000000 - ((secondNumber t : Int) * 1000000000 + t.ns)|
      ≤ 5000000 := by
  obtain ⟨cs, hcs, hle, hnear⟩ := cs_near hns
  obtain ⟨hm1, hm2, hd1, hd2⟩ := hd
  obtain ⟨hh, hmi, _⟩ := ht
  have hmd := monthDays_pos (y := t.year) hm1 hm2
  have hmod : cs % 65536 = cs := Nat.mod_eq_of_lt (by omega)
  rw [abs_le] at hnear
  unfold roundUtc
  rw [hcs]
  simp only [Int.toNat_natCast, hmod]
  have e1 : (t.seconds + 1) % 256 = t.seconds + 1 := Nat.mod_eq_of_lt (by omega)
  have e2 : (t.minutes + 1) % 256 = t.minutes + 1 := Nat.mod_eq_of_lt (by omega)
  have e3 : (t.hours + 1) % 256 = t.hours + 1 := Nat.mod_eq_of_lt (by omega)
  have e4 : (t.day + 1) % 256 = t.day + 1 := Nat.mod_eq_of_lt (by omega)
  have e5 : (t.month + 1) % 256 = t.month + 1 := Nat.mod_eq_of_lt (by omega)
  have e6 : (t.year + 1) % 65536 = t.year + 1 := Nat.mod_eq_of_lt (by omega)
  rw [e1, e2, e3, e4, e5, e6, hL]
  by_cases c1 : cs ≥ 100
  · rw [if_pos c1]
    have hcs100 : cs = 100 := by omega
    subst hcs100
    by_cases c2 : t.seconds + 1 ≥ 60
    · rw [if_pos c2]
      have hsec : t.seconds = 59 := by omega
      by_cases c3 : t.minutes + 1 ≥ 60
      · rw [if_pos c3]
        have hmin : t.minutes = 59 := by omega
        by_cases c4 : t.hours + 1 ≥ 24
        · rw [if_pos c4]
          have hhr : t.hours = 23 := by omega
          by_cases c5 : t.day + 1 > monthDays t.year t.month
          · rw [if_pos c5]
            have hn := nextDay hm1 hm2 hd1 hd2 c5
            by_cases c6 : t.month + 1 > 12
            · rw [if_pos c6] at hn ⊢
              refine ⟨⟨by simp, by simp, by simp, ?_⟩, ⟨by simp, by simp, by simp⟩, by simp, by simp, ?_⟩
              · simp [monthDays]
              · simp only [secondNumber, hn, hsec, hmin, hhr]
                rw [abs_le]; push_cast; omega
            · rw [if_neg c6] at hn ⊢
              have := monthDays_pos (y := t.year) (m := t.month + 1) (by omega) (by omega)
              refine ⟨⟨by simp, by simp; omega, by simp, by simp; omega⟩, ⟨by simp, by simp, by simp⟩, by simp, by simp, ?_⟩
              simp only [secondNumber, hn, hsec, hmin, hhr]
              rw [abs_le]; push_cast; omega
          · rw [if_neg c5]
            refine ⟨⟨hm1, hm2, by simp, by simp; omega⟩, ⟨by simp, by simp, by simp⟩, by simp, by simp, ?_⟩
            have hn : dayNumber t.year t.month (t.day + 1) = dayNumber t.year t.month t.day + 1 := by unfold dayNumber; omega
            simp only [secondNumber, hn, hsec, hmin, hhr]
            rw [abs_le]; push_cast; omega
        · rw [if_neg c4]
          refine ⟨⟨hm1, hm2, hd1, hd2⟩, ⟨by simp; omega, by simp, by simp⟩, by simp, by simp, ?_⟩
          simp only [secondNumber, hsec, hmin]
          rw [abs_le]; push_cast; omega
      · rw [if_neg c3]
        refine ⟨⟨hm1, hm2, hd1, hd2⟩, ⟨by simp; omega, by simp; omega, by simp⟩, by simp, by simp, ?_⟩
        simp only [secondNumber, hsec]
        rw [abs_le]; push_cast; omega
    · rw [if_neg c2]
      refine ⟨⟨hm1, hm2, hd1, hd2⟩, ⟨by simp; omega, by simp; omega, by simp; omega⟩, by simp; omega, by simp, ?_⟩
      simp only [secondNumber]
      rw [abs_le]; push_cast; omega
  · rw [if_neg c1]
    refine ⟨⟨hm1, hm2, hd1, hd2⟩, ⟨hh, hmi, by simp; omega⟩, hs, by simp; omega, ?_⟩
    simp only [secondNumber]
    rw [abs_le]; constructor <;> omega

/-- **C33** During a leap second (second 60) the time stays in it, or becomes the first instant after it. -/
theorem C33_leap_second (L : Lib) (t : Utc) (hs : t.seconds = 60) (hm : t.minutes < 60) (hns : t.ns < 1000000000) :
    (∃ cs : Nat, roundUtc L t = { t with ns := cs } ∧ cs < 100 ∧ |(cs : Int) * 10000000 - t.ns| ≤ 5000000) ∨
    (995000000 ≤ t.ns ∧ roundUtc L t = roundUtc L { t with seconds := 59 }) := by
  obtain ⟨cs, hcs, hle, hnear⟩ := cs_near hns
  have hmod : cs % 65536 = cs := Nat.mod_eq_of_lt (by omega)
  rw [abs_le] at hnear
  by_cases c : cs ≥ 100
  · right
    have : cs = 100 := by omega
    subst this
    refine ⟨by omega, ?_⟩
    unfold roundUtc
    simp only
    rw [hcs, hs]
    rfl
  · left
    refine ⟨cs, ?_, by omega, by rw [abs_le]; exact hnear⟩
    unfold roundUtc
    rw [hcs]
    simp only [Int.toNat_natCast, hmod]
    rw [if_neg c]

/-- two-digit numbers print as two digits -/
theorem fmtU_two : ∀ n : Fin 100, fmtU 2 n = two n := by decide +kernel

/-- **C33** The printed time and date fields of a valid legal time are exactly the two-digit components of the rounded
time, and nothing is printed if the time is not valid. -/
theorem C33_string (L : Lib) (hL : L.daysInMonth = monthDays) (t : Utc) (hf : t.flags ≠ 0) (hd : LegalDate t) (ht : LegalTime t)
    (hs : t.seconds < 60) (hns : t.ns < 1000000000) (hy : t.year < 65535) :
    utcString L true false false t = two (roundUtc L t).hours ++ two (roundUtc L t).minutes ++ two (roundUtc L t).seconds ++
      ['.'] ++ two (roundUtc L t).ns ++ [','] ∧
    utcString L false true true t = two (roundUtc L t).day ++ two (roundUtc L t).month ++ two ((roundUtc L t).year % 100) ++ [','] ∧
    utcString L true true false t = two (roundUtc L t).hours ++ two (roundUtc L t).minutes ++ two (roundUtc L t).seconds ++
      ['.'] ++ two (roundUtc L t).ns ++ [','] ++ two (roundUtc L t).day ++ [','] ++ two (roundUtc L t).month ++ [','] ++
      Nat.toDigits 10 (roundUtc L t).year ++ [','] := by
  obtain ⟨⟨h1, h2, h3, h4⟩, ⟨h5, h6, h7⟩, h8, h9, _⟩ := C33_carry L hL t hd ht hs hns hy
  have hmd := monthDays_pos (y := (roundUtc L t).year) h1 h2
  have hyr : (roundUtc L t).year < 65536 := by
    unfold roundUtc; simp only
    split_ifs <;> first | exact Nat.mod_lt _ (by omega) | (simp only; omega)
  set r := roundUtc L t with hr
  have f1 := fmtU_two ⟨r.hours, by omega⟩
  have f2 := fmtU_two ⟨r.minutes, by omega⟩
  have f3 := fmtU_two ⟨r.seconds, by omega⟩
  have f4 := fmtU_two ⟨r.ns, by omega⟩
  have f5 := fmtU_two ⟨r.day, by omega⟩
  have f6 := fmtU_two ⟨r.month, by omega⟩
  have f7 := fmtU_two ⟨r.year % 100, Nat.mod_lt _ (by omega)⟩
  have f8 : r.year % 100 % 256 = r.year % 100 := Nat.mod_eq_of_lt (by omega)
  simp only at f1 f2 f3 f4 f5 f6 f7
  have f9 : fmtU 1 r.year = Nat.toDigits 10 r.year := by
    unfold fmtU pad
    have := @Nat.length_toDigits_pos 10 r.year
    have e : 1 - (Nat.toDigits 10 r.year).length = 0 := by omega
    rw [e]; rfl
  have f10 : (Nat.toDigits 10 r.year).length ≤ 5 := Nat.toDigits_length 10 _ 5 (by omega) (by omega)
  unfold utcString
  rw [← hr]
  simp only [hf, if_false, if_true, f1, f2, f3, f4, f5, f6, f7, f8, f9, Bool.false_eq_true]
  refine ⟨rfl, rfl, ?_⟩
  have l1 : lit "," = [','] := rfl
  have l2 : lit "." = ['.'] := rfl
  rw [l1, l2, List.take_of_length_le]
  · simp only [List.append_assoc]
  · simp only [two, List.length_append, List.length_cons, List.length_nil]
    have : tsMaxLen - 1 = 22 := rfl
    omega

/-- **C33** No time is printed while the time is unknown. -/
theorem C33_unknown (L : Lib) (t : Utc) (hf : t.flags = 0) :
    utcString L true false false t = [','] ∧ utcString L false true true t = [','] ∧ utcString L true true false t = [',', ',', ',', ','] := by
  unfold utcString
  simp only [hf, if_true, if_false, Bool.false_eq_true]
  exact ⟨rfl, rfl, rfl⟩

/-- a library with the Gregorian calendar, for examples -/
def exLib : Lib :=
  { con := fun c => if c = 0 then .gps else if c = 3 then .glo else if c = 14 then .gal else if c = 12 then .bds else .invalid
    daysInMonth := monthDays, geoid := fun _ _ => 0, sogKnots := fun _ _ => 0, sogKph := fun _ _ => 0, courseDeg := fun _ _ => 0
    gst := fun _ => [.fin 0, .fin 0, .fin 0, .fin 0, .fin 0, .fin 0], hacc := fun _ => .fin 0, vacc := fun _ => .fin 0 }

/-- hypotheses of C33_carry: 2020-02-28 23:59:59.9951 becomes 2020-02-29 00:00:00.00 -/
def exUtc : Utc := { flags := 1, year := 2020, month := 2, day := 28, hours := 23, minutes := 59, seconds := 59, ns := 995100000 }
example : LegalDate exUtc ∧ LegalTime exUtc := by decide
example : utcString exLib true true false exUtc = "000000.00,29,02,2020,".toList := by decide +kernel

/-- The code cannot know of a leap second: 23:59:59.996 on 2016-12-31, a day that ends with 23:59:60, is printed as
midnight of the next day instead of 235960.00 (the TODO at nmea.c:204-211). -/
theorem C33_leap_event_bug :
    utcString exLib true true false { exUtc with year := 2016, month := 12, day := 31, ns := 996000000 } =
      "000000.00,01,01,2017,".toList := by decide +kernel

end Verif.Nmea
