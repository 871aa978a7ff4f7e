import Verif.Lemmas.NmeaSpeed
import Verif.Lemmas.LibmExists
import Verif.Props.C36_fields
/-
C79: speed, course and error ellipse in the NMEA sentences are those of the velocity and of the covariance matrix.
-/
set_option linter.unusedSimpArgs false
namespace Verif.Nmea
open Verif.Nmea.Spec Verif.Fp

/-! ### speed and course -/

/-- **C79** The speeds the converter computes from any velocity are the ground speed in knots and in km/h to a relative error of 10^-12. -/
theorem C79_speed {m : Libm} (hm : Accurate m) (n e : Int) :
    |(sogKnots m n e : ℝ) - groundSpeed n e * (3600 / 1852)| ≤ groundSpeed n e * (1 / 10 ^ 12) ∧
    |(sogKph m n e : ℝ) - groundSpeed n e * (36 / 10)| ≤ groundSpeed n e * (1 / 10 ^ 12) := ⟨knots_near hm n e, kph_near hm n e⟩

/-- **C79** The course the converter computes is the direction of the velocity, in all four quadrants, to 10^-11 degrees. -/
theorem C79_course {m : Libm} (hm : Accurate m) (n e : Int) : |(courseDeg m n e : ℝ) - trueCourse n e| ≤ 1 / 10 ^ 11 := course_near hm n e

theorem speed_nonneg {m : Libm} (hm : Accurate m) (n e : Int) : 0 ≤ sogKnots m n e ∧ 0 ≤ sogKph m n e := by
  have hg : 0 ≤ groundSpeed n e := Real.sqrt_nonneg _
  obtain ⟨h1, h2⟩ := C79_speed hm n e
  rw [abs_le] at h1 h2
  norm_num at h1 h2
  have a : (0 : ℝ) ≤ (sogKnots m n e : ℝ) := by linarith [h1.1]
  have b : (0 : ℝ) ≤ (sogKph m n e : ℝ) := by linarith [h2.1]
  exact ⟨by exact_mod_cast a, by exact_mod_cast b⟩

theorem ground_le {n e : Int} (hn : |n| ≤ 2147483648) (he : |e| ≤ 2147483648) : groundSpeed n e ≤ 4000000 := by
  apply Real.sqrt_le_iff.2
  refine ⟨by norm_num, ?_⟩
  have h1 : |(n : ℝ)| ≤ 2147483648 := by exact_mod_cast hn
  have h2 : |(e : ℝ)| ≤ 2147483648 := by exact_mod_cast he
  have a := pow_le_pow_left₀ (abs_nonneg _) h1 2
  have b := pow_le_pow_left₀ (abs_nonneg _) h2 2
  rw [sq_abs] at a b
  rw [div_pow, div_pow]
  norm_num at a b ⊢
  linarith

theorem course_bound {m : Libm} (hm : Accurate m) (n e : Int) : |courseDeg m n e| ≤ 181 := by
  have h := C79_course hm n e
  have ht : |trueCourse n e| ≤ 180 := by
    unfold trueCourse
    rw [abs_mul, abs_of_pos (by positivity : 0 < 180 / Real.pi)]
    have := mul_le_mul_of_nonneg_right (Complex.abs_arg_le_pi ⟨n, e⟩) (by positivity : 0 ≤ 180 / Real.pi)
    refine this.trans (le_of_eq ?_)
    field_simp
  have : |(courseDeg m n e : ℝ)| ≤ 181 := by
    rw [abs_le] at *
    norm_num at h
    constructor <;> linarith [h.1, h.2, ht.1, ht.2]
  exact_mod_cast this

/-- **C79** These formulas have the ranges assumed of the library elsewhere (C31, C36). -/
theorem C79_library {m : Libm} (hm : Accurate m) {base : Lib} (hg : ∀ a b, |base.geoid a b| ≤ 9999) : SaneLib (libOf m base) where
  course := course_bound hm
  geoid := hg
  knots := fun n e hn he => by
    refine ⟨(speed_nonneg hm n e).1, ?_⟩
    have h := (C79_speed hm n e).1
    have hg := ground_le hn he
    have : (sogKnots m n e : ℝ) ≤ 99999999 := by
      rw [abs_le] at h
      norm_num at h
      linarith [h.2]
    show sogKnots m n e ≤ 99999999
    exact_mod_cast this
  kph := fun n e hn he => by
    refine ⟨(speed_nonneg hm n e).2, ?_⟩
    have h := (C79_speed hm n e).2
    have hg := ground_le hn he
    have : (sogKph m n e : ℝ) ≤ 99999999 := by
      rw [abs_le] at h
      norm_num at h
      linarith [h.2]
    show sogKph m n e ≤ 99999999
    exact_mod_cast this

/-- hypotheses of C79: such a library exists -/
example : ∃ m, Accurate m := accurate_exists

theorem fmtF_dec {p : Nat} {q : ℚ} (hp : 1 ≤ p) (h0 : 0 ≤ q) : ∃ k : Nat, DecField p (fmtF 0 p (.fin q)) k ∧ |(k : ℚ) / 10 ^ p - q| ≤ 1 / 2 / 10 ^ p := by
  refine ⟨(rne (q * 10 ^ p)).natAbs, ?_, ?_⟩
  · simp only [fmtF]
    rw [if_neg (by linarith)]
    generalize (rne (q * 10 ^ p)).natAbs = k
    unfold DecField fixedDigits
    have : pad 0 (Nat.toDigits 10 (k / 10 ^ p) ++ '.' :: pad p (Nat.toDigits 10 (k % 10 ^ p))) =
        Nat.toDigits 10 (k / 10 ^ p) ++ '.' :: pad p (Nat.toDigits 10 (k % 10 ^ p)) := by
      conv_lhs => unfold pad
      simp
      rfl
    rw [this, pad_toDigits p _ hp (Nat.mod_lt _ (by positivity))]
    simp
  · obtain ⟨h1, h2⟩ := rne_toNat (x := q * 10 ^ p) (by positivity)
    have hpos : (0 : ℚ) < 10 ^ p := by positivity
    have e : ((rne (q * 10 ^ p)).natAbs : ℚ) / 10 ^ p - q = (((rne (q * 10 ^ p)).natAbs : ℚ) - q * 10 ^ p) / 10 ^ p := by
      field_simp
    rw [e, abs_div, abs_of_pos hpos]
    exact div_le_div_of_nonneg_right (abs_le.2 ⟨by linarith, h1⟩) hpos.le

theorem fmtF_sdec {p : Nat} (hp : 1 ≤ p) (q : ℚ) : ∃ z, SDecField p (fmtF 0 p (.fin q)) z ∧ |z - q| ≤ 1 / 2 / 10 ^ p := by
  rcases le_or_gt 0 q with h | h
  · obtain ⟨k, h1, h2⟩ := fmtF_dec hp h
    exact ⟨_, ⟨k, Or.inl ⟨h1, rfl⟩⟩, h2⟩
  · obtain ⟨k, h1, h2⟩ := fmtF_dec (q := -q) hp (by linarith)
    refine ⟨-((k : ℚ) / 10 ^ p), ⟨k, Or.inr ⟨_, ?_, h1, rfl⟩⟩, ?_⟩
    · simp only [fmtF]
      rw [if_pos h, if_neg (by linarith)]
    · have e : -((k : ℚ) / 10 ^ p) - q = -((k : ℚ) / 10 ^ p - -q) := by ring
      rw [e, abs_neg]; exact h2

/-- a printed number that is close to a rational number which is close to a real one -/
theorem print_near {z q : ℚ} {x d e : ℝ} {M : ℚ} (h : |z - q| ≤ M) (hM : (M : ℝ) = e) (hq : |(q : ℝ) - x| ≤ d) : |(z : ℝ) - x| ≤ e + d := by
  have h' : |(z : ℝ) - (q : ℝ)| ≤ e := castR h rfl hM
  have : (z : ℝ) - x = (z - q) + (q - x) := by ring
  rw [this]
  exact (abs_add_le _ _).trans (add_le_add h' hq)

theorem vtg_speed_fields {L : Lib} {st : St} {r : St × Sentence} (h : sendVtg L st = some r) (hv : (st.store.vel st.src).flags % 8 ≠ 0) :
    (fields r.2.texts.flatten)[5]? = some (fmtF 0 2 (.fin (L.sogKnots (st.store.vel st.src).n (st.store.vel st.src).e))) ∧
    (fields r.2.texts.flatten)[7]? = some (fmtF 0 2 (.fin (L.sogKph (st.store.vel st.src).n (st.store.vel st.src).e))) := by
  unfold sendVtg at h
  simp only [Option.bind_eq_bind, Option.bind_eq_some_iff, Option.some.injEq] at h
  obtain ⟨m, hm, rfl⟩ := h
  have hm' := (mode_ok hm).2
  have hv' : velMode (st.store.vel st.src).flags ≠ 0 := hv
  simp only [List.flatten_cons]
  by_cases hk : f64 (knotsFactor * st.cogThreshold) ≤ L.sogKnots (st.store.vel st.src).n (st.store.vel st.src).e
  · have hvk : velMode (st.store.vel st.src).flags ≠ 0 ∧ f64 (knotsFactor * st.cogThreshold) ≤ L.sogKnots (st.store.vel st.src).n (st.store.vel st.src).e := ⟨hv', hk⟩
    rw [if_pos hvk, if_pos hv']
    simp [lit, fields_append, fields_comma, fields_char, cU', cD', cF', addHead_addHead, addHead_cons, hm', fields]
  · have hvk : ¬ (velMode (st.store.vel st.src).flags ≠ 0 ∧ f64 (knotsFactor * st.cogThreshold) ≤ L.sogKnots (st.store.vel st.src).n (st.store.vel st.src).e) := fun h => hk h.2
    rw [if_neg hvk, if_pos hv']
    simp [lit, fields_append, fields_comma, fields_char, cU', cD', cF', addHead_addHead, addHead_cons, hm', fields]

/-- **C79** A VTG sentence sent while the velocity is valid carries the ground speed in knots (field 5) and in km/h (field 7), each to half a
printed unit. -/
theorem C79_vtg {m : Libm} (hm : Accurate m) {base : Lib} {st : St} {r : St × Sentence} (h : sendVtg (libOf m base) st = some r)
    (hv : (st.store.vel st.src).flags % 8 ≠ 0) :
    ∃ (f g : Str) (k l : Nat), (fields r.2.texts.flatten)[5]? = some f ∧ (fields r.2.texts.flatten)[7]? = some g ∧ DecField 2 f k ∧ DecField 2 g l ∧
      |(k : ℝ) / 100 - groundSpeed (st.store.vel st.src).n (st.store.vel st.src).e * (3600 / 1852)| ≤
        1 / 200 + groundSpeed (st.store.vel st.src).n (st.store.vel st.src).e * (1 / 10 ^ 12) ∧
      |(l : ℝ) / 100 - groundSpeed (st.store.vel st.src).n (st.store.vel st.src).e * (36 / 10)| ≤
        1 / 200 + groundSpeed (st.store.vel st.src).n (st.store.vel st.src).e * (1 / 10 ^ 12) := by
  obtain ⟨h5, h7⟩ := vtg_speed_fields h hv
  obtain ⟨p1, p2⟩ := speed_nonneg hm (st.store.vel st.src).n (st.store.vel st.src).e
  obtain ⟨s1, s2⟩ := C79_speed hm (st.store.vel st.src).n (st.store.vel st.src).e
  obtain ⟨k, k1, k2⟩ := fmtF_dec (p := 2) (by omega) p1
  obtain ⟨l, l1, l2⟩ := fmtF_dec (p := 2) (by omega) p2
  refine ⟨_, _, k, l, h5, h7, k1, l1, ?_, ?_⟩
  · have := print_near k2 (by norm_num : ((1 / 2 / 10 ^ 2 : ℚ) : ℝ) = 1 / 200) s1
    push_cast at this
    norm_num at this ⊢
    exact this
  · have := print_near l2 (by norm_num : ((1 / 2 / 10 ^ 2 : ℚ) : ℝ) = 1 / 200) s2
    push_cast at this
    norm_num at this ⊢
    exact this

/-- **C79** The course of a VTG sentence sent at or above both speed thresholds is the direction of the velocity modulo whole turns, to half a
printed unit. -/
theorem C79_vtg_course {m : Libm} (hm : Accurate m) {base : Lib} (hg : ∀ a b, |base.geoid a b| ≤ 9999) {st : St} {r : St × Sentence}
    (h : sendVtg (libOf m base) st = some r) (hv : (st.store.vel st.src).flags % 8 ≠ 0)
    (hs : f64 (knotsFactor * st.cogThreshold) ≤ sogKnots m (st.store.vel st.src).n (st.store.vel st.src).e)
    (hu : f64 (knotsFactor * st.cogUpdateThreshold) ≤ sogKnots m (st.store.vel st.src).n (st.store.vel st.src).e) (hcog : CogOk st.lastCog) :
    ∃ f n1, (fields r.2.texts.flatten)[1]? = some f ∧ CourseField f n1 ∧
      ∃ turns : Int, |(n1 : ℝ) / 10 - (trueCourse (st.store.vel st.src).n (st.store.vel st.src).e + turns * 360)| ≤ 5 / 100 + 2 / 10 ^ 9 := by
  obtain ⟨f, n1, a, b, t, ht⟩ := C36_course_value (C79_library hm hg).course h hv hs hu hcog
  refine ⟨f, n1, a, b, t, ?_⟩
  have h1 := C79_course hm (st.store.vel st.src).n (st.store.vel st.src).e
  have h2 : |((((n1 : ℚ) / 10 - (courseDeg m (st.store.vel st.src).n (st.store.vel st.src).e + t * 360)) : ℚ) : ℝ)| ≤ ((5 / 100 + 1 / 10 ^ 9 : ℚ) : ℝ) := by
    exact_mod_cast ht
  push_cast at h2
  generalize trueCourse (st.store.vel st.src).n (st.store.vel st.src).e = c at *
  generalize (courseDeg m (st.store.vel st.src).n (st.store.vel st.src).e : ℝ) = c' at *
  rw [abs_le] at *
  norm_num at *
  constructor <;> linarith [h1.1, h1.2, h2.1, h2.2]

theorem rmc_speed_field {L : Lib} {st : St} {r : St × Sentence} (hu : TwoDigit (st.store.utc st.src)) (h : sendRmc L st = some r)
    (hv : (st.store.vel st.src).flags % 8 ≠ 0) :
    (fields r.2.texts.flatten)[7]? = some (fmtF 0 2 (.fin (L.sogKnots (st.store.vel st.src).n (st.store.vel st.src).e))) := by
  unfold sendRmc at h
  simp only [Option.bind_eq_bind, Option.bind_eq_some_iff, Option.some.injEq] at h
  obtain ⟨a, ha, b, hb, m, hm, s, hs, rfl⟩ := h
  obtain ⟨ut, hu1, hu2⟩ := utc_time L hu
  obtain ⟨f1, f2, f3, f4, ⟨h1, h2, h3, h4⟩, he⟩ := pos_parts (posMode (st.store.pos st.src).flags ≠ 0) a b
  have hs' := (status_ok hs).2
  have hv' : velMode (st.store.vel st.src).flags ≠ 0 := hv
  simp only [List.flatten_cons, List.flatten_append, hu2, he]
  rw [if_pos hv']
  simp only [List.flatten_cons]
  generalize (if f64 (knotsFactor * st.cogThreshold) ≤ L.sogKnots (st.store.vel st.src).n (st.store.vel st.src).e then _ else _ : Str) ++ _ = tail
  simp [lit, fields_append, fields_comma, fields_char, cU', cD', cF', addHead_addHead, addHead_cons, h1, h2, h3, h4, hu1, hs']

/-- **C79** An RMC sentence sent while the velocity is valid carries the ground speed in knots (field 7). -/
theorem C79_rmc {m : Libm} (hm : Accurate m) {base : Lib} {st : St} {r : St × Sentence} (hu : TwoDigit (st.store.utc st.src))
    (h : sendRmc (libOf m base) st = some r) (hv : (st.store.vel st.src).flags % 8 ≠ 0) :
    ∃ (f : Str) (k : Nat), (fields r.2.texts.flatten)[7]? = some f ∧ DecField 2 f k ∧
      |(k : ℝ) / 100 - groundSpeed (st.store.vel st.src).n (st.store.vel st.src).e * (3600 / 1852)| ≤
        1 / 200 + groundSpeed (st.store.vel st.src).n (st.store.vel st.src).e * (1 / 10 ^ 12) := by
  have h5 := rmc_speed_field hu h hv
  obtain ⟨k, k1, k2⟩ := fmtF_dec (p := 2) (by omega) (speed_nonneg hm (st.store.vel st.src).n (st.store.vel st.src).e).1
  refine ⟨_, k, h5, k1, ?_⟩
  have := print_near k2 (by norm_num : ((1 / 2 / 10 ^ 2 : ℚ) : ℝ) = 1 / 200) (C79_speed hm (st.store.vel st.src).n (st.store.vel st.src).e).1
  push_cast at this
  norm_num at this ⊢
  exact this

/-! ### the error ellipse -/

theorem greatest_eig {nn ne ee : ℝ} {M : ℝ} (h : IsGreatest (Set.range (variance nn ne ee)) M) : M = eig1 nn ne ee :=
  h.unique (variance_max nn ne ee)
theorem least_eig {nn ne ee : ℝ} {M : ℝ} (h : IsLeast (Set.range (variance nn ne ee)) M) : M = eig2 nn ne ee :=
  h.unique (variance_min nn ne ee)

theorem accurate_nonneg {m : Libm} (hm : Accurate m) {x : ℚ} (h : 0 ≤ x) : 0 ≤ m.sqrt x ∧ 0 ≤ m.sqrtf x := by
  have h1 := hm.sqrt x h
  have h2 := hm.sqrtf x h
  have h0 := Real.sqrt_nonneg (x : ℝ)
  rw [abs_le] at h1 h2
  norm_num at h1 h2
  have a : (0 : ℝ) ≤ (m.sqrt x : ℝ) := by linarith [h1.1]
  have b : (0 : ℝ) ≤ (m.sqrtf x : ℝ) := by linarith [h2.1]
  exact ⟨by exact_mod_cast a, by exact_mod_cast b⟩

/-- **C79** The axes of the error ellipse: of a covariance matrix, the semi-major axis is the square root of the greatest variance in any direction
to 0.12 %, and the square of the semi-minor axis the least variance to within 1/1900 of the sum of both. -/
theorem C79_axes {m : Libm} (hm : Accurate m) {nn ne ee dd : ℚ} (h : CovOk nn ne ee) {hi lo : ℝ}
    (hhi : IsGreatest (Set.range (variance nn ne ee)) hi) (hlo : IsLeast (Set.range (variance nn ne ee)) lo) :
    ∃ a b : ℚ, (gstVals m nn ne ee dd)[0]? = some (.fin a) ∧ (gstVals m nn ne ee dd)[1]? = some (.fin b) ∧ 0 ≤ a ∧ 0 ≤ b ∧
      |(a : ℝ) - √hi| ≤ √hi / 850 ∧ |(b : ℝ) ^ 2 - lo| ≤ (hi + lo) / 1900 := by
  rw [greatest_eig hhi, least_eig hlo]
  have hT : (0 : ℝ) < ((nn + ee : ℚ) : ℝ) := by exact_mod_cast lt_of_lt_of_le (by norm_num) h.low
  obtain ⟨b1, b2, b3, b4⟩ := eig_bounds h
  obtain ⟨n1, n2⟩ := eig_near hm h
  have p1 := (eig1_pos hm h).le
  have p2 := eig2_nonneg hm h.north h.east h.det
  have es : eig1 (nn : ℝ) ne ee + eig2 nn ne ee = ((nn + ee : ℚ) : ℝ) := by unfold eig1 eig2; push_cast; ring
  refine ⟨m.sqrt (gstEig1 m nn ne ee), m.sqrt (gstEig2 m nn ne ee), ?_, ?_, (accurate_nonneg hm p1).1, (accurate_nonneg hm p2).1, ?_, ?_⟩
  · simp [gstVals, sqrtDbl, not_lt.2 p1]
  · simp [gstVals, sqrtDbl, not_lt.2 p2]
  · have h1 := axis_near hm p1 hT.le n1 b3
    have h2 : (0 : ℝ) ≤ (m.sqrt (gstEig1 m nn ne ee) : ℝ) := by exact_mod_cast (accurate_nonneg hm p1).1
    have hp : 0 < eig1 (nn : ℝ) ne ee := by linarith
    generalize (m.sqrt (gstEig1 m nn ne ee) : ℝ) = a at *
    have h3 : |√(a ^ 2) - √(eig1 (nn : ℝ) ne ee)| ≤ ((nn + ee : ℚ) : ℝ) / 1900 / √(eig1 (nn : ℝ) ne ee) :=
      sqrt_near' (sq_nonneg a) (Real.sqrt_pos.2 hp) le_rfl h1
    rw [Real.sqrt_sq h2] at h3
    refine h3.trans ?_
    rw [div_le_iff₀ (Real.sqrt_pos.2 hp)]
    have e2 := Real.mul_self_sqrt hp.le
    have : √(eig1 (nn : ℝ) ne ee) / 850 * √(eig1 (nn : ℝ) ne ee) = eig1 (nn : ℝ) ne ee / 850 := by rw [div_mul_eq_mul_div, e2]
    rw [this]
    linarith
  · rw [es]
    exact axis_near hm p2 hT.le n2 (by linarith)

/-- **C79** For every positive semidefinite covariance of `float` numbers, of any size, the semi-minor axis is a number. -/
theorem C79_minor_finite {m : Libm} (hm : Accurate m) {nn ne ee dd : ℚ} (h0 : 0 ≤ nn) (h1 : 0 ≤ ee) (h2 : ne * ne ≤ nn * ee) :
    ∃ b, (gstVals m nn ne ee dd)[1]? = some (.fin b) ∧ 0 ≤ b := by
  have p2 := eig2_nonneg hm h0 h1 h2
  exact ⟨m.sqrt (gstEig2 m nn ne ee), by simp [gstVals, sqrtDbl, not_lt.2 p2], (accurate_nonneg hm p2).1⟩

/-- **C79** The orientation: the variance in the direction given is the greatest variance in any direction to within 1/50000 of the horizontal
variance, and it is between -90 and 90 degrees.  Missing: an ellipse that is long in the east-west direction (C79_orientation_bug shows
that it fails there). -/
theorem C79_orientation_partial {m : Libm} (hm : Accurate m) {nn ne ee dd : ℚ} (h : CovOk nn ne ee) (ht : Tilted nn ne ee) {hi : ℝ}
    (hhi : IsGreatest (Set.range (variance nn ne ee)) hi) :
    ∃ θ : ℚ, (gstVals m nn ne ee dd)[2]? = some (.fin θ) ∧ |(θ : ℝ)| ≤ 90 + 1 / 10 ^ 9 ∧
      hi - ((nn : ℝ) + ee) / 50000 ≤ variance nn ne ee (θ * (Real.pi / 180)) := by
  rw [greatest_eig hhi]
  obtain ⟨a, b⟩ := orient_near hm h ht
  refine ⟨gstOrientation m nn ne ee, by simp [gstVals], b, ?_⟩
  push_cast at a
  exact a

/-- **C79** The standard deviations north, east and down. -/
theorem C79_std {m : Libm} (hm : Accurate m) {nn ne ee dd : ℚ} (h0 : 0 ≤ nn) (h1 : 0 ≤ ee) (h2 : 0 ≤ dd) :
    ∃ a b c : ℚ, (gstVals m nn ne ee dd).drop 3 = [.fin a, .fin b, .fin c] ∧ |(a : ℝ) - √nn| ≤ √nn / 2 ^ 23 ∧ |(b : ℝ) - √ee| ≤ √ee / 2 ^ 23 ∧
      |(c : ℝ) - √dd| ≤ √dd / 2 ^ 23 :=
  ⟨m.sqrtf nn, m.sqrtf ee, m.sqrtf dd, by simp [gstVals, sqrtDbl, not_lt.2 h0, not_lt.2 h1, not_lt.2 h2], hm.sqrtf nn h0, hm.sqrtf ee h1, hm.sqrtf dd h2⟩

/-- the root of the number under the square root of the code is at least `q` -/
theorem root_ge {m : Libm} (hm : Accurate m) {x q r : ℚ} (_hq0 : 0 ≤ q) (hq : q * q ≤ x) (hr : r * (1 + 1 / 2 ^ 50) ≤ q) : r ≤ m.sqrt x := by
  have hx : 0 ≤ x := (mul_self_nonneg q).trans hq
  have h1 := hm.sqrt x hx
  have h2 : (q : ℝ) ≤ √(x : ℝ) := by
    apply Real.le_sqrt_of_sq_le
    rw [sq]; exact_mod_cast hq
  have h3 : (((r * (1 + 1 / 2 ^ 50) : ℚ)) : ℝ) ≤ q := by exact_mod_cast hr
  push_cast at h3
  have h4 := Real.sqrt_nonneg (x : ℝ)
  generalize √(x : ℝ) = s at *
  have : (r : ℝ) ≤ (m.sqrt x : ℝ) := by
    rw [abs_le] at h1
    norm_num at h1 h3
    linarith [h1.1]
  exact_mod_cast this

/-- nn = 0.3f and ee = 1.1f as `float` -/
def bugN : ℚ := 10066330 / 33554432
def bugE : ℚ := 9227469 / 8388608

/-- **C79, defect** With a north variance of 0.3 m², an east variance of 1.1 m² and no correlation, the major axis points east: 90 degrees.  The
`float` rounding of the trace makes the greater eigenvalue a little greater than the east variance, and the orientation sent is 0 degrees: the
direction of the minor axis. -/
theorem C79_orientation_bug {m : Libm} (hm : Accurate m) :
    ∃ θ : ℚ, (gstVals m bugN 0 bugE 1)[2]? = some (.fin θ) ∧ |(θ : ℝ)| ≤ 1 / 10 ^ 9 ∧
      variance bugN 0 bugE (θ * (Real.pi / 180)) ≤ 31 / 100 ∧ 11 / 10 ≤ variance bugN 0 bugE (Real.pi / 2) := by
  refine ⟨gstOrientation m bugN 0 bugE, by simp [gstVals], ?_⟩
  have hroot : 40000005 / 100000000 ≤ gstRoot m bugN 0 bugE := by
    have e : gstRoot m bugN 0 bugE = m.sqrt (disc' bugN 0 bugE) := rfl
    rw [e]
    exact root_ge hm (q := 40000006 / 100000000) (by norm_num) (by decide +kernel) (by norm_num)
  have hev : bugE + 1 / 10 ^ 9 ≤ gstEig1 m bugN 0 bugE := by
    unfold gstEig1
    have h1 : f64 (f64 (gstTrace bugN bugE / 2) + 40000005 / 100000000) ≤ f64 (f64 (gstTrace bugN bugE / 2) + gstRoot m bugN 0 bugE) :=
      f64_mono (by decide +kernel) (add_le_add le_rfl hroot)
    refine le_trans ?_ h1
    decide +kernel
  have hlt : bugE < gstEig1 m bugN 0 bugE := lt_of_lt_of_le (by norm_num) hev
  have hpos : 0 < gstEig1 m bugN 0 bugE := lt_trans (by norm_num [bugE]) hlt
  have hθ : |(gstOrientation m bugN 0 bugE : ℝ)| ≤ 1 / 10 ^ 9 := by
    unfold gstOrientation
    simp only
    rw [if_pos ⟨hpos, hlt⟩, zero_div]
    have : f64 0 = 0 := rfl
    rw [this]
    have ha := hm.atan 0
    rw [Rat.cast_zero, Real.arctan_zero] at ha
    have := degrees_near hm (t := 0) (by norm_num) (by positivity) (by norm_num) ha
    rw [zero_mul, sub_zero] at this
    exact this.trans (by norm_num)
  refine ⟨hθ, ?_, ?_⟩
  · have hl := variance_lip (bugN : ℝ) 0 bugE (gstOrientation m bugN 0 bugE * (Real.pi / 180)) 0
    have e0 : variance (bugN : ℝ) 0 bugE 0 = bugN := by unfold variance; simp
    rw [e0, sub_zero, abs_zero] at hl
    have hb : |(gstOrientation m bugN 0 bugE : ℝ) * (Real.pi / 180)| ≤ 1 / 10 ^ 9 := by
      rw [abs_mul, abs_of_pos (by positivity : 0 < Real.pi / 180)]
      have hp := Real.pi_le_four
      exact (mul_le_mul hθ (by linarith : Real.pi / 180 ≤ 1) (by positivity) (by positivity)).trans (by norm_num)
    generalize (gstOrientation m bugN 0 bugE : ℝ) * (Real.pi / 180) = t at *
    have hc : |(bugN : ℝ) - bugE| + 2 * 0 ≤ 1 := by
      unfold bugN bugE
      rw [mul_zero, add_zero, abs_le]
      norm_num
    have := (abs_le.1 (hl.trans (mul_le_mul hc hb (abs_nonneg _) (by norm_num)))).2
    have hN : (bugN : ℝ) ≤ 301 / 1000 := by unfold bugN; norm_num
    norm_num at this ⊢
    linarith
  · unfold variance
    rw [Real.cos_pi_div_two, Real.sin_pi_div_two]
    unfold bugE
    norm_num

/-- a covariance matrix, positive semidefinite: `u` is the distance of `float` numbers above 1 -/
def nanN : ℚ := 1 + 49 / 100 / 8388608
def nanC : ℚ := 1 + 98 / 100 / 8388608
def nanE : ℚ := 1 + 149 / 100 / 8388608

/-- **C79, defect** A covariance matrix that is positive semidefinite, but whose entries rounded to the `float` numbers of the message are not: the
semi-minor axis is sent as `nan`. -/
theorem C79_nan_bug {m : Libm} (hm : Accurate m) : 0 ≤ nanN ∧ 0 ≤ nanE ∧ nanC * nanC ≤ nanN * nanE ∧
    (gstVals m (f32 nanN) (f32 nanC) (f32 nanE) 1)[1]? = some .nan ∧ fmtF 0 6 .nan = "nan".toList := by
  refine ⟨by norm_num [nanN], by norm_num [nanE], by norm_num [nanN, nanC, nanE], ?_, rfl⟩
  have hroot : 1 + 5 / 10 ^ 8 ≤ gstRoot m (f32 nanN) (f32 nanC) (f32 nanE) := by
    have e : gstRoot m (f32 nanN) (f32 nanC) (f32 nanE) = m.sqrt (disc' (f32 nanN) (f32 nanC) (f32 nanE)) := rfl
    rw [e]
    exact root_ge hm (q := 1 + 55 / 10 ^ 9) (by norm_num) (by decide +kernel) (by norm_num)
  have ht : f64 (gstTrace (f32 nanN) (f32 nanE) / 2) = 1 := by decide +kernel
  have hneg : gstEig2 m (f32 nanN) (f32 nanC) (f32 nanE) < 0 := by
    unfold gstEig2
    rw [ht]
    generalize gstRoot m (f32 nanN) (f32 nanC) (f32 nanE) = r at *
    have hx : 1 - r ≤ -(5 / 10 ^ 8) := by linarith
    have h1 := f64_relz (x := 1 - r) (Or.inr (by rw [abs_of_neg (by linarith [(by norm_num : (0 : ℚ) < 5 / 10 ^ 8)])]; norm_num at hx ⊢; linarith))
    rw [abs_of_neg (a := 1 - r) (by linarith [(by norm_num : (0 : ℚ) < 5 / 10 ^ 8)]), abs_le] at h1
    norm_num at h1 hx
    linarith [h1.2]
  simp [gstVals, sqrtDbl, hneg]

/-! ### the GST sentence -/

/-- the orientation is between -90 and 90 degrees, whatever the matrix -/
theorem orient_range {m : Libm} (hm : Accurate m) (nn ne ee : ℚ) : |(gstOrientation m nn ne ee : ℝ)| ≤ 90 + 1 / 10 ^ 9 := by
  unfold gstOrientation
  simp only
  split
  · generalize f64 (ne / f64 (gstEig1 m nn ne ee - ee)) = g
    have hlo := Real.neg_pi_div_two_lt_arctan (g : ℝ)
    have hhi := Real.arctan_lt_pi_div_two (g : ℝ)
    have hpi := Real.pi_le_four
    have hpi0 := Real.pi_pos
    have hd := degrees_near hm (t := Real.arctan (g : ℝ)) (by rw [abs_le]; constructor <;> linarith) (by positivity) (by norm_num) (hm.atan g)
    have e : (90 : ℝ) = Real.pi / 2 * (180 / Real.pi) := by field_simp; norm_num
    have hA : |Real.arctan (g : ℝ) * (180 / Real.pi)| ≤ 90 := by
      rw [abs_mul, abs_of_pos (by positivity : 0 < 180 / Real.pi), e]
      exact mul_le_mul_of_nonneg_right (abs_le.2 ⟨by linarith, hhi.le⟩) (by positivity)
    rw [abs_le] at *
    norm_num at hd
    norm_num
    constructor <;> linarith [hd.1, hd.2, hA.1, hA.2]
  · split <;> norm_num

theorem gst_fields {L : Lib} {st : St} {s : Sentence} {a b c d e f : Dbl} (hu : TwoDigit (st.store.utc st.src)) (h : sendGst L st = some s)
    (hfix : (st.store.pos st.src).flags % 8 ≠ 0) (ht : gstTalkers L st ≠ []) (hg : L.gst (st.store.pos st.src) = [a, b, c, d, e, f]) :
    (fields s.texts.flatten).drop 3 = [fmtF 0 6 a, fmtF 0 6 b, fmtF 0 1 c, fmtF 0 6 d, fmtF 0 6 e, fmtF 0 6 f] := by
  unfold sendGst at h
  simp only [Option.bind_eq_bind, Option.bind_eq_some_iff, hg] at h
  obtain ⟨ft, hft, h⟩ := h
  have h0 : ft ≠ 0 := (fixType_le hft).2.2 hfix
  rw [if_neg (by rintro (h1 | h1); exact ht (List.length_eq_zero_iff.1 h1); exact h0 h1)] at h
  rw [Option.some.injEq] at h
  obtain ⟨ut, hu1, hu2⟩ := utc_time L hu
  subst h
  simp only [List.flatten_cons, hu2]
  split
  · rename_i t _
    have ht' : (talkerStr t).count ',' = 0 := by fin_cases t <;> rfl
    simp [lit, fields_append, fields_comma, fields_char, cU', cD', cF', addHead_addHead, addHead_cons, hu1, ht', fields_one, addHead]
  · simp [lit, fields_append, fields_comma, fields_char, cU', cD', cF', addHead_addHead, addHead_cons, hu1, fields_one, addHead]

/-- **C79** A GST sentence sent with a fix, from a position message with a covariance matrix: fields 3 to 8 carry the semi-axes, the orientation
(partial, as above) and the standard deviations. -/
theorem C79_gst_partial {m : Libm} (hm : Accurate m) {base : Lib} {st : St} {s : Sentence} {nn ne ee dd : ℚ} (hu : TwoDigit (st.store.utc st.src))
    (h : sendGst (libOf m base) st = some s) (hfix : (st.store.pos st.src).flags % 8 ≠ 0) (ht : gstTalkers (libOf m base) st ≠ [])
    (h1 : (st.store.pos st.src).covNN = .fin nn) (h2 : (st.store.pos st.src).covNE = .fin ne) (h3 : (st.store.pos st.src).covEE = .fin ee)
    (h4 : (st.store.pos st.src).covDD = .fin dd) (hdd : 0 ≤ dd) (hc : CovOk nn ne ee) {hi lo : ℝ}
    (hhi : IsGreatest (Set.range (variance nn ne ee)) hi) (hlo : IsLeast (Set.range (variance nn ne ee)) lo) :
    ∃ (f3 f4 f5 f6 f7 f8 : Str) (k3 k4 k6 k7 k8 : Nat) (z : ℚ), (fields s.texts.flatten).drop 3 = [f3, f4, f5, f6, f7, f8] ∧
      DecField 6 f3 k3 ∧ |(k3 : ℝ) / 10 ^ 6 - √hi| ≤ 1 / 10 ^ 6 + √hi / 850 ∧
      DecField 6 f4 k4 ∧ |(k4 : ℝ) / 10 ^ 6 - √lo| ≤ 1 / 10 ^ 6 + √((hi + lo) / 1900) ∧
      SDecField 1 f5 z ∧ |z| ≤ 90.1 ∧ (Tilted nn ne ee → ∃ θ : ℝ, |(z : ℝ) - θ| ≤ 1 / 20 ∧ hi - ((nn : ℝ) + ee) / 50000 ≤ variance nn ne ee (θ * (Real.pi / 180))) ∧
      DecField 6 f6 k6 ∧ |(k6 : ℝ) / 10 ^ 6 - √nn| ≤ 1 / 10 ^ 6 + √nn / 2 ^ 23 ∧
      DecField 6 f7 k7 ∧ |(k7 : ℝ) / 10 ^ 6 - √ee| ≤ 1 / 10 ^ 6 + √ee / 2 ^ 23 ∧
      DecField 6 f8 k8 ∧ |(k8 : ℝ) / 10 ^ 6 - √dd| ≤ 1 / 10 ^ 6 + √dd / 2 ^ 23 := by
  obtain ⟨a, b, ga, gb, a0, b0, na, nb⟩ := C79_axes (dd := dd) hm hc hhi hlo
  obtain ⟨c, d, e, gs, nc, nd, ne'⟩ := C79_std (ne := ne) hm hc.north hc.east hdd
  have hvals : gstVals m nn ne ee dd = [.fin a, .fin b, .fin (gstOrientation m nn ne ee), .fin c, .fin d, .fin e] := by
    simp only [gstVals, List.getElem?_cons_zero, List.getElem?_cons_succ, Option.some.injEq, List.drop_succ_cons, List.drop_zero, List.cons.injEq, and_true] at ga gb gs ⊢
    exact ⟨ga, gb, trivial, gs⟩
  have hlib : (libOf m base).gst (st.store.pos st.src) = gstVals m nn ne ee dd := by simp only [libOf, h1, h2, h3, h4]
  have hf := gst_fields hu h hfix ht (hlib.trans hvals)
  have c0 : 0 ≤ c ∧ 0 ≤ d ∧ 0 ≤ e := by
    simp only [gstVals, List.drop_succ_cons, List.drop_zero, sqrtDbl, not_lt.2 hc.north, not_lt.2 hc.east, not_lt.2 hdd, if_false, List.cons.injEq, Dbl.fin.injEq, and_true] at gs
    obtain ⟨rfl, rfl, rfl⟩ := gs
    exact ⟨(accurate_nonneg hm hc.north).2, (accurate_nonneg hm hc.east).2, (accurate_nonneg hm hdd).2⟩
  obtain ⟨k3, x3, y3⟩ := fmtF_dec (p := 6) (by omega) a0
  obtain ⟨k4, x4, y4⟩ := fmtF_dec (p := 6) (by omega) b0
  obtain ⟨z, x5, y5⟩ := fmtF_sdec (p := 1) (by omega) (gstOrientation m nn ne ee)
  obtain ⟨k6, x6, y6⟩ := fmtF_dec (p := 6) (by omega) c0.1
  obtain ⟨k7, x7, y7⟩ := fmtF_dec (p := 6) (by omega) c0.2.1
  obtain ⟨k8, x8, y8⟩ := fmtF_dec (p := 6) (by omega) c0.2.2
  have hb : |(b : ℝ) - √lo| ≤ √((hi + lo) / 1900) := by
    have hlo0 : 0 ≤ lo := by rw [least_eig hlo]; exact (eig_bounds hc).1
    have hhi0 : 0 ≤ hi := by rw [greatest_eig hhi]; exact (eig_bounds hc).1.trans (eig_bounds hc).2.1
    have hb0 : (0 : ℝ) ≤ b := by exact_mod_cast b0
    have := sqrt_near (d := √((hi + lo) / 1900)) (sq_nonneg (b : ℝ)) hlo0 (Real.sqrt_nonneg _) (by rw [Real.sq_sqrt (by positivity)]; exact nb)
    rwa [Real.sqrt_sq hb0] at this
  have pr : ∀ {k : Nat} {q : ℚ} {x w : ℝ}, |(k : ℚ) / 10 ^ 6 - q| ≤ 1 / 2 / 10 ^ 6 → |(q : ℝ) - x| ≤ w → |(k : ℝ) / 10 ^ 6 - x| ≤ 1 / 10 ^ 6 + w := by
    intro k q x w hk hq
    have := print_near hk (by norm_num : ((1 / 2 / 10 ^ 6 : ℚ) : ℝ) = 1 / 2000000) hq
    push_cast at this
    refine this.trans ?_
    norm_num
  refine ⟨_, _, _, _, _, _, k3, k4, k6, k7, k8, z, hf, x3, pr y3 na, x4, pr y4 hb, x5, ?_, ?_, x6, pr y6 nc, x7, pr y7 nd, x8, pr y8 ne'⟩
  · have := orient_range hm nn ne ee
    have h' : |(z : ℝ) - (gstOrientation m nn ne ee : ℝ)| ≤ 1 / 20 := castR y5 rfl (by norm_num)
    have hz : |(z : ℝ)| ≤ ((90.1 : ℚ) : ℝ) := by
      rw [abs_le] at *
      norm_num at *
      constructor <;> linarith [this.1, this.2, h'.1, h'.2]
    exact_mod_cast hz
  · intro htl
    refine ⟨gstOrientation m nn ne ee, castR y5 rfl (by norm_num), ?_⟩
    rw [greatest_eig hhi]
    have := (orient_near hm hc htl).1
    push_cast at this
    exact this

/-- hypotheses of C79_gst_partial, C79_vtg, C79_rmc: an epoch with a fix, a velocity, a covariance matrix and one GPS satellite -/
def exGstSt : St := { init .gnss 1 with
  numObs := 1, navSids := [⟨5, 0⟩],
  store := { utc := fun _ => exUtc
             pos := fun _ => { lat := .fin 37, lon := .fin (-122), height := .fin 10, covNN := .fin 4, covNE := .fin 1, covEE := .fin 2, covDD := .fin 9, nSats := 9, flags := 4 }
             vel := fun _ => { n := 3000, e := -4000, flags := 1 } } }
example : CovOk 4 1 2 ∧ Tilted 4 1 2 := ⟨⟨by norm_num, by norm_num, by norm_num, by norm_num, by norm_num⟩, Or.inr (by norm_num)⟩
example (m : Libm) : (sendGst (libOf m exLib) exGstSt).isSome ∧ (sendVtg (libOf m exLib) exGstSt).isSome ∧ (sendRmc (libOf m exLib) exGstSt).isSome ∧
    gstTalkers (libOf m exLib) exGstSt ≠ [] ∧ TwoDigit (exGstSt.store.utc exGstSt.src) ∧ (exGstSt.store.vel exGstSt.src).flags % 8 ≠ 0 ∧ (exGstSt.store.pos exGstSt.src).flags % 8 ≠ 0 := by
  refine ⟨?_, ?_, ?_, ?_, ?_, ?_, ?_⟩
  · rfl
  · rfl
  · unfold sendRmc
    have h1 : (splitAngle (exGstSt.store.pos exGstSt.src).lat).isSome := by decide +kernel
    have h2 : (splitAngle (exGstSt.store.pos exGstSt.src).lon).isSome := by decide +kernel
    obtain ⟨a, ha⟩ := Option.isSome_iff_exists.1 h1
    obtain ⟨b, hb⟩ := Option.isSome_iff_exists.1 h2
    simp only [ha, hb]
    rfl
  · have : gstTalkers (libOf m exLib) exGstSt = gstTalkers exLib exGstSt := rfl
    rw [this]; decide
  · decide
  · decide
  · decide
example : groundSpeed 3000 (-4000) = 5 := by
  unfold groundSpeed
  rw [show ((3000 : Int) / 1000 : ℝ) ^ 2 + ((-4000 : Int) / 1000 : ℝ) ^ 2 = 5 ^ 2 by norm_num]
  exact Real.sqrt_sq (by norm_num)

end Verif.Nmea
