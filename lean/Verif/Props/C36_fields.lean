import Verif.Props.C36
import Verif.Lemmas.NmeaSentFields
/-
C36, continued: the course, status, mode and quality fields as they stand in the sentences.
-/
set_option linter.unusedSimpArgs false
namespace Verif.Nmea
open Verif.Nmea.Spec Verif.Fp

theorem status_spec (flags : Nat) : nmeaStatus flags = (fixOf flags).map statusOf := by
  unfold nmeaStatus fixOf posMode
  have : flags % 8 < 8 := Nat.mod_lt _ (by omega)
  generalize flags % 8 = k at *
  interval_cases k <;> rfl

theorem mode_spec (flags : Nat) : nmeaMode flags = (fixOf flags).map modeOf := by
  unfold nmeaMode fixOf posMode
  have : flags % 8 < 8 := Nat.mod_lt _ (by omega)
  generalize flags % 8 = k at *
  interval_cases k <;> rfl

theorem fixType_spec (flags : Nat) : fixType flags = (fixOf flags).map qualityOf := by
  unfold fixType nmeaQuality fixOf posMode
  have : flags % 8 < 8 := Nat.mod_lt _ (by omega)
  generalize flags % 8 = k at *
  interval_cases k <;> rfl

/-- the field that carries the course over ground -/
def courseIx : NmeaId → Option Nat
  | .rmc => some 8 | .vtg => some 1 | .pubx => some 12 | _ => none

/-- **C36** In every run on wire messages, the course field of every RMC, VTG and PUBX sentence is empty or a value with one
decimal in [0, 360), whichever way the remembered course came about. -/
theorem C36_course_range {L : Lib} (hL : CourseBounded L) (mode : Mode) (freq : ℚ) {is : List In} {st' : St} {es : List Emit}
    (hI : ∀ i ∈ is, WireIn i) (h : run L (init mode freq) is = some (st', es)) :
    ∀ e ∈ es, ∀ ix, courseIx e.id = some ix → ∃ f, (fields e.sentence.texts.flatten)[ix]? = some f ∧ BlankOrCourse f := by
  intro e he ix hix
  obtain ⟨st, hs, -, -, -, st1, ss, hsend, hm⟩ := (wire_run hL (H := fun _ => True) (WireSt.init trivial mode freq) hI (fun _ _ _ => trivial) h).2 e he
  have key : ∀ c, (c = [] ∨ c = fmtF 0 1 (.fin (calcCog L (st.store.vel st.src) st.cogUpdateThreshold st.lastCog))) → BlankOrCourse c := by
    rintro c (rfl | rfl)
    · exact Or.inl rfl
    · obtain ⟨k, -, hk⟩ := cog_print (calcCog_ok (v := st.store.vel st.src) (th := st.cogUpdateThreshold) (hL _ _) hs.cog).1
      exact Or.inr ⟨k, hk⟩
  cases hid : e.id <;> rw [hid] at hix hsend <;> simp only [courseIx, Option.some.injEq, reduceCtorEq] at hix <;> subst hix <;>
    simp only [send, Option.map_eq_some_iff, Prod.mk.injEq] at hsend <;> obtain ⟨r, hr, -, rfl⟩ := hsend <;>
    simp only [List.mem_singleton] at hm <;> rw [hm]
  · obtain ⟨_, _, c, _, _, hc, _, hf, _⟩ := rmc_fields (hs.utc _) hr
    exact ⟨c, hf, key c hc⟩
  · obtain ⟨_, c, _, hc, _, hf, _⟩ := vtg_fields hr
    exact ⟨c, hf, key c hc⟩
  · obtain ⟨c, hc, hf, -⟩ := pubx_fields (hs.utc _) hr
    exact ⟨c, hf, key c hc⟩

/-- **C36** The course of a VTG sentence with valid velocity, at or above both speed thresholds, is the course of the velocity
modulo whole turns, to within half a printed unit. -/
theorem C36_course_value {L : Lib} (hL : CourseBounded L) {st : St} {r : St × Sentence} (h : sendVtg L st = some r)
    (hv : (st.store.vel st.src).flags % 8 ≠ 0)
    (hs : f64 (knotsFactor * st.cogThreshold) ≤ L.sogKnots (st.store.vel st.src).n (st.store.vel st.src).e)
    (hu : f64 (knotsFactor * st.cogUpdateThreshold) ≤ L.sogKnots (st.store.vel st.src).n (st.store.vel st.src).e)
    (hcog : CogOk st.lastCog) :
    ∃ f n1, (fields r.2.texts.flatten)[1]? = some f ∧ CourseField f n1 ∧
      ∃ turns : Int, |(n1 : ℚ) / 10 - (L.courseDeg (st.store.vel st.src).n (st.store.vel st.src).e + turns * 360)| ≤ 5 / 100 + 1 / 10 ^ 9 := by
  obtain ⟨_, c, _, -, hc, hf, _⟩ := vtg_fields h
  obtain ⟨k, hk, he, t, ht⟩ := (calcCog_ok (hL (st.store.vel st.src).n (st.store.vel st.src).e) hcog).2 hu
  refine ⟨c, k, hf, ?_, t, ht⟩
  rw [hc hv hs, he]
  have e := f64_tenth k (by omega)
  refine ⟨fmtF_near (by omega) (f64_nonneg (by positivity)) ?_, hk⟩
  rw [abs_le] at e
  rw [abs_lt]
  constructor <;> (norm_num; linarith)

/-- **C36** Status, mode and quality characters follow the solution mode of the position message. -/
theorem C36_indicators {L : Lib} {st st' : St} {id : NmeaId} {ss : List Sentence} (hu : TwoDigit (st.store.utc st.src))
    (h : send L id st = some (st', ss)) (hid : id = .gga ∨ id = .rmc ∨ id = .vtg ∨ id = .gll) :
    ∃ fix, fixOf (st.store.pos st.src).flags = some fix ∧ ∀ s ∈ ss,
      (id = .gga → ∃ f, (fields s.texts.flatten)[6]? = some f ∧ f = [Char.ofNat (48 + qualityOf fix)]) ∧
      (id = .rmc → (fields s.texts.flatten)[2]? = some [statusOf fix] ∧ (fields s.texts.flatten)[12]? = some [modeOf fix]) ∧
      (id = .gll → (fields s.texts.flatten)[6]? = some [statusOf fix] ∧ (fields s.texts.flatten)[7]? = some [modeOf fix]) ∧
      (id = .vtg → (fields s.texts.flatten)[9]? = some [modeOf fix]) := by
  rcases hid with rfl | rfl | rfl | rfl <;> simp only [send, Option.map_eq_some_iff, Prod.mk.injEq] at h <;> obtain ⟨r, hr, -, rfl⟩ := h
  · obtain ⟨q, hq, hf⟩ := gga_fields hu hr
    rw [fixType_spec, Option.map_eq_some_iff] at hq
    obtain ⟨fix, hfix, rfl⟩ := hq
    refine ⟨fix, hfix, ?_⟩
    simp only [List.mem_singleton, forall_eq, reduceCtorEq, false_implies, and_true, true_implies]
    exact ⟨_, hf, by cases fix <;> decide +kernel⟩
  · obtain ⟨m, s, c, hm, hs, -, h2, -, h12⟩ := rmc_fields hu hr
    rw [mode_spec, Option.map_eq_some_iff] at hm
    obtain ⟨fix, hfix, rfl⟩ := hm
    rw [status_spec, hfix] at hs
    refine ⟨fix, hfix, ?_⟩
    simp only [List.mem_singleton, forall_eq, reduceCtorEq, false_implies, and_true, true_implies, true_and]
    exact ⟨by rw [h2, ← Option.some.inj hs], h12⟩
  · obtain ⟨m, c, hm, -, -, -, h9⟩ := vtg_fields hr
    rw [mode_spec, Option.map_eq_some_iff] at hm
    obtain ⟨fix, hfix, rfl⟩ := hm
    refine ⟨fix, hfix, ?_⟩
    simp only [List.mem_singleton, forall_eq, reduceCtorEq, false_implies, and_true, true_implies, true_and]
    exact h9
  · obtain ⟨m, t, hm, hs, h6, h7⟩ := gll_fields hu hr
    rw [mode_spec, Option.map_eq_some_iff] at hm
    obtain ⟨fix, hfix, rfl⟩ := hm
    rw [status_spec, hfix] at hs
    refine ⟨fix, hfix, ?_⟩
    simp only [List.mem_singleton, forall_eq, reduceCtorEq, false_implies, and_true, true_implies, true_and]
    exact ⟨by rw [h6, ← Option.some.inj hs], h7⟩

/-- **C36** A solution with base station corrections is exactly a differential, RTK float or RTK fixed one (an SBAS one is not). In
a GGA sentence the last two fields, the age of the corrections in tenths of a second and the four digit station, are filled exactly
for those; in a PUBX sentence the navigation status is D3 exactly for those, NF without a fix, DR for dead reckoning and G3
otherwise. -/
theorem C36_differential {L : Lib} {st st' : St} {id : NmeaId} {ss : List Sentence} (hu : TwoDigit (st.store.utc st.src))
    (h : send L id st = some (st', ss)) :
    (id = .gga → ∃ fix, fixOf (st.store.pos st.src).flags = some fix ∧ ∀ s ∈ ss, ∃ c d, (fields s.texts.flatten).drop 13 = [c, d] ∧
      if usesBase fix then d = digitsN 4 (st.baseId % 1024) ∧
        (∀ age, age = (if st.actual = .gnss then st.store.age.age else st.store.solnMeta.age) → age < 65536 → DecField 1 c age)
      else c = [] ∧ d = []) ∧
    (id = .pubx → ∃ fix, fixOf (st.store.pos st.src).flags = some fix ∧ ∀ s ∈ ss,
      (fields s.texts.flatten)[8]? = some (navStatOf fix)) := by
  have hb : ∀ flags q fix, fixOf flags = some fix → q = qualityOf fix → isDiff q flags = usesBase fix ∧ navStat q flags = navStatOf fix := by
    intro flags q fix hf hq
    subst hq
    unfold fixOf at hf
    unfold navStat isDiff posMode
    have : flags % 8 < 8 := Nat.mod_lt _ (by omega)
    generalize flags % 8 = k at *
    interval_cases k <;> simp only [Option.some.injEq, reduceCtorEq] at hf <;> subst hf <;> decide
  refine ⟨?_, ?_⟩ <;> rintro rfl <;> simp only [send, Option.map_eq_some_iff, Prod.mk.injEq] at h <;> obtain ⟨r, hr, -, rfl⟩ := h
  · obtain ⟨q, hq, c, d, hf, h1, h2⟩ := gga_last hu hr
    rw [fixType_spec, Option.map_eq_some_iff] at hq
    obtain ⟨fix, hfix, hq⟩ := hq
    refine ⟨fix, hfix, ?_⟩
    simp only [List.mem_singleton, forall_eq]
    refine ⟨c, d, hf, ?_⟩
    rw [(hb _ _ _ hfix hq.symm).1] at h1 h2
    cases hx : usesBase fix
    · exact h1 hx
    · obtain ⟨rfl, rfl⟩ := h2 hx
      rw [if_pos rfl]
      refine ⟨fmtU_digitsN 4 _ (by omega) (by omega), ?_⟩
      intro h16
      generalize (if st.actual = .gnss then st.store.age.age else st.store.solnMeta.age) = age at *
      unfold tenth
      have ha : (age : ℚ) ≤ 65535 := by exact_mod_cast (by omega : age ≤ 65535)
      have h0 : (0 : ℚ) ≤ age := Nat.cast_nonneg _
      have t : |f64 (1 / 10) - 1 / 10| ≤ 1 / 10 ^ 12 := (f64_near (x := (1 : ℚ) / 10) (b := 1) (by norm_num)).trans (by norm_num)
      rw [abs_le] at t
      have t0 : (0 : ℚ) ≤ f64 (1 / 10) := f64_nonneg (by norm_num)
      have hm1 : (age : ℚ) * f64 (1 / 10) ≤ age * (1 / 10 + 1 / 10 ^ 12) := mul_le_mul_of_nonneg_left (by linarith [t.2]) h0
      have hm2 : (age : ℚ) * (1 / 10 - 1 / 10 ^ 12) ≤ age * f64 (1 / 10) := mul_le_mul_of_nonneg_left (by linarith [t.1]) h0
      have hp : (0 : ℚ) ≤ age * f64 (1 / 10) := mul_nonneg h0 t0
      have e := (f64_near (x := (age : ℚ) * f64 (1 / 10)) (b := 6554) (by rw [abs_of_nonneg hp]; linarith)).trans (show _ ≤ (1 : ℚ) / 10 ^ 9 by norm_num)
      rw [abs_le] at e
      refine fmtF_near (by omega) (f64_nonneg hp) ?_
      rw [abs_lt]
      constructor <;> linarith [e.1, e.2]
  · obtain ⟨c, -, -, q, hq, hf⟩ := pubx_fields hu hr
    rw [fixType_spec, Option.map_eq_some_iff] at hq
    obtain ⟨fix, hfix, hq⟩ := hq
    refine ⟨fix, hfix, ?_⟩
    simp only [List.mem_singleton, forall_eq]
    rw [hf, (hb _ _ _ hfix hq.symm).2]

/-- **C36, negative** A position whose mode bits are 7 (a value the SBP definition does not assign) makes every position sentence
abort the program: no sentence is produced. -/
theorem C36_undefined_mode_bug (L : Lib) (st : St) (h : (st.store.pos st.src).flags % 8 = 7) :
    sendGga L st = none ∧ sendRmc L st = none ∧ sendVtg L st = none ∧ sendGll L st = none := by
  have hm : nmeaMode (st.store.pos st.src).flags = none := by unfold nmeaMode posMode; rw [h]; rfl
  have hs : nmeaStatus (st.store.pos st.src).flags = none := by unfold nmeaStatus posMode; rw [h]; rfl
  have hf : fixType (st.store.pos st.src).flags = none := by rw [fixType_spec]; unfold fixOf; rw [h]; rfl
  refine ⟨?_, ?_, ?_, ?_⟩
  · unfold sendGga; simp only [hf]; cases splitAngle (st.store.pos st.src).lat <;> cases splitAngle (st.store.pos st.src).lon <;> rfl
  · unfold sendRmc; simp only [hm]; cases splitAngle (st.store.pos st.src).lat <;> cases splitAngle (st.store.pos st.src).lon <;> rfl
  · unfold sendVtg; simp only [hm]; rfl
  · unfold sendGll; simp only [hm, hs]; cases splitAngle (st.store.pos st.src).lat <;> cases splitAngle (st.store.pos st.src).lon <;> rfl

/-- a run whose RMC and VTG course fields are not empty -/
def exVel : List In :=
  [.rate .rmc 1, .rate .vtg 1,
   .msg (.gpsTime true { wn := 2100, tow := 5000 }),
   .msg (.pos true { tow := 5000, lat := .fin 37, lon := .fin (-122), height := .fin 10, nSats := 12, flags := 3 }),
   .msg (.vel true { tow := 5000, n := 0, e := -30000, d := -12345, flags := 1 }),
   .msg (.dops { tow := 5000, flags := 1 }), .msg (.age { tow := 5000, age := 12 }),
   .msg (.utc true { exUtc with tow := 5000, ns := 0 })]
example : ((run { exLib2 with courseDeg := fun _ _ => -90 } (init .gnss 1) exVel).map fun r => r.2.map fun e => e.sentence.texts.flatten) = some
    ["$GPRMC,235959.00,A,3700.0000000,N,12200.0000000,W,60.00,270.0,280220,,,D".toList, "$GPVTG,270.0,T,,M,60.00,N,111.00,K,D".toList] := by
  decide +kernel
example : CourseBounded { exLib2 with courseDeg := fun _ _ => -90 } := fun _ _ => by norm_num

end Verif.Nmea
