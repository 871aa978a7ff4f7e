import Verif.Props.C31
/-
Where the course, status, mode and quality fields stand in the sentences (for C36).
-/
set_option linter.unusedSimpArgs false
set_option linter.unusedVariables false
namespace Verif.Nmea
open Verif.Nmea.Spec Verif.Fp

/-- an empty field or a course -/
def BlankOrCourse (f : Str) : Prop := f = [] ∨ ∃ k, CourseField f k

theorem utc_time (L : Lib) {t : Utc} (h : TwoDigit t) : ∃ f, f.count ',' = 0 ∧ utcString L true false false t = f ++ [','] := by
  by_cases hf : t.flags = 0
  · exact ⟨[], rfl, (C33_unknown L t hf).1⟩
  · rcases h with h | h
    · exact absurd h hf
    obtain ⟨h1, h2, h3, h4, h5, h6, h7⟩ := roundUtc_two L h
    have two' : ∀ n, n < 100 → (fmtU 2 n).length = 2 := fun n hn => by rw [fmtU_two ⟨n, hn⟩]; rfl
    have l1 : lit "," = [','] := rfl
    have l2 : lit "." = ['.'] := rfl
    have t22 : tsMaxLen - 1 = 22 := rfl
    unfold utcString
    simp only [hf, if_false, if_true, Bool.false_eq_true, l1, l2]
    rw [List.take_of_length_le (by simp only [List.length_append, List.length_cons, List.length_nil, two' _ h1, two' _ h2, two' _ h3, two' _ h4]; omega)]
    refine ⟨fmtU 2 (roundUtc L t).hours ++ fmtU 2 (roundUtc L t).minutes ++ fmtU 2 (roundUtc L t).seconds ++ ['.'] ++ fmtU 2 (roundUtc L t).ns, ?_, by simp⟩
    simp only [List.count_append, cU]
    rfl

theorem latLon_parts (a b : Nat × ℚ × Bool) : ∃ f1 f2 f3 f4 : Str, (f1.count ',' = 0 ∧ f2.count ',' = 0 ∧ f3.count ',' = 0 ∧ f4.count ',' = 0) ∧
    latLon a b = f1 ++ ',' :: (f2 ++ ',' :: (f3 ++ ',' :: (f4 ++ [',']))) := by
  refine ⟨fmtU 2 a.1 ++ fmtF 10 7 (.fin a.2.1), [if a.2.2 then 'S' else 'N'], fmtU 3 b.1 ++ fmtF 10 7 (.fin b.2.1),
    [if b.2.2 then 'W' else 'E'], ⟨?_, ?_, ?_, ?_⟩, ?_⟩
  · rw [List.count_append, cU, cF]
  · cases a.2.2 <;> rfl
  · rw [List.count_append, cU, cF]
  · cases b.2.2 <;> rfl
  · unfold latLon; simp [lit]

/-- the position part of a sentence occupies four fields -/
theorem pos_parts (c : Prop) [Decidable c] (a b : Nat × ℚ × Bool) : ∃ f1 f2 f3 f4 : Str,
    (f1.count ',' = 0 ∧ f2.count ',' = 0 ∧ f3.count ',' = 0 ∧ f4.count ',' = 0) ∧
    (if c then latLon a b else lit ",,,,") = f1 ++ ',' :: (f2 ++ ',' :: (f3 ++ ',' :: (f4 ++ [',']))) := by
  split
  · exact latLon_parts a b
  · exact ⟨[], [], [], [], ⟨rfl, rfl, rfl, rfl⟩, rfl⟩

/-- **C36** RMC: status in field 2, course in field 8, mode in field 12. -/
theorem rmc_fields {L : Lib} {st : St} {r : St × Sentence} (hu : TwoDigit (st.store.utc st.src)) (h : sendRmc L st = some r) :
    ∃ (m s : Char) (c : Str), nmeaMode (st.store.pos st.src).flags = some m ∧ nmeaStatus (st.store.pos st.src).flags = some s ∧
      (c = [] ∨ c = fmtF 0 1 (.fin (calcCog L (st.store.vel st.src) st.cogUpdateThreshold st.lastCog))) ∧
      (fields r.2.texts.flatten)[2]? = some [s] ∧ (fields r.2.texts.flatten)[8]? = some c ∧
      (fields r.2.texts.flatten)[12]? = some [m] := by
  unfold sendRmc at h
  simp only [Option.bind_eq_bind, Option.bind_eq_some_iff, Option.some.injEq] at h
  obtain ⟨a, -, b, -, m, hm, s, hs, rfl⟩ := h
  obtain ⟨ut, hu1, hu2⟩ := utc_time L hu
  obtain ⟨f1, f2, f3, f4, ⟨h1, h2, h3, h4⟩, he⟩ := pos_parts (posMode (st.store.pos st.src).flags ≠ 0) a b
  have hs' := (status_ok hs).2
  have hm' := (mode_ok hm).2
  have hd : ∃ ud : Str, ud.count ',' = 0 ∧ utcString L false true true (st.store.utc st.src) = ud ++ [','] := by
    by_cases hf : (st.store.utc st.src).flags = 0
    · exact ⟨[], rfl, (C33_unknown L _ hf).2.1⟩
    · rcases hu with h | h
      · exact absurd h hf
      obtain ⟨-, -, -, -, g5, g6, g7⟩ := roundUtc_two L h
      have two' : ∀ n, n < 100 → (fmtU 2 n).length = 2 := fun n hn => by rw [fmtU_two ⟨n, hn⟩]; rfl
      have l1 : lit "," = [','] := rfl
      have t22 : tsMaxLen - 1 = 22 := rfl
      have hy2 : (roundUtc L (st.store.utc st.src)).year % 100 % 256 < 100 := by omega
      unfold utcString
      simp only [hf, if_false, if_true, Bool.false_eq_true, l1]
      rw [List.take_of_length_le (by simp only [List.length_append, List.length_cons, List.length_nil, two' _ g5, two' _ g6, two' _ hy2]; omega)]
      refine ⟨fmtU 2 (roundUtc L (st.store.utc st.src)).day ++ fmtU 2 (roundUtc L (st.store.utc st.src)).month ++ fmtU 2 ((roundUtc L (st.store.utc st.src)).year % 100 % 256), ?_, by simp⟩
      simp only [List.count_append, cU]
  obtain ⟨ud, hd1, hd2⟩ := hd
  refine ⟨m, s, if velMode (st.store.vel st.src).flags ≠ 0 ∧ f64 (knotsFactor * st.cogThreshold) ≤ L.sogKnots (st.store.vel st.src).n (st.store.vel st.src).e
    then fmtF 0 1 (.fin (calcCog L (st.store.vel st.src) st.cogUpdateThreshold st.lastCog)) else [], hm, hs, ?_, ?_⟩
  · split
    · exact Or.inr rfl
    · exact Or.inl rfl
  · simp only [List.flatten_cons, List.flatten_append, hu2, hd2, he]
    by_cases hv : velMode (st.store.vel st.src).flags ≠ 0
    · by_cases hk : f64 (knotsFactor * st.cogThreshold) ≤ L.sogKnots (st.store.vel st.src).n (st.store.vel st.src).e
      · have hvk : velMode (st.store.vel st.src).flags ≠ 0 ∧ f64 (knotsFactor * st.cogThreshold) ≤ L.sogKnots (st.store.vel st.src).n (st.store.vel st.src).e := ⟨hv, hk⟩
        rw [if_pos hv, if_pos hk, if_pos hvk]
        simp [lit, fields_append, fields_comma, fields_char, cU', cD', cF', addHead_addHead, addHead_cons, h1, h2, h3, h4, hu1, hd1, hs', hm', fields]
      · have hvk : ¬ (velMode (st.store.vel st.src).flags ≠ 0 ∧ f64 (knotsFactor * st.cogThreshold) ≤ L.sogKnots (st.store.vel st.src).n (st.store.vel st.src).e) := fun h => hk h.2
        rw [if_pos hv, if_neg hk, if_neg hvk]
        simp [lit, fields_append, fields_comma, fields_char, cU', cD', cF', addHead_addHead, addHead_cons, h1, h2, h3, h4, hu1, hd1, hs', hm', fields]
    · have hvk : ¬ (velMode (st.store.vel st.src).flags ≠ 0 ∧ f64 (knotsFactor * st.cogThreshold) ≤ L.sogKnots (st.store.vel st.src).n (st.store.vel st.src).e) := fun h => hv h.1
      rw [if_neg hv, if_neg hvk]
      simp [lit, fields_append, fields_comma, fields_char, cU', cD', cF', addHead_addHead, addHead_cons, h1, h2, h3, h4, hu1, hd1, hs', hm', fields]

theorem vtg_fields {L : Lib} {st : St} {r : St × Sentence} (h : sendVtg L st = some r) :
    ∃ (m : Char) (c : Str), nmeaMode (st.store.pos st.src).flags = some m ∧
      (c = [] ∨ c = fmtF 0 1 (.fin (calcCog L (st.store.vel st.src) st.cogUpdateThreshold st.lastCog))) ∧
      (velMode (st.store.vel st.src).flags ≠ 0 → f64 (knotsFactor * st.cogThreshold) ≤ L.sogKnots (st.store.vel st.src).n (st.store.vel st.src).e →
        c = fmtF 0 1 (.fin (calcCog L (st.store.vel st.src) st.cogUpdateThreshold st.lastCog))) ∧
      (fields r.2.texts.flatten)[1]? = some c ∧ (fields r.2.texts.flatten)[9]? = some [m] := by
  unfold sendVtg at h
  simp only [Option.bind_eq_bind, Option.bind_eq_some_iff, Option.some.injEq] at h
  obtain ⟨m, hm, rfl⟩ := h
  have hm' := (mode_ok hm).2
  refine ⟨m, if velMode (st.store.vel st.src).flags ≠ 0 ∧ f64 (knotsFactor * st.cogThreshold) ≤ L.sogKnots (st.store.vel st.src).n (st.store.vel st.src).e
    then fmtF 0 1 (.fin (calcCog L (st.store.vel st.src) st.cogUpdateThreshold st.lastCog)) else [], hm, ?_, fun h1 h2 => if_pos ⟨h1, h2⟩, ?_⟩
  · split
    · exact Or.inr rfl
    · exact Or.inl rfl
  · simp only [List.flatten_cons]
    by_cases hvk : velMode (st.store.vel st.src).flags ≠ 0 ∧ f64 (knotsFactor * st.cogThreshold) ≤ L.sogKnots (st.store.vel st.src).n (st.store.vel st.src).e
    · rw [if_pos hvk, if_pos hvk, if_pos hvk.1]
      simp [lit, fields_append, fields_comma, fields_char, cU', cD', cF', addHead_addHead, addHead_cons, hm', fields]
    · rw [if_neg hvk, if_neg hvk]
      by_cases hv : velMode (st.store.vel st.src).flags ≠ 0
      · rw [if_pos hv]
        simp [lit, fields_append, fields_comma, fields_char, cU', cD', cF', addHead_addHead, addHead_cons, hm', fields]
      · rw [if_neg hv]
        simp [lit, fields_append, fields_comma, fields_char, cU', cD', cF', addHead_addHead, addHead_cons, hm', fields]

theorem gll_fields {L : Lib} {st : St} {s : Sentence} (hu : TwoDigit (st.store.utc st.src)) (h : sendGll L st = some s) :
    ∃ (m t : Char), nmeaMode (st.store.pos st.src).flags = some m ∧ nmeaStatus (st.store.pos st.src).flags = some t ∧
      (fields s.texts.flatten)[6]? = some [t] ∧ (fields s.texts.flatten)[7]? = some [m] := by
  unfold sendGll at h
  simp only [Option.bind_eq_bind, Option.bind_eq_some_iff, Option.some.injEq] at h
  obtain ⟨a, ha, b, hb, t, ht, m, hm, rfl⟩ := h
  obtain ⟨ut, hu1, hu2⟩ := utc_time L hu
  obtain ⟨f1, f2, f3, f4, ⟨h1, h2, h3, h4⟩, he⟩ := pos_parts (posMode (st.store.pos st.src).flags ≠ 0) a b
  have hs' := (status_ok ht).2
  have hm' := (mode_ok hm).2
  refine ⟨m, t, hm, ht, ?_⟩
  simp only [List.flatten_cons, hu2, he]
  simp [lit, fields_append, fields_comma, fields_char, cU', cD', cF', addHead_addHead, addHead_cons, h1, h2, h3, h4, hu1, hs', hm', fields]

theorem gga_fields {L : Lib} {st : St} {s : Sentence} (hu : TwoDigit (st.store.utc st.src)) (h : sendGga L st = some s) :
    ∃ q, fixType (st.store.pos st.src).flags = some q ∧ (fields s.texts.flatten)[6]? = some (fmtU 1 q) := by
  unfold sendGga at h
  simp only [Option.bind_eq_bind, Option.bind_eq_some_iff, Option.some.injEq] at h
  obtain ⟨a, ha, b, hb, ft, hft, rfl⟩ := h
  obtain ⟨ut, hu1, hu2⟩ := utc_time L hu
  obtain ⟨f1, f2, f3, f4, ⟨h1, h2, h3, h4⟩, he⟩ := pos_parts (ft ≠ 0) a b
  refine ⟨ft, hft, ?_⟩
  simp only [List.flatten_cons, hu2, he]
  generalize (if ft = 6 then _ else _ : Str) ++ (_ ++ _) = tail
  simp [lit, fields_append, fields_comma, fields_char, cU', addHead_addHead, addHead_cons, h1, h2, h3, h4, hu1]

/-- **C36** GGA: the last two fields, age of the corrections and station -/
theorem gga_last {L : Lib} {st : St} {s : Sentence} (hu : TwoDigit (st.store.utc st.src)) (h : sendGga L st = some s) :
    ∃ q, fixType (st.store.pos st.src).flags = some q ∧ ∃ c d : Str, (fields s.texts.flatten).drop 13 = [c, d] ∧
      (isDiff q (st.store.pos st.src).flags = false → c = [] ∧ d = []) ∧
      (isDiff q (st.store.pos st.src).flags = true →
        c = fmtF 0 1 (tenth (if st.actual = .gnss then st.store.age.age else st.store.solnMeta.age)) ∧
        d = fmtU 4 (st.baseId % 1024)) := by
  unfold sendGga at h
  simp only [Option.bind_eq_bind, Option.bind_eq_some_iff, Option.some.injEq] at h
  obtain ⟨a, ha, b, hb, ft, hft, rfl⟩ := h
  obtain ⟨ut, hu1, hu2⟩ := utc_time L hu
  obtain ⟨f1, f2, f3, f4, ⟨h1, h2, h3, h4⟩, he⟩ := pos_parts (ft ≠ 0) a b
  refine ⟨ft, hft, ?_⟩
  have hd : ∃ c d : Str, c.count ',' = 0 ∧ d.count ',' = 0 ∧
      (if isDiff ft (st.store.pos st.src).flags then fmtF 0 1 (tenth (if st.actual = .gnss then st.store.age.age else st.store.solnMeta.age)) ++
        lit "," ++ fmtU 4 (st.baseId % 1024) else lit ",") = c ++ ',' :: d ∧
      (isDiff ft (st.store.pos st.src).flags = false → c = [] ∧ d = []) ∧
      (isDiff ft (st.store.pos st.src).flags = true →
        c = fmtF 0 1 (tenth (if st.actual = .gnss then st.store.age.age else st.store.solnMeta.age)) ∧
        d = fmtU 4 (st.baseId % 1024)) := by
    cases hx : isDiff ft (st.store.pos st.src).flags
    · exact ⟨[], [], rfl, rfl, rfl, fun _ => ⟨rfl, rfl⟩, fun h => by cases h⟩
    · exact ⟨fmtF 0 1 (tenth (if st.actual = .gnss then st.store.age.age else st.store.solnMeta.age)), fmtU 4 (st.baseId % 1024), cF' 0 1 _, cU' 4 _, by rw [if_pos rfl, List.append_assoc]; rfl, fun h => (by cases h), fun _ => ⟨rfl, rfl⟩⟩
  obtain ⟨c, d, hc, hdc, hcd, r1, r2⟩ := hd
  refine ⟨c, d, ?_, r1, r2⟩
  have hm : ∀ hdop : Nat, ∃ m : Str, m.count ',' = 5 ∧
      (if ft = 6 then fmtU 2 (st.store.pos st.src).nSats ++ lit ",," ++ fmtF 0 2 ((st.store.pos st.src).height.sub (L.geoid (st.store.pos st.src).lat (st.store.pos st.src).lon)) ++ lit ",M," ++ fmtF 0 2 (.fin (L.geoid (st.store.pos st.src).lat (st.store.pos st.src).lon)) ++ lit ",M,"
     else if ft ≠ 0 then fmtU 2 (st.store.pos st.src).nSats ++ lit "," ++ fmtF 0 1 (dop10 hdop) ++ lit "," ++ fmtF 0 2 ((st.store.pos st.src).height.sub (L.geoid (st.store.pos st.src).lat (st.store.pos st.src).lon)) ++
       lit ",M," ++ fmtF 0 2 (.fin (L.geoid (st.store.pos st.src).lat (st.store.pos st.src).lon)) ++ lit ",M,"
     else lit ",,,M,,M,") = m ++ [','] := by
    intro hdop
    by_cases h6 : ft = 6
    · rw [if_pos h6]
      refine ⟨fmtU 2 (st.store.pos st.src).nSats ++ lit ",," ++ fmtF 0 2 ((st.store.pos st.src).height.sub (L.geoid (st.store.pos st.src).lat (st.store.pos st.src).lon)) ++ lit ",M," ++ fmtF 0 2 (.fin (L.geoid (st.store.pos st.src).lat (st.store.pos st.src).lon)) ++ lit ",M", ?_, by rw [List.append_assoc _ (lit ",M") [',']]; rfl⟩
      have l1 : (lit ",,").count ',' = 2 := rfl
      have l2 : (lit ",M,").count ',' = 2 := rfl
      have l3 : (lit ",M").count ',' = 1 := rfl
      simp only [List.count_append, cU', cF', l1, l2, l3]
    · rw [if_neg h6]
      by_cases h0 : ft ≠ 0
      · rw [if_pos h0]
        refine ⟨fmtU 2 (st.store.pos st.src).nSats ++ lit "," ++ fmtF 0 1 (dop10 hdop) ++ lit "," ++ fmtF 0 2 ((st.store.pos st.src).height.sub (L.geoid (st.store.pos st.src).lat (st.store.pos st.src).lon)) ++
       lit ",M," ++ fmtF 0 2 (.fin (L.geoid (st.store.pos st.src).lat (st.store.pos st.src).lon)) ++ lit ",M", ?_, by rw [List.append_assoc _ (lit ",M") [',']]; rfl⟩
        have l1 : (lit ",").count ',' = 1 := rfl
        have l2 : (lit ",M,").count ',' = 2 := rfl
        have l3 : (lit ",M").count ',' = 1 := rfl
        simp only [List.count_append, cU', cF', l1, l2, l3]
      · rw [if_neg h0]
        exact ⟨lit ",,,M,,M", rfl, rfl⟩
  obtain ⟨m, hm5, hm⟩ := hm (if st.actual = .gnss then st.store.dops.hdop else st.store.solnMeta.hdop)
  simp only [List.flatten_cons, hu2, he, hm, hcd, List.flatten_nil, List.append_nil]
  have e : lit "$GPGGA," ++ (ut ++ [','] ++ (f1 ++ ',' :: (f2 ++ ',' :: (f3 ++ ',' :: (f4 ++ [',']))) ++
      (fmtU 1 ft ++ lit "," ++ (m ++ [','] ++ (c ++ ',' :: d))))) =
      (lit "$GPGGA," ++ ut ++ [','] ++ f1 ++ [','] ++ f2 ++ [','] ++ f3 ++ [','] ++ f4 ++ [','] ++ fmtU 1 ft ++ [','] ++ m) ++ ',' :: (c ++ ',' :: d) := by
    simp [lit]
  rw [e, fields_split, fields_split, fields_one hc, fields_one hdc]
  refine List.drop_left' ?_
  rw [fields_length]
  have e1 : (lit "$GPGGA,").count ',' = 1 := by decide
  have e2 : [','].count ',' = 1 := by decide
  simp only [List.count_append, hu1, h1, h2, h3, h4, hm5, cU', e1, e2]


theorem field_at {n : Nat} {A c T : Str} (hc : c.count ',' = 0) (h : A.count ',' + 1 = n) :
    (fields (A ++ ',' :: (c ++ ',' :: T)))[n]? = some c := by
  have hl : (fields A).length = n := by rw [fields_length, h]
  rw [fields_split, fields_split, fields_one hc, List.getElem?_append_right (by omega), hl]
  simp

theorem pubx_fields {L : Lib} {st : St} {r : St × Sentence} (hu : TwoDigit (st.store.utc st.src)) (h : sendPubx L st = some r) :
    ∃ (c : Str), (c = [] ∨ c = fmtF 0 1 (.fin (calcCog L (st.store.vel st.src) st.cogUpdateThreshold st.lastCog))) ∧
      (fields r.2.texts.flatten)[12]? = some c ∧ ∃ q, fixType (st.store.pos st.src).flags = some q ∧
      (fields r.2.texts.flatten)[8]? = some (navStat q (st.store.pos st.src).flags) := by
  unfold sendPubx at h
  simp only [Option.bind_eq_bind, Option.bind_eq_some_iff, Option.some.injEq] at h
  obtain ⟨a, ha, b, hb, ft, hft, rfl⟩ := h
  obtain ⟨ut, hu1, hu2⟩ := utc_time L hu
  obtain ⟨f1, f2, f3, f4, ⟨h1, h2, h3, h4⟩, he⟩ := pos_parts (ft ≠ 0) a b
  have hn : ∀ x y, (navStat x y).count ',' = 0 := by intro x y; unfold navStat; split_ifs <;> rfl
  have q1 : ∃ g, g.count ',' = 0 ∧ (if ft ≠ 0 then latLon a b ++ fmtF 0 2 (st.store.pos st.src).height ++ lit "," else lit ",,,,,") =
      (if ft ≠ 0 then latLon a b else lit ",,,,") ++ (g ++ [',']) := by
    split
    · exact ⟨fmtF 0 2 (st.store.pos st.src).height, cF 0 2 _, by simp [lit]⟩
    · exact ⟨[], rfl, rfl⟩
  obtain ⟨g, hg, q1⟩ := q1
  have q2 : ∃ g1 g2 : Str, g1.count ',' = 0 ∧ g2.count ',' = 0 ∧ (if ft ≠ 0 then fmtF 0 1 (L.hacc (st.store.pos st.src)) ++ lit "," ++ fmtF 0 1 (L.vacc (st.store.pos st.src)) ++ lit "," else lit ",,") =
      g1 ++ ',' :: (g2 ++ [',']) := by
    split
    · exact ⟨fmtF 0 1 (L.hacc (st.store.pos st.src)), fmtF 0 1 (L.vacc (st.store.pos st.src)), cF 0 1 _, cF 0 1 _, by simp [lit]⟩
    · exact ⟨[], [], rfl, rfl, rfl⟩
  obtain ⟨g1, g2, hg1, hg2, q2⟩ := q2
  have q3 : ∃ (w c T : Str), w.count ',' = 0 ∧ (c = [] ∨ c = fmtF 0 1 (.fin (calcCog L (st.store.vel st.src) st.cogUpdateThreshold st.lastCog))) ∧
      (if velMode (st.store.vel st.src).flags ≠ 0 then
        [fmtF 0 2 (.fin (L.sogKph (st.store.vel st.src).n (st.store.vel st.src).e)) ++ lit ",",
         if f64 (knotsFactor * st.cogThreshold) < L.sogKnots (st.store.vel st.src).n (st.store.vel st.src).e then
           fmtF 0 1 (.fin (calcCog L (st.store.vel st.src) st.cogUpdateThreshold st.lastCog)) ++ lit "," else lit ",",
         fmtF 0 2 (.fin (f64 (f32 (st.store.vel st.src).d / 1000))) ++ lit ","]
       else [lit ",,,"]).flatten = w ++ ',' :: (c ++ ',' :: T) := by
    by_cases hv : velMode (st.store.vel st.src).flags ≠ 0
    · rw [if_pos hv]
      by_cases hk : f64 (knotsFactor * st.cogThreshold) < L.sogKnots (st.store.vel st.src).n (st.store.vel st.src).e
      · rw [if_pos hk]
        exact ⟨_, _, _, cF' 0 2 _, Or.inr rfl, by simp only [lit, List.flatten_cons, List.append_assoc]; rfl⟩
      · rw [if_neg hk]
        exact ⟨_, _, _, cF' 0 2 _, Or.inl rfl, by simp only [lit, List.flatten_cons, List.append_assoc]; rfl⟩
    · rw [if_neg hv]
      exact ⟨[], [], _, rfl, Or.inl rfl, rfl⟩
  obtain ⟨w, c, T, hw, hc, q3⟩ := q3
  have hc0 : c.count ',' = 0 := by rcases hc with rfl | rfl; rfl; exact cF' 0 1 _
  refine ⟨c, hc, ?_⟩
  simp only [List.flatten_append, List.flatten_cons, hu2, q1, he, q2, q3]
  generalize (if isDiff ft (st.store.pos st.src).flags = true then _ else _ : Str) ++ (_ ++ _) = tail
  have hx := hn ft (st.store.pos st.src).flags
  generalize hX : navStat ft (st.store.pos st.src).flags = x at *
  refine ⟨?_, ft, hft, ?_⟩
  rotate_left
  · rw [hX]
    refine Eq.trans (congrArg (fun l : Str => (fields l)[8]?) ?_) (field_at (n := 8) (A := "$PUBX,00,".toList ++ ut ++ [','] ++ f1 ++ [','] ++ f2 ++ [','] ++ f3 ++ [','] ++ f4 ++ [','] ++ g) (c := x)
      (T := g1 ++ [','] ++ g2 ++ [','] ++ w ++ [','] ++ c ++ [','] ++ T ++ tail) hx ?_)
    · have e3 : lit "," = [','] := rfl
      have e4 : lit "$PUBX,00," = "$PUBX,00,".toList := rfl
      simp only [e3, e4, List.append_assoc, List.cons_append, List.nil_append, List.flatten_nil, List.append_nil]
    · have e1 : "$PUBX,00,".toList.count ',' = 2 := by decide
      have e2 : [','].count ',' = 1 := by decide
      simp only [List.count_append, hu1, h1, h2, h3, h4, hg, e1, e2]
  refine Eq.trans (congrArg (fun l : Str => (fields l)[12]?) ?_) (field_at (n := 12) (A := "$PUBX,00,".toList ++ ut ++ [','] ++ f1 ++ [','] ++ f2 ++ [','] ++ f3 ++ [','] ++ f4 ++ [','] ++ g ++
    [','] ++ x ++ [','] ++ g1 ++ [','] ++ g2 ++ [','] ++ w) (T := T ++ tail) hc0 ?_)
  · have e3 : lit "," = [','] := rfl
    have e4 : lit "$PUBX,00," = "$PUBX,00,".toList := rfl
    simp only [e3, e4, List.append_assoc, List.cons_append, List.nil_append, List.flatten_nil, List.append_nil]
  · have e1 : "$PUBX,00,".toList.count ',' = 2 := by decide
    have e2 : [','].count ',' = 1 := by decide
    simp only [List.count_append, hu1, h1, h2, h3, h4, hg, hx, hg1, hg2, hw, e1, e2]

end Verif.Nmea
