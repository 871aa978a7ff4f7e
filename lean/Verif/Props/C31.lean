import Verif.Spec.NmeaSentence
import Verif.Props.C33
import Verif.Lemmas.NmeaNum
import Verif.Lemmas.NmeaWire
import Verif.Lemmas.NmeaFields
import Verif.Props.C36
/-
C31: every NMEA sentence carries a correct checksum and terminator.
-/
namespace Verif.Nmea
open Verif.Nmea.Spec Verif.Fp

/-- what the buffer code needs of a sentence -/
structure Good (s : Sentence) : Prop where
  max : 2 ≤ s.maxLen
  clean : Clean s.texts.flatten
  dollar : ∃ T, s.texts.flatten = '$' :: T

theorem clean_lit {s : String} (h : (lit s).all okChar = true) : Clean (lit s) := (clean_lit_iff s).2 h
theorem clean_ite {c : Prop} [Decidable c] {a b : Str} (ha : Clean a) (hb : Clean b) : Clean (if c then a else b) := by
  split <;> assumption
theorem clean_one {c : Char} (h : okChar c = true) : Clean [c] := by simp [Clean, h]

/-- the closed parts of a text are clean by evaluation, the printed numbers by the lemmas above -/
macro "clean_tac" : tactic => `(tactic|
  (repeat' first
    | with_reducible exact clean_nil
    | ((with_reducible apply clean_lit); decide)
    | with_reducible exact (field_fmtU _ _).clean
    | with_reducible exact (field_fmtD _ _).clean
    | with_reducible exact (field_fmtF _ _ _).clean
    | with_reducible exact latLon_clean _ _
    | with_reducible exact utc_clean _ _ _ _ _
    | ((with_reducible refine clean_append.2 ⟨?_, ?_⟩))
    | (with_reducible apply clean_ite)
    | ((with_reducible apply clean_one); decide)))

theorem dollar_of {a x : Str} (h : a.head? = some '$') : ∃ T, a ++ x = '$' :: T := by
  cases a with
  | nil => simp at h
  | cons c a => simp at h; subst h; exact ⟨a ++ x, rfl⟩

theorem status_ok {f : Nat} {c : Char} (h : nmeaStatus f = some c) : okChar c = true ∧ c ≠ ',' := by
  unfold nmeaStatus at h; split at h <;> simp at h <;> subst h <;> decide
theorem mode_ok {f : Nat} {c : Char} (h : nmeaMode f = some c) : okChar c = true ∧ c ≠ ',' := by
  unfold nmeaMode at h; split at h <;> simp at h <;> subst h <;> decide
theorem talker_clean (t : Fin 4) : Clean (talkerStr t) := by
  match t with
  | 0 | 1 | 2 | 3 => exact clean_lit rfl
theorem navStat_clean (a b : Nat) : Clean (navStat a b) := by unfold navStat; clean_tac

theorem good_gga {L : Lib} {st : St} {s : Sentence} (h : sendGga L st = some s) : Good s := by
  unfold sendGga at h
  simp only [Option.bind_eq_bind, Option.bind_eq_some_iff, Option.some.injEq] at h
  obtain ⟨a, -, b, -, ft, -, rfl⟩ := h
  refine ⟨by simp, ?_, dollar_of rfl⟩
  simp only [List.flatten_cons, List.flatten_nil]
  clean_tac

theorem good_rmc {L : Lib} {st : St} {r : St × Sentence} (h : sendRmc L st = some r) : Good r.2 := by
  unfold sendRmc at h
  simp only [Option.bind_eq_bind, Option.bind_eq_some_iff, Option.some.injEq] at h
  obtain ⟨a, -, b, -, m, hm, s, hs, rfl⟩ := h
  refine ⟨by simp, ?_, dollar_of rfl⟩
  have h1 := clean_one (mode_ok hm).1
  have h2 := clean_one (status_ok hs).1
  simp only [List.flatten_cons, List.flatten_nil, List.flatten_append]
  clean_tac
  all_goals first
    | exact h1
    | exact h2
    | (split <;> (simp only [List.flatten_cons, List.flatten_nil]; clean_tac))

theorem good_vtg {L : Lib} {st : St} {r : St × Sentence} (h : sendVtg L st = some r) : Good r.2 := by
  unfold sendVtg at h
  simp only [Option.bind_eq_bind, Option.bind_eq_some_iff, Option.some.injEq] at h
  obtain ⟨m, hm, rfl⟩ := h
  refine ⟨by simp, ?_, dollar_of rfl⟩
  have h1 := clean_one (mode_ok hm).1
  simp only [List.flatten_cons, List.flatten_nil, List.flatten_append]
  clean_tac
  exact h1

theorem good_hdt (st : St) : Good (sendHdt st) := by
  refine ⟨by simp [sendHdt], ?_, dollar_of rfl⟩
  simp only [sendHdt, List.flatten_cons, List.flatten_nil]
  clean_tac

theorem good_ths (st : St) : Good (sendThs st) := by
  refine ⟨by simp [sendThs], ?_, dollar_of rfl⟩
  simp only [sendThs, List.flatten_cons, List.flatten_nil]
  clean_tac
  split <;> (apply clean_one; decide)

theorem good_gll {L : Lib} {st : St} {s : Sentence} (h : sendGll L st = some s) : Good s := by
  unfold sendGll at h
  simp only [Option.bind_eq_bind, Option.bind_eq_some_iff, Option.some.injEq] at h
  obtain ⟨a, -, b, -, t, ht, m, hm, rfl⟩ := h
  refine ⟨by simp, ?_, dollar_of rfl⟩
  have h1 := clean_one (mode_ok hm).1
  have h2 := clean_one (status_ok ht).1
  simp only [List.flatten_cons, List.flatten_nil]
  clean_tac
  all_goals first | exact h1 | exact h2

theorem good_zda (L : Lib) (st : St) : Good (sendZda L st) := by
  refine ⟨by simp [sendZda], ?_, dollar_of rfl⟩
  simp only [sendZda, List.flatten_cons, List.flatten_nil]
  clean_tac

theorem good_gsaPrint (p : List Nat) (d : Dops) (t : Str) (ht : Clean t) : Good (gsaPrint p d t) := by
  refine ⟨by simp [gsaPrint], ?_, dollar_of rfl⟩
  simp only [gsaPrint, List.flatten_cons, List.flatten_nil, List.flatten_append]
  clean_tac
  all_goals first
    | exact ht
    | (split <;> (apply clean_one; decide))
    | skip
  · apply clean_flatten
    intro s hs
    obtain ⟨i, -, rfl⟩ := List.mem_map.1 hs
    cases (p.insertionSort (· ≤ ·))[i]? <;> simp only <;> clean_tac

theorem good_gst {L : Lib} {st : St} {s : Sentence} (h : sendGst L st = some s) : Good s := by
  unfold sendGst at h
  simp only [Option.bind_eq_bind, Option.bind_eq_some_iff] at h
  obtain ⟨ft, -, h⟩ := h
  split at h
  · simp only [Option.some.injEq] at h; subst h
    refine ⟨by simp, ?_, dollar_of rfl⟩
    simp only [List.flatten_cons, List.flatten_nil]
    clean_tac
  · split at h
    · simp only [Option.some.injEq] at h; subst h
      refine ⟨by simp, ?_, ?_⟩
      · simp only [List.flatten_cons, List.flatten_nil]
        clean_tac
        split
        · clean_tac; exact talker_clean _
        · clean_tac
      · simp only [List.flatten_cons]
        split <;> exact dollar_of rfl
    · simp at h

theorem gsvElemText_clean (L : Lib) (e : GsvElem) : Clean (gsvElemText L e) := by
  unfold gsvElemText
  clean_tac
  split <;> clean_tac

theorem good_gsv {L : Lib} {st : St} {s : Sentence} (h : s ∈ sendGsv L st) : Good s := by
  unfold sendGsv at h
  simp only at h
  split at h
  · simp only [List.mem_singleton] at h; subst h
    refine ⟨by simp, ?_, dollar_of rfl⟩
    simp only [List.flatten_cons, List.flatten_nil]
    clean_tac
  · obtain ⟨t, -, h⟩ := List.mem_flatMap.1 h
    unfold gsvPrint at h
    obtain ⟨i, -, rfl⟩ := List.mem_map.1 h
    refine ⟨by simp, ?_, dollar_of rfl⟩
    simp only [List.flatten_cons, List.flatten_nil, List.flatten_append]
    clean_tac
    · exact talker_clean _
    · apply clean_flatten
      intro s hs
      obtain ⟨i, -, rfl⟩ := List.mem_map.1 hs
      exact gsvElemText_clean L i

theorem good_gsa {L : Lib} {st : St} {s : Sentence} (h : s ∈ sendGsa L st) : Good s := by
  unfold sendGsa at h
  simp only at h
  split at h
  · simp only [List.mem_singleton] at h; subst h
    exact good_gsaPrint _ _ _ (clean_lit rfl)
  · obtain ⟨t, -, rfl⟩ := List.mem_map.1 h
    apply good_gsaPrint
    exact clean_ite (clean_lit rfl) (talker_clean _)

theorem good_pubx {L : Lib} {st : St} {r : St × Sentence} (h : sendPubx L st = some r) : Good r.2 := by
  unfold sendPubx at h
  simp only [Option.bind_eq_bind, Option.bind_eq_some_iff, Option.some.injEq] at h
  obtain ⟨a, -, b, -, ft, -, rfl⟩ := h
  refine ⟨by simp, ?_, dollar_of rfl⟩
  simp only [List.flatten_cons, List.flatten_nil, List.flatten_append]
  clean_tac
  all_goals first
    | exact navStat_clean _ _
    | (split <;> (simp only [List.flatten_cons, List.flatten_nil]; clean_tac))

theorem good_send {L : Lib} {id : NmeaId} {st st' : St} {ss : List Sentence} (h : send L id st = some (st', ss)) :
    ∀ s ∈ ss, Good s := by
  intro s hs
  cases id <;> simp only [send, Option.map_eq_some_iff, Option.some.injEq, Prod.mk.injEq] at h
  · obtain ⟨r, hr, -, rfl⟩ := h; simp only [List.mem_singleton] at hs; subst hs; exact good_gga hr
  · obtain ⟨r, hr, -, rfl⟩ := h; simp only [List.mem_singleton] at hs; subst hs; exact good_rmc hr
  · obtain ⟨r, hr, -, rfl⟩ := h; simp only [List.mem_singleton] at hs; subst hs; exact good_vtg hr
  · obtain ⟨-, rfl⟩ := h; simp only [List.mem_singleton] at hs; subst hs; exact good_hdt _
  · obtain ⟨r, hr, -, rfl⟩ := h; simp only [List.mem_singleton] at hs; subst hs; exact good_gll hr
  · obtain ⟨-, rfl⟩ := h; simp only [List.mem_singleton] at hs; subst hs; exact good_zda _ _
  · obtain ⟨-, rfl⟩ := h; exact good_gsa hs
  · obtain ⟨r, hr, -, rfl⟩ := h; simp only [List.mem_singleton] at hs; subst hs; exact good_gst hr
  · obtain ⟨-, rfl⟩ := h; exact good_gsv hs
  · obtain ⟨r, hr, -, rfl⟩ := h; simp only [List.mem_singleton] at hs; subst hs; exact good_pubx hr
  · obtain ⟨-, rfl⟩ := h; simp only [List.mem_singleton] at hs; subst hs; exact good_ths _

/-! ### number of fields and length -/

theorem cU (w n : Nat) : (fmtU w n).count ',' = 0 := (field_fmtU w n).commas
theorem cD (w : Nat) (n : Int) : (fmtD w n).count ',' = 0 := (field_fmtD w n).commas
theorem cF (w p : Nat) (x : Dbl) : (fmtF w p x).count ',' = 0 := (field_fmtF w p x).commas
theorem cOne {c : Char} (h : c ≠ ',') : [c].count ',' = 0 := by simp [h]

theorem roundUtc_two (L : Lib) {t : Utc} (h : t.hours < 24 ∧ t.minutes < 60 ∧ t.seconds ≤ 60 ∧ t.day ≤ 31 ∧ t.month ≤ 12 ∧
    t.ns < 1000000000 ∧ t.year < 65536) :
    (roundUtc L t).hours < 100 ∧ (roundUtc L t).minutes < 100 ∧ (roundUtc L t).seconds < 100 ∧ (roundUtc L t).ns < 100 ∧
    (roundUtc L t).day < 100 ∧ (roundUtc L t).month < 100 ∧ (roundUtc L t).year < 65536 := by
  obtain ⟨h1, h2, h3, h4, h5, h6, h7⟩ := h
  obtain ⟨cs, hcs, hle, -⟩ := cs_near h6
  have hmod : cs % 65536 = cs := Nat.mod_eq_of_lt (by omega)
  unfold roundUtc
  rw [hcs]
  simp only [Int.toNat_natCast, hmod]
  split_ifs <;> (refine ⟨?_, ?_, ?_, ?_, ?_, ?_, ?_⟩ <;> simp only <;> omega)

/-- the time strings of a time whose components fit: number of separators and length -/
theorem utc_facts (L : Lib) {t : Utc} (h : TwoDigit t) :
    ((utcString L true false false t).count ',' = 1 ∧ (utcString L true false false t).length ≤ 10) ∧
    ((utcString L false true true t).count ',' = 1 ∧ (utcString L false true true t).length ≤ 7) ∧
    ((utcString L true true false t).count ',' = 4 ∧ (utcString L true true false t).length ≤ 22) := by
  by_cases hf : t.flags = 0
  · obtain ⟨e1, e2, e3⟩ := C33_unknown L t hf
    rw [e1, e2, e3]; decide
  · rcases h with h | h
    · exact absurd h hf
    obtain ⟨h1, h2, h3, h4, h5, h6, h7⟩ := roundUtc_two L h
    have two' : ∀ n, n < 100 → (fmtU 2 n).length = 2 := fun n hn => by rw [fmtU_two ⟨n, hn⟩]; rfl
    have hy : (fmtU 1 (roundUtc L t).year).length ≤ 5 := by
      unfold fmtU pad
      have := Nat.toDigits_length 10 (roundUtc L t).year 5 (by omega) (by omega)
      simp only [List.length_append, List.length_replicate]; omega
    have l1 : lit "," = [','] := rfl
    have l2 : lit "." = ['.'] := rfl
    have hy2 : (roundUtc L t).year % 100 % 256 < 100 := by omega
    have t22 : tsMaxLen - 1 = 22 := rfl
    unfold utcString
    simp only [hf, if_false, if_true, Bool.false_eq_true, l1, l2]
    refine ⟨?_, ?_, ?_⟩
    · rw [List.take_of_length_le (by simp only [List.length_append, List.length_cons, List.length_nil, two' _ h1, two' _ h2, two' _ h3, two' _ h4]; omega)]
      simp only [List.count_append, cU, List.length_append, List.length_cons, List.length_nil, two' _ h1, two' _ h2, two' _ h3, two' _ h4]
      exact ⟨rfl, by omega⟩
    · rw [List.take_of_length_le (by simp only [List.length_append, List.length_cons, List.length_nil, two' _ h5, two' _ h6, two' _ hy2]; omega)]
      simp only [List.count_append, cU, List.length_append, List.length_cons, List.length_nil, two' _ h5, two' _ h6, two' _ hy2]
      exact ⟨rfl, by omega⟩
    · rw [List.take_of_length_le (by simp only [List.length_append, List.length_cons, List.length_nil, two' _ h1, two' _ h2, two' _ h3, two' _ h4, two' _ h5, two' _ h6]; omega)]
      simp only [List.count_append, cU, List.length_append, List.length_cons, List.length_nil, two' _ h1, two' _ h2, two' _ h3, two' _ h4, two' _ h5, two' _ h6]
      exact ⟨rfl, by omega⟩

theorem commas_gga {L : Lib} {st : St} {s : Sentence} (hu : TwoDigit (st.store.utc st.src)) (h : sendGga L st = some s) :
    s.texts.flatten.count ',' = 14 := by
  unfold sendGga at h
  simp only [Option.bind_eq_bind, Option.bind_eq_some_iff, Option.some.injEq] at h
  obtain ⟨a, -, b, -, ft, -, rfl⟩ := h
  simp only [List.flatten_cons, List.flatten_nil, List.count_append, (utc_facts L hu).1.1, cU]
  split_ifs <;> (try simp only [List.count_append, cU, cF, latLon_commas]) <;> first | rfl | omega

theorem commas_rmc {L : Lib} {st : St} {r : St × Sentence} (hu : TwoDigit (st.store.utc st.src)) (h : sendRmc L st = some r) :
    r.2.texts.flatten.count ',' = 12 := by
  unfold sendRmc at h
  simp only [Option.bind_eq_bind, Option.bind_eq_some_iff, Option.some.injEq] at h
  obtain ⟨a, -, b, -, m, hm, s, hs, rfl⟩ := h
  simp only [List.flatten_cons, List.flatten_nil, List.flatten_append, List.count_append, (utc_facts L hu).1.1, (utc_facts L hu).2.1.1,
    cOne (mode_ok hm).2, cOne (status_ok hs).2]
  split_ifs <;> (try simp only [List.flatten_cons, List.flatten_nil, List.count_append, cU, cF, latLon_commas]) <;> first | rfl | omega

theorem commas_vtg {L : Lib} {st : St} {r : St × Sentence} (h : sendVtg L st = some r) :
    r.2.texts.flatten.count ',' = 9 := by
  unfold sendVtg at h
  simp only [Option.bind_eq_bind, Option.bind_eq_some_iff, Option.some.injEq] at h
  obtain ⟨m, hm, rfl⟩ := h
  simp only [List.flatten_cons, List.flatten_nil, List.count_append, cOne (mode_ok hm).2]
  split_ifs <;> (try simp only [List.count_append, cU, cF]) <;> first | rfl | omega

theorem commas_hdt (st : St) : (sendHdt st).texts.flatten.count ',' = 2 := by
  simp only [sendHdt, List.flatten_cons, List.flatten_nil, List.count_append]
  split_ifs <;> (try simp only [List.count_append, cF]) <;> first | rfl | omega

theorem commas_ths (st : St) : (sendThs st).texts.flatten.count ',' = 2 := by
  simp only [sendThs, List.flatten_cons, List.flatten_nil, List.count_append]
  split_ifs <;> (try simp only [List.count_append, cF]) <;> first | rfl | omega

theorem commas_gll {L : Lib} {st : St} {s : Sentence} (hu : TwoDigit (st.store.utc st.src)) (h : sendGll L st = some s) :
    s.texts.flatten.count ',' = 7 := by
  unfold sendGll at h
  simp only [Option.bind_eq_bind, Option.bind_eq_some_iff, Option.some.injEq] at h
  obtain ⟨a, -, b, -, t, ht, m, hm, rfl⟩ := h
  simp only [List.flatten_cons, List.flatten_nil, List.count_append, (utc_facts L hu).1.1, cOne (mode_ok hm).2, cOne (status_ok ht).2]
  split_ifs <;> (try simp only [latLon_commas]) <;> first | rfl | omega

theorem commas_zda (L : Lib) (st : St) (hu : TwoDigit (st.store.utc st.src)) : (sendZda L st).texts.flatten.count ',' = 6 := by
  simp only [sendZda, List.flatten_cons, List.flatten_nil, List.count_append, (utc_facts L hu).2.2.1]
  rfl

theorem commas_gsaPrint (p : List Nat) (d : Dops) (t : Str) (ht : t.count ',' = 0) : (gsaPrint p d t).texts.flatten.count ',' = 17 := by
  have key : ∀ l : List Nat, ∀ f : Nat → Str, (∀ i, (f i).count ',' = 1) → ((l.map f).flatten).count ',' = l.length := by
    intro l f hf
    induction l with
    | nil => rfl
    | cons a l ih => simp [List.count_append, hf, ih]; omega
  simp only [gsaPrint, List.flatten_append, List.count_append]
  rw [key]
  · simp only [List.flatten_cons, List.flatten_nil, List.count_append, ht, List.length_range]
    split_ifs <;> (try simp only [List.count_append, cF]) <;> first | rfl | omega
  · intro i
    cases (p.insertionSort (· ≤ ·))[i]? <;> (try simp only [List.count_append, cU]) <;> rfl

theorem talker_commas (t : Fin 4) : (talkerStr t).count ',' = 0 := by
  match t with
  | 0 | 1 | 2 | 3 => rfl

theorem commas_gst {L : Lib} {st : St} {s : Sentence} (hu : TwoDigit (st.store.utc st.src)) (h : sendGst L st = some s) :
    s.texts.flatten.count ',' = 8 := by
  unfold sendGst at h
  simp only [Option.bind_eq_bind, Option.bind_eq_some_iff] at h
  obtain ⟨ft, -, h⟩ := h
  split at h
  · simp only [Option.some.injEq] at h; subst h
    simp only [List.flatten_cons, List.flatten_nil, List.count_append, (utc_facts L hu).1.1]
    rfl
  · split at h
    · simp only [Option.some.injEq] at h; subst h
      simp only [List.flatten_cons, List.flatten_nil, List.count_append, cF]
      split <;> (try simp only [List.count_append, (utc_facts L hu).1.1, talker_commas]) <;> rfl
    · simp at h

theorem commas_pubx {L : Lib} {st : St} {r : St × Sentence} (hu : TwoDigit (st.store.utc st.src)) (h : sendPubx L st = some r) :
    r.2.texts.flatten.count ',' = 20 := by
  unfold sendPubx at h
  simp only [Option.bind_eq_bind, Option.bind_eq_some_iff, Option.some.injEq] at h
  obtain ⟨a, -, b, -, ft, -, rfl⟩ := h
  have hn : ∀ x y, (navStat x y).count ',' = 0 := by intro x y; unfold navStat; split_ifs <;> rfl
  have e1 : (if ft ≠ 0 then latLon a b ++ fmtF 0 2 (st.store.pos st.src).height ++ lit "," else lit ",,,,,").count ',' = 5 := by
    split_ifs <;> (try simp only [List.count_append, cF, latLon_commas]) <;> first | rfl | omega
  have e2 : (if ft ≠ 0 then fmtF 0 1 (L.hacc (st.store.pos st.src)) ++ lit "," ++ fmtF 0 1 (L.vacc (st.store.pos st.src)) ++ lit "," else lit ",,").count ',' = 2 := by
    split_ifs <;> (try simp only [List.count_append, cF]) <;> first | rfl | omega
  simp only [List.flatten_cons, List.flatten_nil, List.flatten_append, List.count_append, (utc_facts L hu).1.1, hn, e1, e2, cU]
  have e3 : (if velMode (st.store.vel st.src).flags ≠ 0 then
      [fmtF 0 2 (.fin (L.sogKph (st.store.vel st.src).n (st.store.vel st.src).e)) ++ lit ",",
       if f64 (knotsFactor * st.cogThreshold) < L.sogKnots (st.store.vel st.src).n (st.store.vel st.src).e then
         fmtF 0 1 (.fin (calcCog L (st.store.vel st.src) st.cogUpdateThreshold st.lastCog)) ++ lit "," else lit ",",
       fmtF 0 2 (.fin (f64 (f32 (st.store.vel st.src).d / 1000))) ++ lit ","]
     else [lit ",,,"]).flatten.count ',' = 3 := by
    split_ifs <;> (try simp only [List.flatten_cons, List.flatten_nil, List.count_append, cF]) <;> first | rfl | omega
  rw [e3]
  have e4 : (if isDiff ft (st.store.pos st.src).flags = true then
       fmtF 0 1 (tenth (if st.actual = .gnss then st.store.age.age else st.store.solnMeta.age)) ++ lit ","
     else lit ",").count ',' = 1 := by
    split_ifs <;> (try simp only [List.count_append, cF]) <;> first | rfl | omega
  have e5 : (if ft = 6 ∨ ft = 0 then lit ",,,"
     else if st.actual = .gnss then
       fmtF 0 1 (dop10 st.store.dops.hdop) ++ lit "," ++ fmtF 0 1 (dop10 st.store.dops.vdop) ++ lit "," ++
         fmtF 0 1 (dop10 st.store.dops.tdop) ++ lit ","
     else fmtF 0 1 (dop10 st.store.solnMeta.hdop) ++ lit "," ++ fmtF 0 1 (dop10 st.store.solnMeta.vdop) ++ lit ",,").count ',' = 3 := by
    split_ifs <;> (try simp only [List.count_append, cF]) <;> first | rfl | omega
  rw [e4, e5]
  split_ifs <;> rfl

theorem commas_gsvElem (L : Lib) (e : GsvElem) : (gsvElemText L e).count ',' = 4 := by
  unfold gsvElemText
  simp only [List.count_append, cU, cD]
  split <;> (try simp only [List.count_append, cU]) <;> rfl

theorem commas_gsv {L : Lib} {st : St} {s : Sentence} (h : s ∈ sendGsv L st) : ∃ k ≤ 4, s.texts.flatten.count ',' = 3 + 4 * k := by
  unfold sendGsv at h
  simp only at h
  split at h
  · simp only [List.mem_singleton] at h; subst h; exact ⟨0, by omega, rfl⟩
  · obtain ⟨t, -, h⟩ := List.mem_flatMap.1 h
    unfold gsvPrint at h
    obtain ⟨i, -, rfl⟩ := List.mem_map.1 h
    simp only [List.flatten_cons, List.flatten_nil, List.flatten_append, List.count_append, cU, talker_commas]
    generalize hes : List.take 4 (List.drop (4 * i) _) = es
    refine ⟨es.length, by rw [← hes, List.length_take]; omega, ?_⟩
    have : ∀ l : List GsvElem, ((l.map (gsvElemText L)).flatten).count ',' = 4 * l.length := by
      intro l
      induction l with
      | nil => rfl
      | cons a l ih => simp [List.count_append, commas_gsvElem, ih]; omega
    rw [this]
    have l1 : List.count ',' (lit "$") = 0 := rfl
    have l2 : List.count ',' (lit "GSV,") = 1 := rfl
    have l3 : List.count ',' (lit ",") = 1 := rfl
    rw [l1, l2, l3]
    simp only [List.count_nil]

/-! ### lengths -/

theorem lenU {w n e : Nat} (hw : w ≤ e) (he : 1 ≤ e) (h : n < 10 ^ e) : (fmtU w n).length ≤ e := by
  unfold fmtU pad
  have := Nat.toDigits_length 10 n e he h
  simp only [List.length_append, List.length_replicate]; omega

theorem lenD {n : Int} {e : Nat} (he : 2 ≤ e) (h : n.natAbs < 10 ^ e) : (fmtD 2 n).length ≤ e + 1 := by
  unfold fmtD pad
  have := Nat.toDigits_length 10 n.natAbs e (by omega) h
  split <;> simp only [List.length_append, List.length_replicate, List.length_cons] <;> omega

theorem len_fixed {p d : Nat} {x : ℚ} (hp : 1 ≤ p) (hd : 1 ≤ d) (h0 : 0 ≤ x) (h : x ≤ 10 ^ d - 1) :
    (fixedDigits p (rne (x * 10 ^ p)).natAbs).length ≤ d + 1 + p := by
  obtain ⟨h1, -⟩ := rne_toNat (x := x * 10 ^ p) (by positivity)
  set k := (rne (x * 10 ^ p)).natAbs
  have hp1 : (1 : ℚ) ≤ 10 ^ p := one_le_pow₀ (by norm_num)
  have hk : k < 10 ^ (d + p) := by
    have : (k : ℚ) < 10 ^ (d + p) := by
      have : x * 10 ^ p ≤ (10 ^ d - 1) * 10 ^ p := mul_le_mul_of_nonneg_right h (by positivity)
      rw [pow_add]; linarith
    exact_mod_cast this
  have hk' : k / 10 ^ p < 10 ^ d := by
    rw [Nat.div_lt_iff_lt_mul (by positivity), ← Nat.pow_add]; exact hk
  unfold fixedDigits pad
  have a1 := Nat.toDigits_length 10 (k / 10 ^ p) d hd hk'
  have a2 := Nat.toDigits_length 10 (k % 10 ^ p) p hp (Nat.mod_lt _ (by positivity))
  simp only [List.length_append, List.length_cons, List.length_replicate]
  omega

theorem lenF {p d : Nat} {x : Dbl} (hp : 1 ≤ p) (hd : 1 ≤ d) (h : Below d x) : (fmtF 0 p x).length ≤ d + p + 2 := by
  cases x with
  | fin q =>
    simp only [Below] at h
    rw [abs_le] at h
    simp only [fmtF]
    split
    · have := len_fixed hp hd (x := -q) (by linarith) (by linarith)
      unfold pad
      simp only [List.length_cons, List.length_append, List.length_replicate]; omega
    · have := len_fixed hp hd (x := q) (by linarith) (by linarith)
      unfold pad
      simp only [List.length_append, List.length_replicate]; omega
  | inf b => simp [Below] at h
  | nan => simp [Below] at h

/-- printing a non-negative value -/
theorem lenF0 {p d : Nat} {q : ℚ} (hp : 1 ≤ p) (hd : 1 ≤ d) (h0 : 0 ≤ q) (h : q ≤ 10 ^ d - 1) :
    (fmtF 0 p (.fin q)).length ≤ d + p + 1 := by
  simp only [fmtF]
  rw [if_neg (by linarith)]
  have := len_fixed hp hd h0 h
  unfold pad
  simp only [List.length_append, List.length_replicate]; omega

theorem lenF10 {q : ℚ} (h0 : 0 ≤ q) (h : q ≤ 99) : (fmtF 10 7 (.fin q)).length ≤ 10 := by
  simp only [fmtF]
  rw [if_neg (by linarith)]
  have := len_fixed (p := 7) (d := 2) (by omega) (by omega) h0 (by norm_num; linarith)
  unfold pad
  simp only [List.length_append, List.length_replicate]; omega

theorem splitAngle_bounds {x : Dbl} {r : Nat × ℚ × Bool} (h : splitAngle x = some r) : r.1 ≤ 65535 ∧ 0 ≤ r.2.1 ∧ r.2.1 ≤ 99 := by
  cases x with
  | fin q =>
    simp only [splitAngle] at h
    set a := |f64 (cround (f64 (q * 100000000)) / 100000000)| with ha
    split at h
    · rename_i hle
      simp only [Option.some.injEq] at h
      subst h
      have h0 : 0 ≤ a := abs_nonneg _
      have hf : ctrunc a = ⌊a⌋ := ctrunc_of_nonneg h0
      have hfl : 0 ≤ ⌊a⌋ := Int.floor_nonneg.2 h0
      have hcast : ((ctrunc a).toNat : ℚ) = ⌊a⌋ := by
        rw [hf]
        have : ((⌊a⌋.toNat : Nat) : Int) = ⌊a⌋ := Int.toNat_of_nonneg hfl
        rw [← Int.cast_natCast, this]
      have h1 : (⌊a⌋ : ℚ) ≤ a := Int.floor_le a
      have h2 : a < ⌊a⌋ + 1 := Int.lt_floor_add_one a
      refine ⟨?_, ?_, ?_⟩
      · have : (((ctrunc a).toNat : Nat) : ℚ) ≤ 65535 := by rw [hcast]; linarith
        exact_mod_cast this
      · exact f64_nonneg (mul_nonneg (f64_nonneg (by rw [hcast]; linarith)) (by norm_num))
      · rw [hcast]
        have e1 := f64_near (x := a - ⌊a⌋) (b := 1) (by rw [abs_of_nonneg (by linarith)]; linarith)
        have e1' := e1.trans (by norm_num : (1 : ℚ) / 9007199254740992 + 1 / 10 ^ 60 ≤ 1 / 100)
        rw [abs_le] at e1'
        have e2 := f64_near (x := f64 (a - ⌊a⌋) * 60) (b := 70) (by rw [abs_le]; constructor <;> linarith)
        have e2' := e2.trans (by norm_num : (70 : ℚ) / 9007199254740992 + 1 / 10 ^ 60 ≤ 1 / 100)
        rw [abs_le] at e2'
        linarith
    · simp at h
  | inf b => simp [splitAngle] at h
  | nan => simp [splitAngle] at h

theorem len_latLon {x y : Dbl} {a b : Nat × ℚ × Bool} (ha : splitAngle x = some a) (hb : splitAngle y = some b) :
    (latLon a b).length ≤ 36 := by
  obtain ⟨a1, a2, a3⟩ := splitAngle_bounds ha
  obtain ⟨b1, b2, b3⟩ := splitAngle_bounds hb
  unfold latLon
  have l1 : lit "," = [','] := rfl
  have h1 := lenU (w := 2) (n := a.1) (e := 5) (by omega) (by omega) (by omega)
  have h2 := lenU (w := 3) (n := b.1) (e := 5) (by omega) (by omega) (by omega)
  have h3 := lenF10 a2 a3
  have h4 := lenF10 b2 b3
  simp only [l1, List.length_append, List.length_cons, List.length_nil]
  omega

/-- a dilution of precision prints in at most 6 characters -/
theorem len_scaled {x : Nat} {c : ℚ} (hx : x < 65536) (hc : 0 ≤ c) (hcb : c ≤ 1 / 9) :
    (fmtF 0 1 (.fin (f64 (cround (f64 (x * c)) / 10)))).length ≤ 6 := by
  have hxq : (x : ℚ) ≤ 65535 := by exact_mod_cast (by omega : x ≤ 65535)
  have hx0 : (0 : ℚ) ≤ x := Nat.cast_nonneg _
  have h0 : 0 ≤ x * c := mul_nonneg hx0 hc
  have h1 : x * c ≤ 65535 * (1 / 9) := mul_le_mul hxq hcb hc (by norm_num)
  have h1' : x * c ≤ 7282 := h1.trans (by norm_num)
  have e1 := f64_near (x := x * c) (b := 7282) (by rw [abs_of_nonneg h0]; exact h1')
  have e1' := e1.trans (by norm_num : (7282 : ℚ) / 9007199254740992 + 1 / 10 ^ 60 ≤ 1 / 100)
  rw [abs_le] at e1'
  have hf0 := f64_nonneg h0
  have hr := cround_bounds (f64 (x * c))
  have hr0 : (0 : ℚ) ≤ cround (f64 (x * c)) := by exact_mod_cast cround_nonneg hf0
  have e2 := f64_near (x := (cround (f64 (x * c)) : ℚ) / 10) (b := 729)
    (by rw [abs_of_nonneg (by positivity), div_le_iff₀ (by norm_num)]; linarith)
  have e2' := e2.trans (by norm_num : (729 : ℚ) / 9007199254740992 + 1 / 10 ^ 60 ≤ 1 / 100)
  rw [abs_le] at e2'
  have hd : (cround (f64 (x * c)) : ℚ) / 10 ≤ 729 := by rw [div_le_iff₀ (by norm_num)]; linarith
  have := lenF0 (p := 1) (d := 3) (q := f64 (cround (f64 (x * c)) / 10)) (by omega) (by omega) (f64_nonneg (by positivity)) (by norm_num; linarith)
  omega


theorem len_dop10 {x : Nat} (hx : x < 65536) : (fmtF 0 1 (dop10 x)).length ≤ 6 := by
  have hc := f64_near (x := (1 / 100 : ℚ)) (b := 1) (by norm_num [abs_le])
  have hc' := hc.trans (by norm_num : (1 : ℚ) / 9007199254740992 + 1 / 10 ^ 60 ≤ 1 / 10 ^ 10)
  rw [abs_le] at hc'
  have := len_scaled (x := x) (c := 10 * f64 (1 / 100)) hx (by have := f64_nonneg (x := (1 / 100 : ℚ)) (by norm_num); linarith) (by linarith)
  unfold dop10
  have e : ((10 * x : Nat) : ℚ) * f64 (1 / 100) = x * (10 * f64 (1 / 100)) := by push_cast; ring
  rw [e]; exact this

theorem len_dop1 {x : Nat} (hx : x < 65536) : (fmtF 0 1 (dop1 x)).length ≤ 6 := by
  have hc := f64_near (x := (1 / 10 : ℚ)) (b := 1) (by norm_num [abs_le])
  have hc' := hc.trans (by norm_num : (1 : ℚ) / 9007199254740992 + 1 / 10 ^ 60 ≤ 1 / 10 ^ 10)
  rw [abs_le] at hc'
  exact len_scaled (x := x) (c := f64 (1 / 10)) hx (f64_nonneg (by norm_num)) (by linarith)

theorem len_tenth {x : Nat} (hx : x < 65536) : (fmtF 0 1 (tenth x)).length ≤ 6 := by
  have hc := f64_near (x := (1 / 10 : ℚ)) (b := 1) (by norm_num [abs_le])
  have hc' := hc.trans (by norm_num : (1 : ℚ) / 9007199254740992 + 1 / 10 ^ 60 ≤ 1 / 10 ^ 10)
  rw [abs_le] at hc'
  have hxq : (x : ℚ) ≤ 65535 := by exact_mod_cast (by omega : x ≤ 65535)
  have hx0 : (0 : ℚ) ≤ x := Nat.cast_nonneg _
  have h0 : 0 ≤ x * f64 (1 / 10) := mul_nonneg hx0 (f64_nonneg (by norm_num))
  have h1 : x * f64 (1 / 10) ≤ 65535 * (1 / 10 + 1 / 10 ^ 10) := mul_le_mul hxq (by linarith) (f64_nonneg (by norm_num)) (by norm_num)
  have e1 := f64_near (x := x * f64 (1 / 10)) (b := 7000) (by rw [abs_of_nonneg h0]; linarith)
  have e1' := e1.trans (by norm_num : (7000 : ℚ) / 9007199254740992 + 1 / 10 ^ 60 ≤ 1 / 100)
  rw [abs_le] at e1'
  exact lenF0 (p := 1) (d := 4) (by omega) (by omega) (f64_nonneg h0) (by norm_num at h1 ⊢; linarith)

theorem len_cog {c : ℚ} (h : CogOk c) : (fmtF 0 1 (.fin c)).length ≤ 5 := by
  obtain ⟨k, hk, rfl⟩ := h
  have e := f64_tenth k (by omega)
  rw [abs_le] at e
  have hq : (k : ℚ) ≤ 3600 := by exact_mod_cast (by omega : k ≤ 3600)
  exact lenF0 (p := 1) (d := 3) (by omega) (by omega) (f64_nonneg (by positivity)) (by norm_num; linarith)

theorem below_sub {d : Nat} {x : Dbl} {g : ℚ} (hd : d ≤ 12) (hx : Below d x) (hg : |g| ≤ 9999) : Below 13 (x.sub g) := by
  cases x with
  | fin q =>
    simp only [Below, Dbl.sub] at *
    have hd' : (10 : ℚ) ^ d ≤ 10 ^ 12 := pow_le_pow_right₀ (by norm_num) hd
    rw [abs_le] at *
    have hb : |q - g| ≤ 10 ^ 12 + 10000 := by rw [abs_le]; constructor <;> linarith
    have e := f64_near hb
    have e' := e.trans (by norm_num : ((10 : ℚ) ^ 12 + 10000) / 9007199254740992 + 1 / 10 ^ 60 ≤ 1)
    rw [abs_le] at e' hb
    norm_num at e' hb ⊢
    constructor <;> linarith
  | inf b => simp [Below] at hx
  | nan => simp [Below] at hx

theorem len_ite {c : Prop} [Decidable c] {a b : Str} {n : Nat} (ha : c → a.length ≤ n) (hb : ¬ c → b.length ≤ n) :
    (if c then a else b).length ≤ n := by
  split
  · exact ha ‹_›
  · exact hb ‹_›

theorem litlen (s : String) : (lit s).length = s.length := String.length_toList

/-- add up the lengths of the pieces of a text -/
macro "len_tac" : tactic => `(tactic|
  (try simp only [List.length_append, litlen, List.flatten_cons, List.flatten_nil, List.length_nil, List.length_cons]
   try simp [String.length] at *
   try omega))

theorem fixType_le {f ft : Nat} (h : fixType f = some ft) : ft ≤ 6 ∧ (ft ≠ 0 ↔ f % 8 ≠ 0) := by
  have hm : f % 8 < 8 := Nat.mod_lt _ (by omega)
  unfold fixType nmeaQuality posMode at h
  generalize f % 8 = m at *
  interval_cases m <;> simp at h <;> omega

theorem len_gga {L : Lib} {st : St} {s : Sentence} (hL : SaneLib L) (hw : WireSt (ModeratePos L) st) (h : sendGga L st = some s) :
    s.texts.flatten.length + 1 ≤ s.maxLen := by
  unfold sendGga at h
  simp only [Option.bind_eq_bind, Option.bind_eq_some_iff, Option.some.injEq] at h
  obtain ⟨a, ha, b, hb, ft, hft, rfl⟩ := h
  obtain ⟨f1, f2⟩ := fixType_le hft
  have l1 := (utc_facts L (hw.utc st.src)).1.2
  have l2 := len_latLon ha hb
  have l3 := lenU (w := 1) (n := ft) (e := 1) (by omega) (by omega) (by omega)
  have l4 := lenU (w := 2) (n := (st.store.pos st.src).nSats) (e := 3) (by omega) (by omega) (by have := hw.pos st.src; simp only [WireMsg] at this; omega)
  have hd : (if st.actual = .gnss then st.store.dops.hdop else st.store.solnMeta.hdop) < 65536 := by
    split
    · exact hw.dops.2.1
    · exact hw.soln.1
  have hage : (if st.actual = .gnss then st.store.age.age else st.store.solnMeta.age) < 65536 := by
    split
    · exact hw.age
    · exact hw.soln.2.2
  have l5 := len_dop10 hd
  have l6 := len_tenth hage
  have l7 := lenU (w := 4) (n := st.baseId % 1024) (e := 4) (by omega) (by omega) (by omega)
  have l8 := lenF (p := 2) (d := 4) (x := .fin (L.geoid (st.store.pos st.src).lat (st.store.pos st.src).lon)) (by omega) (by omega)
    (by have := hL.geoid (st.store.pos st.src).lat (st.store.pos st.src).lon; simp only [Below]; norm_num; exact this)
  have l9 : ft ≠ 0 → (fmtF 0 2 ((st.store.pos st.src).height.sub (L.geoid (st.store.pos st.src).lat (st.store.pos st.src).lon))).length ≤ 17 := by
    intro h0
    exact lenF (by omega) (by omega) (below_sub (le_refl 12) (hw.ext st.src (f2.1 h0)).1 (hL.geoid _ _))
  generalize (if st.actual = .gnss then st.store.dops.hdop else st.store.solnMeta.hdop) = hdop at *
  generalize (if st.actual = .gnss then st.store.age.age else st.store.solnMeta.age) = age at *
  have p1 : (if ft ≠ 0 then latLon a b else lit ",,,,").length ≤ 36 := len_ite (fun _ => l2) (fun _ => by len_tac)
  have p2 : (if ft = 6 then fmtU 2 (st.store.pos st.src).nSats ++ lit ",," ++
        fmtF 0 2 ((st.store.pos st.src).height.sub (L.geoid (st.store.pos st.src).lat (st.store.pos st.src).lon)) ++ lit ",M," ++
        fmtF 0 2 (.fin (L.geoid (st.store.pos st.src).lat (st.store.pos st.src).lon)) ++ lit ",M,"
     else if ft ≠ 0 then fmtU 2 (st.store.pos st.src).nSats ++ lit "," ++ fmtF 0 1 (dop10 hdop) ++ lit "," ++
        fmtF 0 2 ((st.store.pos st.src).height.sub (L.geoid (st.store.pos st.src).lat (st.store.pos st.src).lon)) ++
       lit ",M," ++ fmtF 0 2 (.fin (L.geoid (st.store.pos st.src).lat (st.store.pos st.src).lon)) ++ lit ",M,"
     else lit ",,,M,,M,").length ≤ 42 := by
    refine len_ite (fun h => ?_) (fun h => len_ite (fun h => ?_) (fun _ => by len_tac))
    · have := l9 (by omega); len_tac
    · have := l9 h; len_tac
  have p3 : (if isDiff ft (st.store.pos st.src).flags = true then fmtF 0 1 (tenth age) ++ lit "," ++ fmtU 4 (st.baseId % 1024)
      else lit ",").length ≤ 11 := len_ite (fun _ => by len_tac) (fun _ => by len_tac)
  simp only [List.flatten_cons, List.flatten_nil, List.length_append]
  len_tac

theorem vel_range {b : Bool} {v : Vel} (h : WireMsg (.vel b v)) : |v.n| ≤ 2147483648 ∧ |v.e| ≤ 2147483648 := by
  simp only [WireMsg] at h
  constructor <;> (rw [abs_le]; omega)

theorem len_rmc {L : Lib} {st : St} {r : St × Sentence} (hL : SaneLib L) {H : Pos → Prop} (hw : WireSt H st) (h : sendRmc L st = some r) :
    r.2.texts.flatten.length + 1 ≤ r.2.maxLen := by
  unfold sendRmc at h
  simp only [Option.bind_eq_bind, Option.bind_eq_some_iff, Option.some.injEq] at h
  obtain ⟨a, ha, b, hb, m, hm, s, hs, rfl⟩ := h
  have l1 := (utc_facts L (hw.utc st.src)).1.2
  have l1' := (utc_facts L (hw.utc st.src)).2.1.2
  have l2 := len_latLon ha hb
  obtain ⟨hvn, hve⟩ := vel_range (hw.vel st.src)
  have l3 := lenF0 (p := 2) (d := 8) (q := L.sogKnots (st.store.vel st.src).n (st.store.vel st.src).e) (by omega) (by omega) (hL.knots _ _ hvn hve).1
    (by have := (hL.knots (st.store.vel st.src).n (st.store.vel st.src).e hvn hve).2; norm_num; exact this)
  have l4 := len_cog (calcCog_ok (v := st.store.vel st.src) (th := st.cogUpdateThreshold) (hL.course _ _) hw.cog).1
  have p1 : (if posMode (st.store.pos st.src).flags ≠ 0 then latLon a b else lit ",,,,").length ≤ 36 :=
    len_ite (fun _ => l2) (fun _ => by len_tac)
  have p2 : (if velMode (st.store.vel st.src).flags ≠ 0 then
      [fmtF 0 2 (.fin (L.sogKnots (st.store.vel st.src).n (st.store.vel st.src).e)) ++ lit ",",
       if f64 (knotsFactor * st.cogThreshold) ≤ L.sogKnots (st.store.vel st.src).n (st.store.vel st.src).e then
         fmtF 0 1 (.fin (calcCog L (st.store.vel st.src) st.cogUpdateThreshold st.lastCog)) ++ lit "," else lit ","]
     else [lit ",,"]).flatten.length ≤ 18 := by
    by_cases hv : velMode (st.store.vel st.src).flags ≠ 0
    · rw [if_pos hv]
      by_cases hk : f64 (knotsFactor * st.cogThreshold) ≤ L.sogKnots (st.store.vel st.src).n (st.store.vel st.src).e
      · rw [if_pos hk]; len_tac
      · rw [if_neg hk]; len_tac
    · rw [if_neg hv]; len_tac
  simp only [List.flatten_append, List.length_append]
  len_tac

theorem len_vtg {L : Lib} {st : St} {r : St × Sentence} (hL : SaneLib L) {H : Pos → Prop} (hw : WireSt H st) (h : sendVtg L st = some r) :
    r.2.texts.flatten.length + 1 ≤ r.2.maxLen := by
  unfold sendVtg at h
  simp only [Option.bind_eq_bind, Option.bind_eq_some_iff, Option.some.injEq] at h
  obtain ⟨m, hm, rfl⟩ := h
  obtain ⟨hvn, hve⟩ := vel_range (hw.vel st.src)
  have l3 := lenF0 (p := 2) (d := 8) (q := L.sogKnots (st.store.vel st.src).n (st.store.vel st.src).e) (by omega) (by omega) (hL.knots _ _ hvn hve).1
    (by have := (hL.knots (st.store.vel st.src).n (st.store.vel st.src).e hvn hve).2; norm_num; exact this)
  have l5 := lenF0 (p := 2) (d := 8) (q := L.sogKph (st.store.vel st.src).n (st.store.vel st.src).e) (by omega) (by omega) (hL.kph _ _ hvn hve).1
    (by have := (hL.kph (st.store.vel st.src).n (st.store.vel st.src).e hvn hve).2; norm_num; exact this)
  have l4 := len_cog (calcCog_ok (v := st.store.vel st.src) (th := st.cogUpdateThreshold) (hL.course _ _) hw.cog).1
  simp only [List.flatten_cons, List.flatten_nil]
  split_ifs <;> len_tac

theorem len_hdt {H : Pos → Prop} {st : St} (hw : WireSt H st) : (sendHdt st).texts.flatten.length + 1 ≤ (sendHdt st).maxLen := by
  have hh : (st.store.hdg.heading : ℚ) ≤ 4294967296 := by
    have := hw.hdg; simp only [WireMsg] at this
    exact_mod_cast (by omega : st.store.hdg.heading ≤ 4294967296)
  have h0 : (0 : ℚ) ≤ st.store.hdg.heading := Nat.cast_nonneg _
  have e := f32_err (st.store.hdg.heading : ℚ)
  rw [abs_of_nonneg h0] at e
  have e' : |f32 (st.store.hdg.heading : ℚ) - st.store.hdg.heading| ≤ 1000 := by
    refine e.trans ?_
    have : (st.store.hdg.heading : ℚ) / 16777216 ≤ 256 := by rw [div_le_iff₀ (by norm_num)]; linarith
    have h2 : (1 : ℚ) / 2 ^ 150 ≤ 1 := by norm_num
    linarith
  rw [abs_le] at e'
  have hb : |f32 (st.store.hdg.heading : ℚ) / 1000| ≤ 5000000 := by
    rw [abs_le]; constructor
    · rw [le_div_iff₀ (by norm_num)]; linarith
    · rw [div_le_iff₀ (by norm_num)]; linarith
  have e2 := (f64_near hb).trans (by norm_num : (5000000 : ℚ) / 9007199254740992 + 1 / 10 ^ 60 ≤ 1)
  rw [abs_le] at e2 hb
  have l := lenF (p := 2) (d := 7) (x := .fin (f64 (f32 (st.store.hdg.heading : ℚ) / 1000))) (by omega) (by omega)
    (by simp only [Below]; rw [abs_le]; norm_num; constructor <;> linarith)
  simp only [sendHdt, List.flatten_cons, List.flatten_nil]
  split_ifs <;> len_tac

theorem len_ths {H : Pos → Prop} {st : St} (hw : WireSt H st) : (sendThs st).texts.flatten.length + 1 ≤ (sendThs st).maxLen := by
  have l : (fmtF 0 2 (.fin (yawDeg st.store.orient.yaw))).length ≤ 6 := by
    obtain ⟨h0, h1, -⟩ := wrapYaw_spec hw.orient.1 hw.orient.2
    have h0q : (0 : ℚ) ≤ wrapYaw st.store.orient.yaw := by exact_mod_cast h0
    have h1q : (wrapYaw st.store.orient.yaw : ℚ) ≤ 360000000 := by exact_mod_cast h1
    have hb : |(wrapYaw st.store.orient.yaw : ℚ) / 1000000| ≤ 360 := by
      rw [abs_of_nonneg (by positivity), div_le_iff₀ (by norm_num)]; linarith
    have e2 := (f64_near hb).trans (by norm_num : (360 : ℚ) / 9007199254740992 + 1 / 10 ^ 60 ≤ 1)
    rw [abs_le] at e2 hb
    have hn : 0 ≤ yawDeg st.store.orient.yaw := by
      unfold yawDeg; simp only; split
      · exact le_refl _
      · exact f64_nonneg (by positivity)
    have hl : yawDeg st.store.orient.yaw ≤ 999 := by
      unfold yawDeg; simp only; split
      · norm_num
      · linarith
    exact lenF0 (p := 2) (d := 3) (by omega) (by omega) hn (by norm_num; exact hl)
  simp only [sendThs, List.flatten_cons, List.flatten_nil]
  split_ifs <;> len_tac

theorem len_gll {L : Lib} {st : St} {s : Sentence} {H : Pos → Prop} (hw : WireSt H st) (h : sendGll L st = some s) :
    s.texts.flatten.length + 1 ≤ s.maxLen := by
  unfold sendGll at h
  simp only [Option.bind_eq_bind, Option.bind_eq_some_iff, Option.some.injEq] at h
  obtain ⟨a, ha, b, hb, t, ht, m, hm, rfl⟩ := h
  have l1 := (utc_facts L (hw.utc st.src)).1.2
  have l2 := len_latLon ha hb
  simp only [List.flatten_cons, List.flatten_nil]
  split_ifs <;> len_tac

theorem len_zda {L : Lib} {st : St} {H : Pos → Prop} (hw : WireSt H st) :
    (sendZda L st).texts.flatten.length + 1 ≤ (sendZda L st).maxLen := by
  have l1 := (utc_facts L (hw.utc st.src)).2.2.2
  simp only [sendZda, List.flatten_cons, List.flatten_nil]
  len_tac

theorem len_flatten_le {l : List Str} {n : Nat} (h : ∀ s ∈ l, s.length ≤ n) : l.flatten.length ≤ l.length * n := by
  induction l with
  | nil => simp
  | cons a l ih =>
    have h1 := h a (by simp)
    have h2 := ih (fun s hs => h s (by simp [hs]))
    simp only [List.flatten_cons, List.length_append, List.length_cons, Nat.add_mul]; omega

theorem nmeaSvId_lt (L : Lib) (s : Sid) (h : s.sat < 256) : nmeaSvId L s < 65536 := by
  unfold nmeaSvId; split <;> omega

/-- what one observation adds to the lists -/
theorem gsaAdd_cases (L : Lib) (acc : Fin 4 → List Nat) (s : Sid) :
    (gsaAdd L acc s = acc ∧ (talkerOf L s = none ∨ ∃ t, talkerOf L s = some t ∧ ((acc t).length ≥ gsaMaxSv ∨ nmeaSvId L s ∈ acc t))) ∨
    ∃ t, talkerOf L s = some t ∧ (acc t).length < gsaMaxSv ∧ nmeaSvId L s ∉ acc t ∧
      gsaAdd L acc s = fun t' => if t' = t then acc t ++ [nmeaSvId L s] else acc t' := by
  unfold gsaAdd
  cases ht : talkerOf L s with
  | none => left; exact ⟨rfl, Or.inl rfl⟩
  | some t =>
    simp only
    by_cases h1 : (acc t).length ≥ gsaMaxSv
    · left; rw [if_pos h1]; exact ⟨rfl, Or.inr ⟨t, rfl, Or.inl h1⟩⟩
    · rw [if_neg h1]
      by_cases h2 : nmeaSvId L s ∈ acc t
      · left; rw [if_pos h2]; exact ⟨rfl, Or.inr ⟨t, rfl, Or.inr h2⟩⟩
      · right; rw [if_neg h2]; exact ⟨t, rfl, by omega, h2, rfl⟩

theorem gsaAdd_lt {L : Lib} {sids : List Sid} (h : ∀ s ∈ sids, s.sat < 256) : ∀ (acc : Fin 4 → List Nat),
    (∀ t, ∀ p ∈ acc t, p < 65536) → ∀ t, ∀ p ∈ (sids.foldl (gsaAdd L) acc) t, p < 65536 := by
  induction sids with
  | nil => intro acc ha; exact ha
  | cons s sids ih =>
    intro acc ha
    refine ih (fun x hx => h x (by simp [hx])) (gsaAdd L acc s) ?_
    intro t p hp
    rcases gsaAdd_cases L acc s with ⟨e, -⟩ | ⟨t0, -, -, -, e⟩
    · rw [e] at hp; exact ha t p hp
    · rw [e] at hp
      simp only at hp
      split at hp
      · rcases List.mem_append.1 hp with hp | hp
        · exact ha _ p hp
        · simp only [List.mem_singleton] at hp; subst hp
          exact nmeaSvId_lt L s (h s (by simp))
      · exact ha t p hp

theorem talker_len (t : Fin 4) : (talkerStr t).length = 2 := by
  match t with
  | 0 | 1 | 2 | 3 => rfl

theorem len_gsaPrint {p : List Nat} {d : Dops} {t : Str} (hp : ∀ x ∈ p, x < 65536) (hd : WireMsg (.dops d)) (ht : t.length = 2) :
    (gsaPrint p d t).texts.flatten.length + 1 ≤ (gsaPrint p d t).maxLen := by
  have l1 := len_dop1 hd.1
  have l2 := len_dop1 hd.2.1
  have l3 := len_dop1 hd.2.2.1
  obtain ⟨f, hf, hl⟩ : ∃ f : Nat → Str, (gsaPrint p d t).texts =
      [lit "$" ++ t ++ lit "GSA,A," ++ [if posMode d.flags ≠ 0 then '3' else '1'] ++ lit ","] ++ (List.range gsaMaxSv).map f ++
      [if posMode d.flags ≠ 0 then fmtF 0 1 (dop1 d.pdop) ++ lit "," ++ fmtF 0 1 (dop1 d.hdop) ++ lit "," ++ fmtF 0 1 (dop1 d.vdop)
       else lit ",,"] ∧ ∀ i, (f i).length ≤ 6 := by
    refine ⟨_, rfl, ?_⟩
    intro i
    cases hq : (p.insertionSort (· ≤ ·))[i]? with
    | none => simp only; len_tac
    | some q =>
      have hq' : q ∈ p := (List.perm_insertionSort _ p).mem_iff.1 (List.mem_of_getElem? hq)
      have := lenU (w := 2) (n := q) (e := 5) (by omega) (by omega) (by have := hp q hq'; omega)
      simp only; len_tac
  have k := len_flatten_le (n := 6) (l := (List.range gsaMaxSv).map f) (by
    intro s hs
    obtain ⟨i, -, rfl⟩ := List.mem_map.1 hs
    exact hl i)
  rw [List.length_map, List.length_range] at k
  have p2 : (if posMode d.flags ≠ 0 then fmtF 0 1 (dop1 d.pdop) ++ lit "," ++ fmtF 0 1 (dop1 d.hdop) ++ lit "," ++ fmtF 0 1 (dop1 d.vdop)
       else lit ",,").length ≤ 20 := len_ite (fun _ => by len_tac) (fun _ => by len_tac)
  have e0 : (gsaPrint p d t).maxLen = 120 := rfl
  rw [hf, e0]
  simp only [List.flatten_append, List.flatten_cons, List.flatten_nil, List.length_append, List.length_nil, List.length_cons, ht]
  have e1 : (lit "$").length = 1 := rfl
  have e2 : (lit "GSA,A,").length = 6 := rfl
  have e3 : (lit ",").length = 1 := rfl
  have e4 : gsaMaxSv = 12 := rfl
  omega

theorem len_gsa {L : Lib} {st : St} {s : Sentence} {H : Pos → Prop} (hw : WireSt H st) (h : s ∈ sendGsa L st) :
    s.texts.flatten.length + 1 ≤ s.maxLen := by
  have hlt := gsaAdd_lt (L := L) (sids := st.navSids.take st.numObs) (fun x hx => hw.nav x (List.mem_of_mem_take hx)) (fun _ => []) (by simp)
  unfold sendGsa at h
  simp only at h
  split at h
  · simp only [List.mem_singleton] at h; subst h
    exact len_gsaPrint (hlt 0) hw.dops rfl
  · obtain ⟨t, -, rfl⟩ := List.mem_map.1 h
    refine len_gsaPrint (hlt t) hw.dops ?_
    split
    · rfl
    · exact talker_len t

theorem len_gst {L : Lib} {st : St} {s : Sentence} (hw : WireSt (ModeratePos L) st) (h : sendGst L st = some s) :
    s.texts.flatten.length + 1 ≤ s.maxLen := by
  have l1 := (utc_facts L (hw.utc st.src)).1.2
  unfold sendGst at h
  simp only [Option.bind_eq_bind, Option.bind_eq_some_iff] at h
  obtain ⟨ft, hft, h⟩ := h
  split at h
  · simp only [Option.some.injEq] at h; subst h
    simp only [List.flatten_cons, List.flatten_nil]
    len_tac
  · rename_i hc
    obtain ⟨-, a, b, c, d, e, f, hg, ha, hb, hcc, hd, he, hf⟩ := hw.ext st.src ((fixType_le hft).2.1 (by omega))
    rw [hg] at h
    simp only [Option.some.injEq] at h; subst h
    have la := lenF (p := 6) (by omega) (by omega) ha
    have lb := lenF (p := 6) (by omega) (by omega) hb
    have lc := lenF (p := 1) (by omega) (by omega) hcc
    have ld := lenF (p := 6) (by omega) (by omega) hd
    have le := lenF (p := 6) (by omega) (by omega) he
    have lf := lenF (p := 6) (by omega) (by omega) hf
    simp only [List.flatten_cons, List.flatten_nil]
    rcases hg2 : gstTalkers L st with _ | ⟨t, _ | ⟨u, l⟩⟩
    · simp only; len_tac
    · have := talker_len t
      simp only; len_tac
    · simp only; len_tac

theorem len_gsvElem {L : Lib} {e : GsvElem} (h1 : e.sid.sat < 256) (h2 : e.az < 1000) (h3 : e.el.natAbs < 1000) (h4 : ∀ s, e.snr = some s → s < 256) :
    (gsvElemText L e).length ≤ 19 := by
  have l1 := lenU (w := 2) (n := nmeaSvId L e.sid) (e := 5) (by omega) (by omega) (by have := nmeaSvId_lt L e.sid h1; omega)
  have l2 := lenD (n := e.el) (e := 3) (by omega) (by omega)
  have l3 := lenU (w := 3) (n := e.az) (e := 3) (by omega) (by omega) (by omega)
  unfold gsvElemText
  split
  · rename_i s hs
    have l4 := lenU (w := 2) (n := s) (e := 3) (by omega) (by omega) (by have := h4 s hs; omega)
    len_tac
  · len_tac

theorem len_gsv {L : Lib} {st : St} {s : Sentence} {H : Pos → Prop} (hw : WireSt H st) (h : s ∈ sendGsv L st) :
    s.texts.flatten.length + 1 ≤ s.maxLen := by
  unfold sendGsv at h
  simp only at h
  split at h
  · simp only [List.mem_singleton] at h; subst h; simp only [List.flatten_cons, List.flatten_nil]; len_tac
  · obtain ⟨t, -, h⟩ := List.mem_flatMap.1 h
    unfold gsvPrint at h
    obtain ⟨i, hi, rfl⟩ := List.mem_map.1 h
    generalize hes : List.map (gsvElem L st.store.meas) _ = es at *
    have hel : ∀ e ∈ es, (gsvElemText L e).length ≤ 19 := by
      intro e he
      rw [← hes] at he
      obtain ⟨a, ha, rfl⟩ := List.mem_map.1 he
      obtain ⟨b1, b2, b3, b4⟩ := hw.azel a (List.mem_of_mem_filter ha)
      refine len_gsvElem b4 (by simp only [gsvElem]; omega) (by simp only [gsvElem]; omega) ?_
      intro s hs
      simp only [gsvElem, Option.map_eq_some_iff] at hs
      obtain ⟨m, -, rfl⟩ := hs
      exact Nat.mod_lt _ (by omega)
    have k := len_flatten_le (n := 19) (l := (List.take 4 (List.drop (4 * i) es)).map (gsvElemText L)) (by
      intro s hs
      obtain ⟨e, he, rfl⟩ := List.mem_map.1 hs
      exact hel e (List.mem_of_mem_drop (List.mem_of_mem_take he)))
    rw [List.length_map, List.length_take] at k
    have hmin : min 4 (List.drop (4 * i) es).length * 19 ≤ 76 := by
      have : min 4 (List.drop (4 * i) es).length ≤ 4 := Nat.min_le_left _ _
      omega
    have hi' := List.mem_range.1 hi
    have l0 : es.length % 256 < 256 := Nat.mod_lt _ (by omega)
    generalize es.length % 256 = n at *
    have l1 := lenU (w := 1) (n := (n + 3) / 4 % 256) (e := 3) (by omega) (by omega) (by omega)
    have l2 := lenU (w := 1) (n := i + 1) (e := 3) (by omega) (by omega) (by omega)
    have l3 := lenU (w := 2) (n := n) (e := 3) (by omega) (by omega) (by omega)
    have l4 := talker_len t
    simp only [List.flatten_append, List.length_append, List.flatten_cons, List.flatten_nil]
    len_tac


/-! ### the claims -/

theorem clean_facts {T : Str} (h : Clean T) : '*' ∉ T ∧ '\x00' ∉ T ∧ ∀ c ∈ T, c.toNat < 256 := by
  refine ⟨fun hc => ?_, fun hc => ?_, fun c hc => ?_⟩
  · have := h _ hc; revert this; decide
  · have := h _ hc; revert this; decide
  · have := h c hc; unfold okChar at this; simp at this; omega

theorem print_good {s : Sentence} (hs : Good s) (mem : Str) (hmem : mem.length = s.maxLen + 6) :
    ∃ out T, s.texts.flatten = '$' :: T ∧ printSentence mem s = some out ∧ WellFormed out (T.take (s.maxLen - 2)) := by
  obtain ⟨T, hT⟩ := hs.dollar
  have hc : Clean T := by have := hs.clean; rw [hT] at this; exact (clean_cons.1 this).2
  obtain ⟨h1, h2, h3⟩ := clean_facts hc
  obtain ⟨out, ho, hw⟩ := printSentence_spec mem s T hmem hs.max hT h1 h2 h3
  exact ⟨out, T, hT, ho, hw⟩

theorem wellFormed_length {s b : Str} (h : WellFormed s b) : s.length = b.length + 6 := by
  obtain ⟨_, _, _, _, rfl, _⟩ := h
  simp

/-- **C31** For every history of inputs, every sentence handed to the output callback is `$` body `*` checksum CR LF with
the checksum the XOR of the body, whatever the sentence buffer contained before; it is within the buffer (with its NUL),
and its body is the text of the sentence or the part of it that fits. -/
theorem C31_wellformed (L : Lib) (st st' : St) (is : List In) (es : List Emit) (h : run L st is = some (st', es)) (e : Emit)
    (he : e ∈ es) (mem : Str) (hmem : mem.length = e.sentence.maxLen + 6) :
    ∃ out body, printSentence mem e.sentence = some out ∧ WellFormed out body ∧ out.length < e.sentence.maxLen + 6 ∧
      '$' :: body <+: e.sentence.texts.flatten := by
  obtain ⟨s0, -, -, -, -, s1, ss, hs, hm⟩ := run_true h e he
  have hg := good_send hs _ hm
  obtain ⟨out, T, hT, ho, hw⟩ := print_good hg mem hmem
  refine ⟨out, _, ho, hw, ?_, ?_⟩
  · rw [wellFormed_length hw]
    have := hg.max
    rw [List.length_take]; omega
  · rw [hT, List.cons_prefix_cons]
    exact ⟨rfl, List.take_prefix _ _⟩

theorem print_complete {s : Sentence} (hs : Good s) (hl : s.texts.flatten.length + 1 ≤ s.maxLen) (mem : Str)
    (hmem : mem.length = s.maxLen + 6) :
    ∃ out body, printSentence mem s = some out ∧ WellFormed out body ∧ '$' :: body = s.texts.flatten := by
  obtain ⟨out, T, hT, ho, hw⟩ := print_good hs mem hmem
  rw [hT] at hl
  rw [List.take_of_length_le (by simp at hl; omega)] at hw
  exact ⟨out, T, ho, hw, hT.symm⟩

theorem lengths {L : Lib} (hL : SaneLib L) {id : NmeaId} {st st' : St} {ss : List Sentence} (hw : WireSt (ModeratePos L) st)
    (h : send L id st = some (st', ss)) (hid : id ≠ .pubx) : ∀ s ∈ ss, s.texts.flatten.length + 1 ≤ s.maxLen := by
  intro s hs
  cases id <;> simp only [send, Option.map_eq_some_iff, Option.some.injEq, Prod.mk.injEq] at h
  · obtain ⟨r, hr, -, rfl⟩ := h; simp only [List.mem_singleton] at hs; subst hs; exact len_gga hL hw hr
  · obtain ⟨r, hr, -, rfl⟩ := h; simp only [List.mem_singleton] at hs; subst hs; exact len_rmc hL hw hr
  · obtain ⟨r, hr, -, rfl⟩ := h; simp only [List.mem_singleton] at hs; subst hs; exact len_vtg hL hw hr
  · obtain ⟨-, rfl⟩ := h; simp only [List.mem_singleton] at hs; subst hs; exact len_hdt hw
  · obtain ⟨r, hr, -, rfl⟩ := h; simp only [List.mem_singleton] at hs; subst hs; exact len_gll hw hr
  · obtain ⟨-, rfl⟩ := h; simp only [List.mem_singleton] at hs; subst hs; exact len_zda hw
  · obtain ⟨-, rfl⟩ := h; exact len_gsa hw hs
  · obtain ⟨r, hr, -, rfl⟩ := h; simp only [List.mem_singleton] at hs; subst hs; exact len_gst hw hr
  · obtain ⟨-, rfl⟩ := h; exact len_gsv hw hs
  · exact absurd rfl hid
  · obtain ⟨-, rfl⟩ := h; simp only [List.mem_singleton] at hs; subst hs; exact len_ths hw

theorem commas_send {L : Lib} {id : NmeaId} {st st' : St} {ss : List Sentence} (hu : TwoDigit (st.store.utc st.src))
    (h : send L id st = some (st', ss)) : ∀ s ∈ ss, ∃ k ≤ 4, (id ≠ .gsv → k = 0) ∧ s.texts.flatten.count ',' = fieldCount id + 4 * k := by
  intro s hs
  cases id <;> simp only [send, Option.map_eq_some_iff, Option.some.injEq, Prod.mk.injEq] at h
  · obtain ⟨r, hr, -, rfl⟩ := h; simp only [List.mem_singleton] at hs; subst hs; exact ⟨0, by omega, fun _ => rfl, commas_gga hu hr⟩
  · obtain ⟨r, hr, -, rfl⟩ := h; simp only [List.mem_singleton] at hs; subst hs; exact ⟨0, by omega, fun _ => rfl, commas_rmc hu hr⟩
  · obtain ⟨r, hr, -, rfl⟩ := h; simp only [List.mem_singleton] at hs; subst hs; exact ⟨0, by omega, fun _ => rfl, commas_vtg hr⟩
  · obtain ⟨-, rfl⟩ := h; simp only [List.mem_singleton] at hs; subst hs; exact ⟨0, by omega, fun _ => rfl, commas_hdt _⟩
  · obtain ⟨r, hr, -, rfl⟩ := h; simp only [List.mem_singleton] at hs; subst hs; exact ⟨0, by omega, fun _ => rfl, commas_gll hu hr⟩
  · obtain ⟨-, rfl⟩ := h; simp only [List.mem_singleton] at hs; subst hs; exact ⟨0, by omega, fun _ => rfl, commas_zda _ _ hu⟩
  · obtain ⟨-, rfl⟩ := h
    unfold sendGsa at hs
    simp only at hs
    split at hs
    · simp only [List.mem_singleton] at hs; subst hs
      exact ⟨0, by omega, fun _ => rfl, commas_gsaPrint _ _ _ rfl⟩
    · obtain ⟨t, -, rfl⟩ := List.mem_map.1 hs
      refine ⟨0, by omega, fun _ => rfl, commas_gsaPrint _ _ _ ?_⟩
      split
      · rfl
      · exact talker_commas t
  · obtain ⟨r, hr, -, rfl⟩ := h; simp only [List.mem_singleton] at hs; subst hs; exact ⟨0, by omega, fun _ => rfl, commas_gst hu hr⟩
  · obtain ⟨-, rfl⟩ := h
    obtain ⟨k, hk, hc⟩ := commas_gsv hs
    exact ⟨k, hk, fun h => absurd rfl h, hc⟩
  · obtain ⟨r, hr, -, rfl⟩ := h; simp only [List.mem_singleton] at hs; subst hs; exact ⟨0, by omega, fun _ => rfl, commas_pubx hu hr⟩
  · obtain ⟨-, rfl⟩ := h; simp only [List.mem_singleton] at hs; subst hs; exact ⟨0, by omega, fun _ => rfl, commas_ths _⟩

theorem takeWhile_addr {a s : Str} (h : ',' ∉ a) : address (a ++ ',' :: s) = a := by
  unfold address
  rw [List.takeWhile_append_of_pos]
  · simp
  · intro c hc; simp only [ne_eq, decide_not, Bool.not_eq_eq_eq_not, Bool.not_true, decide_eq_false_iff_not]; intro e; exact h (e ▸ hc)

theorem addr_mem {s : Str} {id : NmeaId} (a T : Str) (h1 : a.count ',' = 0) (h2 : a ∈ addresses id) (h3 : s = a ++ ',' :: T) :
    address s ∈ addresses id := by
  rw [h3, takeWhile_addr (List.count_eq_zero.1 h1)]; exact h2

theorem address_send {L : Lib} {id : NmeaId} {st st' : St} {ss : List Sentence} (h : send L id st = some (st', ss)) :
    ∀ s ∈ ss, address s.texts.flatten ∈ addresses id := by
  intro s hs
  have app : ∀ (a x : Str), a ++ [','] ++ x = a ++ ',' :: x := by intro a x; simp
  cases id <;> simp only [send, Option.map_eq_some_iff, Option.some.injEq, Prod.mk.injEq] at h
  case gga =>
    obtain ⟨r, hr, -, rfl⟩ := h; simp only [List.mem_singleton] at hs; subst hs
    unfold sendGga at hr
    simp only [Option.bind_eq_bind, Option.bind_eq_some_iff, Option.some.injEq] at hr
    obtain ⟨a, -, b, -, ft, -, rfl⟩ := hr
    exact addr_mem (lit "$GPGGA") _ rfl (by decide) (by rw [List.flatten_cons, ← app]; rfl)
  case rmc =>
    obtain ⟨r, hr, -, rfl⟩ := h; simp only [List.mem_singleton] at hs; subst hs
    unfold sendRmc at hr
    simp only [Option.bind_eq_bind, Option.bind_eq_some_iff, Option.some.injEq] at hr
    obtain ⟨a, -, b, -, m, hm, s, hs, rfl⟩ := hr
    exact addr_mem (lit "$GPRMC") _ rfl (by decide) (by rw [List.append_assoc, List.cons_append, List.flatten_cons, ← app]; rfl)
  case vtg =>
    obtain ⟨r, hr, -, rfl⟩ := h; simp only [List.mem_singleton] at hs; subst hs
    unfold sendVtg at hr
    simp only [Option.bind_eq_bind, Option.bind_eq_some_iff, Option.some.injEq] at hr
    obtain ⟨m, hm, rfl⟩ := hr
    exact addr_mem (lit "$GPVTG") _ rfl (by decide) (by rw [List.flatten_cons, ← app]; rfl)
  case hdt =>
    obtain ⟨-, rfl⟩ := h; simp only [List.mem_singleton] at hs; subst hs
    exact addr_mem (lit "$GPHDT") _ rfl (by decide) (by unfold sendHdt; rw [List.flatten_cons, ← app]; rfl)
  case ths =>
    obtain ⟨-, rfl⟩ := h; simp only [List.mem_singleton] at hs; subst hs
    exact addr_mem (lit "$GPTHS") _ rfl (by decide) (by unfold sendThs; rw [List.flatten_cons, ← app]; rfl)
  case zda =>
    obtain ⟨-, rfl⟩ := h; simp only [List.mem_singleton] at hs; subst hs
    exact addr_mem (lit "$GPZDA") _ rfl (by decide) (by unfold sendZda; rw [List.flatten_cons, ← app]; rfl)
  case gll =>
    obtain ⟨r, hr, -, rfl⟩ := h; simp only [List.mem_singleton] at hs; subst hs
    unfold sendGll at hr
    simp only [Option.bind_eq_bind, Option.bind_eq_some_iff, Option.some.injEq] at hr
    obtain ⟨a, -, b, -, t, ht, m, hm, rfl⟩ := hr
    exact addr_mem (lit "$GPGLL") _ rfl (by decide) (by rw [List.flatten_cons, ← app]; rfl)
  case pubx =>
    obtain ⟨r, hr, -, rfl⟩ := h; simp only [List.mem_singleton] at hs; subst hs
    unfold sendPubx at hr
    simp only [Option.bind_eq_bind, Option.bind_eq_some_iff, Option.some.injEq] at hr
    obtain ⟨a, -, b, -, ft, -, rfl⟩ := hr
    have e : ∀ x, lit "$PUBX,00," ++ x = lit "$PUBX" ++ ',' :: (lit "00," ++ x) := fun x => rfl
    exact addr_mem (lit "$PUBX") _ rfl (by decide) (by rw [List.append_assoc, List.cons_append, List.flatten_cons, e])
  case gsa =>
    obtain ⟨-, rfl⟩ := h
    have e : ∀ (t x y : Str), lit "$" ++ t ++ lit "GSA,A," ++ x ++ lit "," ++ y =
        (lit "$" ++ t ++ lit "GSA") ++ ',' :: (lit "A," ++ x ++ lit "," ++ y) := fun t x y => by
      simp [lit]
    have pr : ∀ p d t, ∃ T, (gsaPrint p d t).texts.flatten = (lit "$" ++ t ++ lit "GSA") ++ ',' :: T := by
      intro p d t
      simp only [gsaPrint, List.flatten_append, List.flatten_cons, List.flatten_nil, List.append_nil]
      rw [List.append_assoc]
      exact ⟨_, e _ _ _⟩
    unfold sendGsa at hs
    simp only at hs
    split at hs
    · simp only [List.mem_singleton] at hs; subst hs
      obtain ⟨T, hT⟩ := pr (List.foldl (gsaAdd L) (fun _ => []) (List.take st.numObs st.navSids) 0) st.store.dops (lit "GP")
      exact addr_mem _ _ rfl (by decide) hT
    · obtain ⟨t, -, rfl⟩ := List.mem_map.1 hs
      obtain ⟨T, hT⟩ := pr _ _ _
      refine addr_mem _ _ ?_ ?_ hT
      · split
        · rfl
        · match t with
          | 0 | 1 | 2 | 3 => rfl
      · split
        · decide
        · match t with
          | 0 | 1 | 2 | 3 => decide
  case gst =>
    obtain ⟨r, hr, -, rfl⟩ := h; simp only [List.mem_singleton] at hs; subst hs
    unfold sendGst at hr
    simp only [Option.bind_eq_bind, Option.bind_eq_some_iff] at hr
    obtain ⟨ft, -, hr⟩ := hr
    split at hr
    · simp only [Option.some.injEq] at hr; subst hr
      exact addr_mem (lit "$GPGST") _ rfl (by decide) (by rw [List.flatten_cons, List.append_assoc, List.append_assoc, ← app]; rfl)
    · split at hr
      · simp only [Option.some.injEq] at hr; subst hr
        rcases hg2 : gstTalkers L st with _ | ⟨t, _ | ⟨u, l⟩⟩
        · exact addr_mem (lit "$GNGST") _ rfl (by decide) (by rw [List.flatten_cons, ← app]; simp only [List.append_assoc]; rfl)
        · have hc : (lit "$" ++ talkerStr t ++ lit "GST").count ',' = 0 := by
            match t with
            | 0 | 1 | 2 | 3 => rfl
          have hm : lit "$" ++ talkerStr t ++ lit "GST" ∈ addresses .gst := by
            match t with
            | 0 | 1 | 2 | 3 => decide
          exact addr_mem _ _ hc hm (by rw [List.flatten_cons, ← app]; simp only [List.append_assoc]; rfl)
        · exact addr_mem (lit "$GNGST") _ rfl (by decide) (by rw [List.flatten_cons, ← app]; simp only [List.append_assoc]; rfl)
      · simp at hr
  case gsv =>
    obtain ⟨-, rfl⟩ := h
    unfold sendGsv at hs
    simp only at hs
    split at hs
    · simp only [List.mem_singleton] at hs; subst hs
      exact addr_mem (lit "$GPGSV") (lit "1,1,0") rfl (by decide) rfl
    · obtain ⟨t, -, hs⟩ := List.mem_flatMap.1 hs
      unfold gsvPrint at hs
      obtain ⟨i, -, rfl⟩ := List.mem_map.1 hs
      have e : ∀ (t x : Str), lit "$" ++ t ++ lit "GSV," ++ x =
          (lit "$" ++ t ++ lit "GSV") ++ ',' :: x := fun t x => by simp [lit]
      have hc : (lit "$" ++ talkerStr t ++ lit "GSV").count ',' = 0 := by
        match t with
        | 0 | 1 | 2 | 3 => rfl
      have hm : lit "$" ++ talkerStr t ++ lit "GSV" ∈ addresses .gsv := by
        match t with
        | 0 | 1 | 2 | 3 => decide
      exact addr_mem _ _ hc hm (by rw [List.cons_append, List.flatten_cons, ← e]; simp only [List.append_assoc]; rfl)

/-- **C31** Nothing of a sentence other than PUBX is cut off: for every history of messages whose fields are in range, with
heights below 10^12 m and standard deviations below 10^9 m, the sentence handed to the callback is well-formed, its body is
the whole text, its address is one of those of its type and it has the number of fields of its type. -/
theorem C31_complete (L : Lib) (hL : SaneLib L) (mode : Mode) (freq : ℚ) (is : List In) (st' : St) (es : List Emit)
    (hw : ∀ i ∈ is, WireIn i) (hp : ∀ g p, In.msg (.pos g p) ∈ is → ModeratePos L p)
    (h : run L (init mode freq) is = some (st', es)) (e : Emit) (he : e ∈ es) (hid : e.id ≠ .pubx) (mem : Str)
    (hmem : mem.length = e.sentence.maxLen + 6) :
    ∃ out body, printSentence mem e.sentence = some out ∧ WellFormed out body ∧ '$' :: body = e.sentence.texts.flatten ∧
      address ('$' :: body) ∈ addresses e.id ∧
      ∃ k ≤ 4, (e.id ≠ .gsv → k = 0) ∧ (fields ('$' :: body)).length = 1 + fieldCount e.id + 4 * k := by
  obtain ⟨s0, hs0, -, -, -, s1, ss, hs, hm⟩ :=
    (wire_run (H := ModeratePos L) hL.course (WireSt.init (fun h => absurd rfl h) mode freq) hw hp h).2 e he
  obtain ⟨out, body, h1, h2, h3⟩ := print_complete (good_send hs _ hm) (lengths hL hs0 hs hid _ hm) mem hmem
  refine ⟨out, body, h1, h2, h3, ?_, ?_⟩
  · rw [h3]; exact address_send hs _ hm
  · obtain ⟨k, hk, hk0, hc⟩ := commas_send (hs0.utc s0.src) hs _ hm
    refine ⟨k, hk, hk0, ?_⟩
    rw [h3, fields_length, hc]; omega

/-- **C31** PUBX, PARTIAL: well-formed always (C31_wellformed); complete, with its 20 fields, only while its text fits the
120 bytes reserved for it. -/
theorem C31_pubx_partial (L : Lib) (hL : CourseBounded L) (mode : Mode) (freq : ℚ) (is : List In) (st' : St) (es : List Emit)
    (hw : ∀ i ∈ is, WireIn i) (h : run L (init mode freq) is = some (st', es)) (e : Emit) (he : e ∈ es) (hid : e.id = .pubx)
    (hl : e.sentence.texts.flatten.length ≤ 119) (mem : Str) (hmem : mem.length = e.sentence.maxLen + 6) :
    ∃ out body, printSentence mem e.sentence = some out ∧ WellFormed out body ∧ '$' :: body = e.sentence.texts.flatten ∧
      address ('$' :: body) ∈ addresses .pubx ∧ (fields ('$' :: body)).length = 21 := by
  obtain ⟨s0, hs0, -, -, -, s1, ss, hs, hm⟩ :=
    (wire_run (H := fun _ => True) hL (WireSt.init trivial mode freq) hw (fun _ _ _ => trivial) h).2 e he
  have hmax : e.sentence.maxLen = 120 := by
    rw [hid] at hs
    simp only [send, Option.map_eq_some_iff, Prod.mk.injEq] at hs
    obtain ⟨r, hr, -, rfl⟩ := hs
    simp only [List.mem_singleton] at hm
    rw [hm]
    unfold sendPubx at hr
    simp only [Option.bind_eq_bind, Option.bind_eq_some_iff, Option.some.injEq] at hr
    obtain ⟨a, -, b, -, ft, -, rfl⟩ := hr
    rfl
  obtain ⟨out, body, h1, h2, h3⟩ := print_complete (good_send hs _ hm) (by omega) mem hmem
  refine ⟨out, body, h1, h2, h3, ?_, ?_⟩
  · rw [h3, ← hid]; exact address_send hs _ hm
  · obtain ⟨k, hk, hk0, hc⟩ := commas_send (hs0.utc s0.src) hs _ hm
    rw [hk0 (by rw [hid]; decide), hid] at hc
    rw [h3, fields_length, hc]; rfl

/-- a slow climb with poor geometry and old corrections -/
def exLib2 : Lib := { exLib with
    hacc := fun _ => .fin 115, vacc := fun _ => .fin 125, sogKnots := fun _ _ => 60
    sogKph := fun _ _ => 111
    courseDeg := fun _ _ => 270 }
def exIn : List In :=
  [.rate .pubx 1, .rate .gga 1, .rate .gll 1,
   .msg (.gpsTime true { wn := 2100, tow := 5000 }),
   .msg (.pos true { tow := 5000, lat := .fin (f64 (374289 / 10000)), lon := .fin (f64 (-122173 / 1000)), height := .fin (f64 (1234567 / 100)), nSats := 12, flags := 4 }),
   .msg (.vel true { tow := 5000, n := 0, e := -30000, d := -12345, flags := 1 }),
   .msg (.dops { tow := 5000, pdop := 180, hdop := 1050, vdop := 1200, tdop := 1100, flags := 1 }),
   .msg (.age { tow := 5000, age := 1234 }),
   .msg (.utc true { exUtc with tow := 5000, ns := 0 })]

/-- what the callback receives -/
def printed (L : Lib) (st : St) (is : List In) : Option (List (Option Str)) :=
  (run L st is).map fun r => r.2.map fun e => printSentence (List.replicate (e.sentence.maxLen + 6) 'x') e.sentence

/-- hypotheses of C31_complete: GGA and GLL of one epoch; and in the same epoch PUBX, with values a user can meet, loses its
last field and still carries a valid checksum. -/
theorem C31_pubx_truncated_bug : printed exLib2 (init .gnss 1) exIn = some
    [some "$GPGGA,235959.00,3725.7340000,N,12210.3800000,W,4,12,10.5,12345.67,M,0.00,M,123.4,0000*5F\x0d\n".toList,
     some "$GPGLL,3725.7340000,N,12210.3800000,W,235959.00,A,D*77\x0d\n".toList,
     some ("$PUBX,00,235959.00,3725.7340000,N,12210.3800000,W,12345.67,D3,115.0,125.0,111.00,270.0,-12.35,123.4,10.5,12.0,11.0,12,0*65\x0d\n").toList] := by
  decide +kernel

example : ∀ i ∈ exIn, WireIn i := by decide
example : SaneLib exLib := ⟨fun _ _ => by norm_num [exLib], fun _ _ => by norm_num [exLib], fun _ _ _ _ => by norm_num [exLib],
  fun _ _ _ _ => by norm_num [exLib]⟩
example : ModeratePos exLib { lat := .fin 1, height := .fin 100, flags := 4 } := by
  intro _
  have h0 : ∀ d, Below d (.fin 0) := by intro d; simp only [Below, abs_zero]; have : (1 : ℚ) ≤ 10 ^ d := one_le_pow₀ (by norm_num); linarith
  exact ⟨by simp only [Below]; norm_num, _, _, _, _, _, _, rfl, h0 9, h0 9, h0 3, h0 9, h0 9, h0 9⟩

end Verif.Nmea
