import Verif.Lemmas.NmeaNum
import Verif.Props.C31
/-
C32: NMEA positions are well-formed.
-/
namespace Verif.Nmea
open Verif.Nmea.Spec Verif.Fp

theorem angle_print (w : Nat) (hw : w = 2 ∨ w = 3) (q : ℚ) (hq : |q| ≤ 360) (hdeg : |q| ≤ 10 ^ w - 1) :
    ∃ x : Nat × ℚ × Bool, splitAngle (.fin q) = some x ∧ x.2.2 = decide (q < 0) ∧
      AngleField w (fmtU w x.1 ++ fmtF 10 7 (.fin x.2.1)) |q| := by
  obtain ⟨deg, r, m, hs, hd, hr, hm0, hm, hv⟩ := splitAngle_spec q hq
  obtain ⟨m7, hp, hlt, hv7⟩ := minutes_print hr hm0 hm
  refine ⟨_, hs, rfl, ?_⟩
  have hdw : deg < 10 ^ w := by
    have h1 : (deg : ℚ) < 10 ^ w := by
      rw [abs_le] at hv
      have : (0 : ℚ) ≤ r / 100000000 := by positivity
      linarith [hv.2, (by norm_num : (5 : ℚ) / 10 ^ 9 + 1 / 10 ^ 13 < 1)]
    exact_mod_cast h1
  refine ⟨deg, m7, ?_, hdw, hlt, ?_⟩
  · simp only
    rw [hp, fmtU_digitsN w deg (by omega) hdw]
    simp [List.append_assoc]
  · rw [abs_le] at hv hv7 ⊢
    constructor <;> linarith [hv.1, hv.2, hv7.1, hv7.2, (by norm_num : (5 : ℚ) / 10 ^ 9 + 1 / 10 ^ 13 + 9 / 10 ^ 10 ≤ 6 / 10 ^ 9)]

/-- **C32** For every finite latitude within ±90° and longitude within ±180° the split never fails and the text printed is
a legal NMEA position denoting the coordinates: two and three digits of degrees, minutes strictly below 60, the right
hemispheres, and the angle off by less than 6·10^-9 degrees. -/
theorem C32_position (lat lon : ℚ) (hlat : |lat| ≤ 90) (hlon : |lon| ≤ 180) :
    ∃ a b, splitAngle (.fin lat) = some a ∧ splitAngle (.fin lon) = some b ∧ PositionFields (latLon a b) lat lon := by
  obtain ⟨a, ha, ha2, fa⟩ := angle_print 2 (.inl rfl) lat (by linarith) (by norm_num; linarith)
  obtain ⟨b, hb, hb2, fb⟩ := angle_print 3 (.inr rfl) lon (by linarith) (by norm_num; linarith)
  refine ⟨a, b, ha, hb, _, _, fa, fb, ?_⟩
  unfold latLon
  rw [ha2, hb2]
  have l1 : lit "," = [','] := rfl
  simp only [l1, decide_eq_true_eq, List.append_assoc, List.cons_append, List.nil_append]

/-- the position, and a valid fix mode -/
def HasFix (p : Pos) (lat lon : ℚ) : Prop := p.lat = .fin lat ∧ p.lon = .fin lon ∧ p.flags % 8 ∈ [1, 2, 3, 4, 5, 6]
def NoFix (p : Pos) : Prop := p.flags % 8 = 0

theorem fix_quality {p : Pos} {lat lon : ℚ} (h : HasFix p lat lon) :
    posMode p.flags ≠ 0 ∧ (∃ c, nmeaStatus p.flags = some c) ∧ (∃ c, nmeaMode p.flags = some c) ∧ ∃ q, q ≠ 0 ∧ fixType p.flags = some q := by
  have := h.2.2
  unfold nmeaStatus nmeaMode fixType nmeaQuality
  have hp : posMode p.flags = p.flags % 8 := rfl
  rw [hp]
  generalize p.flags % 8 = k at this ⊢
  simp only [List.mem_cons, List.not_mem_nil, or_false] at this
  rcases this with rfl | rfl | rfl | rfl | rfl | rfl <;> exact ⟨by decide, ⟨_, rfl⟩, ⟨_, rfl⟩, _, by decide, rfl⟩

/-- the sentence has the position of the given fix after `k` commas -/
def Shows (k : Nat) (s : Sentence) (lat lon : ℚ) : Prop :=
  ∃ part, PositionFields part lat lon ∧ AfterCommas k part s.texts.flatten

/-- **C32** In every state with a fix, GGA, RMC, GLL and PUBX are sent (no assertion fails) and carry the position fields of
exactly the current solution (the GNSS or the fused one according to the mode) at the place the standard gives them. -/
theorem C32_sentences (L : Lib) (st : St) (lat lon : ℚ) (h : HasFix (st.store.pos st.src) lat lon) (hlat : |lat| ≤ 90)
    (hlon : |lon| ≤ 180) (hu : TwoDigit (st.store.utc st.src)) :
    (∃ s, sendGga L st = some s ∧ Shows 2 s lat lon) ∧
    (∃ r, sendRmc L st = some r ∧ Shows 3 r.2 lat lon) ∧
    (∃ s, sendGll L st = some s ∧ Shows 1 s lat lon) ∧
    (∃ r, sendPubx L st = some r ∧ Shows 3 r.2 lat lon) := by
  obtain ⟨a, b, ha, hb, hpf⟩ := C32_position lat lon hlat hlon
  obtain ⟨hm, ⟨cs, hcs⟩, ⟨cm, hcm⟩, q, hq0, hq⟩ := fix_quality h
  have hu1 := (utc_facts L hu).1.1
  refine ⟨?_, ?_, ?_, ?_⟩
  · unfold sendGga
    simp only [h.1, h.2.1, ha, hb, hq, Option.bind_eq_bind, Option.bind_some]
    refine ⟨_, rfl, latLon a b, hpf, lit "$GPGGA," ++ utcString L true false false (st.store.utc st.src), ?_⟩
    simp only [List.flatten_cons, List.append_assoc]
    rw [if_pos hq0]
    refine ⟨_, rfl, ?_⟩
    rw [List.count_append, hu1]; rfl
  · unfold sendRmc
    simp only [h.1, h.2.1, ha, hb, hcs, hcm, Option.bind_eq_bind, Option.bind_some]
    refine ⟨_, rfl, latLon a b, hpf, lit "$GPRMC," ++ utcString L true false false (st.store.utc st.src) ++ ([cs] ++ lit ","), ?_⟩
    simp only [List.flatten_cons, List.append_assoc, List.flatten_append]
    rw [if_pos hm]
    refine ⟨_, rfl, ?_⟩
    simp only [List.count_append]
    rw [hu1, cOne (status_ok hcs).2]; rfl
  · unfold sendGll
    simp only [h.1, h.2.1, ha, hb, hcs, hcm, Option.bind_eq_bind, Option.bind_some]
    refine ⟨_, rfl, latLon a b, hpf, lit "$GPGLL,", ?_⟩
    simp only [List.flatten_cons, List.append_assoc]
    rw [if_pos hm]
    exact ⟨_, rfl, rfl⟩
  · unfold sendPubx
    simp only [h.1, h.2.1, ha, hb, hq, Option.bind_eq_bind, Option.bind_some]
    refine ⟨_, rfl, latLon a b, hpf, lit "$PUBX,00," ++ utcString L true false false (st.store.utc st.src), ?_⟩
    simp only [List.flatten_cons, List.append_assoc, List.flatten_append]
    rw [if_pos hq0]
    simp only [List.append_assoc]
    refine ⟨_, rfl, ?_⟩
    rw [List.count_append, hu1]; rfl

/-- **C32** Without a fix the position fields are empty. -/
theorem C32_no_fix (L : Lib) (st : St) (h : NoFix (st.store.pos st.src)) (hu : TwoDigit (st.store.utc st.src)) :
    (∀ s, sendGga L st = some s → AfterCommas 2 ",,,,0,".toList s.texts.flatten) ∧
    (∀ r, sendRmc L st = some r → AfterCommas 2 "V,,,,,".toList r.2.texts.flatten) ∧
    (∀ s, sendGll L st = some s → AfterCommas 1 ",,,,".toList s.texts.flatten) ∧
    (∀ r, sendPubx L st = some r → AfterCommas 3 ",,,,,NF,".toList r.2.texts.flatten) := by
  have hm : ¬ (posMode (st.store.pos st.src).flags ≠ 0) := fun hc => hc h
  have hft : fixType (st.store.pos st.src).flags = some 0 := by unfold fixType; rw [if_neg hm]
  have hst : nmeaStatus (st.store.pos st.src).flags = some 'V' := by
    unfold nmeaStatus; rw [show posMode (st.store.pos st.src).flags = 0 from h]; rfl
  have hu1 := (utc_facts L hu).1.1
  refine ⟨?_, ?_, ?_, ?_⟩
  · intro s hs
    unfold sendGga at hs
    simp only [Option.bind_eq_bind, Option.bind_eq_some_iff, Option.some.injEq, hft] at hs
    obtain ⟨a, -, b, -, ft, rfl, rfl⟩ := hs
    refine ⟨lit "$GPGGA," ++ utcString L true false false (st.store.utc st.src), ?_⟩
    simp only [List.flatten_cons, List.append_assoc]
    rw [if_neg (by decide)]
    refine ⟨_, rfl, ?_⟩
    rw [List.count_append, hu1]; rfl
  · intro r hr
    unfold sendRmc at hr
    simp only [Option.bind_eq_bind, Option.bind_eq_some_iff, Option.some.injEq, hst] at hr
    obtain ⟨a, -, b, -, m, -, ft, rfl, rfl⟩ := hr
    refine ⟨lit "$GPRMC," ++ utcString L true false false (st.store.utc st.src), ?_⟩
    simp only [List.flatten_cons, List.append_assoc, List.flatten_append]
    rw [if_neg hm]
    refine ⟨_, rfl, ?_⟩
    rw [List.count_append, hu1]; rfl
  · intro s hs
    unfold sendGll at hs
    simp only [Option.bind_eq_bind, Option.bind_eq_some_iff, Option.some.injEq] at hs
    obtain ⟨a, -, b, -, c, -, ft, -, rfl⟩ := hs
    refine ⟨lit "$GPGLL,", ?_⟩
    simp only [List.flatten_cons, List.append_assoc]
    rw [if_neg hm]
    exact ⟨_, rfl, rfl⟩
  · intro r hr
    unfold sendPubx at hr
    simp only [Option.bind_eq_bind, Option.bind_eq_some_iff, Option.some.injEq, hft] at hr
    obtain ⟨a, -, b, -, ft, rfl, rfl⟩ := hr
    refine ⟨lit "$PUBX,00," ++ utcString L true false false (st.store.utc st.src), ?_⟩
    simp only [List.flatten_cons, List.append_assoc, List.flatten_append]
    rw [if_neg (by decide)]
    refine ⟨_, rfl, ?_⟩
    rw [List.count_append, hu1]; rfl

/-- a state with a fix just below 16° N and 5.5 µ° W of Greenwich -/
def exSt : St :=
  { init .gnss 10 with store :=
      { utc := fun _ => exUtc
        pos := fun _ => { lat := .fin (f64 (159999999996 / 10000000000)), lon := .fin (f64 (-55 / 10000000)), flags := 4, nSats := 9 } } }
example : HasFix (exSt.store.pos exSt.src) (f64 (159999999996 / 10000000000)) (f64 (-55 / 10000000)) := ⟨rfl, rfl, by decide⟩
example : (sendGll exLib exSt).map (·.texts.flatten) = some "$GPGLL,1600.0000000,N,00000.0003300,W,000000.00,A,D".toList := by
  decide +kernel

/-- a NaN coordinate aborts the conversion -/
theorem C32_nan_bug : sendGga exLib { exSt with store := { exSt.store with pos := fun _ => { lat := .nan } } } = none := by rfl

end Verif.Nmea
