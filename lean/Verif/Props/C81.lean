import Verif.Spec.NmeaValues
import Verif.Props.C79
import Verif.Props.C34
/-
C81: the numbers of the GGA and PUBX sentences are those of the solution.
-/
set_option linter.unusedSimpArgs false
set_option linter.unusedVariables false
namespace Verif.Nmea
open Verif.Nmea.Spec Verif.Fp

/-! ### printed numbers -/

theorem dop10_field {x : Nat} (hx : x < 65536) : DopField (fmtF 0 1 (dop10 x)) x := by
  have hq : (x : ℚ) ≤ 65535 := by exact_mod_cast (by omega : x ≤ 65535)
  have h0 : (0 : ℚ) ≤ x := Nat.cast_nonneg _
  unfold dop10 DopField
  have e1 := (f64_near (x := (1 : ℚ) / 100) (b := 1) (by norm_num)).trans (by norm_num : (1 : ℚ) / 9007199254740992 + 1 / 10 ^ 60 ≤ 1 / 10 ^ 15)
  have hp : 0 ≤ f64 (1 / 100) := f64_nonneg (by norm_num)
  rw [abs_le] at e1
  generalize f64 (1 / 100) = t at *
  rw [show ((10 * x : Nat) : ℚ) = 10 * x by push_cast; ring]
  have hxt : (10 * x : ℚ) * t ≤ 6554 := by nlinarith
  have hxt0 : 0 ≤ (10 * x : ℚ) * t := by positivity
  have hd : |(10 * x : ℚ) * t - x / 10| ≤ 1 / 10 ^ 9 := by
    rw [abs_le]; constructor <;> nlinarith
  have e2 := (f64_near (x := (10 * x : ℚ) * t) (b := 6554) (by rw [abs_of_nonneg hxt0]; exact hxt)).trans (by norm_num : (6554 : ℚ) / 9007199254740992 + 1 / 10 ^ 60 ≤ 1 / 10 ^ 10)
  have hn := cround_nonneg (f64_nonneg hxt0)
  have hb := cround_bounds (f64 (10 * x * t))
  obtain ⟨k, hk⟩ := Int.eq_ofNat_of_zero_le hn
  rw [hk] at hb ⊢
  rw [abs_le] at hd e2
  simp only [Int.cast_natCast] at hb ⊢
  have hk1 : (k : ℚ) ≤ 6555 := by linarith
  have e3 := (f64_near (x := (k : ℚ) / 10) (b := 656) (by rw [abs_of_nonneg (by positivity)]; linarith)).trans (by norm_num : (656 : ℚ) / 9007199254740992 + 1 / 10 ^ 60 ≤ 1 / 10 ^ 10)
  rw [abs_le] at e3
  refine ⟨k, fmtF_near (by omega) (f64_nonneg (by positivity)) ?_, ?_⟩
  · rw [abs_lt]; constructor <;> (norm_num; linarith)
  · have h1 : (10 : ℚ) * k - x < 6 := by linarith
    have h2 : (-6 : ℚ) < 10 * k - x := by linarith
    have h1' : (10 : Int) * k - x < 6 := by exact_mod_cast h1
    have h2' : (-6 : Int) < 10 * k - x := by exact_mod_cast h2
    rw [abs_le]; constructor <;> omega

theorem tenth_field {x : Nat} (hx : x < 65536) : DecField 1 (fmtF 0 1 (tenth x)) x := by
  have hq : (x : ℚ) ≤ 65535 := by exact_mod_cast (by omega : x ≤ 65535)
  have h0 : (0 : ℚ) ≤ x := Nat.cast_nonneg _
  unfold tenth
  have e1 := (f64_near (x := (1 : ℚ) / 10) (b := 1) (by norm_num)).trans (by norm_num : (1 : ℚ) / 9007199254740992 + 1 / 10 ^ 60 ≤ 1 / 10 ^ 15)
  have hp : 0 ≤ f64 (1 / 10) := f64_nonneg (by norm_num)
  rw [abs_le] at e1
  generalize f64 (1 / 10) = t at *
  have hxt : (x : ℚ) * t ≤ 6554 := by nlinarith
  have hxt0 : 0 ≤ (x : ℚ) * t := by positivity
  have hd : |(x : ℚ) * t - x / 10| ≤ 1 / 10 ^ 10 := by
    rw [abs_le]; constructor <;> nlinarith
  have e2 := (f64_near (x := (x : ℚ) * t) (b := 6554) (by rw [abs_of_nonneg hxt0]; exact hxt)).trans (by norm_num : (6554 : ℚ) / 9007199254740992 + 1 / 10 ^ 60 ≤ 1 / 10 ^ 10)
  rw [abs_le] at hd e2
  refine fmtF_near (by omega) (f64_nonneg hxt0) ?_
  rw [abs_lt]; constructor <;> (norm_num; linarith)

theorem nat_field_all (n : Fin 256) : NatField 2 (fmtU 2 n) n ∧ NatField 1 (fmtU 1 n) n := by
  unfold NatField
  revert n
  decide +kernel
theorem station_field_all (n : Fin 1024) : NatField 4 (fmtU 4 n) n ∧ (fmtU 4 n).length = 4 := by
  unfold NatField
  revert n
  decide +kernel

/-- a number printed with two decimals that is a `double` near `x` -/
theorem cm_field {q x : ℚ} (h : |q - x| ≤ 1 / 10 ^ 6) : ∃ z, SDecField 2 (fmtF 0 2 (.fin q)) z ∧ |z - x| ≤ 1 / 200 + 1 / 10 ^ 6 := by
  obtain ⟨z, h1, h2⟩ := fmtF_sdec (p := 2) (by omega) q
  refine ⟨z, h1, ?_⟩
  have e : z - x = (z - q) + (q - x) := by ring
  rw [e]
  refine (abs_add_le _ _).trans (add_le_add (h2.trans (by norm_num)) h)

theorem fixType_pos {flags ft : Nat} (h : fixType flags = some ft) (hf : flags % 8 ≠ 0) : ft ≠ 0 := (fixType_le h).2.2 hf

/-! ### GGA -/

theorem fields_cons {a : Str} (h : a.count ',' = 0) (s : Str) : fields (a ++ ',' :: s) = a :: fields s := by
  rw [fields_append h, fields_comma, addHead_cons, List.append_nil]

theorem gga_shape {a ut f1 f2 f3 f4 q n d h g : Str} (tail : Str) (ha : a.count ',' = 0) (hu : ut.count ',' = 0) (h1 : f1.count ',' = 0)
    (h2 : f2.count ',' = 0) (h3 : f3.count ',' = 0) (h4 : f4.count ',' = 0) (hq : q.count ',' = 0) (hn : n.count ',' = 0) (hd : d.count ',' = 0)
    (hh : h.count ',' = 0) (hg : g.count ',' = 0) :
    ((fields ((a ++ [',']) ++ (ut ++ [','] ++ (f1 ++ ',' :: (f2 ++ ',' :: (f3 ++ ',' :: (f4 ++ [',']))) ++ (q ++ [','] ++
      (n ++ [','] ++ d ++ [','] ++ h ++ [',', 'M', ','] ++ g ++ [',', 'M', ','] ++ tail)))))).drop 7).take 6 = [n, d, h, ['M'], g, ['M']] := by
  have e : (a ++ [',']) ++ (ut ++ [','] ++ (f1 ++ ',' :: (f2 ++ ',' :: (f3 ++ ',' :: (f4 ++ [',']))) ++ (q ++ [','] ++
      (n ++ [','] ++ d ++ [','] ++ h ++ [',', 'M', ','] ++ g ++ [',', 'M', ','] ++ tail)))) =
      a ++ ',' :: (ut ++ ',' :: (f1 ++ ',' :: (f2 ++ ',' :: (f3 ++ ',' :: (f4 ++ ',' :: (q ++ ',' :: (n ++ ',' :: (d ++ ',' :: (h ++ ',' ::
        (['M'] ++ ',' :: (g ++ ',' :: (['M'] ++ ',' :: tail)))))))))))) := by simp
  have hM : ['M'].count ',' = 0 := rfl
  rw [e, fields_cons ha, fields_cons hu, fields_cons h1, fields_cons h2, fields_cons h3, fields_cons h4, fields_cons hq, fields_cons hn, fields_cons hd,
    fields_cons hh, fields_cons hM, fields_cons hg, fields_cons hM]
  rfl

theorem gga_values {L : Lib} {st : St} {s : Sentence} (hu : TwoDigit (st.store.utc st.src)) (h : sendGga L st = some s)
    (hfix : (st.store.pos st.src).flags % 8 ≠ 0) :
    ∃ ft, fixType (st.store.pos st.src).flags = some ft ∧ ((fields s.texts.flatten).drop 7).take 6 =
      [fmtU 2 (st.store.pos st.src).nSats,
       if ft = 6 then [] else fmtF 0 1 (dop10 (if st.actual = .gnss then st.store.dops.hdop else st.store.solnMeta.hdop)),
       fmtF 0 2 ((st.store.pos st.src).height.sub (L.geoid (st.store.pos st.src).lat (st.store.pos st.src).lon)), ['M'],
       fmtF 0 2 (.fin (L.geoid (st.store.pos st.src).lat (st.store.pos st.src).lon)), ['M']] := by
  unfold sendGga at h
  simp only [Option.bind_eq_bind, Option.bind_eq_some_iff, Option.some.injEq] at h
  obtain ⟨a, ha, b, hb, ft, hft, rfl⟩ := h
  obtain ⟨ut, hu1, hu2⟩ := utc_time L hu
  obtain ⟨f1, f2, f3, f4, ⟨h1, h2, h3, h4⟩, he⟩ := pos_parts (ft ≠ 0) a b
  refine ⟨ft, hft, ?_⟩
  have h0 := fixType_pos hft hfix
  simp only [List.flatten_cons, hu2, he]
  generalize (if isDiff ft (st.store.pos st.src).flags = true then _ else _ : Str) ++ _ = tail
  have ea : lit "$GPGGA," = "$GPGGA".toList ++ [','] := rfl
  have eM : lit ",M," = [',', 'M', ','] := rfl
  have e1 : lit "," = [','] := rfl
  have hc : "$GPGGA".toList.count ',' = 0 := by decide
  by_cases h6 : ft = 6
  · rw [if_pos h6, if_pos h6]
    have := gga_shape (d := []) tail hc hu1 h1 h2 h3 h4 (cU' 1 ft) (cU' 2 (st.store.pos st.src).nSats) rfl
      (cF' 0 2 ((st.store.pos st.src).height.sub (L.geoid (st.store.pos st.src).lat (st.store.pos st.src).lon)))
      (cF' 0 2 (.fin (L.geoid (st.store.pos st.src).lat (st.store.pos st.src).lon)))
    have e2 : lit ",," = [','] ++ [] ++ [','] := rfl
    rw [ea, eM, e1, e2]
    simp only [List.append_assoc, List.nil_append] at this ⊢
    exact this
  · rw [if_neg h6, if_pos h0, if_neg h6]
    have := gga_shape tail hc hu1 h1 h2 h3 h4 (cU' 1 ft) (cU' 2 (st.store.pos st.src).nSats)
      (cF' 0 1 (dop10 (if st.actual = .gnss then st.store.dops.hdop else st.store.solnMeta.hdop)))
      (cF' 0 2 ((st.store.pos st.src).height.sub (L.geoid (st.store.pos st.src).lat (st.store.pos st.src).lon)))
      (cF' 0 2 (.fin (L.geoid (st.store.pos st.src).lat (st.store.pos st.src).lon)))
    rw [ea, eM, e1]
    simp only [List.append_assoc] at this ⊢
    exact this

/-- **C81** A GGA sentence sent with a fix carries: the number of satellites, the horizontal dilution of precision of the DOPS message (GNSS mode) or of
the solution metadata (fused mode) unless the solution is dead reckoning, the height above the geoid and the height of the geoid. -/
theorem C81_gga {L : Lib} {st : St} {s : Sentence} {hgt : ℚ} (hu : TwoDigit (st.store.utc st.src)) (h : sendGga L st = some s)
    (hfix : (st.store.pos st.src).flags % 8 ≠ 0) (hsat : (st.store.pos st.src).nSats < 256)
    (hdop : st.store.dops.hdop < 65536 ∧ st.store.solnMeta.hdop < 65536) (hh : (st.store.pos st.src).height = .fin hgt) (hb : |hgt| ≤ 10 ^ 8)
    (hg : |L.geoid (st.store.pos st.src).lat (st.store.pos st.src).lon| ≤ 9999) :
    ∃ (f7 f8 f9 f11 : Str) (z g : ℚ), ((fields s.texts.flatten).drop 7).take 6 = [f7, f8, f9, ['M'], f11, ['M']] ∧
      NatField 2 f7 (st.store.pos st.src).nSats ∧
      ((st.store.pos st.src).flags % 8 = 5 → f8 = []) ∧
      ((st.store.pos st.src).flags % 8 ≠ 5 → DopField f8 (if st.actual = .gnss then st.store.dops.hdop else st.store.solnMeta.hdop)) ∧
      SDecField 2 f9 z ∧ |z - (hgt - L.geoid (st.store.pos st.src).lat (st.store.pos st.src).lon)| ≤ 1 / 200 + 1 / 10 ^ 6 ∧
      SDecField 2 f11 g ∧ |g - L.geoid (st.store.pos st.src).lat (st.store.pos st.src).lon| ≤ 1 / 200 := by
  obtain ⟨ft, hft, hf⟩ := gga_values hu h hfix
  rw [hh] at hf
  generalize L.geoid (st.store.pos st.src).lat (st.store.pos st.src).lon = geo at *
  have he : |f64 (hgt - geo) - (hgt - geo)| ≤ 1 / 10 ^ 6 := by
    refine (f64_near (b := 10 ^ 8 + 9999) ?_).trans (by norm_num)
    refine (abs_sub _ _).trans (add_le_add hb hg)
  obtain ⟨z, hz1, hz2⟩ := cm_field he
  obtain ⟨g, hg1, hg2⟩ := fmtF_sdec (p := 2) (by omega) geo
  have h6 : ft = 6 ↔ (st.store.pos st.src).flags % 8 = 5 := by
    revert hft
    unfold fixType nmeaQuality posMode
    generalize (st.store.pos st.src).flags % 8 = k
    split_ifs with hk
    · split <;> simp_all <;> omega
    · intro e; simp at e; omega
  refine ⟨_, _, _, _, z, g, hf, (nat_field_all ⟨_, hsat⟩).1, ?_, ?_, hz1, hz2, hg1, hg2.trans (by norm_num)⟩
  · intro h5; rw [if_pos (h6.2 h5)]
  · intro h5
    rw [if_neg (fun hx => h5 (h6.1 hx))]
    split
    · exact dop10_field hdop.1
    · exact dop10_field hdop.2

/-- **C81** In a GGA sentence of a differential, floating or fixed solution, field 13 is exactly the age of the corrections received in tenths of a
second and field 14 the station number in four digits. -/
theorem C81_age {L : Lib} {st : St} {s : Sentence} (hu : TwoDigit (st.store.utc st.src)) (h : sendGga L st = some s)
    (hfix : (st.store.pos st.src).flags % 8 = 2 ∨ (st.store.pos st.src).flags % 8 = 3 ∨ (st.store.pos st.src).flags % 8 = 4)
    (hage : st.store.age.age < 65536 ∧ st.store.solnMeta.age < 65536) :
    ∃ f13 f14 : Str, (fields s.texts.flatten).drop 13 = [f13, f14] ∧
      DecField 1 f13 (if st.actual = .gnss then st.store.age.age else st.store.solnMeta.age) ∧
      f14.length = 4 ∧ NatField 4 f14 (st.baseId % 1024) := by
  obtain ⟨q, hq, c, d, hf, -, hd⟩ := gga_last hu h
  have hdiff : isDiff q (st.store.pos st.src).flags = true := by
    revert hq
    unfold fixType nmeaQuality isDiff posMode
    generalize (st.store.pos st.src).flags % 8 = k at *
    rcases hfix with rfl | rfl | rfl <;> intro e <;> simp at e <;> subst e <;> decide
  obtain ⟨rfl, rfl⟩ := hd hdiff
  have hm := station_field_all ⟨st.baseId % 1024, Nat.mod_lt _ (by omega)⟩
  refine ⟨_, _, hf, ?_, hm.2, hm.1⟩
  split
  · exact tenth_field hage.1
  · exact tenth_field hage.2

/-! ### PUBX -/

theorem navStat_commas (x y : Nat) : (navStat x y).count ',' = 0 := by unfold navStat; split_ifs <;> rfl

theorem pubx_values {L : Lib} {st : St} {r : St × Sentence} (hu : TwoDigit (st.store.utc st.src)) (h : sendPubx L st = some r)
    (hfix : (st.store.pos st.src).flags % 8 ≠ 0) :
    ∃ (ft : Nat) (T : Str), fixType (st.store.pos st.src).flags = some ft ∧
      (fields r.2.texts.flatten).drop 7 =
        [fmtF 0 2 (st.store.pos st.src).height, navStat ft (st.store.pos st.src).flags, fmtF 0 1 (L.hacc (st.store.pos st.src)),
          fmtF 0 1 (L.vacc (st.store.pos st.src))] ++ fields T ∧
      T = (if velMode (st.store.vel st.src).flags ≠ 0 then
          fmtF 0 2 (.fin (L.sogKph (st.store.vel st.src).n (st.store.vel st.src).e)) ++ lit "," ++
            ((if f64 (knotsFactor * st.cogThreshold) < L.sogKnots (st.store.vel st.src).n (st.store.vel st.src).e then
              fmtF 0 1 (.fin (calcCog L (st.store.vel st.src) st.cogUpdateThreshold st.lastCog)) ++ lit "," else lit ",") ++
             (fmtF 0 2 (.fin (f64 (f32 (st.store.vel st.src).d / 1000))) ++ lit ","))
         else lit ",,,") ++
        ((if isDiff ft (st.store.pos st.src).flags then
            fmtF 0 1 (tenth (if st.actual = .gnss then st.store.age.age else st.store.solnMeta.age)) ++ lit "," else lit ",") ++
         ((if ft = 6 ∨ ft = 0 then lit ",,,"
           else if st.actual = .gnss then
             fmtF 0 1 (dop10 st.store.dops.hdop) ++ lit "," ++ fmtF 0 1 (dop10 st.store.dops.vdop) ++ lit "," ++
               fmtF 0 1 (dop10 st.store.dops.tdop) ++ lit ","
           else fmtF 0 1 (dop10 st.store.solnMeta.hdop) ++ lit "," ++ fmtF 0 1 (dop10 st.store.solnMeta.vdop) ++ lit ",,") ++
          (fmtU 1 (st.store.pos st.src).nSats ++ lit ",0," ++ if ft = 6 then lit "1" else lit "0"))) := by
  unfold sendPubx at h
  simp only [Option.bind_eq_bind, Option.bind_eq_some_iff, Option.some.injEq] at h
  obtain ⟨a, ha, b, hb, ft, hft, rfl⟩ := h
  obtain ⟨ut, hu1, hu2⟩ := utc_time L hu
  obtain ⟨f1, f2, f3, f4, ⟨h1, h2, h3, h4⟩, he⟩ := latLon_parts a b
  have h0 := fixType_pos hft hfix
  have hn := navStat_commas ft (st.store.pos st.src).flags
  refine ⟨ft, _, hft, ?_, rfl⟩
  have hv : ∀ (c : Prop) [Decidable c] (x y z : Str), (if c then [x, y, z] else [lit ",,,"]).flatten = if c then x ++ (y ++ z) else lit ",,," := by
    intro c _ x y z; split <;> simp
  simp only [List.flatten_append, hv, List.flatten_cons, hu2, if_pos h0, he, List.flatten_nil, List.append_nil]
  generalize (if velMode (st.store.vel st.src).flags ≠ 0 then _ else _ : Str) = A
  generalize (if isDiff ft (st.store.pos st.src).flags = true then _ else _ : Str) = B
  generalize (if ft = 6 ∨ ft = 0 then _ else _ : Str) = C
  generalize (if ft = 6 then _ else _ : Str) = D
  generalize navStat ft (st.store.pos st.src).flags = x at *
  have e : ∀ T : Str, lit "$PUBX,00," ++ (ut ++ [','] ++ (f1 ++ ',' :: (f2 ++ ',' :: (f3 ++ ',' :: (f4 ++ [',']))) ++ fmtF 0 2 (st.store.pos st.src).height ++ lit "," ++
      (x ++ lit "," ++ (fmtF 0 1 (L.hacc (st.store.pos st.src)) ++ lit "," ++ fmtF 0 1 (L.vacc (st.store.pos st.src)) ++ lit ",")))) ++ T =
      lit "$PUBX,00," ++ (ut ++ ',' :: (f1 ++ ',' :: (f2 ++ ',' :: (f3 ++ ',' :: (f4 ++ ',' :: (fmtF 0 2 (st.store.pos st.src).height ++ ',' ::
      (x ++ ',' :: (fmtF 0 1 (L.hacc (st.store.pos st.src)) ++ ',' :: (fmtF 0 1 (L.vacc (st.store.pos st.src)) ++ ',' :: T))))))))) := by
    intro T; simp [lit]
  rw [e]
  simp [lit, fields_append, fields_comma, fields_char, cU', cD', cF', addHead_addHead, addHead_cons, h1, h2, h3, h4, hu1, hn]

theorem hacc_near {m : Libm} (hm : Accurate m) {nn ee : ℚ} (h0 : 0 ≤ nn) (h1 : 0 ≤ ee) (low : 1 / 10 ^ 6 ≤ nn + ee) :
    0 ≤ f32 (nn + ee) ∧ |(m.sqrtf (f32 (nn + ee)) : ℝ) - √((nn : ℝ) + ee)| ≤ √((nn : ℝ) + ee) / 10 ^ 6 := by
  have hs : 0 ≤ nn + ee := by linarith
  have hp := f32_nonneg hs
  refine ⟨hp, ?_⟩
  have h2 := (f32_err (nn + ee)).trans (by
    rw [abs_of_nonneg hs]
    have : (1 : ℚ) / 2 ^ 150 ≤ (nn + ee) / 10 ^ 9 := by
      have := div_le_div_of_nonneg_right low (by norm_num : (0 : ℚ) ≤ 10 ^ 9)
      exact le_trans (by norm_num) this
    generalize (1 : ℚ) / 2 ^ 150 = u at *
    linarith : _ ≤ (nn + ee) * (1 / 10 ^ 7))
  have h3 : |(f32 (nn + ee) : ℝ) - ((nn : ℝ) + ee)| ≤ ((nn : ℝ) + ee) * (1 / 10 ^ 7) := castR h2 (by push_cast; rfl) (by push_cast; rfl)
  have hs' : (0 : ℝ) ≤ (nn : ℝ) + ee := by exact_mod_cast hs
  have h4 := sqrt_rel hs' (by norm_num) (by norm_num) h3
  have h5 := hm.sqrtf _ hp
  have hr := Real.sqrt_nonneg ((nn : ℝ) + ee)
  generalize √((nn : ℝ) + ee) = R at *
  generalize √(f32 (nn + ee) : ℝ) = S at *
  generalize (m.sqrtf (f32 (nn + ee)) : ℝ) = Q at *
  rw [abs_le] at *
  norm_num at h4 h5 ⊢
  constructor <;> linarith [h4.1, h4.2, h5.1, h5.2]

theorem vvel_near {d : Int} (hd : |d| ≤ 2147483648) : |f64 (f32 d / 1000) - (d : ℚ) / 1000| ≤ |(d : ℚ)| / 10 ^ 10 + 1 / 10 ^ 6 := by
  have hd' : |(d : ℚ)| ≤ 2147483648 := by exact_mod_cast hd
  have h1 := f32_err (d : ℚ)
  have h2 := (f64_near (x := f32 d / 1000) (b := 2147484) (by
    rw [abs_div, abs_of_pos (by norm_num : (0 : ℚ) < 1000)]
    have : |f32 (d : ℚ)| ≤ |(d : ℚ)| + (|(d : ℚ)| / 16777216 + 1 / 2 ^ 150) := by
      have := abs_sub_abs_le_abs_sub (f32 (d : ℚ)) d
      linarith
    have u : (1 : ℚ) / 2 ^ 150 ≤ 1 := by norm_num
    generalize (1 : ℚ) / 2 ^ 150 = v at *
    rw [div_le_iff₀ (by norm_num)]
    linarith)).trans (by norm_num : (2147484 : ℚ) / 9007199254740992 + 1 / 10 ^ 60 ≤ 1 / 10 ^ 9)
  have u : (1 : ℚ) / 2 ^ 150 ≤ 1 / 10 ^ 6 := by norm_num
  generalize (1 : ℚ) / 2 ^ 150 = v at *
  generalize |(d : ℚ)| = D at *
  rw [abs_le] at *
  norm_num at h1 h2 u ⊢
  constructor <;> linarith [h1.1, h1.2, h2.1, h2.2]

/-- **C81** A PUBX sentence sent with a fix carries the height above the ellipsoid (field 7) and the horizontal and vertical standard deviations
(fields 9 and 10). -/
theorem C81_pubx_accuracy {m : Libm} (hm : Accurate m) {base : Lib} {st : St} {r : St × Sentence} {hgt nn ee dd : ℚ} (hu : TwoDigit (st.store.utc st.src))
    (h : sendPubx (libOf m base) st = some r) (hfix : (st.store.pos st.src).flags % 8 ≠ 0) (hh : (st.store.pos st.src).height = .fin hgt)
    (h1 : (st.store.pos st.src).covNN = .fin nn) (h3 : (st.store.pos st.src).covEE = .fin ee) (h4 : (st.store.pos st.src).covDD = .fin dd)
    (hnn : 0 ≤ nn) (hee : 0 ≤ ee) (hdd : 0 ≤ dd) (low : 1 / 10 ^ 6 ≤ nn + ee) :
    ∃ (f7 f9 f10 : Str) (z : ℚ) (k l : Nat), (fields r.2.texts.flatten)[7]? = some f7 ∧ (fields r.2.texts.flatten)[9]? = some f9 ∧
      (fields r.2.texts.flatten)[10]? = some f10 ∧ SDecField 2 f7 z ∧ |z - hgt| ≤ 1 / 200 ∧
      DecField 1 f9 k ∧ |(k : ℝ) / 10 - √((nn : ℝ) + ee)| ≤ 1 / 20 + √((nn : ℝ) + ee) / 10 ^ 6 ∧
      DecField 1 f10 l ∧ |(l : ℝ) / 10 - √(dd : ℝ)| ≤ 1 / 20 + √(dd : ℝ) / 2 ^ 23 := by
  obtain ⟨ft, T, hft, hf, -⟩ := pubx_values hu h hfix
  obtain ⟨hp, hn⟩ := hacc_near hm hnn hee low
  have ea : (libOf m base).hacc (st.store.pos st.src) = .fin (m.sqrtf (f32 (nn + ee))) := by
    simp only [libOf, h1, h3, sqrtDbl, if_neg (not_lt.2 hp)]
  have eb : (libOf m base).vacc (st.store.pos st.src) = .fin (m.sqrtf dd) := by
    simp only [libOf, h4, sqrtDbl, if_neg (not_lt.2 hdd)]
  rw [ea, eb, hh] at hf
  obtain ⟨z, z1, z2⟩ := fmtF_sdec (p := 2) (by omega) hgt
  obtain ⟨k, k1, k2⟩ := fmtF_dec (p := 1) (by omega) (accurate_nonneg hm hp).2
  obtain ⟨l, l1, l2⟩ := fmtF_dec (p := 1) (by omega) (accurate_nonneg hm hdd).2
  have at_ : ∀ i, (fields r.2.texts.flatten)[7 + i]? = ((fields r.2.texts.flatten).drop 7)[i]? := fun i => (List.getElem?_drop ..).symm
  refine ⟨_, _, _, z, k, l, ?_, ?_, ?_, z1, z2.trans (by norm_num), k1, ?_, l1, ?_⟩
  · rw [at_ 0, hf]; rfl
  · rw [at_ 2, hf]; rfl
  · rw [at_ 3, hf]; rfl
  · have := print_near k2 (by norm_num : ((1 / 2 / 10 ^ 1 : ℚ) : ℝ) = 1 / 20) hn
    push_cast at this
    rwa [pow_one] at this
  · have := print_near l2 (by norm_num : ((1 / 2 / 10 ^ 1 : ℚ) : ℝ) = 1 / 20) (hm.sqrtf dd hdd)
    push_cast at this
    rwa [pow_one] at this

theorem three_fields {x y z : Str} (X : Str) (hx : x.count ',' = 0) (hy : y.count ',' = 0) (hz : z.count ',' = 0) :
    fields (x ++ [','] ++ (y ++ [','] ++ (z ++ [','] ++ X))) = [x, y, z] ++ fields X := by
  have e : x ++ [','] ++ (y ++ [','] ++ (z ++ [','] ++ X)) = x ++ ',' :: (y ++ ',' :: (z ++ ',' :: X)) := by simp
  rw [e, fields_cons hx, fields_cons hy, fields_cons hz]
  rfl

theorem last_fields {x y : Str} (hx : x.count ',' = 0) (hy : y.count ',' = 0) : fields (x ++ [',', '0', ','] ++ y) = [x, ['0'], y] := by
  have e : x ++ [',', '0', ','] ++ y = x ++ ',' :: (['0'] ++ ',' :: y) := by simp
  rw [e, fields_cons hx, fields_cons (by rfl), fields_one hy]

/-- the fields of PUBX from the eleventh on -/
theorem pubx_tail {L : Lib} {st : St} {r : St × Sentence} (hu : TwoDigit (st.store.utc st.src)) (h : sendPubx L st = some r)
    (hfix : (st.store.pos st.src).flags % 8 ≠ 0) :
    ∃ ft, fixType (st.store.pos st.src).flags = some ft ∧ (fields r.2.texts.flatten).drop 11 =
      (if velMode (st.store.vel st.src).flags ≠ 0 then
        [fmtF 0 2 (.fin (L.sogKph (st.store.vel st.src).n (st.store.vel st.src).e)),
         if f64 (knotsFactor * st.cogThreshold) < L.sogKnots (st.store.vel st.src).n (st.store.vel st.src).e then
           fmtF 0 1 (.fin (calcCog L (st.store.vel st.src) st.cogUpdateThreshold st.lastCog)) else [],
         fmtF 0 2 (.fin (f64 (f32 (st.store.vel st.src).d / 1000)))]
       else [[], [], []]) ++
      [if isDiff ft (st.store.pos st.src).flags then fmtF 0 1 (tenth (if st.actual = .gnss then st.store.age.age else st.store.solnMeta.age)) else [],
       if ft = 6 then [] else fmtF 0 1 (dop10 (if st.actual = .gnss then st.store.dops.hdop else st.store.solnMeta.hdop)),
       if ft = 6 then [] else fmtF 0 1 (dop10 (if st.actual = .gnss then st.store.dops.vdop else st.store.solnMeta.vdop)),
       if ft = 6 then [] else if st.actual = .gnss then fmtF 0 1 (dop10 st.store.dops.tdop) else [],
       fmtU 1 (st.store.pos st.src).nSats, ['0'], if ft = 6 then ['1'] else ['0']] := by
  obtain ⟨ft, T, hft, hf, hT⟩ := pubx_values hu h hfix
  have h0 := fixType_pos hft hfix
  refine ⟨ft, hft, ?_⟩
  have e11 : (fields r.2.texts.flatten).drop 11 = fields T := by
    have : (fields r.2.texts.flatten).drop 11 = ((fields r.2.texts.flatten).drop 7).drop 4 := by rw [List.drop_drop]
    rw [this, hf]; rfl
  rw [e11, hT]
  clear hT hf e11
  generalize dop10 = dop
  generalize tenth = ten
  have c1 : ∀ (c : Prop) [Decidable c] (x : Str), (if c then x ++ lit "," else lit ",") = (if c then x else []) ++ [','] := by
    intro c _ x; split <;> rfl
  have n1 : ∀ (c : Prop) [Decidable c] (w p : Nat) (q : Dbl), (if c then fmtF w p q else []).count ',' = 0 := by
    intro c _ w p q; split; exact cF' _ _ _; rfl
  rw [c1, c1]
  have hd : ∀ X : Str, fields ((if ft = 6 ∨ ft = 0 then lit ",,,"
           else if st.actual = .gnss then
             fmtF 0 1 (dop st.store.dops.hdop) ++ lit "," ++ fmtF 0 1 (dop st.store.dops.vdop) ++ lit "," ++
               fmtF 0 1 (dop st.store.dops.tdop) ++ lit ","
           else fmtF 0 1 (dop st.store.solnMeta.hdop) ++ lit "," ++ fmtF 0 1 (dop st.store.solnMeta.vdop) ++ lit ",,") ++ X) =
      [if ft = 6 then [] else fmtF 0 1 (dop (if st.actual = .gnss then st.store.dops.hdop else st.store.solnMeta.hdop)),
       if ft = 6 then [] else fmtF 0 1 (dop (if st.actual = .gnss then st.store.dops.vdop else st.store.solnMeta.vdop)),
       if ft = 6 then [] else if st.actual = .gnss then fmtF 0 1 (dop st.store.dops.tdop) else []] ++ fields X := by
    intro X
    have eX : lit "," = [','] := rfl
    by_cases h6 : ft = 6
    · rw [if_pos (Or.inl h6), if_pos h6, if_pos h6, if_pos h6]
      exact three_fields (x := []) (y := []) (z := []) X rfl rfl rfl
    · rw [if_neg (fun h => h.elim h6 h0), if_neg h6, if_neg h6, if_neg h6]
      by_cases ha : st.actual = .gnss
      · rw [if_pos ha, if_pos ha, if_pos ha, if_pos ha, ← three_fields X (cF' 0 1 _) (cF' 0 1 _) (cF' 0 1 _), eX]
        simp only [List.append_assoc]
      · rw [if_neg ha, if_neg ha, if_neg ha, if_neg ha, ← three_fields (z := []) X (cF' 0 1 _) (cF' 0 1 _) rfl, eX]
        have e2 : lit ",," = [','] ++ ([] ++ [',']) := rfl
        rw [e2]
        simp only [List.append_assoc]
  have ha : ∀ X : Str, fields ((if isDiff ft (st.store.pos st.src).flags then fmtF 0 1 (ten (if st.actual = .gnss then st.store.age.age else st.store.solnMeta.age)) else []) ++ [','] ++ X) =
      (if isDiff ft (st.store.pos st.src).flags then fmtF 0 1 (ten (if st.actual = .gnss then st.store.age.age else st.store.solnMeta.age)) else []) :: fields X := by
    intro X
    rw [List.append_assoc, fields_append (n1 ..), List.singleton_append, fields_comma, addHead_cons, List.append_nil]
  have hz : fields (fmtU 1 (st.store.pos st.src).nSats ++ lit ",0," ++ if ft = 6 then lit "1" else lit "0") =
      [fmtU 1 (st.store.pos st.src).nSats, ['0'], if ft = 6 then ['1'] else ['0']] := by
    have e0 : lit ",0," = [',', '0', ','] := rfl
    rw [e0]
    split
    · exact last_fields (cU' 1 _) rfl
    · exact last_fields (cU' 1 _) rfl
  by_cases hv : velMode (st.store.vel st.src).flags ≠ 0
  · rw [if_pos hv, if_pos hv]
    have hvv : ∀ X : Str, fields (fmtF 0 2 (.fin (L.sogKph (st.store.vel st.src).n (st.store.vel st.src).e)) ++ lit "," ++
            ((if f64 (knotsFactor * st.cogThreshold) < L.sogKnots (st.store.vel st.src).n (st.store.vel st.src).e then
              fmtF 0 1 (.fin (calcCog L (st.store.vel st.src) st.cogUpdateThreshold st.lastCog)) else []) ++ [','] ++
             (fmtF 0 2 (.fin (f64 (f32 (st.store.vel st.src).d / 1000))) ++ lit ",")) ++ X) =
        [fmtF 0 2 (.fin (L.sogKph (st.store.vel st.src).n (st.store.vel st.src).e)),
         if f64 (knotsFactor * st.cogThreshold) < L.sogKnots (st.store.vel st.src).n (st.store.vel st.src).e then
           fmtF 0 1 (.fin (calcCog L (st.store.vel st.src) st.cogUpdateThreshold st.lastCog)) else [],
         fmtF 0 2 (.fin (f64 (f32 (st.store.vel st.src).d / 1000)))] ++ fields X := by
      intro X
      have hn := n1 (f64 (knotsFactor * st.cogThreshold) < L.sogKnots (st.store.vel st.src).n (st.store.vel st.src).e) 0 1
        (.fin (calcCog L (st.store.vel st.src) st.cogUpdateThreshold st.lastCog))
      generalize (if f64 (knotsFactor * st.cogThreshold) < L.sogKnots (st.store.vel st.src).n (st.store.vel st.src).e then _ else _ : Str) = c at *
      have eX : lit "," = [','] := rfl
      rw [eX, ← three_fields X (cF' 0 2 _) hn (cF' 0 2 _)]
      simp only [List.append_assoc]
    rw [hvv, ha, hd, hz]; rfl
  · rw [if_neg hv, if_neg hv]
    have : ∀ X : Str, fields (lit ",,," ++ X) = [[], [], []] ++ fields X := by intro X; simp [lit, fields_comma]
    rw [this, ha, hd, hz]; rfl

/-- **C81** A PUBX sentence sent with a fix and a valid velocity carries the ground speed in km/h (field 11), the course whenever the speed is above
the threshold (field 12) and the velocity downwards in m/s (field 13). -/
theorem C81_pubx_velocity {m : Libm} (hm : Accurate m) {base : Lib} {st : St} {r : St × Sentence} (hu : TwoDigit (st.store.utc st.src))
    (h : sendPubx (libOf m base) st = some r) (hfix : (st.store.pos st.src).flags % 8 ≠ 0) (hv : (st.store.vel st.src).flags % 8 ≠ 0)
    (hd : |(st.store.vel st.src).d| ≤ 2147483648) (hcog : CogOk st.lastCog) :
    ∃ (f11 f12 f13 : Str) (k : Nat) (z : ℚ), ((fields r.2.texts.flatten).drop 11).take 3 = [f11, f12, f13] ∧ DecField 2 f11 k ∧
      |(k : ℝ) / 100 - groundSpeed (st.store.vel st.src).n (st.store.vel st.src).e * (36 / 10)| ≤
        1 / 200 + groundSpeed (st.store.vel st.src).n (st.store.vel st.src).e * (1 / 10 ^ 12) ∧
      SDecField 2 f13 z ∧ |z - ((st.store.vel st.src).d : ℚ) / 1000| ≤ 1 / 200 + |((st.store.vel st.src).d : ℚ)| / 10 ^ 10 + 1 / 10 ^ 6 ∧
      (sogKnots m (st.store.vel st.src).n (st.store.vel st.src).e ≤ f64 (knotsFactor * st.cogThreshold) → f12 = []) ∧
      (f64 (knotsFactor * st.cogThreshold) < sogKnots m (st.store.vel st.src).n (st.store.vel st.src).e →
        f64 (knotsFactor * st.cogUpdateThreshold) ≤ sogKnots m (st.store.vel st.src).n (st.store.vel st.src).e →
        ∃ n1, CourseField f12 n1 ∧
          ∃ turns : Int, |(n1 : ℝ) / 10 - (trueCourse (st.store.vel st.src).n (st.store.vel st.src).e + turns * 360)| ≤ 5 / 100 + 2 / 10 ^ 9) := by
  obtain ⟨ft, hft, hf⟩ := pubx_tail hu h hfix
  have hv' : velMode (st.store.vel st.src).flags ≠ 0 := hv
  rw [if_pos hv'] at hf
  obtain ⟨k, k1, k2⟩ := fmtF_dec (p := 2) (by omega) (speed_nonneg hm (st.store.vel st.src).n (st.store.vel st.src).e).2
  obtain ⟨z, z1, z2⟩ := fmtF_sdec (p := 2) (by omega) (f64 (f32 (st.store.vel st.src).d / 1000))
  refine ⟨_, _, _, k, z, by rw [hf]; rfl, k1, ?_, z1, ?_, ?_, ?_⟩
  · have := print_near k2 (by norm_num : ((1 / 2 / 10 ^ 2 : ℚ) : ℝ) = 1 / 200) (C79_speed hm (st.store.vel st.src).n (st.store.vel st.src).e).2
    push_cast at this
    norm_num at this ⊢
    exact this
  · have e : z - ((st.store.vel st.src).d : ℚ) / 1000 = (z - f64 (f32 (st.store.vel st.src).d / 1000)) + (f64 (f32 (st.store.vel st.src).d / 1000) - ((st.store.vel st.src).d : ℚ) / 1000) := by ring
    rw [e, add_assoc]
    exact (abs_add_le _ _).trans (add_le_add (z2.trans (by norm_num)) (vvel_near hd))
  · intro hle
    exact if_neg (not_lt.2 hle)
  · intro hs hup
    have hL : ∀ n e, |(libOf m base).courseDeg n e| ≤ 181 := course_bound hm
    obtain ⟨j, hj, he, t, ht⟩ := (calcCog_ok (L := libOf m base) (hL (st.store.vel st.src).n (st.store.vel st.src).e) hcog).2 hup
    refine ⟨j, ?_, t, ?_⟩
    · have hs' : f64 (knotsFactor * st.cogThreshold) < (libOf m base).sogKnots (st.store.vel st.src).n (st.store.vel st.src).e := hs
      rw [if_pos hs', he]
      have e := f64_tenth j (by omega)
      refine ⟨fmtF_near (by omega) (f64_nonneg (by positivity)) ?_, hj⟩
      rw [abs_le] at e
      rw [abs_lt]
      constructor <;> (norm_num; linarith)
    · have h1 := C79_course hm (st.store.vel st.src).n (st.store.vel st.src).e
      have h2 : |((((j : ℚ) / 10 - (courseDeg m (st.store.vel st.src).n (st.store.vel st.src).e + t * 360)) : ℚ) : ℝ)| ≤ ((5 / 100 + 1 / 10 ^ 9 : ℚ) : ℝ) := by
        exact_mod_cast ht
      push_cast at h2
      generalize trueCourse (st.store.vel st.src).n (st.store.vel st.src).e = c at *
      generalize (courseDeg m (st.store.vel st.src).n (st.store.vel st.src).e : ℝ) = c' at *
      rw [abs_le] at *
      norm_num at *
      constructor <;> linarith [h1.1, h1.2, h2.1, h2.2]

/-- **C81** Without a valid velocity the three velocity fields of a PUBX sentence are blank. -/
theorem C81_pubx_no_velocity {L : Lib} {st : St} {r : St × Sentence} (hu : TwoDigit (st.store.utc st.src)) (h : sendPubx L st = some r)
    (hfix : (st.store.pos st.src).flags % 8 ≠ 0) (hv : (st.store.vel st.src).flags % 8 = 0) :
    ((fields r.2.texts.flatten).drop 11).take 3 = [[], [], []] := by
  obtain ⟨ft, -, hf⟩ := pubx_tail hu h hfix
  have hv' : ¬ velMode (st.store.vel st.src).flags ≠ 0 := by rw [not_not]; exact hv
  rw [if_neg hv'] at hf
  rw [hf, List.take_left' (by rfl)]

/-- **C81** The last fields of a PUBX sentence sent with a fix: the age of the corrections, the dilutions of precision (blank for dead reckoning; the
one of time blank too in fused mode), the number of satellites and the dead-reckoning flag. -/
theorem C81_pubx_quality {L : Lib} {st : St} {r : St × Sentence} (hu : TwoDigit (st.store.utc st.src)) (h : sendPubx L st = some r)
    (hfix : (st.store.pos st.src).flags % 8 ≠ 0) (hsat : (st.store.pos st.src).nSats < 256)
    (hdop : st.store.dops.hdop < 65536 ∧ st.store.dops.vdop < 65536 ∧ st.store.dops.tdop < 65536 ∧ st.store.solnMeta.hdop < 65536 ∧
      st.store.solnMeta.vdop < 65536) (hage : st.store.age.age < 65536 ∧ st.store.solnMeta.age < 65536) :
    ∃ f14 f15 f16 f17 f18 f20 : Str, (fields r.2.texts.flatten).drop 14 = [f14, f15, f16, f17, f18, ['0'], f20] ∧
      ((st.store.pos st.src).flags % 8 = 2 ∨ (st.store.pos st.src).flags % 8 = 3 ∨ (st.store.pos st.src).flags % 8 = 4 →
        DecField 1 f14 (if st.actual = .gnss then st.store.age.age else st.store.solnMeta.age)) ∧
      ((st.store.pos st.src).flags % 8 = 1 ∨ (st.store.pos st.src).flags % 8 = 5 ∨ (st.store.pos st.src).flags % 8 = 6 → f14 = []) ∧
      ((st.store.pos st.src).flags % 8 = 5 → f15 = [] ∧ f16 = [] ∧ f17 = [] ∧ f20 = ['1']) ∧
      ((st.store.pos st.src).flags % 8 ≠ 5 → f20 = ['0'] ∧
        DopField f15 (if st.actual = .gnss then st.store.dops.hdop else st.store.solnMeta.hdop) ∧
        DopField f16 (if st.actual = .gnss then st.store.dops.vdop else st.store.solnMeta.vdop) ∧
        (st.actual = .gnss → DopField f17 st.store.dops.tdop) ∧ (st.actual ≠ .gnss → f17 = [])) ∧
      NatField 1 f18 (st.store.pos st.src).nSats := by
  obtain ⟨ft, hft, hf⟩ := pubx_tail hu h hfix
  obtain ⟨d1, d2, d3, d4, d5⟩ := hdop
  have hk : ((st.store.pos st.src).flags % 8 = 5 ↔ ft = 6) ∧
      (((st.store.pos st.src).flags % 8 = 2 ∨ (st.store.pos st.src).flags % 8 = 3 ∨ (st.store.pos st.src).flags % 8 = 4) → isDiff ft (st.store.pos st.src).flags = true) ∧
      (((st.store.pos st.src).flags % 8 = 1 ∨ (st.store.pos st.src).flags % 8 = 5 ∨ (st.store.pos st.src).flags % 8 = 6) → isDiff ft (st.store.pos st.src).flags = false) := by
    revert hft hfix
    unfold fixType nmeaQuality isDiff posMode
    have hlt := Nat.mod_lt (st.store.pos st.src).flags (by omega : 0 < 8)
    generalize (st.store.pos st.src).flags % 8 = k at *
    intro hfix hft
    interval_cases k <;> simp at hft <;> subst hft <;> simp
  have h14 : (fields r.2.texts.flatten).drop 14 = ((fields r.2.texts.flatten).drop 11).drop 3 := by rw [List.drop_drop]
  have hl : ∀ (c : Prop) [Decidable c] (x y z : Str) (l : List Str), ((if c then [x, y, z] else [[], [], []]) ++ l).drop 3 = l := by
    intro c _ x y z l; split <;> rfl
  rw [hf, hl] at h14
  refine ⟨_, _, _, _, _, _, h14, ?_, ?_, ?_, ?_, (nat_field_all ⟨_, hsat⟩).2⟩
  · intro hh
    rw [if_pos (hk.2.1 hh)]
    split
    · exact tenth_field hage.1
    · exact tenth_field hage.2
  · intro hh
    rw [hk.2.2 hh]; rfl
  · intro hh
    have := hk.1.1 hh
    simp [this]
  · intro hh
    have hne : ft ≠ 6 := fun e => hh (hk.1.2 e)
    rw [if_neg hne, if_neg hne, if_neg hne, if_neg hne]
    refine ⟨rfl, ?_, ?_, fun ha => ?_, fun ha => ?_⟩
    · split
      · exact dop10_field d1
      · exact dop10_field d4
    · split
      · exact dop10_field d2
      · exact dop10_field d5
    · rw [if_pos ha]; exact dop10_field d3
    · rw [if_neg ha]

/-- hypotheses of C81: the epoch of C79 -/
example (m : Libm) : (sendPubx (libOf m exLib) exGstSt).isSome ∧ (sendGga (libOf m exLib) exGstSt).isSome ∧ TwoDigit (exGstSt.store.utc exGstSt.src) ∧
    (exGstSt.store.pos exGstSt.src).flags % 8 = 4 ∧ (exGstSt.store.vel exGstSt.src).flags % 8 = 1 ∧ CogOk exGstSt.lastCog := by
  have h1 : (splitAngle (exGstSt.store.pos exGstSt.src).lat).isSome := by decide +kernel
  have h2 : (splitAngle (exGstSt.store.pos exGstSt.src).lon).isSome := by decide +kernel
  obtain ⟨a, ha⟩ := Option.isSome_iff_exists.1 h1
  obtain ⟨b, hb⟩ := Option.isSome_iff_exists.1 h2
  refine ⟨?_, ?_, by decide, rfl, rfl, cogOk_zero⟩
  · unfold sendPubx
    simp only [ha, hb]
    rfl
  · unfold sendGga
    simp only [ha, hb]
    rfl

end Verif.Nmea
