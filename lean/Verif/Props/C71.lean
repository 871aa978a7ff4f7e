import Verif.Lemmas.EphStream
import Verif.Lemmas.RtcmMisc
/-!
C71: SBP ephemerides over the RTCM byte stream.
-/
namespace Verif.EphStream
open Verif.EphSbp Verif.EphSbp.Spec Verif.Time Verif.Fp Verif.EphStream.Spec Verif.Spec
open Verif.Acc.Spec (LibOk)
open Verif.Misc (blank blank_length type_of_run)
open Verif.RtcmSbp (State Env Input messageType whitelist stnToSender)

theorem linW {n b : Nat} {x : ℚ} (hb : b ≤ 32) (h : Fits b n x) : -(2 ^ (b - 1)) ≤ unsc n x ∧ unsc n x < 2 ^ (b - 1) := by
  have := abs_le.1 (lin hb h).1
  omega
theorem angW {n b : Nat} {x : ℚ} (hb : b ≤ 32) (hn : n ≤ 50) (h : FitsAngle b n x) : -(2 ^ (b - 1)) ≤ unscA n x ∧ unscA n x < 2 ^ (b - 1) := by
  have := abs_le.1 (ang hb hn h).1
  omega

theorem gps_ura : ∀ v ∈ Acc.Spec.gpsNominal, ∃ u ∈ List.range 16, f32 v = Acc.uraToUri u := by decide +kernel
theorem bds_ura : ∀ v ∈ Acc.Spec.bdsNominal, ∃ u ∈ List.range 16, f32 v = Acc.bdsUraToMeters u := by decide +kernel
theorem glo_ura : ∀ v ∈ Acc.Spec.gloNominal, ∃ u ∈ List.range 16, v = Acc.gloFtToMeters u := by decide +kernel

/-! ### GPS -/

theorem gps_wf (env : Acc.Env) (hl : LibOk env.eps env.log2f) (rover : GpsTime) (e : SbpKep) (h : GpsOk rover e) :
    WF1019 (sbpToGps env e) := by
  obtain ⟨o, ht1, ⟨⟨t0, t1, t2⟩, t3⟩, h1, hs, hh, hi, hc, ⟨v, hv, hu⟩, ⟨flag, hf⟩, hso⟩ := h
  obtain ⟨u, hu1, hu2⟩ := gps_ura v hv
  rw [List.mem_range] at hu1
  have hura : Acc.gpsUriToUra env e.ura = u := by rw [hu, hu2]; exact (Acc.C30_gps_ura env hl u (by omega)).1
  have hfit : Acc.encodeFitGps e.fit < 2 := by unfold Acc.encodeFitGps; split <;> omega
  exact {
    satId := hs
    wn := Nat.mod_lt _ (by norm_num)
    ura := by show Acc.gpsUriToUra env e.ura < _; rw [hura]; omega
    codeL2 := show (1 : Nat) < 4 by norm_num
    incDot := angW (by norm_num) (by norm_num) o.incDot
    iode := hi
    toc := by show e.toc.tow / 16 < _; rw [h1]; omega
    af2 := linW (by decide) o.af2
    af1 := linW (by decide) o.af1
    af0 := linW (by decide) o.af0
    iodc := hc
    crs := linW (by decide) o.crs
    dn := angW (by norm_num) (by norm_num) o.dn
    m0 := angW (by norm_num) (by norm_num) o.m0
    cuc := linW (by decide) o.cuc
    ecc := (linU (by decide) o.ecc).1
    cus := linW (by decide) o.cus
    sqrta := (linU (by decide) o.sqrta).1
    toe := by show e.toe.tow / 16 < _; omega
    cic := linW (by decide) o.cic
    omega0 := angW (by norm_num) (by norm_num) o.omega0
    cis := linW (by decide) o.cis
    inc := angW (by norm_num) (by norm_num) o.inc
    crc := linW (by decide) o.crc
    w := angW (by norm_num) (by norm_num) o.w
    omegadot := angW (by norm_num) (by norm_num) o.omegadot
    tgd0 := linW (by decide) (fits_unit o.tgd0)
    healthBits := hh
    l2DataBit := show (0 : Nat) < 2 by norm_num
    fitInterval := hfit
    tgd1 := rfl }

theorem time_same {rover : GpsTime} (hr : rover.valid) {t : TimeSec} (h : TimeOk rover t) : timeSecMatch t.tow rover = some t := by
  obtain ⟨h1, h2, h3⟩ := h
  obtain ⟨t', a, b⟩ := timeSecMatch_near hr h2 h3 h1
  have := (timeSecMatch_some a).1
  rw [a]
  cases t; cases t'
  simp only at this b
  subst this b
  rfl

theorem near_scF {n b : Nat} {x : ℚ} (hb : b ≤ 25) (hn : n ≤ 100) (h : Fits b n x) : Near n x (scF n (unsc n x)) := by
  obtain ⟨h1, h2⟩ := lin (by omega) h
  have : (2 : Int) ^ (b - 1) ≤ 2 ^ 24 := pow_le_pow_right₀ (by norm_num) (by omega)
  rw [scF_eq n _ hn (by omega)]
  exact h2
theorem near_scD {n b : Nat} {x : ℚ} (hb : b ≤ 32) (hn : n ≤ 100) (h : Fits b n x) : Near n x (scD n (unsc n x)) := by
  obtain ⟨h1, h2⟩ := lin (by omega) h
  have : (2 : Int) ^ (b - 1) ≤ 2 ^ 32 := pow_le_pow_right₀ (by norm_num) (by omega)
  rw [scD_eq n _ hn (by omega)]
  exact h2
theorem near_scU {n b : Nat} {x : ℚ} (hb : b ≤ 32) (hn : n ≤ 100) (h : FitsU b n x) : Near n x (scD n ((unsc n x).toNat : Nat)) := by
  obtain ⟨h1, h2⟩ := linU (by omega) h
  have : (2 : Nat) ^ b ≤ 2 ^ 32 := Nat.pow_le_pow_right (by norm_num) (by omega)
  rw [scD_eq n _ hn (by rw [abs_of_nonneg (by positivity)]; omega)]
  rw [Int.cast_natCast]
  exact h2

theorem near_zero {u x : ℚ} (hu : 0 ≤ u) (h : x = 0) : NearUnit u x 0 := by
  unfold NearUnit half; rw [h]; simp; positivity

theorem gps_trip (K : Lib) (hl : LibOk K.acc.eps K.acc.log2f) (rover : GpsTime) (hr : rover.valid) (e : SbpKep) (h : GpsOk rover e) :
    ∃ m e', decode1019.run (payloadOf (encode1019 (sbpToGps K.acc e) blank)) = .ok m ∧ gpsToSbp m rover = some e' ∧ GpsSame e e' := by
  have hwf := gps_wf K.acc hl rover e h
  obtain ⟨o, ht1, ⟨t0, t3⟩, h1, hs, hh, hi, hc, ⟨v, hv, hu⟩, ⟨flag, hf⟩, hso⟩ := h
  obtain ⟨u, hu1, hu2⟩ := gps_ura v hv
  rw [List.mem_range] at hu1
  have hura : Acc.gpsUriToUra K.acc e.ura = u := by rw [hu, hu2]; exact (Acc.C30_gps_ura K.acc hl u (by omega)).1
  have e1 : (sbpToGps K.acc e).toe * 16 = e.toe.tow := by show e.toe.tow / 16 * 16 = _; omega
  have e2 : (sbpToGps K.acc e).toc * 16 = e.toe.tow := by show e.toc.tow / 16 * 16 = _; rw [h1]; omega
  have e3 : (sbpToGps K.acc e).toe = (sbpToGps K.acc e).toc := by omega
  have hm := C10_1019_roundtrip_partial (sbpToGps K.acc e) hwf e3 blank (by rw [blank_length]; norm_num)
  have tm := time_same hr t0
  refine ⟨_, _, hm, by unfold gpsToSbp; rw [e1, e2, tm], ?_, ?_, ?_, ?_, ?_⟩
  · exact {
      crs := near_scF (by decide) (by decide) o.crs
      crc := near_scF (by decide) (by decide) o.crc
      cuc := near_scF (by decide) (by decide) o.cuc
      cus := near_scF (by decide) (by decide) o.cus
      cic := near_scF (by decide) (by decide) o.cic
      cis := near_scF (by decide) (by decide) o.cis
      dn := (ang (by norm_num) (by norm_num) o.dn).2
      m0 := (ang (by norm_num) (by norm_num) o.m0).2
      ecc := near_scU (by decide) (by decide) o.ecc
      sqrta := near_scU (by decide) (by decide) o.sqrta
      omega0 := (ang (by norm_num) (by norm_num) o.omega0).2
      omegadot := (ang (by norm_num) (by norm_num) o.omegadot).2
      w := (ang (by norm_num) (by norm_num) o.w).2
      inc := (ang (by norm_num) (by norm_num) o.inc).2
      incDot := (ang (by norm_num) (by norm_num) o.incDot).2
      af0 := near_scF (by decide) (by decide) o.af0
      af1 := near_scF (by decide) (by decide) o.af1
      af2 := near_scF (by decide) (by decide) o.af2
      tgd0 := near_unit (near_scF (by decide) (by decide) (fits_unit o.tgd0))
      tgd1 := near_zero (by unfold gps; norm_num) ht1 }
  · exact ⟨rfl, h1.symm, rfl, rfl, rfl, rfl, hso.symm⟩
  · show Acc.uraToUri (Acc.gpsUriToUra K.acc e.ura) = e.ura
    rw [hura, hu, hu2]
  · show Acc.decodeFitGps (Acc.encodeFitGps e.fit) e.iodc = e.fit
    obtain ⟨a, b⟩ := Acc.C30_fit_gps flag e.iodc
    rw [hf, ← a, b]
  · show decide (e.iodc &&& 0xFF = e.iode) = _
    rw [show (0xFF : Nat) = 2 ^ 8 - 1 by norm_num, Nat.and_two_pow_sub_one_eq_mod]

/-! ### Galileo -/

theorem unsc_zero (n : Nat) : unsc n 0 = 0 := by
  unfold unsc
  rw [zero_div, show f64 0 = 0 by unfold f64 fl; simp]
  exact cround_int 0

theorem sisa_index {x : ℚ} (h : 0 ≤ x ∧ x ≤ 6 ∨ x = -1) : Acc.metersToSisa x < 256 := by
  rcases h with ⟨a, b⟩ | rfl
  · have := (Acc.C30_sisa_nearest x a b).1; omega
  · decide +kernel

theorem sisa_back {x : ℚ} (h : 0 ≤ x ∧ x ≤ 6 ∨ x = -1) :
    |Acc.sisaToMeters (Acc.metersToSisa x) - x| ≤ Acc.Spec.sisaRes x * (1 / 2 + 1 / 20) ∨ x = -1 ∧ Acc.sisaToMeters (Acc.metersToSisa x) = -1 := by
  rcases h with ⟨a, b⟩ | rfl
  · left
    obtain ⟨c, d⟩ := Acc.C30_sisa_nearest x a b
    have f := (Acc.C30_sisa (Acc.metersToSisa x) (by omega)).2 c
    have g := abs_sub_le (Acc.sisaToMeters (Acc.metersToSisa x)) (Acc.Spec.sisaNominal (Acc.metersToSisa x)) x
    have r : 1 / 100 ≤ Acc.Spec.sisaRes x := by unfold Acc.Spec.sisaRes; split_ifs <;> norm_num
    linarith
  · right; exact ⟨rfl, by decide +kernel⟩

theorem gal_tgd1 (K : Lib) (rover : GpsTime) (e : SbpKep) (h : GalOk K rover e) :
    Fits 10 32 e.tgd1 := by
  rcases h.source with ⟨-, -, h⟩ | ⟨-, -, h⟩
  · exact fits_unit h
  · unfold Fits; rw [h]; norm_num

theorem gal_wf (K : Lib) (rover : GpsTime) (e : SbpKep) (h : GalOk K rover e) : WFGal (sbpToGal e) := by
  have ht := gal_tgd1 K rover e h
  obtain ⟨o, ⟨⟨t0, t1, t2⟩, t3, t4, t5⟩, ⟨⟨u0, u1, u2⟩, u3⟩, hs, ⟨hi, hc⟩, hu, hso⟩ := h
  exact {
    satId := hs
    wn := by show (e.toe.wn + 65536 - 1024) % 65536 < _; omega
    iode := hc
    ura := sisa_index hu
    toc := by show e.toc.tow / 60 < _; omega
    toe := by show e.toe.tow / 60 < _; omega
    incDot := angW (by norm_num) (by norm_num) o.incDot
    af2 := linW (by decide) o.af2
    af1 := linW (by decide) o.af1
    af0 := linW (by decide) o.af0
    crs := linW (by decide) o.crs
    dn := angW (by norm_num) (by norm_num) o.dn
    m0 := angW (by norm_num) (by norm_num) o.m0
    cuc := linW (by decide) o.cuc
    ecc := (linU (by decide) o.ecc).1
    cus := linW (by decide) o.cus
    sqrta := (linU (by decide) o.sqrta).1
    cic := linW (by decide) o.cic
    omega0 := angW (by norm_num) (by norm_num) o.omega0
    cis := linW (by decide) o.cis
    inc := angW (by norm_num) (by norm_num) o.inc
    crc := linW (by decide) o.crc
    w := angW (by norm_num) (by norm_num) o.w
    omegadot := angW (by norm_num) (by norm_num) o.omegadot
    tgd0 := linW (by decide) (fits_unit o.tgd0)
    tgd1 := linW (by decide) ht
    rest := ⟨rfl, rfl, rfl, rfl⟩ }

/-- the conversion of the message received, whatever its source -/
theorem gal_conv (K : Lib) (rover : GpsTime) (hr : rover.valid) (e : SbpKep) (h : GalOk K rover e) :
    ∃ e', galToSbp (sbpToGal e) e.source rover = some e' ∧ GalSame e e' := by
  have ht := gal_tgd1 K rover e h
  obtain ⟨o, ⟨t0, t3, t4, t5⟩, ⟨u0, u3⟩, hs, ⟨hi, hc⟩, hu, hso⟩ := h
  have e1 : (sbpToGal e).toe * 60 = e.toe.tow := by show e.toe.tow / 60 * 60 = _; omega
  have e2 : (sbpToGal e).toc * 60 = e.toc.tow := by show e.toc.tow / 60 * 60 = _; omega
  refine ⟨_, by unfold galToSbp; rw [e1, e2, time_same hr t0, time_same hr u0], ?_, ?_, ?_, rfl, rfl⟩
  · exact {
      crs := near_scF (by decide) (by decide) o.crs
      crc := near_scF (by decide) (by decide) o.crc
      cuc := near_scF (by decide) (by decide) o.cuc
      cus := near_scF (by decide) (by decide) o.cus
      cic := near_scF (by decide) (by decide) o.cic
      cis := near_scF (by decide) (by decide) o.cis
      dn := (ang (by norm_num) (by norm_num) o.dn).2
      m0 := (ang (by norm_num) (by norm_num) o.m0).2
      ecc := near_scU (by decide) (by decide) o.ecc
      sqrta := near_scU (by decide) (by decide) o.sqrta
      omega0 := (ang (by norm_num) (by norm_num) o.omega0).2
      omegadot := (ang (by norm_num) (by norm_num) o.omegadot).2
      w := (ang (by norm_num) (by norm_num) o.w).2
      inc := (ang (by norm_num) (by norm_num) o.inc).2
      incDot := (ang (by norm_num) (by norm_num) o.incDot).2
      af0 := near_scD (by decide) (by decide) o.af0
      af1 := near_scD (by decide) (by decide) o.af1
      af2 := near_scF (by decide) (by decide) o.af2
      tgd0 := near_unit (near_scF (by decide) (by decide) (fits_unit o.tgd0))
      tgd1 := near_unit (near_scF (by decide) (by decide) ht) }
  · exact ⟨rfl, rfl, rfl, rfl, hi.symm, rfl, rfl⟩
  · exact sisa_back hu

theorem gal_wire (K : Lib) (rover : GpsTime) (e : SbpKep) (h : GalOk K rover e) :
    (e.source = K.inav → e.health < 32 → decode1046.run (payloadOf (encode1046 (sbpToGal e) blank)) = .ok (sbpToGal e)) ∧
    (e.source = K.fnav → e.health < 4 → e.tgd1 = 0 → decode1045.run (payloadOf (encode1045 (sbpToGal e) blank)) = .ok (sbpToGal e)) := by
  have hwf := gal_wf K rover e h
  constructor
  · intro _ h2
    exact C10_1046_roundtrip_partial _ hwf h2 blank (by rw [blank_length]; norm_num)
  · intro _ h2 h3
    exact C10_1045_roundtrip_partial _ hwf h2 (by show unsc 32 e.tgd1 = 0; rw [h3, unsc_zero]) blank (by rw [blank_length]; norm_num)

/-! ### BeiDou -/

theorem bds_tow {t : TimeSec} (h1 : t.tow < 604800) (h2 : (t.tow + 2) % 8 = 0) (h3 : 14 < t.tow) (h4 : 1356 ≤ t.wn) (h5 : t.wn < 1356 + 8192) :
    getBdsWnTow t = (t.wn - 1356, (t.tow - 14) / 8) := by
  unfold getBdsWnTow
  rw [if_pos h3]
  obtain ⟨q, hq⟩ : ∃ q, t.tow = 14 + 8 * q := ⟨(t.tow - 14) / 8, by omega⟩
  have e : ((t.tow : ℚ) - 14) / 8 = ((q : Int) : ℚ) := by rw [hq]; push_cast; ring
  rw [e, EphSbp.f64_int _ (by rw [abs_of_nonneg (by positivity)]; omega), Verif.cround_int]
  simp only [Int.toNat_natCast, Prod.mk.injEq]
  omega

theorem bds_time_back (ref : Nat) {t : TimeSec} (h1 : t.tow < 604800) (h2 : (t.tow + 2) % 8 = 0) (h3 : 14 < t.tow) (h4 : 1356 ≤ t.wn)
    (h6 : ref ≤ t.wn) : bdsTime ref (t.wn - 1356) ((t.tow - 14) / 8) = t := by
  unfold bdsTime adjustWeek
  have e1 : (t.tow - 14) / 8 * 8 + 14 = t.tow := by omega
  rw [e1, Nat.mod_eq_of_lt h1, Nat.div_eq_of_lt h1, if_pos (by omega)]
  cases t
  simp only [TimeSec.mk.injEq, and_true] at *
  omega

theorem bds_trip (K : Lib) (hl : LibOk K.acc.eps K.acc.log2f) (e : SbpKep) (h : BdsOk K e) :
    ∃ m, decode1042.run (payloadOf (encode1042 (sbpToBds K.acc e) blank)) = .ok m ∧ BdsSame e (bdsToSbp K.weekRef m) := by
  obtain ⟨o, ht1, ht, ⟨n1, n2⟩, hw, ⟨w1, w2⟩, ⟨s1, s2⟩, hh, ⟨hi, hc⟩, ⟨v, hv, hu⟩, hso⟩ := h
  obtain ⟨a1, a2, a3⟩ := ht e.toe (by simp)
  obtain ⟨b1, b2, b3⟩ := ht e.toc (by simp)
  obtain ⟨u, hu1, hu2⟩ := bds_ura v hv
  rw [List.mem_range] at hu1
  have hura : Acc.bdsUriToUra K.acc e.ura = u := by rw [hu, hu2]; exact (Acc.C30_bds_ura K.acc hl u (by omega)).1
  have g1 := bds_tow a1 a2 n1 (by omega) (by omega)
  have g2 := bds_tow b1 b2 n2 w1 w2
  have d0 := delayT o.tgd0
  have d1 := delayT ht1
  have d0' := abs_le.1 d0.1
  have d1' := abs_le.1 d1.1
  have hwf : WF1042 (sbpToBds K.acc e) := {
    satId := s2
    wn := by show (getBdsWnTow e.toc).1 < _; rw [g2]; simp only; omega
    ura := by show Acc.bdsUriToUra K.acc e.ura < _; rw [hura]; omega
    iode := hi
    iodc := hc
    toc := by show (getBdsWnTow e.toc).2 < _; rw [g2]; simp only; omega
    toe := by show (getBdsWnTow e.toe).2 < _; rw [g1]; simp only; omega
    incDot := angW (by norm_num) (by norm_num) o.incDot
    af2 := linW (by decide) o.af2
    af1 := linW (by decide) o.af1
    af0 := linW (by decide) o.af0
    crs := linW (by decide) o.crs
    dn := angW (by norm_num) (by norm_num) o.dn
    m0 := angW (by norm_num) (by norm_num) o.m0
    cuc := linW (by decide) o.cuc
    ecc := (linU (by decide) o.ecc).1
    cus := linW (by decide) o.cus
    sqrta := (linU (by decide) o.sqrta).1
    cic := linW (by decide) o.cic
    omega0 := angW (by norm_num) (by norm_num) o.omega0
    cis := linW (by decide) o.cis
    inc := angW (by norm_num) (by norm_num) o.inc
    crc := linW (by decide) o.crc
    w := angW (by norm_num) (by norm_num) o.w
    omegadot := angW (by norm_num) (by norm_num) o.omegadot
    tgd0 := by show -(2 ^ 9) ≤ unscT e.tgd0 ∧ unscT e.tgd0 < 2 ^ 9; omega
    tgd1 := by show -(2 ^ 9) ≤ unscT e.tgd1 ∧ unscT e.tgd1 < 2 ^ 9; omega
    healthBits := hh
    notGeo := s1
    rest := ⟨rfl, rfl, rfl⟩ }
  refine ⟨_, C10_1042_roundtrip _ hwf blank (by rw [blank_length]; norm_num), ?_, ?_, ?_, rfl, rfl⟩
  · exact {
      crs := near_scF (by decide) (by decide) o.crs
      crc := near_scF (by decide) (by decide) o.crc
      cuc := near_scF (by decide) (by decide) o.cuc
      cus := near_scF (by decide) (by decide) o.cus
      cic := near_scF (by decide) (by decide) o.cic
      cis := near_scF (by decide) (by decide) o.cis
      dn := (ang (by norm_num) (by norm_num) o.dn).2
      m0 := (ang (by norm_num) (by norm_num) o.m0).2
      ecc := near_scU (by decide) (by decide) o.ecc
      sqrta := near_scU (by decide) (by decide) o.sqrta
      omega0 := (ang (by norm_num) (by norm_num) o.omega0).2
      omegadot := (ang (by norm_num) (by norm_num) o.omegadot).2
      w := (ang (by norm_num) (by norm_num) o.w).2
      inc := (ang (by norm_num) (by norm_num) o.inc).2
      incDot := (ang (by norm_num) (by norm_num) o.incDot).2
      af0 := near_scD (by decide) (by decide) o.af0
      af1 := near_scF (by decide) (by decide) o.af1
      af2 := near_scF (by decide) (by decide) o.af2
      tgd0 := d0.2
      tgd1 := d1.2 }
  · refine ⟨?_, ?_, rfl, rfl, rfl, rfl, hso.symm⟩
    · show bdsTime K.weekRef (getBdsWnTow e.toc).1 (getBdsWnTow e.toe).2 = _
      rw [g1, g2, ← hw]
      exact bds_time_back _ a1 a2 n1 (by omega) a3
    · show bdsTime K.weekRef (getBdsWnTow e.toc).1 (getBdsWnTow e.toc).2 = _
      rw [g2]
      exact bds_time_back _ b1 b2 n2 w1 b3
  · show Acc.bdsUraToMeters (Acc.bdsUriToUra K.acc e.ura) = e.ura
    rw [hura, hu, hu2]

/-! ### GLONASS -/

theorem glo_trip (K : Lib) (hl : LibOk K.acc.eps K.acc.log2f) (rover : GpsTime) (hr : rover.valid) (leap : Int) (junk : Nat) (e : SbpGlo)
    (h : GloOk rover leap e) :
    ∃ m e', decode1020.run (payloadOf (encode1020 (sbpToGlo K.acc junk (some leap) e) blank)) = .ok m ∧ gloToSbp m rover (some leap) = some e' ∧
      GloSame leap e e' := by
  obtain ⟨hle, ⟨t1, t2, t3⟩, hn, ⟨r1, r2⟩, ⟨s1, s2⟩, hh, ⟨f1, f2⟩, hu, hf, hg, hta, hdt, hpos, hvel, hacc⟩ := h
  obtain ⟨u, hu1, hu2⟩ := glo_ura _ hu
  rw [List.mem_range] at hu1
  have hura : Acc.gloUriToUra K.acc e.ura = u := by rw [hu2]; exact (Acc.C30_glo_ura K.acc hl u (by omega)).1
  -- the time of day
  obtain ⟨tB, hB, hB1, hB2⟩ : ∃ tB : Nat, gloDay leap e.toe = tB * 900 ∧ 0 < tB ∧ tB < 96 := by
    have : 0 ≤ gloDay leap e.toe ∧ gloDay leap e.toe < 86400 := by unfold gloDay; omega
    refine ⟨(gloDay leap e.toe / 900).toNat, by omega, by omega, by omega⟩
  have htod : gloTimeOfDay e.toe.tow (some leap) = some tB := by
    have hk : ((e.toe.wn : Nat) : Int) * 604800 + e.toe.tow = tB * 900 - 10800 + leap + 86400 * (((e.toe.tow : Int) - leap + 3 * 3600) / 86400 + 7 * e.toe.wn) := by
      unfold gloDay at hB; omega
    rw [tod_back leap hle e.toe.wn e.toe.tow tB t1 (by omega) _ hk, if_neg (by omega)]
  have c0 := coord (b := 27) (n := 11) (by decide) (hpos e.pos0 (by simp))
  have c1 := coord (b := 27) (n := 11) (by decide) (hpos e.pos1 (by simp))
  have c2 := coord (b := 27) (n := 11) (by decide) (hpos e.pos2 (by simp))
  have v0 := coord (b := 24) (n := 20) (by decide) (hvel e.vel0 (by simp))
  have v1 := coord (b := 24) (n := 20) (by decide) (hvel e.vel1 (by simp))
  have v2 := coord (b := 24) (n := 20) (by decide) (hvel e.vel2 (by simp))
  have a0 := coord (b := 5) (n := 30) (by decide) (hacc e.acc0 (by simp))
  have a1 := coord (b := 5) (n := 30) (by decide) (hacc e.acc1 (by simp))
  have a2 := coord (b := 5) (n := 30) (by decide) (hacc e.acc2 (by simp))
  have st : ∀ {k : Int} {b : Nat}, |k| ≤ 2 ^ (b - 1) - 1 → -(2 ^ (b - 1)) < k ∧ k < 2 ^ (b - 1) := by
    intro k b h; have := abs_le.1 h; omega
  have hfit : Acc.encodeFitGlo e.fit < 4 ∧ Acc.decodeFitGlo (Acc.encodeFitGlo e.fit) = e.fit := by
    simp only [List.mem_cons, List.not_mem_nil, or_false] at hf
    rcases hf with h | h | h <;> rw [h] <;> decide
  generalize hm : sbpToGlo K.acc junk (some leap) e = m
  have m1 : m.tB = tB := by rw [← hm]; unfold sbpToGlo; rw [htod]; rfl
  have m2 : m.healthBits = e.health := by rw [← hm]; unfold sbpToGlo; rw [htod]; rfl
  have m3 : m.fcn + 1 = e.fcn := by rw [← hm]; show (e.fcn + 256 - 1) % 256 + 1 = _; omega
  have m4 : m.satId = e.sat := by rw [← hm]; rfl
  have hwf : WF1020 m := by
    constructor
    · rw [m4]; exact s2
    · omega
    · rw [← hm]; exact hfit.1
    · rw [m2]; exact hh
    · rw [m1]; omega
    · rw [← hm]; show Acc.gloUriToUra K.acc e.ura < _; rw [hura]; omega
    · rw [← hm]; exact ⟨st v0.1, st v1.1, st v2.1⟩
    · rw [← hm]; exact ⟨st c0.1, st c1.1, st c2.1⟩
    · rw [← hm]; exact ⟨st a0.1, st a1.1, st a2.1⟩
    · rw [← hm]; exact st (lin (by norm_num) hg).1
    · rw [← hm]; exact st (lin (by norm_num) hta).1
    · rw [← hm]; exact st (lin (by norm_num) hdt).1
  refine ⟨m, ?_⟩
  have hd := C10_1020_roundtrip m hwf blank (by rw [blank_length]; norm_num)
  obtain ⟨t, ht⟩ := C23_glo_total (m.tB * 15 * 60 * 1000) rover leap hle (by rw [m1]; omega) hr r1 r2
  have hsome : ∃ e', gloToSbp m rover (some leap) = some e' := by
    unfold gloToSbp; rw [ht]; simp only; rw [if_neg (by rw [m4]; omega)]; exact ⟨_, rfl⟩
  obtain ⟨e', he'⟩ := hsome
  refine ⟨e', hd, he', ?_⟩
  obtain ⟨hsame, hu', q1, q2, k, hk⟩ := C50_glo_to_sbp m hwf rover leap hle e' he'
  -- the time
  have htoe : e'.toe = e.toe := by
    have hk2 : ∃ j : Int, ((e'.toe.wn : Int) * 604800 + e'.toe.tow) - ((e.toe.wn : Int) * 604800 + e.toe.tow) = 86400 * j := by
      unfold gloDay at hB
      rw [m1] at hk
      exact ⟨k - (((e.toe.tow : Int) - leap + 3 * 3600) / 86400 + 7 * e.toe.wn), by omega⟩
    obtain ⟨j, hj⟩ := hk2
    have hjq : ((86400 * j : Int) : ℚ) = secs e'.toe.wn e'.toe.tow - secs e.toe.wn e.toe.tow := by
      rw [← hj]; unfold secs; push_cast; ring
    rw [abs_le] at q2
    rw [abs_lt] at hn
    have j1 : ((-86400 : Int) : ℚ) < ((86400 * j : Int) : ℚ) := by rw [hjq]; push_cast; linarith
    have j2 : ((86400 * j : Int) : ℚ) < ((86400 : Int) : ℚ) := by rw [hjq]; push_cast; linarith
    have j1' : (-86400 : Int) < 86400 * j := by exact_mod_cast j1
    have j2' : 86400 * j < (86400 : Int) := by exact_mod_cast j2
    have a : e'.toe.wn = e.toe.wn := by omega
    have b : e'.toe.tow = e.toe.tow := by omega
    rcases h1 : e'.toe with ⟨a', b'⟩
    rcases h2 : e.toe with ⟨a'', b''⟩
    rw [h1, h2] at a b
    simp only at a b
    rw [a, b]
  obtain ⟨x1, x2, x3, x4, x5, ⟨p0, p1, p2⟩, ⟨y0, y1, y2⟩, ⟨z0, z1, z2⟩, x9⟩ := hsame
  have mg : m.gamma = unsc 40 e.gamma := by rw [← hm]; rfl
  have mt : m.tau = unsc 30 e.tau := by rw [← hm]; rfl
  have md : m.dTau = unsc 30 e.dTau := by rw [← hm]; rfl
  have rest : e'.fit = Acc.decodeFitGlo m.fitInterval ∧ e'.valid = true ∧ e'.iod = (m.tB * 15 * 60) &&& 127 ∧ e'.ura = Acc.gloFtToMeters m.ura := by
    unfold gloToSbp at he'
    rw [ht] at he'
    simp only [if_neg (show ¬ m.satId = 0 by omega), Option.some.injEq] at he'
    rw [← he']; exact ⟨rfl, rfl, rfl, rfl⟩
  obtain ⟨w1, w2, w3, w4⟩ := rest
  exact {
    toe := htoe
    sat := by rw [x1, m4]
    health := by rw [x2, m2]
    fcn := by rw [x9, m3]
    ura := by
      rw [w4, show m.ura = u by rw [← hm]; exact hura, ← hu2]
    fit := by rw [w1, show m.fitInterval = Acc.encodeFitGlo e.fit by rw [← hm]; rfl]; exact hfit.2
    valid := w2
    iod := by
      rw [w3, m1, hB, show (127 : Nat) = 2 ^ 7 - 1 by norm_num, Nat.and_two_pow_sub_one_eq_mod]
      push_cast; omega
    gamma := by rw [x3, mg]; exact (lin (by norm_num) hg).2
    tau := by rw [x4, mt]; exact (lin (by norm_num) hta).2
    dTau := by rw [x5, md]; exact (lin (by norm_num) hdt).2
    pos := by rw [p0, p1, p2, ← hm]; exact ⟨c0.2, c1.2, c2.2⟩
    vel := by rw [y0, y1, y2, ← hm]; exact ⟨v0.2, v1.2, v2.2⟩
    acc := by rw [z0, z1, z2, ← hm]; exact ⟨a0.2, a1.2, a2.2⟩ }

/-! ### the stream -/

theorem len1019 (m : KepEph) : (payloadOf (encode1019 m blank)).length = 61 := by
  have h : wlen (wr1019 m) = 488 := by simp [wr1019]
  unfold encode1019; rw [payload_length _ _ (by rw [h, blank_length]; norm_num), h]
theorem len1020 (m : GloEph) : (payloadOf (encode1020 m blank)).length = 45 := by
  have h : wlen (wr1020 m) = 360 := by simp [wr1020, Wr.sm]
  unfold encode1020; rw [payload_length _ _ (by rw [h, blank_length]; norm_num), h]
theorem len1042 (m : KepEph) : (payloadOf (encode1042 m blank)).length = 64 := by
  have h : wlen (wr1042 m) = 511 := by simp [wr1042]
  unfold encode1042; rw [payload_length _ _ (by rw [h, blank_length]; norm_num), h]
theorem len1045 (m : KepEph) : (payloadOf (encode1045 m blank)).length = 62 := by
  have h : wlen (wr1045 m) = 496 := by simp [wr1045, wrGalCommon]
  unfold encode1045; rw [payload_length _ _ (by rw [h, blank_length]; norm_num), h]
theorem len1046 (m : KepEph) : (payloadOf (encode1046 m blank)).length = 63 := by
  have h : wlen (wr1046 m) = 504 := by simp [wr1046, wrGalCommon]
  unfold encode1046; rw [payload_length _ _ (by rw [h, blank_length]; norm_num), h]

theorem type1019 {p : Buf} {m} (h : decode1019.run p = .ok m) : messageType p = 1019 := (type_of_run (k := 1019) h).2
theorem type1020 {p : Buf} {m} (h : decode1020.run p = .ok m) : messageType p = 1020 := (type_of_run (k := 1020) h).2
theorem type1042 {p : Buf} {m} (h : decode1042.run p = .ok m) : messageType p = 1042 := (type_of_run (k := 1042) h).2
theorem type1045 {p : Buf} {m} (h : decode1045.run p = .ok m) : messageType p = 1045 := (type_of_run (k := 1045) h).2
theorem type1046 {p : Buf} {m} (h : decode1046.run p = .ok m) : messageType p = 1046 := (type_of_run (k := 1046) h).2

/-- what the receiver does with an ephemeris payload -/
theorem out_of {env : Env} {K : Lib} {s : State} {x : Input} {n : Nat} {e : SbpEph} (hl : 2 ≤ x.payload.length) (hn : messageType x.payload = n)
    (hw : n ∈ whitelist ∨ x.solved = true)
    (hc : content K n x.payload x.time (if x.solved then some (env.utcOffset x.time) else s.leap) = some e) :
    out env K s x = [(0xF080, e)] := by
  unfold out
  rw [if_neg (by omega)]
  simp only [hn]
  rw [if_neg (by rintro ⟨h1, h2⟩; rcases hw with h | h; exact h1 h; rw [h] at h2; cases h2), hc]
  rfl

theorem eph_back (env : Env) (K : Lib) (hl : LibOk K.acc.eps K.acc.log2f) (hK : K.inav ≠ K.fnav) (leap : Option Int) (junk : Nat) (e : SbpEph)
    (x : Input) (h : EvOk env K (.eph leap junk e) x) :
    ∃ p, payload K leap junk e = some p ∧ 1 ≤ p.length ∧ p.length ≤ 1017 ∧
      (x.payload = p → ∀ s, ∃ e', out env K s x = [(0xF080, e')] ∧ Same leap e e') := by
  cases e with
  | gps e =>
    obtain ⟨hr, h⟩ := h
    obtain ⟨m, e', h1, h2, h3⟩ := gps_trip K hl x.time hr e h
    refine ⟨_, rfl, by rw [len1019]; norm_num, by rw [len1019]; norm_num, ?_⟩
    intro hp s
    refine ⟨.gps e', out_of (n := 1019) (by rw [hp, len1019]; norm_num) (by rw [hp]; exact type1019 h1) (Or.inl (by decide)) ?_, h3⟩
    rw [hp]
    simp only [content, if_true, h1, h2, Option.map_some]
  | qzss e => exact absurd h id
  | gal e =>
    obtain ⟨hr, h⟩ := h
    obtain ⟨e', h2, h3⟩ := gal_conv K x.time hr e h
    obtain ⟨w1, w2⟩ := gal_wire K x.time e h
    rcases h.source with ⟨a, b, -⟩ | ⟨a, b, c⟩
    · have h1 := w1 a b
      refine ⟨_, by unfold payload; simp only; rw [if_pos a], by rw [len1046]; norm_num, by rw [len1046]; norm_num, ?_⟩
      intro hp s
      refine ⟨.gal e', out_of (n := 1046) (by rw [hp, len1046]; norm_num) (by rw [hp]; exact type1046 h1) (Or.inl (by decide)) ?_, h3⟩
      rw [hp]
      simp [content, h1, ← a, h2]
    · have h1 := w2 a b c
      refine ⟨_, by unfold payload; simp only; rw [if_neg (by rw [a]; exact hK.symm), if_pos a], by rw [len1045]; norm_num, by rw [len1045]; norm_num, ?_⟩
      intro hp s
      refine ⟨.gal e', out_of (n := 1045) (by rw [hp, len1045]; norm_num) (by rw [hp]; exact type1045 h1) (Or.inl (by decide)) ?_, h3⟩
      rw [hp]
      simp [content, h1, ← a, h2]
  | bds e =>
    obtain ⟨m, h1, h3⟩ := bds_trip K hl e h
    refine ⟨_, rfl, by rw [len1042]; norm_num, by rw [len1042]; norm_num, ?_⟩
    intro hp s
    refine ⟨.bds (bdsToSbp K.weekRef m), out_of (n := 1042) (by rw [hp, len1042]; norm_num) (by rw [hp]; exact type1042 h1) (Or.inl (by decide)) ?_, h3⟩
    rw [hp]
    simp [content, h1]
  | glo e =>
    obtain ⟨hr, hs, hle, h⟩ := h
    obtain ⟨m, e', h1, h2, h3⟩ := glo_trip K hl x.time hr (env.utcOffset x.time) junk e h
    rw [← hle] at h1 h2
    refine ⟨_, rfl, by rw [len1020]; norm_num, by rw [len1020]; norm_num, ?_⟩
    intro hp s
    refine ⟨.glo e', out_of (n := 1020) (by rw [hp, len1020]; norm_num) (by rw [hp]; exact type1020 h1) (Or.inr hs) ?_, _, hle, h3⟩
    rw [hp, hs, if_pos rfl, ← hle]
    simp [content, h1, h2]

theorem other_none (env : Env) (K : Lib) (s : State) (x : Input) (h : messageType x.payload ∉ ephTypes) : out env K s x = [] := by
  unfold out
  split
  · rfl
  · simp only
    split
    · rfl
    · simp only [ephTypes, List.mem_cons, List.not_mem_nil, or_false, not_or] at h
      obtain ⟨h1, h2, h3, h4, h5, h6⟩ := h
      simp [content, h1, h2, h3, h4, h5, h6]

/-- the receiver's side of one event -/
theorem ev_out (env : Env) (K : Lib) (hl : LibOk K.acc.eps K.acc.log2f) (hK : K.inav ≠ K.fnav) (v : Ev) (x : Input) (h : EvOk env K v x) :
    ∃ p, evPayload K v = some p ∧ 1 ≤ p.length ∧ p.length ≤ 1017 ∧
      (x.payload = p → ∀ s, List.Forall₂ (fun a b => b.1 = 0xF080 ∧ Same a.1 a.2 b.2) (evEph v).toList (out env K s x)) := by
  cases v with
  | eph leap junk e =>
    obtain ⟨p, h1, h2, h3, h4⟩ := eph_back env K hl hK leap junk e x h
    refine ⟨p, h1, h2, h3, fun hp s => ?_⟩
    obtain ⟨e', h5, h6⟩ := h4 hp s
    rw [h5]
    exact .cons ⟨rfl, h6⟩ .nil
  | other p =>
    obtain ⟨h1, h2, h3⟩ := h
    refine ⟨p, rfl, h1, h2, fun hp s => ?_⟩
    rw [other_none env K s x (by rw [hp]; exact h3)]
    exact .nil

theorem run_ephs (env : Env) (K : Lib) (hl : LibOk K.acc.eps K.acc.log2f) (hK : K.inav ≠ K.fnav) {evs : List Ev} {xs : List Input}
    (h : List.Forall₂ (EvOk env K) evs xs) : ∀ (s : State), evs.map (evPayload K) = xs.map (fun x => some x.payload) →
    List.Forall₂ (fun a b => b.1 = 0xF080 ∧ Same a.1 a.2 b.2) (evs.filterMap evEph) (run env K s xs) := by
  induction h with
  | nil => intro s _; exact .nil
  | @cons v x vs xs h1 h2 ih =>
    intro s hp
    simp only [List.map_cons, List.cons.injEq] at hp
    obtain ⟨p, e1, -, -, e2⟩ := ev_out env K hl hK v x h1
    have e3 := e2 (by rw [e1] at hp; exact (Option.some.inj hp.1).symm) s
    have e4 := ih (RtcmSbp.step env s x).1 hp.2
    have e5 : (v :: vs).filterMap evEph = (evEph v).toList ++ vs.filterMap evEph := by
      rw [List.filterMap_cons]; cases evEph v <;> rfl
    rw [e5]
    exact List.rel_append e3 e4

theorem payloads_exist (env : Env) (K : Lib) (hl : LibOk K.acc.eps K.acc.log2f) (hK : K.inav ≠ K.fnav) {evs : List Ev} {xs : List Input}
    (h : List.Forall₂ (EvOk env K) evs xs) : ∃ ps : List Buf, evs.map (evPayload K) = ps.map some ∧ ∀ p ∈ ps, 1 ≤ p.length ∧ p.length ≤ 1017 := by
  induction h with
  | nil => exact ⟨[], rfl, by simp⟩
  | @cons v x vs xs h1 h2 ih =>
    obtain ⟨ps, a, b⟩ := ih
    obtain ⟨p, e1, e2, e3, -⟩ := ev_out env K hl hK v x h1
    refine ⟨p :: ps, by rw [List.map_cons, List.map_cons, a, e1], ?_⟩
    intro q hq
    rcases List.mem_cons.1 hq with rfl | hq
    · exact ⟨e2, e3⟩
    · exact b q hq

/-- **C71** The sender can put every event on the stream. -/
theorem C71_sendable (crc : Buf → BitVec 24) (env : Env) (K : Lib) (hl : LibOk K.acc.eps K.acc.log2f) (hK : K.inav ≠ K.fnav) (evs : List Ev)
    (xs : List Input) (h : List.Forall₂ (EvOk env K) evs xs) : ∃ bytes, SentAs crc K evs bytes := by
  obtain ⟨ps, h1, h2⟩ := payloads_exist env K hl hK h
  obtain ⟨fs, h3, -⟩ := Verif.Misc.frames_exist crc ps h2
  exact ⟨_, ps, fs, h1, h3, rfl⟩

/-- **C71** (partial: the ephemerides must satisfy `EvOk`, which leaves out what the defects below and of C10 and C50 spoil) Ephemerides of all
four constellations and any other messages, mixed in any order on one byte stream that is cut into chunks in any way: the receiver outputs one
ephemeris for each ephemeris sent, in the order sent, of the same constellation and with the same values to the resolution of the RTCM
fields, whatever its state. -/
theorem C71_stream_partial (crc : Buf → BitVec 24) (env : Env) (K : Lib) (hl : LibOk K.acc.eps K.acc.log2f) (hK : K.inav ≠ K.fnav) (evs : List Ev)
    (xs : List Input) (h : List.Forall₂ (EvOk env K) evs xs) (bytes : Buf) (hb : SentAs crc K evs bytes) (chunks : List Buf)
    (hc : Received crc bytes chunks xs) (s : State) :
    List.Forall₂ (fun a b => b.1 = 0xF080 ∧ Same a.1 a.2 b.2) (evs.filterMap evEph) (run env K s xs) := by
  obtain ⟨ps, fs, h1, h2, rfl⟩ := hb
  obtain ⟨c1, c2, c3⟩ := hc
  obtain ⟨ps', a1, a2⟩ := payloads_exist env K hl hK h
  obtain rfl : ps = ps' := List.map_injective_iff.2 (Option.some_injective _) (h1.symm.trans a1)
  obtain ⟨fs', b1, b2⟩ := Verif.Misc.frames_exist crc ps a2
  obtain rfl : fs = fs' := Option.some.inj (h2.symm.trans b1)
  have := RtcmFraming.C04_stream_roundtrip crc ps a2 fs b2 chunks c2 c1
  rw [c3] at this
  have inj : Function.Injective RtcmFraming.FrameCall.payload := fun a b h => by cases h; rfl
  have e : xs.map (·.payload) = ps := by
    apply List.map_injective_iff.2 inj
    rw [← this, List.map_map]
    rfl
  refine run_ephs env K hl hK h s ?_
  rw [h1, ← e, List.map_map]
  rfl

/-! ### defects -/

/-- **C71** Defect: the two times of a GPS ephemeris, when they differ, come back exchanged (C10_1019_toe_toc_bug, end to end). -/
theorem C71_gps_exchanged_bug (env : Env) (K : Lib) (hl : LibOk K.acc.eps K.acc.log2f) (leap : Option Int) (junk : Nat) (e : SbpKep) (x : Input)
    (hr : x.time.valid) (h : GpsOk x.time { e with toc := e.toe }) (hc : TimeOk x.time e.toc ∧ e.toc.tow % 16 = 0)
    (hp : some x.payload = payload K leap junk (.gps e)) (s : State) :
    ∃ e', out env K s x = [(0xF080, .gps e')] ∧ e'.toe = e.toc ∧ e'.toc = e.toe := by
  have hwf : WF1019 (sbpToGps K.acc e) := { gps_wf K.acc hl x.time _ h with
    wn := Nat.mod_lt _ (by norm_num)
    toc := by show e.toc.tow / 16 < _; have := hc.1.1; omega }
  have h1 := C10_1019_partial _ hwf blank (by rw [blank_length]; norm_num)
  obtain ⟨⟨t0, t1⟩⟩ := h.time
  have e1 : (sbpToGps K.acc e).toe * 16 = e.toe.tow := by show e.toe.tow / 16 * 16 = _; simp only at *; omega
  have e2 : (sbpToGps K.acc e).toc * 16 = e.toc.tow := by show e.toc.tow / 16 * 16 = _; omega
  have hp' := Option.some.inj hp
  have h2 : ∃ e', gpsToSbp { sbpToGps K.acc e with toe := (sbpToGps K.acc e).toc, toc := (sbpToGps K.acc e).toe } x.time = some e' ∧
      e'.toe = e.toc ∧ e'.toc = e.toe := by
    refine ⟨_, by unfold gpsToSbp; simp only; rw [e1, e2, time_same hr hc.1, time_same hr h.time.1], rfl, rfl⟩
  obtain ⟨e', h2, h3⟩ := h2
  refine ⟨e', out_of (n := 1019) (by rw [hp', len1019]; norm_num) (by rw [hp']; exact type1019 h1) (Or.inl (by decide)) ?_, h3⟩
  rw [hp']
  simp [content, h1, h2]

/-- **C71** Defect: a BeiDou ephemeris whose two times are in different weeks comes back with the time of ephemeris in the week of the time
of clock. -/
theorem C71_bds_week_bug (env : Env) (K : Lib) (hl : LibOk K.acc.eps K.acc.log2f) (leap : Option Int) (junk : Nat) (e : SbpKep) (x : Input)
    (h : BdsOk K { e with toe := ⟨e.toc.wn, e.toe.tow⟩ }) (hp : some x.payload = payload K leap junk (.bds e)) (s : State) :
    ∃ e', out env K s x = [(0xF080, .bds e')] ∧ e'.toe = ⟨e.toc.wn, e.toe.tow⟩ ∧ e'.toc = e.toc := by
  obtain ⟨m, h1, h2⟩ := bds_trip K hl _ h
  have hm : sbpToBds K.acc { e with toe := ⟨e.toc.wn, e.toe.tow⟩ } = sbpToBds K.acc e := by
    have : (getBdsWnTow ⟨e.toc.wn, e.toe.tow⟩).2 = (getBdsWnTow e.toe).2 := by unfold getBdsWnTow; simp only; split <;> rfl
    unfold sbpToBds
    simp only
    rw [this]
  rw [hm] at h1
  have hp' := Option.some.inj hp
  refine ⟨bdsToSbp K.weekRef m, out_of (n := 1042) (by rw [hp', len1042]; norm_num) (by rw [hp']; exact type1042 h1) (Or.inl (by decide)) ?_,
    h2.rest.toe, h2.rest.toc⟩
  rw [hp']
  simp [content, h1]

/-- **C71** Defect: a Galileo ephemeris with any other source value than the two known ones is no message at all (the converter stops at an
assertion), though the value is a byte of the SBP message. -/
theorem C71_gal_source_bug (K : Lib) (leap : Option Int) (junk : Nat) (e : SbpKep) (h1 : e.source ≠ K.inav) (h2 : e.source ≠ K.fnav) :
    payload K leap junk (.gal e) = none := by
  simp [payload, h1, h2]

/-! ### the hypotheses can be met -/

def exKep : SbpKep :=
  { toe := ⟨2200, 345600⟩, toc := ⟨2200, 345600⟩, sat := 7, ura := 2, fit := 4 * 3600, valid := true, health := 0, tgd0 := -1 / 10 ^ 8, tgd1 := 0
    crs := 201 / 2, crc := -100, cuc := 1 / 10 ^ 6, cus := 2 / 10 ^ 6, cic := 0, cis := -1 / 10 ^ 7, dn := 4 / 10 ^ 9, m0 := -3, ecc := 1 / 100
    sqrta := 5153.7, omega0 := 1, omegadot := -8 / 10 ^ 9, w := 2, inc := 0.97, incDot := 1 / 10 ^ 10, af0 := -1 / 10 ^ 4, af1 := 1 / 10 ^ 12
    af2 := 0, iode := 5, iodc := 5 }
def exGal : SbpKep := { exKep with sat := 11, ura := 3.12, source := 0, tgd1 := 2 / 10 ^ 8, toc := ⟨2200, 345660⟩ }
def exBds : SbpKep := { exKep with sat := 20, toe := ⟨2200, 345614⟩, toc := ⟨2200, 345622⟩, tgd1 := 1 / 10 ^ 8 }
def exGlo : SbpGlo :=
  { toe := ⟨2200, 346518⟩, sat := 3, ura := 2.5, fit := 3300, valid := true, health := 1, gamma := 1 / 10 ^ 12, tau := -1 / 10 ^ 5, dTau := 0
    pos0 := 12345678.9, pos1 := -20000000, pos2 := 1, vel0 := 3000, vel1 := -1, vel2 := 0, acc0 := 1 / 10 ^ 6, acc1 := 0, acc2 := 0, fcn := 8, iod := 0 }
def exK : Lib := ⟨okEnv, 2000, 193, 0, 1⟩
def exAt (p : Buf) : Input := ⟨true, ⟨2200, 345700⟩, p, 0, none⟩

theorem exOrbit {s : Scales} {b : Widths} {e : SbpKep} (he : { e with toe := exKep.toe, toc := exKep.toc, sat := exKep.sat, ura := exKep.ura, source := 0, tgd1 := 0 } = exKep)
    (h : Fits b.harm s.radius exKep.crs ∧ Fits b.harm s.radius exKep.crc ∧ Fits b.harm s.angle exKep.cuc ∧ Fits b.harm s.angle exKep.cus ∧
      Fits b.harm s.angle exKep.cic ∧ Fits b.harm s.angle exKep.cis ∧ Fits b.af0 s.af0 exKep.af0 ∧ Fits b.af1 s.af1 exKep.af1 ∧
      Fits b.af2 s.af2 exKep.af2 ∧ FitsUnit b.delay s.delay exKep.tgd0) : OrbitFits s b e := by
  have hpi := Real.pi_gt_d2
  obtain ⟨h1, h2, h3, h4, h5, h6, h7, h8, h9, h10⟩ := h
  have ang : ∀ (b n : Nat) (q : ℚ), |q| ≤ (2 ^ (b - 1) - 1) / 2 ^ n * 3.14 → FitsAngle b n q := by
    intro b n q hq
    unfold FitsAngle
    have h1 : |(q : ℝ)| ≤ (2 ^ (b - 1) - 1) / 2 ^ n * 3.14 := by
      have := (Rat.cast_le (K := ℝ)).2 hq; push_cast at this; exact this
    have h2 : (0 : ℝ) ≤ (2 ^ (b - 1) - 1) / 2 ^ n := div_nonneg (sub_nonneg.2 (one_le_pow₀ (by norm_num))) (by positivity)
    exact h1.trans (mul_le_mul_of_nonneg_left hpi.le h2)
  obtain ⟨⟩ := e
  simp only [exKep, SbpKep.mk.injEq] at he
  obtain ⟨-, -, -, rfl, rfl, rfl, rfl, -, rfl, rfl, rfl, rfl, rfl, rfl, rfl, rfl, rfl, rfl, rfl, rfl, rfl, rfl, rfl, rfl, rfl, rfl, rfl, rfl, -⟩ := he
  constructor <;> first
    | assumption
    | (apply ang; norm_num [abs_of_nonneg, abs_of_neg]; done)
    | (unfold FitsU; norm_num; done)

theorem exGps_ok : GpsOk ⟨2200, 345700⟩ exKep where
  orbit := exOrbit rfl (by simp only [exKep, gps, gpsW, Fits, FitsUnit]; norm_num [abs_of_nonneg, abs_of_neg])
  tgd1 := rfl
  time := by unfold TimeOk NearRover secs exKep; norm_num
  oneTime := rfl
  sat := by decide
  health := by decide
  iode := by decide
  iodc := by decide
  ura := ⟨2, by decide +kernel, by decide +kernel⟩
  fit := ⟨false, rfl⟩
  source := rfl
theorem exGal_ok : GalOk exK ⟨2200, 345700⟩ exGal where
  orbit := exOrbit rfl (by simp only [exKep, gal, galW, Fits, FitsUnit]; norm_num [abs_of_nonneg, abs_of_neg])
  toe := by unfold TimeOk NearRover secs exGal exKep; norm_num
  toc := by unfold TimeOk NearRover secs exGal exKep; norm_num
  sat := by decide
  iode := by decide
  ura := Or.inl (by unfold exGal; norm_num)
  source := Or.inl ⟨rfl, by decide, by unfold exGal FitsUnit gal; norm_num [abs_of_nonneg]⟩
theorem exBds_ok : BdsOk exK exBds where
  orbit := exOrbit rfl (by simp only [exKep, bds, bdsW, Fits, FitsUnit]; norm_num [abs_of_nonneg, abs_of_neg])
  tgd1 := by unfold exBds FitsUnit bds; norm_num [abs_of_nonneg]
  times := by decide
  notStart := by decide
  sameWeek := rfl
  week := by decide
  sat := by decide
  health := by decide
  iod := by decide
  ura := ⟨2, by decide +kernel, by decide +kernel⟩
  source := rfl
theorem exGlo_ok : GloOk ⟨2200, 345700⟩ 18 exGlo where
  leapOk := by norm_num
  time := by decide
  near := by unfold secs exGlo; norm_num
  sane := by unfold secs; norm_num
  sat := by decide
  health := by decide
  fcn := by decide
  ura := by decide +kernel
  fit := by decide
  gamma := by unfold exGlo Fits; norm_num [abs_of_nonneg]
  tau := by unfold exGlo Fits; norm_num [abs_of_nonneg, abs_of_neg]
  dTau := by unfold exGlo Fits; norm_num
  pos := by unfold exGlo FitsUnit; norm_num [abs_of_nonneg, abs_of_neg]
  vel := by unfold exGlo FitsUnit; norm_num [abs_of_nonneg, abs_of_neg]
  acc := by unfold exGlo FitsUnit; norm_num [abs_of_nonneg, abs_of_neg]

/-- one ephemeris of each kind and another message -/
example (env : Env) (he : ∀ t, env.utcOffset t = 18) (p1 p2 p3 p4 p5 : Buf) :
    List.Forall₂ (EvOk env exK)
      [.eph none 99 (.gps exKep), .eph (some 18) 7 (.gal exGal), .other [0x3E, 0xD0, 1], .eph none 0 (.bds exBds), .eph (some 18) 3 (.glo exGlo)]
      [exAt p1, exAt p2, exAt p3, exAt p4, exAt p5] := by
  have hv : (⟨2200, 345700⟩ : GpsTime).valid := by decide +kernel
  refine .cons ⟨hv, exGps_ok⟩ (.cons ⟨hv, exGal_ok⟩ (.cons ?_ (.cons exBds_ok (.cons ⟨hv, rfl, ?_, ?_⟩ .nil))))
  · show 1 ≤ 3 ∧ 3 ≤ 1017 ∧ _; decide
  · rw [he]
  · rw [he]; exact exGlo_ok
example : exK.inav ≠ exK.fnav := by decide
example : LibOk exK.acc.eps exK.acc.log2f := okEnv_ok
/-- the hypotheses of the defects -/
example : TimeOk ⟨2200, 345700⟩ ⟨2200, 345584⟩ ∧ (⟨2200, 345584⟩ : TimeSec) ≠ exKep.toe := by
  unfold TimeOk NearRover secs exKep; norm_num

end Verif.EphStream
