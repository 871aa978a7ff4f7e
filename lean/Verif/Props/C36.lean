import Verif.Lemmas.NmeaCog
import Verif.Lemmas.NmeaFields
import Verif.Props.C33
/-
C36: headings, courses and fix indicators of NMEA sentences.
-/
namespace Verif.Nmea
open Verif.Nmea.Spec Verif.Fp

theorem wrapUp_spec : ∀ (f : Nat) (y : Int), -360000000 * f ≤ y →
    ∃ t : Nat, wrapUp f y = y + t * 360000000 ∧ 0 ≤ wrapUp f y ∧ (y ≤ 360000000 ∨ t = 0) ∧ (0 < y ∨ wrapUp f y ≤ 360000000) := by
  intro f
  induction f with
  | zero => intro y h; exact ⟨0, by simp [wrapUp], by simp [wrapUp] at *; omega, Or.inr rfl, by simp [wrapUp]; omega⟩
  | succ f ih =>
    intro y h
    unfold wrapUp
    split
    · obtain ⟨t, h1, h2, h3, h4⟩ := ih (y + 360000000) (by push_cast at h; omega)
      refine ⟨t + 1, ?_, h2, by omega, ?_⟩
      · rw [h1]; push_cast; ring
      · right
        rcases h3 with h3 | h3
        · rcases h4 with h4 | h4
          · have : t = 0 ∨ 0 < t := by omega
            rcases this with rfl | ht
            · rw [h1]; omega
            · rename_i hneg
              cases f with
              | zero => simp [wrapUp] at h1 ⊢; omega
              | succ f =>
                have : wrapUp (f + 1) (y + 360000000) = y + 360000000 := by
                  conv_lhs => unfold wrapUp
                  rw [if_neg (by omega)]
                omega
          · exact h4
        · subst h3; rw [h1]; omega
    · exact ⟨0, by simp, by omega, Or.inr rfl, by omega⟩

theorem wrapDown_spec : ∀ (f : Nat) (y : Int), 0 ≤ y → y ≤ 360000000 * (f + 1) →
    ∃ t : Nat, wrapDown f y = y - t * 360000000 ∧ 0 ≤ wrapDown f y ∧ wrapDown f y ≤ 360000000 := by
  intro f
  induction f with
  | zero => intro y h0 h; exact ⟨0, by simp [wrapDown], by simpa [wrapDown], by simp [wrapDown] at *; omega⟩
  | succ f ih =>
    intro y h0 h
    unfold wrapDown
    split
    · obtain ⟨t, h1, h2, h3⟩ := ih (y - 360000000) (by omega) (by push_cast at h; omega)
      exact ⟨t + 1, by rw [h1]; push_cast; ring, h2, h3⟩
    · exact ⟨0, by simp, h0, by omega⟩

/-- the wrapped yaw is in [0, 360] degrees and a whole number of turns away -/
theorem wrapYaw_spec {y : Int} (h : -2147483648 ≤ y) (h' : y ≤ 2147483647) :
    0 ≤ wrapYaw y ∧ wrapYaw y ≤ 360000000 ∧ ∃ t : Int, wrapYaw y = y + t * 360000000 := by
  obtain ⟨t, h1, h2, h3, h4⟩ := wrapUp_spec 8 y (by push_cast; omega)
  have hb : wrapUp 8 y ≤ 360000000 * ((8 : Nat) + 1) := by
    rcases h4 with h4 | h4
    · rcases h3 with h3 | h3
      · have : wrapUp 8 y = y := by unfold wrapUp; rw [if_neg (by omega)]
        rw [this]; push_cast; omega
      · rw [h1, h3]; push_cast; omega
    · push_cast; omega
  obtain ⟨u, h5, h6, h7⟩ := wrapDown_spec 8 (wrapUp 8 y) h2 hb
  exact ⟨h6, h7, (t : Int) - u, by unfold wrapYaw; rw [h5, h1]; ring⟩

/-- **C36** The heading printed in THS is in [0, 360) and equals the yaw to the printed resolution, for every 32-bit yaw. -/
theorem C36_ths (st : St) (hfix : (st.store.pos st.src).flags % 8 ≠ 0) (hins : st.store.orient.flags % 8 ≠ 0)
    (h : -2147483648 ≤ st.store.orient.yaw) (h' : st.store.orient.yaw ≤ 2147483647) :
    ∃ f, HeadingField f st.store.orient.yaw ∧ (sendThs st).texts.flatten = "$GPTHS,".toList ++ f ++
      (if (st.store.pos st.src).flags % 8 = 5 then ",E".toList else ",A".toList) := by
  have hbody : ∀ f : Str, fmtF 0 2 (.fin (yawDeg st.store.orient.yaw)) = f → (sendThs st).texts.flatten = "$GPTHS,".toList ++ f ++
      (if (st.store.pos st.src).flags % 8 = 5 then ",E".toList else ",A".toList) := by
    intro f hf
    have hc : ¬ (posMode (st.store.pos st.src).flags = 0 ∨ st.store.orient.flags % 8 = 0) := by
      unfold posMode; omega
    simp only [sendThs]
    rw [if_neg hc, hf]
    unfold posMode
    split <;> simp [lit]
  obtain ⟨h0, h1, t, ht⟩ := wrapYaw_spec h h'
  refine ⟨_, ?_, hbody _ rfl⟩
  set k := wrapYaw st.store.orient.yaw with hk
  have hkq0 : (0 : ℚ) ≤ k := by exact_mod_cast h0
  have hkq1 : (k : ℚ) ≤ 360000000 := by exact_mod_cast h1
  have e := f64_near (x := (k : ℚ) / 1000000) (b := 360) (by
    rw [abs_of_nonneg (by positivity), div_le_iff₀ (by norm_num)]; linarith)
  have e' := e.trans (by norm_num : (360 : ℚ) / 9007199254740992 + 1 / 10 ^ 60 ≤ 1 / 10 ^ 12)
  rw [abs_le] at e'
  have ec := f64_near (x := (359995 : ℚ) / 1000) (b := 360) (by norm_num [abs_le])
  have ec' := ec.trans (by norm_num : (360 : ℚ) / 9007199254740992 + 1 / 10 ^ 60 ≤ 1 / 10 ^ 12)
  rw [abs_le] at ec'
  unfold yawDeg
  rw [← hk]
  simp only
  by_cases hc : f64 ((k : ℚ) / 1000000) ≥ f64 (359995 / 1000)
  · rw [if_pos hc]
    refine ⟨0, fmtF_near (by omega) (le_refl _) (by norm_num), by omega, t - 1, ?_⟩
    have : (359994999 : ℚ) < k := by
      have h2 : (k : ℚ) / 1000000 ≥ 359995 / 1000 - 2 / 10 ^ 12 := by linarith
      have := (le_div_iff₀ (by norm_num : (0:ℚ) < 1000000)).1 h2
      norm_num at this; linarith
    have : (359994999 : Int) < k := by exact_mod_cast this
    rw [abs_le]; push_cast; omega
  · rw [if_neg hc]
    have hk2 : k ≤ 359994999 := by
      by_contra hcon
      rcases (by omega : k = 359995000 ∨ 359995001 ≤ k) with h3 | h3
      · apply hc
        rw [h3]; norm_num
      · have h3q : (359995001 : ℚ) ≤ k := by exact_mod_cast h3
        apply hc
        have : (359995001 : ℚ) / 1000000 ≤ k / 1000000 := div_le_div_of_nonneg_right h3q (by norm_num)
        norm_num at this ec' e' ⊢
        linarith
    have hk2q : (k : ℚ) ≤ 359994999 := by exact_mod_cast hk2
    have hy0 : 0 ≤ f64 ((k : ℚ) / 1000000) := f64_nonneg (by positivity)
    obtain ⟨r1, r2⟩ := rne_toNat (x := f64 ((k : ℚ) / 1000000) * 10 ^ 2) (by positivity)
    set n2 := (rne (f64 ((k : ℚ) / 1000000) * 10 ^ 2)).natAbs with hn2
    have hkd : (k : ℚ) / 1000000 = k * (1 / 1000000) := by ring
    rw [hkd] at e'
    rw [hkd] at r1 r2
    refine ⟨n2, ?_, ?_, t, ?_⟩
    · simp only [fmtF]
      rw [if_neg (by linarith), ← hn2]
      unfold DecField fixedDigits
      rw [pad_toDigits 2 _ (by omega) (Nat.mod_lt _ (by positivity))]
      unfold pad; simp
    · have : (n2 : ℚ) < 36000 := by linarith
      exact_mod_cast this
    · rw [← ht]
      have a : (n2 : ℚ) * 10000 - k < 5001 := by linarith
      have b : (k : ℚ) - n2 * 10000 < 5001 := by linarith
      have a' : (n2 : Int) * 10000 - k < 5001 := by exact_mod_cast a
      have b' : k - (n2 : Int) * 10000 < 5001 := by exact_mod_cast b
      rw [abs_le]; omega

/-- **C36** Without a fix, or without a valid attitude, THS carries no heading. -/
theorem C36_ths_none (st : St) (h : (st.store.pos st.src).flags % 8 = 0 ∨ st.store.orient.flags % 8 = 0) :
    (sendThs st).texts.flatten = "$GPTHS,,V".toList := by
  simp only [sendThs]
  rw [if_pos (show posMode (st.store.pos st.src).flags = 0 ∨ st.store.orient.flags % 8 = 0 from h)]
  rfl

/-- a heading of -0.004 degrees prints as 0.00 -/
example : (sendThs { init .gnss 1 with store := { pos := fun _ => { flags := 4 }, orient := { yaw := -4000, flags := 1 } } }).texts.flatten =
    "$GPTHS,0.00,A".toList := by decide +kernel

/-- **C36** The heading printed in HDT is the baseline heading rounded to hundredths of a degree and below 360 — PARTIAL:
only for headings up to 359.994 degrees. -/
theorem C36_hdt_partial (st : St) (hfix : st.store.hdg.flags % 8 = 4) (h : st.store.hdg.heading ≤ 359994) :
    ∃ f n2, DecField 2 f n2 ∧ n2 < 36000 ∧ |(n2 : Int) * 10 - st.store.hdg.heading| ≤ 5 ∧
      (sendHdt st).texts.flatten = "$GPHDT,".toList ++ f ++ ",T".toList := by
  have hbody : ∀ f : Str, fmtF 0 2 (.fin (f64 (f32 st.store.hdg.heading / 1000))) = f →
      (sendHdt st).texts.flatten = "$GPHDT,".toList ++ f ++ ",T".toList := by
    intro f hf
    simp only [sendHdt]
    rw [if_pos (show posMode st.store.hdg.flags = 4 from hfix), hf]
    simp [lit]
  set H := st.store.hdg.heading with hH
  have h32 : f32 (H : ℚ) = H := by
    have := f32_exact (k := 0) (m := (H : Int)) (by rw [abs_of_nonneg (by omega)]; omega) (by omega)
    simpa using this
  rw [h32] at hbody
  have hq : (H : ℚ) ≤ 359994 := by exact_mod_cast h
  have hq0 : (0 : ℚ) ≤ H := Nat.cast_nonneg _
  have e := f64_near (x := (H : ℚ) / 1000) (b := 360) (by rw [abs_of_nonneg (by positivity), div_le_iff₀ (by norm_num)]; linarith)
  have e' := e.trans (by norm_num : (360 : ℚ) / 9007199254740992 + 1 / 10 ^ 60 ≤ 1 / 10 ^ 12)
  rw [abs_le] at e'
  have hy0 : 0 ≤ f64 ((H : ℚ) / 1000) := f64_nonneg (by positivity)
  obtain ⟨r1, r2⟩ := rne_toNat (x := f64 ((H : ℚ) / 1000) * 10 ^ 2) (by positivity)
  set n2 := (rne (f64 ((H : ℚ) / 1000) * 10 ^ 2)).natAbs with hn2
  have hkd : (H : ℚ) / 1000 = H * (1 / 1000) := by ring
  rw [hkd] at e' r1 r2
  refine ⟨_, n2, ?_, ?_, ?_, hbody _ rfl⟩
  · simp only [fmtF]
    rw [if_neg (by linarith), ← hn2]
    unfold DecField fixedDigits
    rw [pad_toDigits 2 _ (by omega) (Nat.mod_lt _ (by positivity))]
    unfold pad; simp
  · have : (n2 : ℚ) < 36000 := by linarith
    exact_mod_cast this
  · have a : (n2 : ℚ) * 10 - H < 6 := by linarith
    have b : (H : ℚ) - n2 * 10 < 6 := by linarith
    have a' : (n2 : Int) * 10 - H < 6 := by exact_mod_cast a
    have b' : (H : Int) - (n2 : Int) * 10 < 6 := by exact_mod_cast b
    rw [abs_le]; omega

/-- a legal heading of 359.996 degrees is printed as 360.00 -/
theorem C36_hdt_360_bug :
    (sendHdt { init .gnss 1 with store := { hdg := { heading := 359996, flags := 4 } } }).texts.flatten = "$GPHDT,360.00,T".toList := by
  decide +kernel

/-- **C36** Heading only with a fixed baseline. -/
theorem C36_hdt_none (st : St) (h : st.store.hdg.flags % 8 ≠ 4) : (sendHdt st).texts.flatten = "$GPHDT,,T".toList := by
  simp only [sendHdt]
  rw [if_neg (show ¬ posMode st.store.hdg.flags = 4 from h)]
  rfl


/-! ### courses -/

theorem decField_nocomma {p k : Nat} {f : Str} (h : DecField p f k) (hp : 1 ≤ p) : ',' ∉ f := by
  have : f = fixedDigits p k := by
    rw [h]; unfold fixedDigits
    rw [pad_toDigits p _ hp (Nat.mod_lt _ (by positivity))]; simp
  rw [this]
  intro hc
  exact (field_fixed p k _ hc).2 rfl

/-- every course remembered so far is a tenth of a degree in [0, 360) -/
theorem cog_invariant {L : Lib} (hL : ∀ n e, |L.courseDeg n e| ≤ 181) {is : List In} {st st' : St} {es : List Emit}
    (h0 : CogOk st.lastCog) (h : run L st is = some (st', es)) : CogOk st'.lastCog ∧ ∀ e ∈ es, SentFrom L (fun s => CogOk s.lastCog) e := by
  refine run_inv (P := fun s => CogOk s.lastCog) (I := fun _ => True) ?_ ?_ is h0 (by simp) h
  · intro st i st1 b hP _ ha
    have : st1.lastCog = st.lastCog := by
      cases i with
      | msg m => obtain ⟨_, _, rfl | rfl⟩ := absorb_msg ha <;> rfl
      | obs o => obtain ⟨_, _, _, _, _, rfl, -⟩ := absorb_obs ha; rfl
      | rate | baseId | cogThreshold | cogStationary =>
        simp only [absorb, Option.some.injEq, Prod.mk.injEq] at ha; obtain ⟨rfl, -⟩ := ha; rfl
    rw [this]; exact hP
  · intro st id st1 ss hP hs
    show CogOk st1.lastCog
    rcases send_cog hs with h | h
    · rw [h]; exact hP
    · rw [h]; exact (calcCog_ok (hL _ _) hP).1

end Verif.Nmea
