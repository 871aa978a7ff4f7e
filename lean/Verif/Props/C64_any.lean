import Verif.Props.C65
/-!
C64, continued: 1005 and 1006 messages of any sender.
-/
namespace Verif.Misc
open Verif.Misc.Spec Verif.Spec Verif.RtcmFraming Verif.Time Dec
open Verif.RtcmSbp (State Env Input no1230 messageType crint whitelist msm13)

variable {W E : Type}

theorem getS_at (p : Buf) (off n : Nat) (h : off + n ≤ 8 * p.length) :
    getS n ((bitsOf p).drop off) = (.ok (fieldS p off n), (bitsOf p).drop (off + n)) := by
  unfold getS
  rw [if_neg (by rw [List.length_drop, bitsOf_length]; omega), List.drop_drop, ← toSigned_field]
  rfl

theorem getS_short (p : Buf) (off n : Nat) (h : ¬ off + n ≤ 8 * p.length) (hn : off ≤ 8 * p.length) :
    getS n ((bitsOf p).drop off) = (.error .invalid, (bitsOf p).drop off) := by
  unfold getS
  rw [if_pos (by rw [List.length_drop, bitsOf_length]; omega)]

theorem skip_at (p : Buf) (off n : Nat) : Dec.skip n ((bitsOf p).drop off) = (.ok (), (bitsOf p).drop (off + n)) := by
  unfold Dec.skip; rw [List.drop_drop]

/-- the coordinates of a 1005 or 1006 message: three signed fields of 38 bits in units of 0.1 mm, as the nearest `double` -/
def posFields (p : Buf) : BasePos := ⟨Fp.f64 ((fieldS p 34 38 : ℚ) / 10000), Fp.f64 ((fieldS p 74 38 : ℚ) / 10000), Fp.f64 ((fieldS p 114 38 : ℚ) / 10000)⟩

theorem base_at (p : Buf) (h : 19 ≤ p.length) :
    ∃ m, decode1005Base ((bitsOf p).drop 12) = (.ok m, (bitsOf p).drop 152) ∧ m.stnId = fieldU p 12 12 ∧ posOf m = posFields p := by
  unfold decode1005Base
  rw [Dec.bind_def, getU_at p _ _ (by omega)]; simp only
  rw [Dec.bind_def, getU_at p _ _ (by omega)]; simp only
  rw [Dec.bind_def, getU_at p _ _ (by omega)]; simp only
  rw [Dec.bind_def, getU_at p _ _ (by omega)]; simp only
  rw [Dec.bind_def, getU_at p _ _ (by omega)]; simp only
  rw [Dec.bind_def, getU_at p _ _ (by omega)]; simp only
  rw [Dec.bind_def, getS_at p _ _ (by omega)]; simp only
  rw [Dec.bind_def, getU_at p _ _ (by omega)]; simp only
  rw [Dec.bind_def, skip_at]; simp only
  rw [Dec.bind_def, getS_at p _ _ (by omega)]; simp only
  rw [Dec.bind_def, getU_at p _ _ (by omega)]; simp only
  rw [Dec.bind_def, getS_at p _ _ (by omega)]; simp only
  rw [Dec.pure_def]
  exact ⟨_, rfl, rfl, rfl⟩

/-- lengths for which the height of a 1006 message is read although its coordinates are missing -/
def Torn (n : Nat) : Prop := n = 7 ∨ n = 8 ∨ n = 12 ∨ n = 13 ∨ n = 17 ∨ n = 18
instance (n) : Decidable (Torn n) := inferInstanceAs (Decidable (_ ∨ _ ∨ _ ∨ _ ∨ _ ∨ _))

theorem base_short (p : Buf) (h2 : 2 ≤ p.length) (h : p.length < 19) :
    ∃ off, decode1005Base ((bitsOf p).drop 12) = (.error .invalid, (bitsOf p).drop off) ∧ off ≤ 8 * p.length ∧
      (off + 16 ≤ 8 * p.length ↔ Torn p.length) := by
  unfold decode1005Base Torn
  by_cases c : 12 + 12 ≤ 8 * p.length
  swap
  · rw [Dec.bind_def, getU_short p _ _ (by omega) (by omega)]; exact ⟨_, rfl, by omega, by omega⟩
  rw [Dec.bind_def, getU_at p _ _ (by omega)]; simp only
  by_cases c : 24 + 6 ≤ 8 * p.length
  swap
  · rw [Dec.bind_def, getU_short p _ _ (by omega) (by omega)]; exact ⟨_, rfl, by omega, by omega⟩
  rw [Dec.bind_def, getU_at p _ _ (by omega)]; simp only
  rw [Dec.bind_def, getU_at p _ _ (by omega)]; simp only
  rw [Dec.bind_def, getU_at p _ _ (by omega)]; simp only
  by_cases c : 34 ≤ 8 * p.length
  swap
  · rw [Dec.bind_def, getU_short p _ _ (by omega) (by omega)]; exact ⟨_, rfl, by omega, by omega⟩
  rw [Dec.bind_def, getU_at p _ _ (by omega)]; simp only
  rw [Dec.bind_def, getU_at p _ _ (by omega)]; simp only
  by_cases c : 34 + 38 ≤ 8 * p.length
  swap
  · rw [Dec.bind_def, getS_short p _ _ (by omega) (by omega)]; exact ⟨_, rfl, by omega, by omega⟩
  rw [Dec.bind_def, getS_at p _ _ (by omega)]; simp only
  by_cases c : 73 ≤ 8 * p.length
  swap
  · rw [Dec.bind_def, getU_short p _ _ (by omega) (by omega)]; exact ⟨_, rfl, by omega, by omega⟩
  rw [Dec.bind_def, getU_at p _ _ (by omega)]; simp only
  rw [Dec.bind_def, skip_at]; simp only
  by_cases c : 74 + 38 ≤ 8 * p.length
  swap
  · rw [Dec.bind_def, getS_short p _ _ (by omega) (by omega)]; exact ⟨_, rfl, by omega, by omega⟩
  rw [Dec.bind_def, getS_at p _ _ (by omega)]; simp only
  by_cases c : 114 ≤ 8 * p.length
  swap
  · rw [Dec.bind_def, getU_short p _ _ (by omega) (by omega)]; exact ⟨_, rfl, by omega, by omega⟩
  rw [Dec.bind_def, getU_at p _ _ (by omega)]; simp only
  rw [Dec.bind_def, getS_short p _ _ (by omega) (by omega)]; exact ⟨_, rfl, by omega, by omega⟩

/-- **C64** Any 1005 message, whether or not the time is known: the position in its three 38-bit fields, in units of 0.1 mm and without
loss; nothing when it is shorter than 19 bytes. -/
theorem C64_1005 (env : Env) (L : Lib W E) (s : State) (x : MInput) (h1 : fieldU x.inp.payload 0 12 = 1005) :
    miscOut env L s x =
      if 19 ≤ x.inp.payload.length then some [(fieldU x.inp.payload 12 12 ||| 0xF080, .basePos (posFields x.inp.payload))] else some [] := by
  unfold miscOut
  by_cases h2 : x.inp.payload.length < 2
  · rw [if_pos h2, if_neg (by omega)]
  rw [if_neg h2]
  have hty : messageType x.inp.payload = 1005 := by rw [type_field _ (by omega), h1]
  simp only [hty]
  rw [if_neg (by simp [whitelist])]
  unfold content
  simp only
  rw [if_pos (by trivial)]
  have e : decode1005.run x.inp.payload = (decode1005Base ((bitsOf x.inp.payload).drop 12)).1 := by
    unfold Dec.run decode1005
    rw [Dec.bind_def, show bitsOf x.inp.payload = (bitsOf x.inp.payload).drop 0 from rfl, getU_at _ 0 12 (by omega)]
    simp only
    rw [Dec.bind_def, Dec.guard, if_pos h1]
    rfl
  rw [e]
  by_cases h19 : 19 ≤ x.inp.payload.length
  · obtain ⟨m, hm, e1, e2⟩ := base_at _ h19
    rw [hm, if_pos h19]
    simp only [e1, e2]
    rfl
  · obtain ⟨off, hm, -, -⟩ := base_short x.inp.payload (by omega) (by omega)
    rw [hm, if_neg h19]

theorem out1006 (env : Env) (L : Lib W E) (s : State) (x : MInput) (h1 : fieldU x.inp.payload 0 12 = 1006) :
    miscOut env L s x =
      if 21 ≤ x.inp.payload.length then some [(fieldU x.inp.payload 12 12 ||| 0xF080, .basePos (posFields x.inp.payload))]
      else if Torn x.inp.payload.length then none else some [] := by
  unfold miscOut
  by_cases h2 : x.inp.payload.length < 2
  · rw [if_pos h2, if_neg (by omega), if_neg (by unfold Torn; omega)]
  rw [if_neg h2]
  have hty : messageType x.inp.payload = 1006 := by rw [type_field _ (by omega), h1]
  simp only [hty]
  rw [if_neg (by simp [whitelist])]
  unfold content
  simp only
  rw [if_neg (by decide), if_pos (by trivial)]
  have e : decode1006.run x.inp.payload =
      ((attempt decode1005Base >>= fun base => getU 16 >>= fun h => pure (base, ofTenthMm h)) ((bitsOf x.inp.payload).drop 12)).1 := by
    unfold Dec.run decode1006
    rw [Dec.bind_def, show bitsOf x.inp.payload = (bitsOf x.inp.payload).drop 0 from rfl, getU_at _ 0 12 (by omega)]
    simp only
    rw [Dec.bind_def, Dec.guard, if_pos h1]
    rfl
  rw [e, Dec.bind_def]
  unfold attempt
  by_cases h19 : 19 ≤ x.inp.payload.length
  · obtain ⟨m, hm, e1, e2⟩ := base_at _ h19
    rw [hm]
    simp only
    rw [Dec.bind_def]
    by_cases h21 : 21 ≤ x.inp.payload.length
    · rw [getU_at _ _ _ (by omega), if_pos h21]
      simp only [Dec.pure_def, e1, e2]
      rfl
    · rw [getU_short _ _ _ (by omega) (by omega), if_neg h21, if_neg (by unfold Torn; omega)]
  · obtain ⟨off, hm, h4, h5⟩ := base_short x.inp.payload (by omega) (by omega)
    rw [hm]
    simp only
    rw [Dec.bind_def, if_neg (by omega)]
    by_cases ht : Torn x.inp.payload.length
    · rw [getU_at _ _ _ (h5.2 ht), if_pos ht]
      rfl
    · rw [getU_short _ _ _ (fun h => ht (h5.1 h)) h4, if_neg ht]

/-- **C64** (partial: see `C64_1006_short_bug`)  The same for 1006, which is two bytes longer. -/
theorem C64_1006_partial (env : Env) (L : Lib W E) (s : State) (x : MInput) (h1 : fieldU x.inp.payload 0 12 = 1006)
    (ht : ¬ Torn x.inp.payload.length) :
    miscOut env L s x =
      if 21 ≤ x.inp.payload.length then some [(fieldU x.inp.payload 12 12 ||| 0xF080, .basePos (posFields x.inp.payload))] else some [] := by
  rw [out1006 env L s x h1, if_neg ht]

/-- **C64** Defect: a 1006 message truncated to 7, 8, 12, 13, 17 or 18 bytes is converted although its coordinates were not decoded: a
position made of uninitialised memory is sent (`none`). -/
theorem C64_1006_short_bug (env : Env) (L : Lib W E) (s : State) (x : MInput) (h1 : fieldU x.inp.payload 0 12 = 1006)
    (ht : Torn x.inp.payload.length) : miscOut env L s x = none := by
  rw [out1006 env L s x h1, if_neg (by unfold Torn at ht; omega), if_pos ht]

/-- a 1005 message: station 1, coordinates 1, -1 and 0 (in 0.1 mm) -/
def ex1005 : Buf := [0x3E, 0xD0, 0x01, 0, 0, 0, 0, 0, 0x01, 0x3F, 0xFF, 0xFF, 0xFF, 0xFF, 0, 0, 0, 0, 0]
example : fieldU ex1005 0 12 = 1005 ∧ 19 ≤ ex1005.length ∧ posFields ex1005 = ⟨Fp.f64 (1 / 10000), Fp.f64 (-1 / 10000), 0⟩ := by decide +kernel
example : fieldU [0x3E, 0xE0, 0x01, 0, 0, 0, 0] 0 12 = 1006 ∧ Torn ([0x3E, 0xE0, 0x01, 0, 0, 0, 0] : Buf).length := by decide +kernel

end Verif.Misc
