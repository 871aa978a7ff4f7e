import Verif.Lemmas.NovVal
import Verif.Lemmas.NovSbp
import Verif.Lemmas.NovEx
/-! C63: NovAtel ephemerides. -/
namespace Verif.Nov
open Verif.Fp Verif.Nov.Spec
open Verif.Ubx (Fl dbl flt castTo)

theorem rnd32_ok {x : ℚ} (h : |x| < 2 ^ 127) : rnd32 x = .fin (f32 x) ∧ |f32 x - x| ≤ |x| / 2 ^ 24 + 1 / 2 ^ 150 := by
  have he := f32_err x
  have h1 : |f32 x| ≤ |f32 x - x| + |x| := by
    have := abs_sub_abs_le_abs_sub (f32 x) x; linarith
  constructor
  · unfold rnd32
    rw [if_neg]
    push Not
    norm_num at h he ⊢
    linarith
  · norm_num at he ⊢
    exact he

theorem toF32_says (d : BitVec 64) : SaysFloat (toF32 (dbl d)) d := by
  intro x hx hb
  rw [hx]
  obtain ⟨h1, h2⟩ := rnd32_ok hb
  exact ⟨_, h1, h2⟩

theorem toU32_says {v : Fl} {n : Nat} (h : toU32 v = some n) {x : ℚ} (hv : v = .fin x) (h0 : 0 ≤ x) : (n : ℚ) ≤ x ∧ x < n + 1 := by
  subst hv
  simp only [toU32, castTo, ctrunc, if_pos h0] at h
  split at h
  · split at h
    · rename_i _ hc
      have h2 : ⌊x⌋.toNat = n := by simpa using h
      have h3 : (n : Int) = ⌊x⌋ := by omega
      have h4 : (n : ℚ) = (⌊x⌋ : ℚ) := by exact_mod_cast congrArg (Int.cast : Int → ℚ) h3
      rw [h4]
      exact ⟨Int.floor_le x, Int.lt_floor_add_one x⟩
    · cases h
  · cases h

theorem toU32_ok {x : ℚ} (h0 : 0 ≤ x) (h1 : x ≤ 4294967295) : ∃ n, toU32 (.fin x) = some n := by
  simp only [toU32, castTo, ctrunc, if_pos h0, if_pos h1]
  have a : 0 ≤ ⌊x⌋ := Int.floor_nonneg.2 h0
  have b : ⌊x⌋ ≤ 4294967295 := by
    have := Int.floor_le x
    have : (⌊x⌋ : ℚ) ≤ 4294967295 := this.trans h1
    exact_mod_cast this
  rw [if_pos ⟨a, b⟩]
  exact ⟨_, rfl⟩

theorem toEphGps_says {L : Lib} {b : GpsEphem} {e : EphGps} (h : toEphGps L b = some e) : SaysEph L b e := by
  unfold toEphGps at h
  by_cases h1 : 255 < b.prn.toNat
  · simp [h1] at h
  rcases h2 : toU32 (dbl b.toe) with _ | toe
  · simp [h1, h2] at h
  rcases h3 : toU32 (dbl b.toc) with _ | toc
  · simp [h1, h2, h3] at h
  by_cases h4 : 65535 < b.week.toNat
  · simp [h1, h2, h3, h4] at h
  simp only [h2, h3, h1, h4, if_false, bind, Option.bind, pure] at h
  obtain rfl := Option.some.inj h
  have sm : ∀ (k : Nat) (v : BitVec 32), (v.setWidth k).toNat = v.toNat % 2 ^ k := fun k v => BitVec.toNat_setWidth ..
  refine ⟨⟨rfl, rfl⟩, fun x hx h0 => toU32_says h2 hx h0, fun x hx h0 => toU32_says h3 hx h0, ⟨rfl, rfl⟩, ?_, ⟨rfl, rfl⟩, sm 8 _, ?_, ?_, ?_,
    sm 8 _, sm 16 _⟩
  · intro hL x hx h0 hb
    obtain ⟨s, hs, hs2⟩ := hL x h0
    have hr : Real.sqrt x < 2 ^ 100 := by
      rw [Real.sqrt_lt' (by positivity)]
      have := (Rat.cast_lt (K := ℝ)).2 hb
      push_cast at this
      calc (x : ℝ) < 2 ^ 200 := this
        _ = (2 ^ 100) ^ 2 := by norm_num
    have hn := Real.sqrt_nonneg (x : ℝ)
    have hsb : |(s : ℝ)| ≤ 2 * Real.sqrt x := by
      have := abs_sub_abs_le_abs_sub (s : ℝ) (Real.sqrt x)
      rw [abs_of_nonneg hn] at this
      have e : Real.sqrt x / 2 ^ 52 ≤ Real.sqrt x := div_le_self hn (by norm_num)
      linarith
    have hsq : |s| < 2 ^ 127 := by
      have : ((|s| : ℚ) : ℝ) < ((2 ^ 127 : ℚ) : ℝ) := by
        push_cast
        calc |(s : ℝ)| ≤ 2 * Real.sqrt x := hsb
          _ < 2 * 2 ^ 100 := by linarith
          _ ≤ _ := by norm_num
      exact (Rat.cast_lt (K := ℝ)).1 this
    obtain ⟨g1, g2⟩ := rnd32_ok hsq
    refine ⟨f32 s, ?_, ?_⟩
    · show toF32 (L.sqrt (dbl b.URA)) = _
      rw [hx, hs]; exact g1
    · have g3 : |((f32 s : ℚ) : ℝ) - s| ≤ |(s : ℝ)| / 2 ^ 24 + 1 / 2 ^ 150 := by
        have := (Rat.cast_le (K := ℝ)).2 g2
        push_cast at this
        exact this
      refine (abs_sub_le _ (s : ℝ) _).trans ?_
      have hsb2 : |(s : ℝ)| ≤ Real.sqrt x + Real.sqrt x / 2 ^ 52 := by
        have := abs_sub_abs_le_abs_sub (s : ℝ) (Real.sqrt x)
        rw [abs_of_nonneg hn] at this
        linarith
      have e1 : Real.sqrt x / 2 ^ 52 = Real.sqrt x * (1 / 2 ^ 52) := by ring
      have e2 : Real.sqrt x / 2 ^ 23 = Real.sqrt x * (1 / 2 ^ 23) := by ring
      have e3 : |(s : ℝ)| / 2 ^ 24 = |(s : ℝ)| * (1 / 2 ^ 24) := by ring
      rw [e1] at hs2 hsb2
      rw [e2]
      rw [e3] at g3
      generalize (1 : ℝ) / 2 ^ 150 = t at *
      norm_num at *
      linarith
  · intro p hp
    simp only [List.mem_cons, List.not_mem_nil, or_false] at hp
    rcases hp with rfl | rfl | rfl | rfl | rfl | rfl | rfl | rfl | rfl | rfl <;> exact toF32_says _
  · intro p hp
    simp only [List.mem_cons, List.not_mem_nil, or_false] at hp
    rcases hp with rfl | rfl | rfl | rfl | rfl | rfl | rfl | rfl <;> rfl
  · intro hL x hx h0
    obtain ⟨s, hs, hs2⟩ := hL x h0
    exact ⟨s, by rw [← hs, ← hx], hs2⟩

/-- **C63 (ephemeris).**  A GPSEPHEM log becomes one GPS ephemeris message with its values, if satellite, week and times fit. -/
theorem C63_ephemeris_partial {L : Lib} {before : List Msg} (ha : (stateAfter L before).isSome) {m : Msg} {b : GpsEphem} (hb : m.body = .gpsephem b)
    (hp : b.prn.toNat ≤ 255) (hw : b.week.toNat ≤ 65535) {x y : ℚ} (hx : dbl b.toe = .fin x) (hx0 : 0 ≤ x ∧ x ≤ 4294967295)
    (hy : dbl b.toc = .fin y) (hy0 : 0 ≤ y ∧ y ≤ 4294967295) : ∃ e, sentFor L before m = some [.ephGps e] ∧ SaysEph L b e := by
  obtain ⟨st, hs⟩ := Option.isSome_iff_exists.1 ha
  obtain ⟨t, ht⟩ := toU32_ok hx0.1 hx0.2
  obtain ⟨u, hu⟩ := toU32_ok hy0.1 hy0.2
  have he : ∃ e, toEphGps L b = some e := by
    unfold toEphGps
    rw [hx, hy, ht, hu]
    simp only [if_neg (by omega : ¬ 255 < b.prn.toNat), if_neg (by omega : ¬ 65535 < b.week.toNat), bind, Option.bind, pure]
    exact ⟨_, rfl⟩
  obtain ⟨e, he⟩ := he
  refine ⟨e, ?_, toEphGps_says he⟩
  rw [sentFor_eq hs]
  unfold convert
  rw [hb]
  simp only [writeGpsEphem, he]
  rfl

/-- What is sent for any GPSEPHEM log is one ephemeris with its values; and nothing else is sent as an ephemeris. -/
theorem C63_sound {L : Lib} {before : List Msg} {m : Msg} {os : List Out} (h : sentFor L before m = some os) :
    (∀ b, m.body = .gpsephem b → ∃ e, os = [.ephGps e] ∧ SaysEph L b e) ∧ ∀ e, .ephGps e ∈ os → ∃ b, m.body = .gpsephem b ∧ os = [.ephGps e] := by
  obtain ⟨st, st', hs, hc, _⟩ := sentFor_some h
  have key : ∀ b, m.body = .gpsephem b → ∃ e, os = [.ephGps e] ∧ SaysEph L b e := by
    intro b hb
    unfold convert at hc
    rw [hb] at hc
    simp only [writeGpsEphem] at hc
    rcases he : toEphGps L b with _ | e
    · rw [he] at hc; cases hc
    rw [he] at hc
    obtain ⟨_, h2⟩ := Prod.mk.inj (Option.some.inj hc)
    exact ⟨e, h2.symm, toEphGps_says he⟩
  refine ⟨key, fun e he => ?_⟩
  obtain ⟨hd, body⟩ := m
  cases body with
  | gpsephem b =>
    obtain ⟨e', h1, _⟩ := key b rfl
    rw [h1] at he
    obtain rfl := Out.ephGps.inj (List.mem_singleton.1 he)
    exact ⟨b, rfl, h1⟩
  | bestpos b =>
    exfalso
    simp only [convert, writeBestPos] at hc
    rcases h1 : bestposToLlh L hd b with _ | p
    · rw [h1] at hc; cases hc
    rw [h1] at hc
    have h2 : _ = os := congrArg Prod.snd (Option.some.inj hc)
    rw [← h2] at he
    unfold sendTime at he
    split at he <;> simp at he
  | bestvel b =>
    exfalso
    simp only [convert, writeBestVel] at hc
    rcases h1 : bestvelToNed L (sendTime st (headerTime hd)).1 hd b with _ | p
    · rw [h1] at hc; cases hc
    rw [h1] at hc
    have h2 : _ = os := congrArg Prod.snd (Option.some.inj hc)
    rw [← h2] at he
    unfold sendTime at he
    split at he <;> simp at he
  | rangecmp b =>
    exfalso
    simp only [convert, writeRangeCmp] at hc
    rcases h1 : sendObs L hd.week (Fp.f64 ((hd.ms.toInt : ℚ) / 1000)) (b.map toMiniNav) with _ | p
    · rw [h1] at hc; cases hc
    rw [h1] at hc
    obtain ⟨rfl, rfl⟩ := Prod.mk.inj (Option.some.inj hc)
    have hloop : ∀ t total k l, .ephGps e ∉ obsLoop L t total k l := by
      intro t total k
      induction k with
      | zero => intro l ho; cases ho
      | succ k ih =>
        intro l ho
        rcases List.mem_cons.1 ho with ho | ho
        · cases ho
        · exact ih _ ho
    unfold sendObs at h1
    split at h1
    · rcases hr : roundTime 0xFFFF#16 (-1) with _ | t
      · rw [hr] at h1; cases h1
      · rw [hr] at h1
        obtain rfl := Option.some.inj h1
        simp at he
    · rcases hr : roundTime hd.week (Fp.f64 ((hd.ms.toInt : ℚ) / 1000)) with _ | t
      · simp only [hr] at h1; cases h1
      · simp only [hr] at h1
        obtain rfl := Option.some.inj h1
        exact hloop _ _ _ _ he
  | insatt b =>
    exfalso
    simp only [convert, writeInsAtt] at hc
    rcases h1 : doubleToS32 (mulFl rnd64 (dbl b.roll) (.fin 1000000)) with _ | e1
    · rw [h1] at hc; cases hc
    rcases h2 : doubleToS32 (mulFl rnd64 (dbl b.pitch) (.fin 1000000)) with _ | e2
    · rw [h1, h2] at hc; cases hc
    rcases h3 : doubleToS32 (mulFl rnd64 (dbl b.azimuth) (.fin 1000000)) with _ | e3
    · rw [h1, h2, h3] at hc; cases hc
    rw [h1, h2, h3] at hc
    have h2 : _ = os := congrArg Prod.snd (Option.some.inj hc)
    rw [← h2] at he
    simp at he
  | rawimusx b =>
    exfalso
    simp only [convert, writeRawImu] at hc
    split at hc
    · cases hc
    rcases h1 : toAngularRate st.imuRecv hd b with _ | e1
    · rw [h1] at hc; cases hc
    rcases h2 : toImuRaw st.imuRecv hd b with _ | e2
    · rw [h1, h2] at hc; cases hc
    rw [h1, h2] at hc
    have h2 : _ = os := congrArg Prod.snd (Option.some.inj hc)
    rw [← h2] at he
    rcases List.mem_append.1 he with he | he
    · rcases List.mem_append.1 he with he | he
      · cases e1 <;> simp at he
      · cases e2 <;> simp at he
    · split at he <;> simp at he
  | gloephemeris b =>
    obtain ⟨rfl, rfl⟩ := Prod.mk.inj (Option.some.inj hc)
    cases he
  | other =>
    obtain ⟨rfl, rfl⟩ := Prod.mk.inj (Option.some.inj hc)
    cases he

/-- GLONASS ephemerides and logs of other types have no effect, now or later. -/
theorem C63_ignored {L : Lib} {before : List Msg} (ha : (stateAfter L before).isSome) {m : Msg}
    (h : m.body = .other ∨ ∃ b, m.body = .gloephemeris b) :
    sentFor L before m = some [] ∧ ∀ after m', sentFor L (before ++ m :: after) m' = sentFor L (before ++ after) m' := by
  obtain ⟨st, hs⟩ := Option.isSome_iff_exists.1 ha
  have hc : convert L st m = some (st, []) := by
    unfold convert
    rcases h with h | ⟨b, h⟩ <;> rw [h]
  refine ⟨by rw [sentFor_eq hs, hc]; rfl, fun after m' => ?_⟩
  have : stateAfter L (before ++ m :: after) = stateAfter L (before ++ after) := by
    have h1 : stateAfter L (before ++ [m]) = some st := by rw [stateAfter_snoc, hs]; simp [hc]
    unfold stateAfter at *
    rw [show before ++ m :: after = (before ++ [m]) ++ after by simp, List.foldlM_append (l := before ++ [m]), h1, List.foldlM_append, hs]
  unfold sentFor
  rw [this]

/-- A log with a satellite number above 255, a week above 65535, or a time that is negative, above 2^32 - 1 or not a number stops the program. -/
theorem C63_abort_bug {L : Lib} {before : List Msg} {m : Msg} {b : GpsEphem} (hb : m.body = .gpsephem b)
    (h : 255 < b.prn.toNat ∨ 65535 < b.week.toNat ∨ dbl b.toe = .nan ∨ ∃ x, dbl b.toe = .fin x ∧ (x ≤ -1 ∨ 4294967295 < x)) :
    sentFor L before m = none := by
  rcases hs : stateAfter L before with _ | st
  · unfold sentFor; rw [hs]; rfl
  rw [sentFor_eq hs]
  unfold convert
  rw [hb]
  simp only [writeGpsEphem]
  have : toEphGps L b = none := by
    unfold toEphGps
    by_cases h1 : 255 < b.prn.toNat
    · simp [h1]
    by_cases h4 : 65535 < b.week.toNat
    · rcases h2 : toU32 (dbl b.toe) with _ | toe
      · simp [h1]
      rcases h3 : toU32 (dbl b.toc) with _ | toc
      · simp [h1]
      simp [h1, h4]
    have h2 : toU32 (dbl b.toe) = none := by
      rcases h with h | h | h | ⟨x, h, hx⟩
      · exact absurd h h1
      · exact absurd h h4
      · rw [h]; rfl
      · rw [h]
        simp only [toU32]
        rcases hx with hx | hx
        · rw [if_pos (by linarith)]
          unfold castTo ctrunc
          rw [if_neg (by linarith : ¬ 0 ≤ x)]
          have : 1 ≤ ⌊-x⌋ := by rw [Int.le_floor]; push_cast; linarith
          rw [if_neg (by omega)]
          rfl
        · rw [if_neg (by linarith)]
    simp [h1, h2]
  rw [this]
  rfl

/-! ### a concrete case -/

/-- satellite 5, week 2100, toe 352800 s, toc 352784 s, A 26559710 m², URA 4 m² -/
def exEphBody : GpsEphem where
  prn := 5
  tow := 0
  health := 0
  iode1 := 61
  iode2 := 61
  week := 2100
  z_week := 2100
  toe := 0x4115888000000000
  A := 0x4179543DE0000000
  delta_N := 0x3E35A1BFA0000000
  M0 := 0x3FF0000000000000
  ecc := 0x3F7B1F0000000000
  omega := 0x3FE8000000000000
  cuc := 0xBEB5000000000000
  cus := 0x3EE0000000000000
  crc := 0x4070A00000000000
  crs := 0xC032000000000000
  cic := 0x3E80000000000000
  cis := 0xBE84000000000000
  I0 := 0x3FEEB00000000000
  I_dot := 0xBDF0000000000000
  omega0 := 0xC004000000000000
  omega_dot := 0xBE41000000000000
  iodc := 61
  toc := 0x4115884000000000
  tgd := 0xBE4A000000000000
  af0 := 0xBF21000000000000
  af1 := 0xBDB0000000000000
  af2 := 0
  AS := 1
  N := 0
  URA := 0x4010000000000000

def exEph : Msg := ⟨exHeader 2100 345600000, .gpsephem exEphBody⟩

example (L : Lib) : ∃ e, sentFor L [] exEph = some [.ephGps e] ∧ SaysEph L exEphBody e ∧ e.toeTow = 352800 := by
  obtain ⟨e, h1, h2⟩ := C63_ephemeris_partial (L := L) (before := []) rfl (m := exEph) (b := exEphBody) rfl (by decide) (by decide)
    (x := 352800) (by decide +kernel) (by norm_num) (y := 352784) (by decide +kernel) (by norm_num)
  refine ⟨e, h1, h2, ?_⟩
  obtain ⟨a, b⟩ := h2.toe 352800 (by decide +kernel) (by norm_num)
  have a2 : e.toeTow ≤ 352800 := by exact_mod_cast a
  have b2 : 352800 < e.toeTow + 1 := by exact_mod_cast b
  omega

/-- there are such square roots -/
example : ∃ L, SaneSqrt L := by
  have hx : ∀ x : ℚ, 0 ≤ x → ∃ y : ℚ, |(y : ℝ) - Real.sqrt x| ≤ Real.sqrt x / 2 ^ 52 := by
    intro x h0
    rcases h0.eq_or_lt with rfl | h0
    · exact ⟨0, by simp⟩
    · have hp : 0 < Real.sqrt x := Real.sqrt_pos.2 (by exact_mod_cast h0)
      obtain ⟨c, h1, h2⟩ := exists_rat_btwn (show Real.sqrt x < Real.sqrt x + Real.sqrt x / 2 ^ 52 by
        have : 0 < Real.sqrt x / 2 ^ 52 := by positivity
        linarith)
      refine ⟨c, ?_⟩
      rw [abs_of_pos (by linarith)]
      linarith
  classical
  refine ⟨{ exLib with sqrt := fun v => match v with | .fin x => if h : 0 ≤ x then .fin (hx x h).choose else .nan | v => v }, fun x h0 => ?_⟩
  refine ⟨(hx x h0).choose, ?_, (hx x h0).choose_spec⟩
  simp [h0]

example (L : Lib) : sentFor L [] ⟨exHeader 2100 345600000, .gpsephem { exEphBody with prn := 256 }⟩ = none :=
  C63_abort_bug (before := []) rfl (.inl (by decide))

end Verif.Nov
