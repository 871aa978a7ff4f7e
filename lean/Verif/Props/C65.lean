import Verif.Props.C64
import Verif.Lemmas.RtcmKeep
/-!
C65: GLONASS code-phase biases.
-/
namespace Verif.Misc
open Verif.Misc.Spec Verif.Spec Verif.RtcmFraming Verif.Time Dec
open Verif.RtcmSbp (State Env Input no1230 messageType crint whitelist msm13)

variable {W E : Type}

theorem crint_eq {x : ℚ} {k : ℤ} (h : |x - k| < 1 / 2) : crint x = k := by
  have h1 := Int.floor_le x
  have h2 := Int.lt_floor_add_one x
  rw [abs_lt] at h
  have a1 : (⌊x⌋ : ℚ) < k + 1 := by linarith [h.2]
  have a2 : (k : ℚ) < ⌊x⌋ + 2 := by linarith [h.1]
  have b1 : ⌊x⌋ < k + 1 := by exact_mod_cast a1
  have b2 : k < ⌊x⌋ + 2 := by exact_mod_cast a2
  unfold crint
  rcases (by omega : ⌊x⌋ = k ∨ ⌊x⌋ = k - 1) with e | e
  · rw [e]
    rw [if_pos (by linarith [h.2])]
  · rw [e]
    push_cast
    rw [if_neg (by linarith [h.1]), if_pos (by linarith [h.1])]
    omega

/-- a bias read from the wire is its 16-bit field -/
theorem biasUnits_two {b : Int} (h : |b| ≤ 2 ^ 40) : biasUnits (ofTwoCm b) = b := by
  apply crint_eq
  unfold ofTwoCm
  rw [two_cm]
  have hq : |((b : ℤ) : ℚ)| ≤ 2 ^ 40 := by exact_mod_cast h
  have r := (((Fp.Rel.refl ((b : ℚ) * (5764607523034235 / 288230376151711744))).rnd (by norm_num)).mul 50).rnd (by norm_num)
  have h2 : |(b : ℚ) * (5764607523034235 / 288230376151711744) * 50| ≤ 2 ^ 41 := by
    rw [mul_assoc, abs_mul]
    norm_num at hq ⊢
    linarith
  have r2 := r.abs h2
  have h3 : |(b : ℚ) * (5764607523034235 / 288230376151711744) * 50 - b| ≤ 1 / 8 := by
    rw [show (b : ℚ) * (5764607523034235 / 288230376151711744) * 50 - b = (b : ℚ) * (3 / 144115188075855872) by ring, abs_mul]
    norm_num at hq ⊢
    linarith
  have h4 : (2 ^ 41 * (0 + 2 / 9007199254740992 + 2 / 9007199254740992) + (2 * ((2 * 0 + 1 / 2 ^ 200) * |50|) + 1 / 2 ^ 200) : ℚ) ≤ 1 / 8 := by norm_num
  have h5 := le_trans r2 h4
  rw [abs_le] at h3 h5
  rw [abs_lt]
  constructor <;> linarith [h3.1, h3.2, h5.1, h5.2]

theorem biasUnits_q (mask i : Nat) (b : Int) (hb : |b| ≤ 2 ^ 40) :
    biasUnits (qBias mask i (Fp.f64 ((b : ℚ) / 50))) = if mask.testBit i then b else 0 := by
  unfold qBias
  split
  · have e : cround (Fp.f64 (Fp.f64 ((b : ℚ) / 50) * 50)) = b := by
      apply cround_near
      have hq : |((b : ℤ) : ℚ)| ≤ 2 ^ 40 := by exact_mod_cast hb
      have h := (((Fp.Rel.refl ((b : ℚ) / 50)).rnd (by norm_num)).mul 50).rnd (by norm_num)
      rw [div_mul_cancel₀ _ (by norm_num : (50 : ℚ) ≠ 0)] at h
      refine lt_of_le_of_lt (h.abs hq) ?_
      norm_num
    rw [e, biasUnits_two hb]
  · decide +kernel

def biasOfSent : Sent → Option (Nat × GloBias)
  | .m1230 m => some (stnToSender m.stnId, ⟨m.mask, biasUnits (qBias m.mask 3 m.l1ca), biasUnits (qBias m.mask 2 m.l1p),
      biasUnits (qBias m.mask 1 m.l2ca), biasUnits (qBias m.mask 0 m.l2p)⟩)
  | _ => none

theorem part_bias (L : Lib W E) (free : Bool) (m : Sent) (x : MInput) (hs : x.inp.solved = true) :
    ((biasOfSent m).toList).Sublist ((part L free m x).filterMap gotBias) ∧
    ((∀ d, m ≠ .m1033 d) → (part L free m x).filterMap gotBias = (biasOfSent m).toList) := by
  have hp : part L free m x = m.back L free x.junk := by
    unfold part; rw [if_neg (by rw [hs]; simp)]
  rw [hp]
  cases m with
  | m1230 m => exact ⟨by simp [Sent.back, biasOfSent, gotBias], fun _ => by simp [Sent.back, biasOfSent, gotBias]⟩
  | m1033 m => exact ⟨by simp [biasOfSent], fun h => absurd rfl (h m)⟩
  | m1006 m => exact ⟨by simp [biasOfSent], fun _ => rfl⟩
  | m1008 m => exact ⟨by simp [biasOfSent], fun _ => rfl⟩
  | m4062 m =>
    refine ⟨by simp [biasOfSent], fun _ => ?_⟩
    cases hL : L.sbpDecode m.msgType m.data <;> simp [Sent.back, biasOfSent, gotBias, hL]
  | m1029 m =>
    refine ⟨by simp [biasOfSent], fun _ => ?_⟩
    simp only [Sent.back]
    rcases sendLog_cases (W := W) (E := E) 6 (text1029 m.utf8) (m.stnId % 4096) with h | h <;> rw [h] <;> rfl

theorem sent_bias (es : List SbpIn) (hf : ∀ e ∈ es, Fits e) : ∀ st, (sent st es).filterMap biasOfSent =
    (es.filterMap sentBias).map fun i => (i.1 % 4096 ||| 0xF080, maskedBias i.2) := by
  induction es with
  | nil => intro st; rfl
  | cons e es ih =>
    intro st
    simp only [sent, List.filterMap_append]
    rw [ih (fun e he => hf e (List.mem_cons_of_mem _ he))]
    cases e with
    | gloBias s b =>
      have e1 : (sentStep st (.gloBias s b)).filterMap biasOfSent = [(s % 4096 ||| 0xF080, maskedBias b)] := by
        obtain ⟨-, -, s1, s2, s3, s4⟩ := hf _ List.mem_cons_self
        have small : ∀ {x : Int}, S16 x → |x| ≤ 2 ^ 40 := by
          intro x hx; obtain ⟨a, b⟩ := hx; rw [abs_le]; omega
        simp only [sentStep, List.filterMap_cons, List.filterMap_nil, biasOfSent, msg1230, biasUnits_q _ _ _ (small s1), biasUnits_q _ _ _ (small s2),
          biasUnits_q _ _ _ (small s3), biasUnits_q _ _ _ (small s4), senderToStn_eq]
        rfl
      rw [e1]; rfl
    | basePos s p =>
      have e1 : (sentStep st (.basePos s p)).filterMap biasOfSent = [] := by
        simp only [sentStep]
        split <;> rfl
      rw [e1]; rfl
    | log s p =>
      have e1 : (sentStep st (.log s p)).filterMap biasOfSent = [] := by
        simp only [sentStep]
        split <;> rfl
      rw [e1]; rfl
    | _ => rfl

theorem no_1033 (es : List SbpIn) (h : ∀ e ∈ es, isAntenna e = false) : ∀ st, st.antKnown = false → ∀ d, Sent.m1033 d ∉ sent st es := by
  induction es with
  | nil => intro st _ d hd; simp [sent] at hd
  | cons e es ih =>
    intro st hk d hd
    simp only [sent, List.mem_append] at hd
    have he := h e List.mem_cons_self
    rcases hd with hd | hd
    · cases e with
      | basePos s p => simp [sentStep, hk] at hd
      | log s p => simp only [sentStep] at hd; split at hd <;> simp at hd
      | gloBias s b => simp [sentStep] at hd
      | wrapped t s d => simp [sentStep] at hd
      | antHeight x => cases he
      | descriptors x y => cases he
    · refine ih (fun a ha => h a (List.mem_cons_of_mem _ ha)) _ ?_ d hd
      cases e with
      | log s p => simp only [outStep]; split <;> exact hk
      | antHeight x => cases he
      | descriptors x y => cases he
      | _ => exact hk

/-- **C65** While the receiving converter knows the time, every bias message sent over RTCM comes out again: same mask, every bias of a
masked signal exactly as sent (the whole 16-bit range, -32768 included), the others zero.  Nothing else comes out when no antenna
settings were made; with them, 1033 messages may add estimates in between. -/
theorem C65_roundtrip (crc : Buf → BitVec 24) (env : Env) (L : Lib W E) (a : Nat) (es : List SbpIn) (hf : ∀ e ∈ es, Fits e)
    (chunks : List Buf) (xs : List MInput) (hc : Carried crc (.init a) es chunks xs) (ht : ∀ x ∈ xs, x.inp.solved = true) (s : State) :
    ∃ outs, miscRun env L s xs = some outs ∧
      ((es.filterMap sentBias).map fun i => (i.1 % 4096 ||| 0xF080, maskedBias i.2)).Sublist (outs.filterMap gotBias) ∧
      ((∀ e ∈ es, isAntenna e = false) →
        outs.filterMap gotBias = (es.filterMap sentBias).map fun i => (i.1 % 4096 ||| 0xF080, maskedBias i.2)) := by
  obtain ⟨parts, h1, h2, h3⟩ := carried_back crc env L (.init a) (init_ok a) es hf chunks xs hc s
  have hsx : ∀ mx ∈ (sent (.init a) es).zip xs, mx.2.inp.solved = true := fun mx h => ht _ (List.of_mem_zip h).2
  refine ⟨_, h1, ?_, ?_⟩
  · have := parts_sub L gotBias biasOfSent h2 (fun mx h free => (part_bias L free mx.1 mx.2 (hsx mx h)).1)
    rw [h3, sent_bias es hf] at this
    exact this
  · intro hn
    rw [parts_filter L gotBias biasOfSent h2 (fun mx h free => (part_bias L free mx.1 mx.2 (hsx mx h)).2 (by
      intro d hd
      have := (List.of_mem_zip h).1
      rw [hd] at this
      exact no_1033 es hn (.init a) rfl d this)), h3, sent_bias es hf]

/-! ### any 1230 message -/

theorem getU_at (p : Buf) (off n : Nat) (h : off + n ≤ 8 * p.length) :
    getU n ((bitsOf p).drop off) = (.ok (fieldU p off n), (bitsOf p).drop (off + n)) := by
  unfold getU fieldU
  rw [if_neg (by rw [List.length_drop, bitsOf_length]; omega), List.drop_drop]

theorem getU_short (p : Buf) (off n : Nat) (h : ¬ off + n ≤ 8 * p.length) (hn : off ≤ 8 * p.length) :
    getU n ((bitsOf p).drop off) = (.error .invalid, (bitsOf p).drop off) := by
  unfold getU
  rw [if_pos (by rw [List.length_drop, bitsOf_length]; omega)]

theorem fieldU_lt (p : Buf) (off n : Nat) : fieldU p off n < 2 ^ n := by
  unfold fieldU
  refine lt_of_lt_of_le (ofBits_lt _) (Nat.pow_le_pow_right (by decide) ?_)
  rw [List.length_take]; omega

theorem toSigned_field (p : Buf) (off : Nat) (n : Nat) : toSigned n (fieldU p off n) = fieldS p off n := by
  unfold toSigned fieldS
  rfl

theorem fieldS_small (p : Buf) (off : Nat) : |fieldS p off 16| ≤ 2 ^ 40 := by
  have := fieldU_lt p off 16
  unfold fieldS
  rw [abs_le]
  split <;> omega

theorem bias_at (p : Buf) (mask i off : Nat) (h : off + (if mask.testBit i then 16 else 0) ≤ 8 * p.length) :
    decodeBias mask i ((bitsOf p).drop off) =
      (.ok (if mask.testBit i then ofTwoCm (fieldS p off 16) else 0), (bitsOf p).drop (off + if mask.testBit i then 16 else 0)) := by
  unfold decodeBias
  by_cases hb : mask.testBit i = true
  · rw [if_pos hb] at h
    rw [if_pos hb, if_pos hb, if_pos hb, Dec.bind_def]
    unfold getS
    rw [if_neg (by rw [List.length_drop, bitsOf_length]; omega), List.drop_drop]
    simp only [Dec.pure_def]
    rw [show ofBits (((bitsOf p).drop off).take 16) = fieldU p off 16 from rfl, toSigned_field]
  · rw [if_neg hb, if_neg hb, if_neg hb, Dec.pure_def]; rfl

theorem offs : ∀ mask < 16,
    32 + 16 * above mask 3 = 32 ∧
    32 + 16 * above mask 2 = 32 + (if mask.testBit 3 then 16 else 0) ∧
    32 + 16 * above mask 1 = 32 + (if mask.testBit 3 then 16 else 0) + (if mask.testBit 2 then 16 else 0) ∧
    32 + 16 * above mask 0 = 32 + (if mask.testBit 3 then 16 else 0) + (if mask.testBit 2 then 16 else 0) + (if mask.testBit 1 then 16 else 0) ∧
    bits1230 mask = 32 + (if mask.testBit 3 then 16 else 0) + (if mask.testBit 2 then 16 else 0) + (if mask.testBit 1 then 16 else 0)
      + (if mask.testBit 0 then 16 else 0) := by decide

theorem type_field (p : Buf) (h : 2 ≤ p.length) : messageType p = fieldU p 0 12 := by
  have := getU_at p 0 12 (by omega)
  rw [List.drop_zero] at this
  exact (type_of_getU this).2

theorem decode1230_at (p : Buf) (h1 : fieldU p 0 12 = 1230) (hl : bits1230 (fieldU p 28 4) ≤ 8 * p.length) :
    ∃ m, decode1230.run p = .ok m ∧ m.stnId = fieldU p 12 12 ∧ m.mask = fieldU p 28 4 ∧ biasOf1230 m =
      ⟨fieldU p 28 4, bias1230 p 3, bias1230 p 2, bias1230 p 1, bias1230 p 0⟩ := by
  have hm := fieldU_lt p 28 4
  obtain ⟨o3, o2, o1, o0, ol⟩ := offs _ hm
  unfold bias1230
  rw [ol] at hl
  rw [o3, o2, o1, o0]
  unfold Dec.run decode1230
  have g0 := getU_at p 0 12 (by omega)
  rw [List.drop_zero] at g0
  rw [Dec.bind_def, g0]
  simp only
  unfold Dec.guard
  rw [if_pos h1, Dec.bind_def, Dec.pure_def]
  simp only
  rw [Dec.bind_def, getU_at p 12 12 (by omega)]
  simp only
  rw [Dec.bind_def, getU_at p 24 1 (by omega)]
  simp only
  rw [Dec.bind_def]
  simp only [Dec.skip, List.drop_drop]
  rw [Dec.bind_def, getU_at p 28 4 (by omega)]
  simp only
  rw [Dec.bind_def, bias_at p _ 3 32 (by omega)]
  simp only
  rw [Dec.bind_def, bias_at p _ 2 _ (by omega)]
  simp only
  rw [Dec.bind_def, bias_at p _ 1 _ (by omega)]
  simp only
  rw [Dec.bind_def, bias_at p _ 0 _ (by omega)]
  simp only [Dec.pure_def]
  refine ⟨_, rfl, rfl, rfl, ?_⟩
  unfold biasOf1230
  simp only
  have z : biasUnits 0 = 0 := by decide +kernel
  have key : ∀ (b : Bool) (off : Nat), biasUnits (if b = true then ofTwoCm (fieldS p off 16) else 0) =
      if b = true then fieldS p off 16 else 0 := by
    intro b off
    cases b
    · exact z
    · rw [if_pos rfl, if_pos rfl, biasUnits_two (fieldS_small p off)]
  by_cases hi : fieldU p 24 1 = 0
  · rw [if_pos hi]
    simp only [key, hi, and_true]
  · rw [if_neg hi]
    simp only [hi, and_false, if_false]

/-- **C65** Any 1230 message, while the time is known: the SBP biases are the 16-bit fields of the message (units of 2 cm in both formats),
in the place its mask announces; zero for signals not in the mask, and all zero when the indicator says the measurements are aligned. -/
theorem C65_1230 (env : Env) (L : Lib W E) (s : State) (x : MInput) (hs : x.inp.solved = true) (h1 : fieldU x.inp.payload 0 12 = 1230)
    (hl : bits1230 (fieldU x.inp.payload 28 4) ≤ 8 * x.inp.payload.length) :
    miscOut env L s x = some [(fieldU x.inp.payload 12 12 ||| 0xF080, .gloBias ⟨fieldU x.inp.payload 28 4, bias1230 x.inp.payload 3,
      bias1230 x.inp.payload 2, bias1230 x.inp.payload 1, bias1230 x.inp.payload 0⟩)] := by
  obtain ⟨m, hd, e1, -, e2⟩ := decode1230_at _ h1 hl
  obtain ⟨h2, hty⟩ := type_of_run (k := 1230) hd
  unfold miscOut
  rw [if_neg (by omega)]
  simp only [hty, hs]
  rw [if_neg (by simp)]
  unfold content
  simp only
  rw [if_neg (by decide), if_neg (by decide), if_neg (by decide), if_neg (by decide), if_pos (by trivial), hd]
  simp only
  rw [e1, e2]
  rfl

/-- **C65** A 1230 message shorter than its mask announces gives nothing, as does any 1230 message while the time is unknown. -/
theorem C65_1230_rejected (env : Env) (L : Lib W E) (s : State) (x : MInput) (h1 : fieldU x.inp.payload 0 12 = 1230)
    (hl : ¬ bits1230 (fieldU x.inp.payload 28 4) ≤ 8 * x.inp.payload.length ∨ x.inp.solved = false) :
    miscOut env L s x = some [] := by
  unfold miscOut
  by_cases h2 : x.inp.payload.length < 2
  · rw [if_pos h2]
  rw [if_neg h2]
  have hty : messageType x.inp.payload = 1230 := by rw [type_field _ (by omega), h1]
  simp only [hty]
  by_cases hs : x.inp.solved = false
  · rw [if_pos ⟨by decide, hs⟩]
  rw [if_neg (by simp [hs])]
  have hl := hl.resolve_right hs
  unfold content
  simp only
  rw [if_neg (by decide), if_neg (by decide), if_neg (by decide), if_neg (by decide), if_pos (by trivial)]
  cases hd : decode1230.run x.inp.payload with
  | error e => rfl
  | ok m =>
    exfalso
    apply hl
    have hm := fieldU_lt x.inp.payload 28 4
    obtain ⟨-, -, -, -, ol⟩ := offs _ hm
    rw [ol]
    obtain ⟨r, hr⟩ := run_ok hd
    unfold decode1230 at hr
    obtain ⟨n, r1, a1, hr⟩ := bind_ok hr
    obtain ⟨-, hr⟩ := guard_ok hr
    obtain ⟨v2, r2, a2, hr⟩ := bind_ok hr
    obtain ⟨v3, r3, a3, hr⟩ := bind_ok hr
    obtain ⟨v4, r4, a4, hr⟩ := bind_ok hr
    obtain ⟨v5, r5, a5, hr⟩ := bind_ok hr
    have rest : ∀ {n v : Nat} {s r : List Bool}, getU n s = (.ok v, r) → r = s.drop n ∧ v = ofBits (s.take n) ∧ n ≤ s.length := by
      intro n v s r h
      have hn := (getU_ok h).2
      unfold getU at h
      rw [if_neg (by omega)] at h
      obtain ⟨q1, q2⟩ := Prod.mk.inj h
      exact ⟨q2.symm, (Except.ok.inj q1).symm, hn⟩
    obtain ⟨rfl, -, b1⟩ := rest a1
    obtain ⟨rfl, -, b2⟩ := rest a2
    obtain ⟨rfl, -, b3⟩ := rest a3
    unfold Dec.skip at a4
    obtain ⟨-, rfl⟩ := Prod.mk.inj a4
    obtain ⟨rfl, e5, b5⟩ := rest a5
    simp only [List.drop_drop, Nat.reduceAdd] at e5 b5 hr
    have e5 : v5 = fieldU x.inp.payload 28 4 := e5
    rw [← e5]
    have step : ∀ {i : Nat} {q : ℚ} {r : List Bool} {off : Nat}, off ≤ 8 * x.inp.payload.length →
        decodeBias v5 i ((bitsOf x.inp.payload).drop off) = (.ok q, r) →
        r = (bitsOf x.inp.payload).drop (off + if v5.testBit i then 16 else 0) ∧ off + (if v5.testBit i then 16 else 0) ≤ 8 * x.inp.payload.length := by
      intro i q r off ho h
      unfold decodeBias at h
      by_cases hb : v5.testBit i = true
      · rw [if_pos hb] at h
        rw [if_pos hb]
        obtain ⟨t, r', g1, g2⟩ := bind_ok h
        unfold getS at g1
        split at g1
        · simp at g1
        · rename_i hlen
          rw [List.length_drop, bitsOf_length] at hlen
          obtain ⟨-, rfl⟩ := Prod.mk.inj g1
          rw [Dec.pure_def] at g2
          obtain ⟨-, rfl⟩ := Prod.mk.inj g2
          rw [List.drop_drop]
          exact ⟨rfl, by omega⟩
      · rw [if_neg hb] at h
        rw [if_neg hb]
        rw [Dec.pure_def] at h
        obtain ⟨-, rfl⟩ := Prod.mk.inj h
        exact ⟨rfl, ho⟩
    obtain ⟨v6, r6, a6, hr⟩ := bind_ok hr
    rw [List.length_drop, bitsOf_length] at b5
    obtain ⟨rfl, c6⟩ := step (by omega) a6
    obtain ⟨v7, r7, a7, hr⟩ := bind_ok hr
    obtain ⟨rfl, c7⟩ := step c6 a7
    obtain ⟨v8, r8, a8, hr⟩ := bind_ok hr
    obtain ⟨rfl, c8⟩ := step c7 a8
    obtain ⟨v9, r9, a9, hr⟩ := bind_ok hr
    obtain ⟨rfl, c9⟩ := step c8 a9
    exact c9

/-! ### 1033 -/

theorem find_flat {α β γ : Type} (l : List (List α × β)) (f : α → Bool) :
    ((l.find? fun r => r.1.any f).map Prod.snd) = (((l.flatMap fun r => r.1.map fun a => (a, r.2)).find? fun q => f q.1).map Prod.snd) := by
  induction l with
  | nil => rfl
  | cons r l ih =>
    obtain ⟨as, b⟩ := r
    rw [List.flatMap_cons, List.find?_append, List.find?_cons]
    have h : (as.map fun a => (a, b)).find? (fun q => f q.1) = (as.find? f).map fun a => (a, b) := by
      rw [List.find?_map]; rfl
    rw [h]
    cases hf : as.find? f with
    | none =>
      have : as.any f = false := by
        rw [List.any_eq_false]
        intro a ha
        have := List.find?_eq_none.1 hf a ha
        simpa using this
      simp only [this, Option.map_none, Option.none_or]
      exact ih
    | some a =>
      have : as.any f = true := List.any_eq_true.2 ⟨a, List.mem_of_find?_eq_some hf, List.find?_some hf⟩
      simp only [this, Option.map_some, Option.some_or]

theorem table_eq : (receivers.flatMap fun r => r.1.map fun a => (a, r.2)) = receiverTable.map fun r => (asc r.1, r.2) := by decide +kernel

theorem cstr_zero (d j : Buf) : cstr (d ++ 0#8 :: j) = cstr d := by
  unfold cstr
  induction d with
  | nil => simp
  | cons a d ih =>
    rw [List.cons_append, List.takeWhile_cons, List.takeWhile_cons, ih]

theorem bias1033_table (m : Msg1033) (j : Buf) : biasOf1033 m (0#8 :: j) = receiverBias (cstr m.rcvDescriptor) := by
  have h := find_flat (γ := Unit) receivers (contains (m.rcvDescriptor ++ 0#8 :: j))
  rw [table_eq, List.find?_map, Option.map_map] at h
  have e : ((fun q : Buf × GloBias => contains (m.rcvDescriptor ++ 0#8 :: j) q.1) ∘ fun r : String × GloBias => (asc r.1, r.2)) =
      fun r => occurs (asc r.1) (cstr m.rcvDescriptor) := by
    funext r
    simp only [Function.comp, contains, cstr_zero, occurs]
    exact decide_eq_decide.2 Iff.rfl
  rw [e] at h
  unfold biasOf1033 receiverBias
  have h' : (receiverTable.find? fun r => occurs (asc r.1) (cstr m.rcvDescriptor)).map Prod.snd =
      (receivers.find? fun r => r.1.any (contains (m.rcvDescriptor ++ 0#8 :: j))).map Prod.snd := by rw [h]; rfl
  rw [h']
  cases receivers.find? fun r => r.1.any (contains (m.rcvDescriptor ++ 0#8 :: j)) <;> rfl

/-- the 1230 bookkeeping over a history -/
theorem last1230_run (env : Env) (pre : List MInput) :
    (RtcmSbp.run env .init (pre.map MInput.inp)).1.last1230 = (last1230Time pre).getD .unknown := by
  have hrun : ∀ (l : List Input) (s : State) (i : Input), (RtcmSbp.run env s (l ++ [i])).1 = (RtcmSbp.step env (RtcmSbp.run env s l).1 i).1 := by
    intro l
    induction l with
    | nil => intro s i; rfl
    | cons a l ih => intro s i; simp only [List.cons_append, RtcmSbp.run]; exact ih _ _
  induction pre using List.reverseRecOn with
  | nil => rfl
  | append_singleton pre x ih =>
    rw [List.map_append, List.map_singleton, hrun]
    have hlen : (∃ m, decode1230.run x.inp.payload = .ok m) → 2 ≤ x.inp.payload.length := by
      rintro ⟨m, hm⟩; exact (type_of_run (k := 1230) hm).1
    obtain ⟨h1, h2⟩ := RtcmSbp.step_last1230 env (RtcmSbp.run env .init (pre.map MInput.inp)).1 x.inp
    unfold last1230Time
    rw [List.filter_append]
    by_cases hx : Is1230 x
    · rw [h1 ⟨hx.1, hx.2.1, hx.2.2, hlen hx.2.2⟩]
      simp [hx]
    · rw [h2 (fun h => hx ⟨h.1, h.2.1, h.2.2.1⟩), ih]
      simp [hx, last1230Time]

/-- a recent 1230: converted, at a valid time, at most 120 s before -/
def Recent1230 (pre : List MInput) (t : GpsTime) : Prop := ∃ t0, last1230Time pre = some t0 ∧ t0.valid ∧ diff t t0 ≤ 120

/-- **C65** (partial: see `C65_1033_bug`)  After any history, a 1033 message received while the time is known gives a bias estimate exactly
when no 1230 message was converted in the last 120 s, and the estimate is that of the first entry of the table whose text occurs in the
receiver descriptor - provided the memory behind the decoded descriptor happens to start with a zero byte. -/
theorem C65_1033_partial (env : Env) (L : Lib W E) (pre : List MInput) (x : MInput) (m : Msg1033) (hs : x.inp.solved = true)
    (hd : decode1033.run x.inp.payload = .ok m) :
    (Recent1230 pre x.inp.time → miscOut env L (RtcmSbp.run env .init (pre.map MInput.inp)).1 x = some []) ∧
    (¬ Recent1230 pre x.inp.time → ∀ j, x.junk = 0#8 :: j →
      miscOut env L (RtcmSbp.run env .init (pre.map MInput.inp)).1 x =
        some [(m.stnId ||| 0xF080, .gloBias (receiverBias (cstr m.rcvDescriptor)))]) := by
  obtain ⟨hl, hty⟩ := type_of_run (k := 1033) hd
  have hl30 := last1230_run env pre
  generalize RtcmSbp.run env .init (pre.map MInput.inp) = r at hl30
  have key : no1230 { ({ r.1 with timeInput := x.inp.time } : State) with leap := some (env.utcOffset x.inp.time) } ↔ ¬ Recent1230 pre x.inp.time := by
    unfold RtcmSbp.no1230 Recent1230
    simp only [hl30]
    cases last1230Time pre with
    | none => simp [GpsTime.unknown, GpsTime.valid]
    | some t0 =>
      simp only [Option.getD_some, Option.some.injEq, exists_eq_left', not_and, not_le]
      tauto
  have hc : miscOut env L r.1 x = if no1230 { ({ r.1 with timeInput := x.inp.time } : State) with leap := some (env.utcOffset x.inp.time) } then
      some [(stnToSender m.stnId, .gloBias (biasOf1033 m x.junk))] else some [] := by
    unfold miscOut
    rw [if_neg (by omega)]
    simp only [hty, hs]
    rw [if_neg (by simp)]
    unfold content
    simp only
    rw [if_neg (by decide), if_neg (by decide), if_neg (by decide), if_pos (by trivial), hd]
    simp only [if_true]
  rw [hc]
  constructor
  · intro h; rw [if_neg (fun hh => key.1 hh h)]
  · intro h j hj
    rw [if_pos (key.2 h), hj, bias1033_table]
    rfl

/-- payload of a 1033 message with station 1 and receiver descriptor "PIKSI" -/
def ex1033 : Buf := payloadOf (encode1033 ⟨1, [], 0, [], asc "PIKSI", [], []⟩ (List.replicate 200 0))

/-- **C65** Defect: the same 1033 message, received in the same state, gives different biases for different contents of memory that was
never written: the descriptor is searched past its end. -/
theorem C65_1033_bug (env : Env) (L : Lib W E) (t : GpsTime) :
    miscOut env L .init ⟨{ solved := true, time := t, payload := ex1033 }, [], [0]⟩ = some [(0xF081, .gloBias ⟨0, 0, 0, 0, 0⟩)] ∧
    miscOut env L .init ⟨{ solved := true, time := t, payload := ex1033 }, [], asc "TRIMBLE" ++ [0]⟩ =
      some [(0xF081, .gloBias ⟨15, 953, 953, 953, 953⟩)] := by
  have hd : decode1033.run ex1033 = .ok ⟨1, [], 0, [], asc "PIKSI", [], []⟩ :=
    C07_1033_roundtrip _ (by decide) (by decide) (by decide) (by decide) (by decide) (by decide) (by decide) _ (by rw [List.length_replicate]; omega)
  obtain ⟨hl, hty⟩ := type_of_run (k := 1033) hd
  have hno : no1230 { ({ (State.init : State) with timeInput := t } : State) with leap := some (env.utcOffset t) } := by
    left; simp [State.init, GpsTime.unknown, GpsTime.valid]
  have hc : ∀ junk, miscOut env L .init ⟨{ solved := true, time := t, payload := ex1033 }, [], junk⟩ =
      some [(0xF081, .gloBias (biasOf1033 ⟨1, [], 0, [], asc "PIKSI", [], []⟩ junk))] := by
    intro junk
    unfold miscOut
    simp only
    rw [if_neg (by omega)]
    simp only [hty]
    rw [if_neg (by simp)]
    unfold content
    simp only
    rw [if_neg (by decide), if_neg (by decide), if_neg (by decide), if_pos (by trivial), hd]
    simp only [if_true]
    rw [if_pos hno]
    rfl
  rw [hc, hc]
  constructor
  · rw [show biasOf1033 ⟨1, [], 0, [], asc "PIKSI", [], []⟩ [0] = ⟨0, 0, 0, 0, 0⟩ by decide +kernel]
  · rw [show biasOf1033 ⟨1, [], 0, [], asc "PIKSI", [], []⟩ (asc "TRIMBLE" ++ [0]) = ⟨15, 953, 953, 953, 953⟩ by decide +kernel]

/- the table is reached: GEO++ names come before the plain ones -/
example : receiverBias (asc "Geo++ GNSMART (GLO=NOV) 1.0") = ⟨9, -3535, 0, 0, -3315⟩ ∧ receiverBias (asc "NOV OEM7") = ⟨15, -3597, -3597, -3597, -3597⟩ := by
  decide +kernel
/- a 1230 message with two biases -/
example : fieldU (payloadOf (encode1230 ⟨7, 0, 9, -147 / 10, 0, 0, -16⟩ (List.replicate 20 0))) 28 4 = 9 ∧
    bias1230 (payloadOf (encode1230 ⟨7, 0, 9, -147 / 10, 0, 0, -16⟩ (List.replicate 20 0))) 0 = -800 := by decide +kernel

end Verif.Misc
