import Verif.Spec.Decoders
import Verif.Lemmas.Codec
import Verif.Model.Station
import Verif.Model.Eph
import Verif.Model.Ssr
import Verif.Props.C11
/-!
C14: decoders reject messages of another type and truncated messages.
-/
namespace Verif.Decoders
open Verif Verif.Dec Verif.Spec

theorem truncSafe_of_strict {E : RC → Prop} {α} {d : Dec α} (h : StrictE E d) : TruncationSafeE E d := by
  intro p a hp
  obtain ⟨r, hr⟩ := run_ok hp
  obtain ⟨bs, hs, hreads, hfail⟩ := h _ _ _ hr
  have hl : bs.length ≤ 8 * p.length := by
    have := congrArg List.length hs
    rw [bitsOf_length, List.length_append] at this; omega
  refine ⟨(bs.length + 7) / 8, by omega, ?_, ?_⟩
  · intro k hk
    obtain ⟨e, he, hx⟩ := hfail (8 * k) (by omega)
    refine ⟨e, he, ?_⟩
    unfold Dec.run
    rw [bitsOf_take, hs, List.take_append_of_le_length (by omega)]
    exact hx
  · intro tail
    unfold Dec.run
    rw [bitsOf_append, bitsOf_take, hs, List.take_append, List.take_of_length_le (by omega), List.append_assoc, hreads]

theorem truncSafe_congr {E : RC → Prop} {α} {d d' : Dec α} (h : ∀ s, (d s).1 = (d' s).1) (hd : TruncationSafeE E d') :
    TruncationSafeE E d := by
  have e : ∀ p, d.run p = d'.run p := fun p => h _
  intro p a hp
  rw [e] at hp
  obtain ⟨n, h1, h2, h3⟩ := hd p a hp
  exact ⟨n, h1, fun k hk => by simpa only [e] using h2 k hk, fun t => by rw [e]; exact h3 t⟩

/-! ### Message numbers -/

theorem getU12_msgNum (p : Buf) (h : 2 ≤ p.length) : getU 12 (bitsOf p) = (.ok (msgNum p), (bitsOf p).drop 12) := by
  match p, h with
  | a :: b :: q, _ =>
    unfold getU
    rw [if_neg (by rw [bitsOf_length]; simp only [List.length_cons]; omega)]
    have e : (bitsOf (a :: b :: q)).take 12 = toBits 8 a.toNat ++ (toBits 8 b.toNat).take 4 := by
      rw [bitsOf_cons, bitsOf_cons, List.take_append, List.take_append, toBits_length, toBits_length,
        List.take_of_length_le (by simp : (toBits 8 a.toNat).length ≤ 12)]
      simp
    have h1 := ofBits_append ((toBits 8 b.toNat).take 4) ((toBits 8 b.toNat).drop 4)
    rw [List.take_append_drop, ofBits_toBits_of_lt (show b.toNat < 2 ^ 8 by have := b.isLt; omega)] at h1
    have h2 := ofBits_lt ((toBits 8 b.toNat).drop 4)
    have l1 : ((toBits 8 b.toNat).drop 4).length = 4 := by simp
    have l2 : ((toBits 8 b.toNat).take 4).length = 4 := by simp
    rw [l1] at h1 h2
    rw [e, ofBits_append, ofBits_toBits_of_lt (show a.toNat < 2 ^ 8 by have := a.isLt; omega), l2]
    have : a.toNat * 2 ^ 4 + ofBits ((toBits 8 b.toNat).take 4) = msgNum (a :: b :: q) := by
      show _ = a.toNat * 16 + b.toNat / 16
      omega
    rw [this]

/-- the shape shared by most decoders -/
theorem rejects_bind {α} (mine : Nat → Prop) [DecidablePred mine] (f : Nat → Unit → Dec α) :
    RejectsOthers (getU 12 >>= fun n => Dec.guard (mine n) .typeMismatch >>= f n) 2 mine := by
  intro p hp hm
  unfold Dec.run
  rw [Dec.bind_def, getU12_msgNum p hp]
  show ((Dec.guard (mine (msgNum p)) .typeMismatch >>= f (msgNum p)) _).1 = _
  rw [Dec.bind_def]
  unfold Dec.guard; rw [if_neg hm]; rfl

theorem getU12_short {p : Buf} (h : p.length < 2) : getU 12 (bitsOf p) = (.error .invalid, bitsOf p) := by
  unfold getU; rw [if_pos (by rw [bitsOf_length]; omega)]

theorem getU_bind_long {α} {f : Nat → Dec α} {p : Buf} {a : α} (h : (getU 12 >>= f).run p = .ok a) :
    2 ≤ p.length ∧ ∃ r, f (msgNum p) ((bitsOf p).drop 12) = (.ok a, r) := by
  obtain ⟨r, hr⟩ := run_ok h
  obtain ⟨n, s, h1, h2⟩ := bind_ok hr
  have hl := (getU_ok h1).2
  rw [bitsOf_length] at hl
  rw [getU12_msgNum p (by omega)] at h1
  simp only [Prod.mk.injEq, Except.ok.injEq] at h1
  obtain ⟨rfl, rfl⟩ := h1
  exact ⟨by omega, r, h2⟩

theorem only_bind {α} (mine : Nat → Prop) [DecidablePred mine] (f : Nat → Unit → Dec α) :
    OnlyAccepts (getU 12 >>= fun n => Dec.guard (mine n) .typeMismatch >>= f n) mine := by
  intro p a h
  obtain ⟨_, r, h⟩ := getU_bind_long h
  exact (guard_ok h).1

/-! ### Strictness of the decoders -/

theorem failsEmpty_getU {E : RC → Prop} [HasInvalid E] {n : Nat} (h : 0 < n) : FailsEmpty E (getU n) :=
  ⟨_, HasInvalid.inv, by simp [getU, h]⟩

macro "strict_step" : tactic => `(tactic| first
  | exact StrictE.pure _ | exact StrictE.fail _ | exact StrictE.getU _ | exact StrictE.getS _ | exact StrictE.getByte
  | exact StrictE.guard _ _
  | refine StrictE.bind (StrictE.getU _) fun _ => ?_
  | refine StrictE.bind (StrictE.getS _) fun _ => ?_
  | refine StrictE.bind (StrictE.guard _ _) fun _ => ?_
  | refine StrictE.skip_bind ?_ (by first | exact FailsEmpty.getU_bind (by decide) | exact FailsEmpty.getS_bind (by decide) | exact failsEmpty_getU (by decide))
  | refine StrictE.many ?_ _
  | refine StrictE.ite ?_ ?_
  | refine StrictE.bind ?_ fun _ => ?_)
macro "strict" : tactic => `(tactic| repeat' strict_step)

theorem strict1005 : Strict decode1005 := by unfold decode1005 decode1005Base; strict
theorem strict1007 : Strict decode1007 := by unfold decode1007 decode1007Base decodeString; strict
theorem strict1008 : Strict decode1008 := by unfold decode1008 decode1007Base decodeString; strict
theorem strict1029 : Strict decode1029 := by unfold decode1029; strict
theorem strict1033 : Strict decode1033 := by unfold decode1033 decodeString; strict
theorem strict1230 : Strict decode1230 := by unfold decode1230 decodeBias; strict
theorem strict4062 : Strict decode4062 := by unfold decode4062; strict
theorem strict1019 : Strict decode1019 := by unfold decode1019; strict
theorem strict1042 : Strict decode1042 := by unfold decode1042; strict
theorem strict1044 : Strict decode1044 := by unfold decode1044; strict
theorem strictLegacy (k : Obs.Kind) : Strict (Obs.decode k) := by
  have h1 : Strict (Obs.readHeader k) := by unfold Obs.readHeader; strict
  have h2 : Strict (Obs.decodeRaw k) := by
    unfold Obs.decodeRaw
    cases k <;>
    simp only [Obs.Kind.glo, Obs.Kind.ext, Obs.Kind.l2, if_true, if_false, Bool.false_eq_true, Bool.and_true, Bool.and_false,
      Bool.and_self] <;> strict
  unfold Obs.decode Obs.decodeSat
  exact StrictE.bind h1 fun _ => StrictE.bind (StrictE.guard _ _) fun _ => StrictE.bind (StrictE.guard _ _) fun _ =>
    StrictE.bind (StrictE.many (StrictE.bind h2 fun _ => StrictE.pure _) _) fun _ => StrictE.pure _
theorem strictMsm (ty : Msm.MsmType) : Strict (Msm.decodeMsm ty) := by
  unfold Msm.decodeMsm Msm.readMsmHeader Msm.decodeSatData Msm.decodeSigData Msm.readMsmTow Msm.getBool
  strict
  split
  · strict
  · strict
theorem strictSsrHeader : Strict Ssr.readHeader := by
  unfold Ssr.readHeader
  strict
  split
  · strict
  · strict
theorem strictOrbit : Strict Ssr.decodeOrbit := by
  unfold Ssr.decodeOrbit Ssr.decodeOrbitCorr
  refine StrictE.bind strictSsrHeader fun _ => ?_
  strict
theorem strictCodeBias : Strict Ssr.decodeCodeBias := by
  unfold Ssr.decodeCodeBias
  refine StrictE.bind strictSsrHeader fun _ => ?_
  strict
theorem strictPhaseBias : Strict Ssr.decodePhaseBias := by
  unfold Ssr.decodePhaseBias
  refine StrictE.bind strictSsrHeader fun _ => ?_
  strict

theorem StrictE.mapErr {E F : RC → Prop} {α} {d : Dec α} {f : RC → RC} (h : StrictE E d) (hf : ∀ e, E e → F (f e)) :
    StrictE F (Dec.mapErr f d) := by
  intro s a r hs
  have hd : d s = (.ok a, r) := by
    unfold Dec.mapErr at hs
    split at hs
    · next h1 => rw [h1]; simpa using hs
    · simp at hs
  obtain ⟨bs, h1, h2, h3⟩ := h s a r hd
  refine ⟨bs, h1, Reads.mapErr h2, ?_⟩
  intro k hk
  obtain ⟨e, he, hx⟩ := h3 k hk
  refine ⟨f e, hf e he, ?_⟩
  unfold Dec.mapErr
  rcases hq : d (List.take k bs) with ⟨_ | _, _⟩
  · rw [hq] at hx; simp at hx; simp [hx]
  · rw [hq] at hx; simp at hx

/-- errors of the Galileo decoders -/
def GalErr (e : RC) : Prop := e = .invalid ∨ e = .code65534
instance : HasInvalid GalErr := ⟨Or.inl rfl⟩

theorem strictGalCommon : Strict decodeGalCommon := by unfold decodeGalCommon; strict

theorem gal_err (e : RC) (h : e = .invalid) : GalErr (galRc e) := by subst h; exact Or.inr rfl

/-- 1046 without the final padding skip -/
def decode1046' : Dec KepEph := do
  let n ← getU 12
  guard (n = 1046) .typeMismatch
  let c ← mapErr galRc decodeGalCommon
  let tgd0 ← getS 10
  let tgd1 ← getS 10
  let h ← getS 6
  pure { c with tgd0, tgd1, healthBits := u8 h }
/-- 1045 without the final padding skip -/
def decode1045' : Dec KepEph := do
  let n ← getU 12
  guard (n = 1045) .typeMismatch
  let c ← mapErr galRc decodeGalCommon
  let tgd0 ← getS 10
  let h ← getS 3
  pure { c with tgd0, tgd1 := 0, healthBits := u8 h }

theorem strict1046' : StrictE GalErr decode1046' := by
  unfold decode1046'
  refine StrictE.bind (StrictE.getU _) fun _ => StrictE.bind (StrictE.guard _ _) fun _ =>
    StrictE.bind (StrictE.mapErr strictGalCommon gal_err) fun _ => ?_
  strict
theorem strict1045' : StrictE GalErr decode1045' := by
  unfold decode1045'
  refine StrictE.bind (StrictE.getU _) fun _ => StrictE.bind (StrictE.guard _ _) fun _ =>
    StrictE.bind (StrictE.mapErr strictGalCommon gal_err) fun _ => ?_
  strict

/-- same result, whatever is left of the stream -/
def SameFst {α} (d d' : Dec α) : Prop := ∀ s, (d s).1 = (d' s).1
theorem SameFst.bind {α β} (d : Dec α) {f g : α → Dec β} (h : ∀ a, SameFst (f a) (g a)) : SameFst (d >>= f) (d >>= g) := by
  intro s
  rw [Dec.bind_def, Dec.bind_def]
  split
  · exact h _ _
  · rfl
theorem SameFst.map {α β} {d d' : Dec α} (g : α → β) (h : SameFst d d') :
    SameFst (d >>= fun a => pure (g a)) (d' >>= fun a => pure (g a)) := by
  intro s
  have := h s
  rw [Dec.bind_def, Dec.bind_def]
  rcases hx : d s with ⟨_ | _, _⟩ <;> rcases hy : d' s with ⟨_ | _, _⟩ <;> rw [hx, hy] at this <;> simp_all [Dec.pure_def]

theorem eq1046 : SameFst decode1046 decode1046' := by
  unfold decode1046 decode1046'
  exact SameFst.bind _ fun _ => SameFst.bind _ fun _ => SameFst.bind _ fun _ => SameFst.bind _ fun _ => SameFst.bind _ fun _ =>
    SameFst.bind _ fun _ s => rfl
theorem eq1045 : SameFst decode1045 decode1045' := by
  unfold decode1045 decode1045'
  exact SameFst.bind _ fun _ => SameFst.bind _ fun _ => SameFst.bind _ fun _ => SameFst.bind _ fun _ => SameFst.bind _ fun _ s => rfl

/-- the additional data without the final skip -/
def decodeGloAdditional' (flag : Nat) : Dec Nat :=
  if flag ≠ 0 then do
    skip 11
    skip 32
    skip 5
    skip 22
    getU 1
  else pure 0
theorem eqGloAdd (f : Nat) : SameFst (decodeGloAdditional f) (decodeGloAdditional' f) := by
  unfold decodeGloAdditional decodeGloAdditional'
  split
  · refine SameFst.bind _ fun _ => SameFst.bind _ fun _ => SameFst.bind _ fun _ => SameFst.bind _ fun _ => ?_
    intro s
    rw [Dec.bind_def]
    rcases hx : getU 1 s with ⟨_ | _, _⟩ <;> rfl
  · intro s; rfl

/-- 1020 with the trailing part as an argument -/
def decode1020With (add : Nat → Dec Nat) : Dec GloEph := do
  let n ← getU 12
  guard (n = 1020) .typeMismatch
  let satId ← getU 6
  let fcn ← getU 5
  skip 1
  skip 1
  let fitInterval ← getU 2
  skip 12
  let bnMsb ← getU 1
  skip 1
  let tB ← getU 7
  let vel0 ← getSM 24
  let pos0 ← getSM 27
  let acc0 ← getSM 5
  let vel1 ← getSM 24
  let pos1 ← getSM 27
  let acc1 ← getSM 5
  let vel2 ← getSM 24
  let pos2 ← getSM 27
  let acc2 ← getSM 5
  skip 1
  let gamma ← getSM 11
  skip 2
  let mln3 ← getU 1
  let tau ← getSM 22
  let dTau ← getSM 5
  skip 5
  skip 1
  let ura ← getU 4
  skip 11
  skip 2
  let additional ← getU 1
  let mln5 ← add additional
  pure { satId, fcn, fitInterval, healthBits := bnMsb ||| mln3 ||| mln5, tB, vel0, pos0, acc0, vel1, pos1, acc1,
         vel2, pos2, acc2, gamma, tau, dTau, ura }
theorem decode1020_eq : decode1020 = decode1020With decodeGloAdditional := rfl
theorem eq1020 : SameFst decode1020 (decode1020With decodeGloAdditional') := by
  rw [decode1020_eq]
  unfold decode1020With
  repeat (refine SameFst.bind _ fun _ => ?_)
  exact SameFst.map _ (eqGloAdd _)

theorem failsEmpty_getSM_bind {β} {n : Nat} {f : Int → Dec β} : FailsEmpty (· = .invalid) (getSM n >>= f) := by
  refine ⟨_, rfl, ?_⟩
  simp [Dec.bind_def, getSM, getS]
theorem strict_getSM (n : Nat) : Strict (getSM n) := by unfold getSM; strict

theorem strictGloAdd (f : Nat) : Strict (decodeGloAdditional' f) := by
  unfold decodeGloAdditional'
  refine StrictE.ite ?_ (StrictE.pure _)
  have f1 : FailsEmpty (· = RC.invalid) (getU 1) := failsEmpty_getU (by decide)
  have f2 := FailsEmpty.skip_bind (n := 22) (f := fun _ => getU 1) f1
  have f3 := FailsEmpty.skip_bind (n := 5) (f := fun _ => skip 22 >>= fun _ => getU 1) f2
  have f4 := FailsEmpty.skip_bind (n := 32) (f := fun _ => skip 5 >>= fun _ => skip 22 >>= fun _ => getU 1) f3
  exact StrictE.skip_bind (StrictE.skip_bind (StrictE.skip_bind (StrictE.skip_bind (StrictE.getU 1) f1) f2) f3) f4

theorem strict1020' : Strict (decode1020With decodeGloAdditional') := by
  unfold decode1020With
  repeat' first
    | exact StrictE.pure _
    | refine StrictE.bind (StrictE.getU _) fun _ => ?_
    | refine StrictE.bind (strict_getSM _) fun _ => ?_
    | refine StrictE.bind (strictGloAdd _) fun _ => ?_
    | refine StrictE.bind (StrictE.guard _ _) fun _ => ?_
    | refine StrictE.skip_bind ?_ (by first
        | exact FailsEmpty.getU_bind (by decide) | exact failsEmpty_getSM_bind
        | exact FailsEmpty.skip_bind (FailsEmpty.getU_bind (by decide)))

/-! ### Theorems -/

theorem good_of {α} (num : Nat) (f : Nat → Unit → Dec α)
    (hs : TruncationSafe (getU 12 >>= fun n => Dec.guard (n = num) .typeMismatch >>= f n)) :
    Good (getU 12 >>= fun n => Dec.guard (n = num) .typeMismatch >>= f n) num :=
  ⟨only_bind (· = num) f, rejects_bind (· = num) f, hs⟩

/-- **C14** Station and text messages. -/
theorem C14_station : Good decode1005 1005 ∧ Good decode1007 1007 ∧ Good decode1008 1008 ∧ Good decode1029 1029 ∧
    Good decode1033 1033 ∧ Good decode1230 1230 ∧ Good decode4062 4062 :=
  ⟨good_of _ _ (truncSafe_of_strict strict1005), good_of _ _ (truncSafe_of_strict strict1007),
   good_of _ _ (truncSafe_of_strict strict1008), good_of _ _ (truncSafe_of_strict strict1029),
   good_of _ _ (truncSafe_of_strict strict1033), good_of _ _ (truncSafe_of_strict strict1230),
   good_of _ _ (truncSafe_of_strict strict4062)⟩

/-- **C14** Ephemerides other than Galileo. -/
theorem C14_ephemeris : Good decode1019 1019 ∧ Good decode1020 1020 ∧ Good decode1042 1042 ∧ Good decode1044 1044 :=
  ⟨good_of _ _ (truncSafe_of_strict strict1019), good_of _ _ (truncSafe_congr eq1020 (truncSafe_of_strict strict1020')),
   good_of _ _ (truncSafe_of_strict strict1042), good_of _ _ (truncSafe_of_strict strict1044)⟩

/-- **C14** Galileo ephemerides: wrong types and truncated messages are refused, … -/
theorem C14_galileo_partial :
    (OnlyAccepts decode1045 (· = 1045) ∧ RejectsOthers decode1045 2 (· = 1045) ∧ TruncationSafeE GalErr decode1045) ∧
    (OnlyAccepts decode1046 (· = 1046) ∧ RejectsOthers decode1046 2 (· = 1046) ∧ TruncationSafeE GalErr decode1046) :=
  ⟨⟨only_bind _ _, rejects_bind _ _, truncSafe_congr eq1045 (truncSafe_of_strict strict1045')⟩,
   ⟨only_bind _ _, rejects_bind _ _, truncSafe_congr eq1046 (truncSafe_of_strict strict1046')⟩⟩

/-- **C14** … but, bug, a truncated one is reported with the return code 65534, which is none of the documented ones. -/
theorem C14_galileo_code_bug : decode1046.run [0x41, 0x60] = .error .code65534 ∧ decode1045.run [0x41, 0x50] = .error .code65534 := by
  decide

/-- **C14** 1006 refuses other messages, … -/
theorem C14_1006_partial : OnlyAccepts decode1006 (· = 1006) ∧ RejectsOthers decode1006 2 (· = 1006) :=
  ⟨only_bind _ _, rejects_bind _ _⟩

/-- **C14** … but, bug, accepts a message cut off after 12 of its 21 bytes: the station coordinates are never written and the
antenna height is taken from the bits of the Y coordinate. -/
theorem C14_1006_truncated_bug :
    ∃ h, decode1006.run [0x3E, 0xE0, 0x01, 0, 0, 0, 0, 0, 0, 0, 0, 0xFF] = .ok (none, h) := ⟨_, rfl⟩

theorem getU_total {n : Nat} {s : List Bool} (h : n ≤ s.length) : getU n s = (.ok (ofBits (s.take n)), s.drop n) := by
  unfold getU; rw [if_neg (by omega)]

theorem getU_bind_total {α} {n : Nat} {f : Nat → Dec α} {s : List Bool} (h : n ≤ s.length) :
    (getU n >>= f) s = f (ofBits (s.take n)) (s.drop n) := by
  rw [Dec.bind_def, getU_total h]

/-- **C14** Legacy observations: the type is checked after the 8 byte header has been read. -/
theorem C14_legacy (k : Obs.Kind) :
    OnlyAccepts (Obs.decode k) (· = k.num) ∧ RejectsOthers (Obs.decode k) 8 (· = k.num) ∧ TruncationSafe (Obs.decode k) := by
  have hdr : ∀ p : Buf, ∀ hd s, Obs.readHeader k (bitsOf p) = (.ok hd, s) → hd.msgNum = msgNum p := by
    intro p hd s h
    unfold Obs.readHeader at h
    obtain ⟨n, s1, h1, h⟩ := bind_ok h
    have hl := (getU_ok h1).2
    rw [bitsOf_length] at hl
    rw [getU12_msgNum p (by omega)] at h1
    simp only [Prod.mk.injEq, Except.ok.injEq] at h1
    obtain ⟨rfl, rfl⟩ := h1
    obtain ⟨_, _, _, h⟩ := bind_ok h
    obtain ⟨_, _, _, h⟩ := bind_ok h
    obtain ⟨_, _, _, h⟩ := bind_ok h
    obtain ⟨_, _, _, h⟩ := bind_ok h
    obtain ⟨_, _, _, h⟩ := bind_ok h
    obtain ⟨_, _, _, h⟩ := bind_ok h
    rw [Dec.pure_def] at h
    simp only [Prod.mk.injEq, Except.ok.injEq] at h
    rw [← h.1]
  have tot : ∀ p : Buf, 8 ≤ p.length → ∃ hd s, Obs.readHeader k (bitsOf p) = (.ok hd, s) := by
    intro p hp
    have hl : 64 ≤ (bitsOf p).length := by rw [bitsOf_length]; omega
    unfold Obs.readHeader
    have h30 : (if k.glo = true then 27 else 30) ≤ 30 := by split <;> omega
    generalize (if k.glo = true then 27 else 30) = w at h30 ⊢
    rw [getU_bind_total (by omega), getU_bind_total (by simp; omega), getU_bind_total (by simp; omega),
      getU_bind_total (by simp; omega), getU_bind_total (by simp; omega), getU_bind_total (by simp; omega),
      getU_bind_total (by simp; omega)]
    exact ⟨_, _, rfl⟩
  refine ⟨?_, ?_, truncSafe_of_strict (strictLegacy k)⟩
  · intro p a h
    obtain ⟨r, hr⟩ := run_ok h
    unfold Obs.decode at hr
    obtain ⟨hd, s1, h1, hr⟩ := bind_ok hr
    rw [← hdr p hd s1 h1]
    exact (guard_ok hr).1
  · intro p hp hm
    obtain ⟨hd, s, h1⟩ := tot p hp
    unfold Dec.run Obs.decode
    rw [Dec.bind_def, h1]
    show ((Dec.guard (hd.msgNum = k.num) .typeMismatch >>= _) s).1 = _
    rw [Dec.bind_def]
    unfold Dec.guard
    rw [hdr p hd s h1, if_neg hm]; rfl

/-- the MSM message numbers of one type -/
def MsmNum (t : Nat) (n : Nat) : Prop := ∃ base ∈ [1070, 1080, 1090, 1100, 1110, 1120], n = base + t

theorem msgNum_lt (p : Buf) : msgNum p < 4096 := by
  unfold msgNum
  have h1 := (p.getD 0 0).isLt
  have h2 := (p.getD 1 0).isLt
  omega

/-- **C14** MSM4, MSM5, MSM6, MSM7. -/
theorem C14_msm (ty : Msm.MsmType) (t : Nat) (ht : (t, ty) ∈ [(4, Msm.MsmType.msm4), (5, .msm5), (6, .msm6), (7, .msm7)]) :
    OnlyAccepts (Msm.decodeMsm ty) (MsmNum t) ∧ RejectsOthers (Msm.decodeMsm ty) 2 (MsmNum t) ∧ TruncationSafe (Msm.decodeMsm ty) := by
  have num : ∀ n, (MsmNum t n ↔ Msm.toMsmType n = ty ∧ (Msm.toConstellation n).isSome) := by
    intro n
    constructor
    · rintro ⟨b, hb, rfl⟩
      simp only [List.mem_cons, List.mem_nil_iff, or_false, Prod.mk.injEq] at hb ht
      rcases ht with ⟨rfl, rfl⟩ | ⟨rfl, rfl⟩ | ⟨rfl, rfl⟩ | ⟨rfl, rfl⟩ <;>
      rcases hb with rfl | rfl | rfl | rfl | rfl | rfl <;> decide
    · rintro ⟨h1, _⟩
      have hr : 1071 ≤ n ∧ n ≤ 1127 ∧ n % 10 = t := by
        unfold Msm.toMsmType at h1
        simp only [List.mem_cons, List.mem_nil_iff, or_false, Prod.mk.injEq] at ht
        split at h1
        · rcases ht with ⟨rfl, rfl⟩ | ⟨rfl, rfl⟩ | ⟨rfl, rfl⟩ | ⟨rfl, rfl⟩ <;> cases h1
        · refine ⟨by omega, by omega, ?_⟩
          split at h1 <;> rcases ht with ⟨rfl, rfl⟩ | ⟨rfl, rfl⟩ | ⟨rfl, rfl⟩ | ⟨rfl, rfl⟩ <;> first | assumption | cases h1
      refine ⟨n - t, ?_, by omega⟩
      simp only [List.mem_cons, List.mem_nil_iff, or_false, Prod.mk.injEq] at ht ⊢
      omega
  have hty : ty = .msm4 ∨ ty = .msm5 ∨ ty = .msm6 ∨ ty = .msm7 := by
    simp only [List.mem_cons, List.mem_nil_iff, or_false, Prod.mk.injEq] at ht
    rcases ht with h | h | h | h <;> simp [h.2]
  refine ⟨?_, ?_, truncSafe_of_strict (strictMsm ty)⟩
  · intro p a h
    rw [num]
    obtain ⟨r, hr⟩ := run_ok h
    unfold Msm.decodeMsm at hr
    obtain ⟨_, hr⟩ := guard_ok hr
    obtain ⟨n, s, h1, hr⟩ := bind_ok hr
    have hl := (getU_ok h1).2
    rw [bitsOf_length] at hl
    rw [getU12_msgNum p (by omega)] at h1
    simp only [Prod.mk.injEq, Except.ok.injEq] at h1
    obtain ⟨rfl, rfl⟩ := h1
    obtain ⟨ht, hr⟩ := guard_ok hr
    refine ⟨ht, ?_⟩
    cases h : Msm.toConstellation (msgNum p) with
    | none => rw [h] at hr; simp [Dec.fail] at hr
    | some c => rfl
  · intro p hp hm
    rw [num] at hm
    unfold Dec.run Msm.decodeMsm
    rw [Dec.bind_def]
    unfold Dec.guard
    rw [if_pos hty]
    show ((getU 12 >>= _) (bitsOf p)).1 = _
    rw [Dec.bind_def, getU12_msgNum p hp]
    by_cases h1 : Msm.toMsmType (msgNum p) = ty
    · have h2 : Msm.toConstellation (msgNum p) = none := by
        cases h : Msm.toConstellation (msgNum p) with
        | none => rfl
        | some c => exact absurd ⟨h1, by rw [h]; rfl⟩ hm
      simp only [h1, h2, if_true]
      rfl
    · simp only [if_neg h1]
      rfl

/-! ### SSR -/

theorem ssr_header_num {p : Buf} {h : Ssr.Header} {s : List Bool} (hr : Ssr.readHeader (bitsOf p) = (.ok h, s)) :
    h.msgNum = msgNum p := by
  unfold Ssr.readHeader at hr
  obtain ⟨n, s1, h1, hr⟩ := bind_ok hr
  have hl := (getU_ok h1).2
  rw [bitsOf_length] at hl
  rw [getU12_msgNum p (by omega)] at h1
  simp only [Prod.mk.injEq, Except.ok.injEq] at h1
  obtain ⟨rfl, rfl⟩ := h1
  cases hc : Msm.toConstellation (msgNum p) with
  | none => rw [hc] at hr; simp [Dec.fail] at hr
  | some c =>
    rw [hc] at hr
    simp only at hr
    obtain ⟨_, _, _, hr⟩ := bind_ok hr
    obtain ⟨_, _, _, hr⟩ := bind_ok hr
    obtain ⟨_, _, _, hr⟩ := bind_ok hr
    cases h1 : Ssr.isOrbitClock (msgNum p) <;> cases h2 : Ssr.isPhaseBias (msgNum p) <;>
    · rw [h1, h2] at hr
      simp only [if_true, if_false, Bool.false_eq_true] at hr
      iterate 7 obtain ⟨_, _, _, hr⟩ := bind_ok hr
      rw [Dec.pure_def] at hr
      simp only [Prod.mk.injEq, Except.ok.injEq] at hr
      rw [← hr.1]

theorem pure_bind_def {α β} (a : α) (f : α → Dec β) (s : List Bool) : ((pure a : Dec α) >>= f) s = f a s := rfl

theorem ssr_header_total {p : Buf} (hp : 9 ≤ p.length) (hc : (Msm.toConstellation (msgNum p)).isSome) :
    ∃ h s, Ssr.readHeader (bitsOf p) = (.ok h, s) := by
  unfold Ssr.readHeader
  rw [Dec.bind_def, getU12_msgNum p (by omega)]
  obtain ⟨c, hc⟩ := Option.isSome_iff_exists.mp hc
  simp only [hc]
  have he : Ssr.epochBits c ≤ 20 := by cases c <;> decide
  have hl : 72 ≤ (bitsOf p).length := by rw [bitsOf_length]; omega
  generalize Ssr.epochBits c = w at he ⊢
  rw [getU_bind_total (by simp; omega), getU_bind_total (by simp; omega), getU_bind_total (by simp; omega)]
  cases h1 : Ssr.isOrbitClock (msgNum p) <;> cases h2 : Ssr.isPhaseBias (msgNum p) <;>
  · simp only [if_true, if_false, Bool.false_eq_true]
    repeat first | rw [getU_bind_total (by simp only [List.length_drop]; omega)] | rw [pure_bind_def]
    exact ⟨_, _, rfl⟩

/-- the shape of the SSR decoders -/
theorem ssr_types {α} (mine : Nat → Bool) (f : Ssr.Header → Unit → Dec α) :
    OnlyAccepts (Ssr.readHeader >>= fun h => Dec.guard (mine h.msgNum = true) .typeMismatch >>= f h) (fun n => mine n = true) ∧
    ∀ p : Buf, 9 ≤ p.length → (Msm.toConstellation (msgNum p)).isSome → mine (msgNum p) = false →
      (Ssr.readHeader >>= fun h => Dec.guard (mine h.msgNum = true) .typeMismatch >>= f h).run p = .error .typeMismatch := by
  refine ⟨?_, ?_⟩
  · intro p a h
    obtain ⟨r, hr⟩ := run_ok h
    obtain ⟨hd, s1, h1, hr⟩ := bind_ok hr
    rw [← ssr_header_num h1]
    exact (guard_ok hr).1
  · intro p hp hc hm
    obtain ⟨hd, s, h1⟩ := ssr_header_total hp hc
    unfold Dec.run
    rw [Dec.bind_def, h1]
    show ((Dec.guard (mine hd.msgNum = true) .typeMismatch >>= _) s).1 = _
    rw [Dec.bind_def, ssr_header_num h1, hm]
    rfl

/-- the numbers a constellation is assigned to: the SSR and MSM messages -/
def SsrOrMsm (n : Nat) : Prop := (Msm.toConstellation n).isSome

/-- **C14** The five SSR decoders accept only their own message numbers, and report a type mismatch for the other SSR messages. -/
theorem C14_ssr_types :
    (OnlyAccepts Ssr.decodeOrbit (· ∈ [1057, 1063, 1240, 1246, 1258])) ∧
    (OnlyAccepts Ssr.decodeClock (· ∈ [1058, 1064, 1241, 1247, 1259])) ∧
    (OnlyAccepts Ssr.decodeCodeBias (· ∈ [1059, 1065, 1242, 1248, 1260])) ∧
    (OnlyAccepts Ssr.decodePhaseBias (fun n => 1265 ≤ n ∧ n ≤ 1270)) ∧
    (∀ p : Buf, 9 ≤ p.length → SsrOrMsm (msgNum p) →
      (msgNum p ∉ [1057, 1063, 1240, 1246, 1258] → Ssr.decodeOrbit.run p = .error .typeMismatch) ∧
      (msgNum p ∉ [1058, 1064, 1241, 1247, 1259] → Ssr.decodeClock.run p = .error .typeMismatch) ∧
      (msgNum p ∉ [1059, 1065, 1242, 1248, 1260] → Ssr.decodeCodeBias.run p = .error .typeMismatch) ∧
      (¬ (1265 ≤ msgNum p ∧ msgNum p ≤ 1270) → Ssr.decodePhaseBias.run p = .error .typeMismatch)) := by
  refine ⟨?_, ?_, ?_, ?_, ?_⟩
  · intro p a h; simpa [Ssr.isOrbit] using (ssr_types Ssr.isOrbit _).1 p a h
  · intro p a h; simpa [Ssr.isClock] using (ssr_types Ssr.isClock _).1 p a h
  · intro p a h; simpa [Ssr.isCodeBias] using (ssr_types Ssr.isCodeBias _).1 p a h
  · intro p a h; simpa [Ssr.isPhaseBias] using (ssr_types Ssr.isPhaseBias _).1 p a h
  · intro p hp hc
    refine ⟨fun h => (ssr_types Ssr.isOrbit _).2 p hp hc (by simpa [Ssr.isOrbit] using h),
      fun h => (ssr_types Ssr.isClock _).2 p hp hc (by simpa [Ssr.isClock] using h),
      fun h => (ssr_types Ssr.isCodeBias _).2 p hp hc (by simpa [Ssr.isCodeBias] using h),
      fun h => (ssr_types Ssr.isPhaseBias _).2 p hp hc (by simpa [Ssr.isPhaseBias] using h)⟩

/-- **C14** Orbit, code bias and phase bias decoders refuse truncated messages. -/
theorem C14_ssr_truncation_partial :
    TruncationSafe Ssr.decodeOrbit ∧ TruncationSafe Ssr.decodeCodeBias ∧ TruncationSafe Ssr.decodePhaseBias :=
  ⟨truncSafe_of_strict strictOrbit, truncSafe_of_strict strictCodeBias, truncSafe_of_strict strictPhaseBias⟩

/-- **C14** Bug: the clock decoder accepts a message that ends before the clock corrections it announces. -/
theorem C14_ssr_clock_truncated_bug :
    ∃ h, Ssr.decodeClock.run (payloadOf (encodeWr [.u 12 1058, .u 20 0, .u 4 0, .u 1 0, .u 4 0, .u 16 0, .u 4 0, .u 6 1, .u 6 5]
      (List.replicate 10 0))) = .ok (h, [(5, none)]) ∧ h.numSats = 1 := by
  refine ⟨⟨1058, .gps, 0, 0, 0, 0, 0, 0, 0, 0, 0, 1⟩, ?_, rfl⟩
  decide +kernel

/-- **C14** Bug: the combined orbit/clock decoder accepts the orbit-only message 1057 and reports success without any clock
correction. -/
theorem C14_orbit_as_orbit_clock_bug :
    ∃ h o, Ssr.decodeOrbitClock.run (payloadOf (encodeWr [.u 12 1057, .u 20 0, .u 4 0, .u 1 0, .u 1 0, .u 4 0, .u 16 0, .u 4 0,
      .u 6 1, .u 6 5, .u 8 77, .u 22 1, .u 20 2, .u 20 3, .u 21 4, .u 19 5, .u 19 6] (List.replicate 26 0))) = .ok (h, [(o, none)]) ∧
      h.msgNum = 1057 := by
  refine ⟨⟨1057, .gps, 0, 0, 0, 0, 0, 0, 0, 0, 0, 1⟩, ⟨5, 77, 0, 1, 2, 3, 4, 5, 6⟩, ?_, rfl⟩
  decide +kernel

/-! ### Minimal sizes -/

/-- a successful run takes at least `n` bits -/
def Takes {α} (d : Dec α) (n : Nat) : Prop := ∀ s a r, d s = (.ok a, r) → r.length + n ≤ s.length
theorem Takes.pure {α} (a : α) : Takes (Pure.pure a : Dec α) 0 := by
  intro s b r h; rw [Dec.pure_def] at h; simp at h; simp [h.2]
theorem Takes.getU (n : Nat) : Takes (Dec.getU n) n := by
  intro s a r h
  unfold Dec.getU at h
  split at h
  · simp at h
  · simp only [Prod.mk.injEq] at h; rw [← h.2, List.length_drop]; omega
theorem Takes.getS (n : Nat) : Takes (Dec.getS n) n := by
  intro s a r h
  unfold Dec.getS at h
  split at h
  · simp at h
  · simp only [Prod.mk.injEq] at h; rw [← h.2, List.length_drop]; omega
theorem Takes.guard (c : Prop) [Decidable c] (e : RC) : Takes (Dec.guard c e) 0 := by
  intro s a r h
  unfold Dec.guard at h
  split at h
  · rw [Dec.pure_def] at h; simp at h; simp [h]
  · simp [Dec.fail] at h
theorem Takes.bind {α β} {d : Dec α} {f : α → Dec β} {n m : Nat} (h1 : Takes d n) (h2 : ∀ a, Takes (f a) m) :
    Takes (d >>= f) (n + m) := by
  intro s b r h
  obtain ⟨a, s', h3, h4⟩ := bind_ok h
  have := h1 _ _ _ h3
  have := h2 _ _ _ _ h4
  omega
theorem Takes.skip_bind {β} {f : Unit → Dec β} {k m : Nat} (hm : 0 < m) (h2 : Takes (f ()) m) :
    Takes (Dec.skip k >>= f) (k + m) := by
  intro s b r h
  have := h2 (s.drop k) b r h
  rw [List.length_drop] at this
  omega
theorem Takes.mapErr {α} {d : Dec α} {g : RC → RC} {n : Nat} (h : Takes d n) : Takes (Dec.mapErr g d) n := by
  intro s a r hs
  unfold Dec.mapErr at hs
  split at hs
  · next h1 => simp only [Prod.mk.injEq, Except.ok.injEq] at hs; rw [← hs.2]; exact h _ _ _ h1
  · simp at hs
theorem Takes.run {α} {d : Dec α} {n : Nat} (h : Takes d n) {p : Buf} {a : α} (hr : d.run p = .ok a) : n ≤ 8 * p.length := by
  obtain ⟨r, hr⟩ := run_ok hr
  have := h _ _ _ hr
  rw [bitsOf_length] at this
  omega

theorem Takes.bind' {α β} {d : Dec α} {f : α → Dec β} (n : Nat) {t : Nat} (h1 : Takes d n) (hn : n ≤ t)
    (h2 : ∀ a, Takes (f a) (t - n)) : Takes (d >>= f) t := by
  have := Takes.bind h1 h2
  rwa [show n + (t - n) = t by omega] at this
theorem Takes.skip_bind' {β} {f : Unit → Dec β} {k t : Nat} (hm : k < t) (h2 : Takes (f ()) (t - k)) :
    Takes (Dec.skip k >>= f) t := by
  have := Takes.skip_bind (k := k) (by omega) h2
  rwa [show k + (t - k) = t by omega] at this
theorem Takes.pure' {α} {t : Nat} (a : α) (h : t = 0) : Takes (Pure.pure a : Dec α) t := h ▸ Takes.pure a

macro "takes_all" : tactic => `(tactic| repeat first
  | exact Takes.pure' _ rfl
  | refine Takes.bind' _ (Takes.getU _) (by decide) fun _ => ?_
  | refine Takes.bind' _ (Takes.getS _) (by decide) fun _ => ?_
  | refine Takes.bind' _ (Takes.guard _ _) (by decide) fun _ => ?_
  | refine Takes.skip_bind' (by decide) ?_)

theorem takes1005 : Takes decode1005 152 := by unfold decode1005 decode1005Base; takes_all
theorem takes1019 : Takes decode1019 488 := by unfold decode1019; takes_all
theorem takes1042 : Takes decode1042 511 := by unfold decode1042; takes_all
theorem takes1044 : Takes decode1044 485 := by unfold decode1044; takes_all
theorem takesGal : Takes decodeGalCommon 464 := by unfold decodeGalCommon; takes_all
theorem takes1045 : Takes decode1045' 489 := by
  unfold decode1045'
  takes_all
  refine Takes.bind' _ (Takes.mapErr takesGal) (by decide) fun _ => ?_
  takes_all
theorem takes1046 : Takes decode1046' 502 := by
  unfold decode1046'
  takes_all
  refine Takes.bind' _ (Takes.mapErr takesGal) (by decide) fun _ => ?_
  takes_all

/-- **C14** In particular no values are ever delivered from a fixed-length message that is shorter than its standard length
(1005: 152 bits, 1019: 488, 1042: 511, 1044: 485, 1045 and 1046 without their padding: 489 and 502 bits). -/
theorem C14_minimal_size (p : Buf) :
    ((decode1005.run p).isOk → 19 ≤ p.length) ∧ ((decode1019.run p).isOk → 61 ≤ p.length) ∧
    ((decode1042.run p).isOk → 64 ≤ p.length) ∧ ((decode1044.run p).isOk → 61 ≤ p.length) ∧
    ((decode1045.run p).isOk → 62 ≤ p.length) ∧ ((decode1046.run p).isOk → 63 ≤ p.length) := by
  have key : ∀ {α} {d : Dec α} {n : Nat}, Takes d n → (d.run p).isOk → n ≤ 8 * p.length := by
    intro α d n h hr
    cases hx : d.run p with
    | error e => rw [hx] at hr; cases hr
    | ok a => exact h.run hx
  refine ⟨fun h => ?_, fun h => ?_, fun h => ?_, fun h => ?_, fun h => ?_, fun h => ?_⟩
  · have := key takes1005 h; omega
  · have := key takes1019 h; omega
  · have := key takes1042 h; omega
  · have := key takes1044 h; omega
  · have := key takes1045 (by rw [← show decode1045.run p = decode1045'.run p from eq1045 _]; exact h); omega
  · have := key takes1046 (by rw [← show decode1046.run p = decode1046'.run p from eq1046 _]; exact h); omega

/-- **C14** A 4062 message whose four reserved bits (bits 12..15) are not zero is never accepted. -/
theorem C14_4062_reserved (p : Buf) (h : ofBits (((bitsOf p).drop 12).take 4) ≠ 0) : ¬ (decode4062.run p).isOk := by
  intro hr
  cases hx : decode4062.run p with
  | error e => rw [hx] at hr; cases hr
  | ok a =>
    obtain ⟨r, hd⟩ := run_ok hx
    unfold decode4062 at hd
    obtain ⟨n, s1, h1, hd⟩ := bind_ok hd
    obtain ⟨-, hd⟩ := guard_ok hd
    obtain ⟨v, s2, h2, hd⟩ := bind_ok hd
    obtain ⟨hg, -⟩ := guard_ok hd
    unfold Dec.getU at h1 h2
    split at h1
    · simp at h1
    split at h2
    · simp at h2
    simp only [Prod.mk.injEq, Except.ok.injEq] at h1 h2
    rw [← h1.2] at h2
    exact hg (by rw [← h2.1]; exact h)

/-- accepted payloads exist: a 1005, a 1004 without satellites, an SSR orbit message without satellites -/
example : (decode1005.run (0x3E :: 0xD0 :: List.replicate 17 0)).isOk = true ∧
    ((Obs.decode .m1004).run [0x3E, 0xC0, 0, 0, 0, 0, 0, 0]).isOk = true ∧
    (Ssr.decodeOrbit.run [0x42, 0x10, 0, 0, 0, 0, 0, 0, 0]).isOk = true := by decide +kernel

end Verif.Decoders
