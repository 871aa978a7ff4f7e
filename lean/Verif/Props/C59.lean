import Verif.Props.C47
import Verif.Props.C60
import Verif.Props.C61
import Verif.Props.C62
import Verif.Props.C63
/-! C59: the NovAtel converter as a whole, from the bytes read to the SBP messages sent. -/
namespace Verif.Nov
open Verif.Nov.Spec
open Verif.Ubx (Fl dbl flt)
open Verif.Ixcom (Rd)
open Verif.Spec (Occur)

/-- **C59 (soundness).**  Whatever is read, and however it is cut up: the SBP messages are the answers, one after another, to logs that occur in
this order and without overlap in the bytes read, with correct CRCs.  The program is alive at the end exactly when all of them are answered, and
otherwise the first one that is not answered made it abort. -/
theorem C59_sound (L : Lib) (n : Nat) (src : List Rd) :
    ∃ fs ms replies, List.Forall₂ (fun f m => IsFrame f ∧ Says f m) fs ms ∧ Occur fs (dataOf src) ∧ Answers L ms replies ∧
      (nov2sbp L n src).1 = replies.flatten ∧ ((nov2sbp L n src).2 = true ↔ replies.length = ms.length) ∧
      ∀ m, ms[replies.length]? = some m → sentFor L (ms.take replies.length) m = none := by
  obtain ⟨fs, h1, h2⟩ := C47_sound n src
  obtain ⟨rs, g1, g2, g3, g4, g5⟩ := convertAll_spec L (run n [] src).1 [] {} rfl
  exact ⟨fs, _, rs, h1.imp fun f m h => ⟨h.1, h.2.2⟩, h2, ⟨g2, by simpa using g3⟩, g1, g4, by simpa using g5⟩

/-- a log that can be converted is answered -/
theorem convertible_alive {L : Lib} (hL : SaneTrig L) {before : List Msg} (ha : (stateAfter L before).isSome) {f : List (BitVec 8)} {m : Msg}
    (hf : Says f m) (h : Convertible m) : (sentFor L before m).isSome := by
  unfold Convertible at h
  rcases hb : m.body with b | b | b | b | b | b | b | _ <;> rw [hb] at h
  case gpsephem =>
    obtain ⟨h1, h2, ⟨x, hx, hx0⟩, ⟨y, hy, hy0⟩⟩ := h
    obtain ⟨e, he, _⟩ := C63_ephemeris_partial ha hb h1 h2 hx hx0 hy hy0
    rw [he]; rfl
  case bestpos =>
    obtain ⟨x, hx, hx0⟩ := h b.lat_stddev (by simp)
    obtain ⟨y, hy, hy0⟩ := h b.lon_stddev (by simp)
    obtain ⟨z, hz, hz0⟩ := h b.hgt_stddev (by simp)
    obtain ⟨e, he, _⟩ := C60_position_partial ha hb hx hy hz hx0 hy0 hz0
    rw [he]; rfl
  case bestvel =>
    obtain ⟨⟨x, hx, hx0⟩, ⟨y, hy, hy0⟩, z, hz, hz0⟩ := h
    obtain ⟨e, he, _⟩ := C60_velocity hL ha hb hx hy hz hx0 hy0 hz0
    rw [he]; rfl
  case rangecmp =>
    obtain ⟨h1, h2⟩ := C61_range hf hb
    obtain ⟨e, he, _⟩ := C61_obs_partial ha hb h.1 h1 h2 h.2
    rw [he]; rfl
  case insatt =>
    obtain ⟨x, hx, hx0⟩ := h b.roll (by simp)
    obtain ⟨y, hy, hy0⟩ := h b.pitch (by simp)
    obtain ⟨z, hz, hz0⟩ := h b.azimuth (by simp)
    obtain ⟨e, he, _⟩ := C60_attitude ha hb hx hy hz hx0 hy0 hz0
    rw [he]; rfl
  case rawimusx => exact imu_alive ha hb h
  case gloephemeris => rw [(C63_ignored ha (.inr ⟨b, hb⟩)).1]; rfl
  case other => rw [(C63_ignored ha (.inl hb)).1]; rfl

theorem convertAll_append (L : Lib) (ms' : List Msg) : ∀ (ms before : List Msg) (st : St), stateAfter L before = some st →
    (∀ (k : Nat) (m : Msg), ms[k]? = some m → (stateAfter L (before ++ ms.take k)).isSome → (sentFor L (before ++ ms.take k) m).isSome) →
    ∃ (replies : List (List Out)) (tail : List Out), (convertAll L st (ms ++ ms')).1 = replies.flatten ++ tail ∧ replies.length = ms.length ∧
      ∀ (k : Nat) (os : List Out), replies[k]? = some os → ∃ m, ms[k]? = some m ∧ sentFor L (before ++ ms.take k) m = some os
  | [], before, st, h, _ => ⟨[], _, rfl, rfl, fun k os h => by cases h⟩
  | m :: ms, before, st, h, hall => by
    have h1 := hall 0 m rfl (by simp [h])
    rw [List.take_zero, List.append_nil, sentFor_eq h] at h1
    rcases hc : convert L st m with _ | ⟨st', os⟩
    · rw [hc] at h1; cases h1
    have hs : sentFor L before m = some os := by rw [sentFor_eq h, hc]; rfl
    have h' : stateAfter L (before ++ [m]) = some st' := by
      rw [stateAfter_snoc, h]; simp [hc]
    obtain ⟨rs, tail, g1, g2, g3⟩ := convertAll_append L ms' ms (before ++ [m]) st' h' (fun k m' hk => by simpa using hall (k + 1) m' (by simpa using hk))
    refine ⟨os :: rs, tail, ?_, by simp [g2], ?_⟩
    · rw [List.cons_append, convertAll, hc]
      simp only [g1, List.flatten_cons, List.append_assoc]
    · intro k os' hk
      cases k with
      | zero =>
        obtain rfl := Option.some.inj hk
        exact ⟨m, rfl, by simpa using hs⟩
      | succ k =>
        obtain ⟨m', a, b⟩ := g3 k os' (by simpa using hk)
        exact ⟨m', by simpa using a, by simpa using b⟩

theorem forall2_get {α β : Type} {r : α → β → Prop} {l : List α} {m : List β} (h : List.Forall₂ r l m) :
    ∀ (k : Nat) (b : β), m[k]? = some b → ∃ a ∈ l, r a b := by
  induction h with
  | nil => intro k b h; cases h
  | cons h _ ih =>
    intro k b hk
    cases k with
    | zero => obtain rfl := Option.some.inj hk; exact ⟨_, List.mem_cons_self, h⟩
    | succ k =>
      obtain ⟨a, h1, h2⟩ := ih k b (by simpa using hk)
      exact ⟨a, List.mem_cons_of_mem _ h1, h2⟩

/-- **C59 (completeness).**  The logs in a file are all answered, in order, each after those before it, if at least 4096 bytes follow and their
values are such that the program survives them.  Missing: the end of the file (`C47_tail_bug`), logs that are 4096 bytes long or longer
(`C47_full_bug`), reads that return less than what was asked for (`C47_split_bug`), and the values of `C60_accuracy_bug`, `C60_nan_bug`,
`C61_empty_bug`, `C62_error_bug` and `C63_abort_bug`. -/
theorem C59_complete_partial {L : Lib} (hL : SaneTrig L) {fs : List (List (BitVec 8))} {x : List (BitVec 8)} (h : Interleaved fs x)
    (hall : ∀ f ∈ fs, IsFrame f ∧ Proper f ∧ f.length < 4096 ∧ ∀ m, Says f m → Convertible m) (t : List (BitVec 8)) (ht : 4096 ≤ t.length)
    {n : Nat} (hn : x.length < n) :
    ∃ ms replies tail, List.Forall₂ Says fs ms ∧ Answers L ms replies ∧ replies.length = fs.length ∧
      (nov2sbp L n [.data (x ++ t), .err 0]).1 = replies.flatten ++ tail := by
  obtain ⟨ms, ms', e, h1, h2⟩ := run_interleaved h t ht (buf := []) (rest := x ++ t) rfl (by simp)
    (fun f hf => ⟨(hall f hf).1, (hall f hf).2.1, (hall f hf).2.2.1⟩) n hn
  obtain ⟨rs, tail, g1, g2, g3⟩ := convertAll_append L ms' ms [] {} rfl (fun k m hk ha => by
    obtain ⟨f, hf, hs⟩ := forall2_get h1 k m hk
    exact convertible_alive hL ha hs ((hall f hf).2.2.2 m hs))
  refine ⟨ms, rs, tail, h1, ⟨by omega, by simpa using g3⟩, by rw [g2, h1.length_eq], ?_⟩
  unfold nov2sbp
  rw [h2]
  exact g1

/-! ### a concrete case -/

theorem exAtt_convertible {m : Msg} (h : Says exAtt m) : Convertible m := by
  obtain ⟨_, _, _, _, _, _, h⟩ := h
  have hid : msgId exAtt = 263 := by decide +kernel
  rw [hid] at h
  unfold Convertible
  rcases hb : m.body with b | b | b | b | b | b | b | _ <;> rw [hb] at h
  case insatt =>
    obtain ⟨_, _, h⟩ := h
    have key : ∀ (off v : Nat) (a : BitVec 64) (x : ℚ), (off, 8, a.toNat) ∈ Spec.insatt b → Verif.Ubx.Spec.leAt (payload exAtt) off 8 = v →
        dbl (BitVec.ofNat 64 v) = .fin x → |x| ≤ 10000 → ∃ x, dbl a = .fin x ∧ |x| ≤ 10000 := by
      intro off v a x hm hv hd hx
      have := h _ hm
      simp only [hv] at this
      refine ⟨x, ?_, hx⟩
      rw [← hd, this, BitVec.ofNat_toNat, BitVec.setWidth_eq]
    simp only [List.mem_cons, List.not_mem_nil, or_false]
    rintro a (rfl | rfl | rfl)
    · exact key 12 0x3FF8000000000000 _ (3 / 2) (by simp [Spec.insatt]) (by decide +kernel) (by decide +kernel) (by norm_num [abs_le])
    · exact key 20 0xC002000000000000 _ (-9 / 4) (by simp [Spec.insatt]) (by decide +kernel) (by decide +kernel) (by norm_num [abs_le])
    · exact key 28 0x4056800000000000 _ 90 (by simp [Spec.insatt]) (by decide +kernel) (by decide +kernel) (by norm_num [abs_le])
  case other => exact absurd (by decide : (263 : Nat) ∈ [7, 42, 99, 140, 263, 723, 1462]) h
  all_goals exact absurd h.1 (by decide)

theorem exOther_convertible {m : Msg} (h : Says exOther m) : Convertible m := by
  obtain ⟨_, _, _, _, _, _, h⟩ := h
  have hid : msgId exOther = 999 := by decide +kernel
  rw [hid] at h
  unfold Convertible
  rcases hb : m.body with b | b | b | b | b | b | b | _ <;> rw [hb] at h
  case other => trivial
  all_goals exact absurd h.1 (by decide)

/-- two logs with noise between them: both are answered, whatever follows -/
example (t : List (BitVec 8)) (ht : 4096 ≤ t.length) {n : Nat} (hn : 92 < n) :
    ∃ ms replies tail, List.Forall₂ Says [exAtt, exOther] ms ∧ Answers exTrig ms replies ∧ replies.length = 2 ∧
      (nov2sbp exTrig n [.data ((exAtt ++ 7#8 :: (exOther ++ [])) ++ t), .err 0]).1 = replies.flatten ++ tail :=
  C59_complete_partial exTrig_sane (.frame _ _ _ (.noise _ _ _ (by decide) (.frame _ _ _ .nil)))
    (by simp only [List.mem_cons, List.not_mem_nil, or_false]
        rintro f (rfl | rfl)
        · exact ⟨exAtt_frame, exAtt_proper, by decide, fun m h => exAtt_convertible h⟩
        · exact ⟨exOther_frame, exOther_proper, by decide, fun m h => exOther_convertible h⟩) t ht hn

/-- the program, run on a short file: the attitude -/
example : nov2sbp exLib 100 [.data exAtt, .err 0] =
    ([.orient { tow := 123456, roll := 1500000, pitch := -2250000, yaw := 90000000, rollAcc := 0, pitchAcc := 0, yawAcc := 0, flags := 1 }], true) := by
  decide +kernel

end Verif.Nov
