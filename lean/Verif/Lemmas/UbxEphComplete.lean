import Verif.Lemmas.UbxEphRun
/-
Lemmas for C40: completeness.
-/
set_option linter.unusedSimpArgs false
set_option linter.unusedVariables false
namespace Verif.Ubx
open Verif.Ubx.Spec

variable {E : Type}

/-- kept words of part `k` (from 0) of a history -/
def From (L : EphLib E) (A : List EphIn) (c : Con) (p k : Nat) (w : List (BitVec 32)) : Prop :=
  ∃ i, i ∈ A ∧ ∃ ws, Carries L i c p (k + 1) ws ∧ w = keep c ws

/-- what a step without emission does when all parts are good -/
def Retains (L : EphLib E) (c : Con) (p : Nat) (Good : Nat → List (BitVec 32) → Prop) (J : Sat → Prop) (U : Option (Nat × Nat) → Prop) : Prop :=
  ∀ utc f ws s s' k, U utc → J s → SatOk c s → IsPart L c p ws k → Good k (keep c ws) → satStep L utc c p f ws s = some (s', none) →
    J s' ∧ s'.mask k = true ∧ (∀ i, s.mask i = true → Good i (s.parts i) → s'.mask i = true) ∧
    ¬ ∀ i, i < partCount c → s'.mask i = true ∧ Good i (s'.parts i)

theorem collect {L : EphLib E} {c : Con} {p : Nat} {Good : Nat → List (BitVec 32) → Prop} {J : Sat → Prop} {U : Option (Nat × Nat) → Prop}
    (hR : Retains L c p Good J U) {A : List EphIn} {st : EphSt} {r : EphSt × List (Option E)}
    (hok : ∀ c p, SatOk c (st.sat c p)) (hJ : J (st.sat c p)) (hU : U st.utc)
    (hUA : ∀ i ∈ A, ∀ s l w, i = .rawx s l w → U (if s % 2 = 1 then some (l, w) else none))
    (hG : ∀ i ∈ A, ∀ k ws, Carries L i c p (k + 1) ws → Good k (keep c ws))
    (hno : ¬ EmittedFor A r.2 c p) (h : ephRun L st A = some r)
    (H : Nat → Prop) (N : Prop) (hH : ∀ k, H k → (st.sat c p).mask k = true ∧ Good k ((st.sat c p).parts k))
    (hN : N → ¬ ∀ i, i < partCount c → (st.sat c p).mask i = true ∧ Good i ((st.sat c p).parts i)) :
    (∀ k, (H k ∨ ∃ i ∈ A, ∃ ws, Carries L i c p (k + 1) ws) → (r.1.sat c p).mask k = true ∧ Good k ((r.1.sat c p).parts k)) ∧
    ((N ∨ ∃ i ∈ A, ∃ k ws, Carries L i c p (k + 1) ws) → ¬ ∀ i, i < partCount c → (r.1.sat c p).mask i = true ∧ Good i ((r.1.sat c p).parts i)) := by
  induction A generalizing st r H N with
  | nil =>
    cases h
    constructor
    · rintro k (h | ⟨i, hi, -⟩)
      · exact hH k h
      · cases hi
    · rintro (h | ⟨i, hi, -⟩)
      · exact hN h
      · cases hi
  | cons i A ih =>
    simp only [ephRun, Option.bind_eq_bind, Option.bind_eq_some_iff, Option.some.injEq] at h
    obtain ⟨⟨st1, o⟩, h1, ⟨st2, os⟩, h2, rfl⟩ := h
    have hno' : ¬ EmittedFor A os c p := by
      rintro ⟨n, g, f, ws, e, a, b, d⟩
      exact hno ⟨n + 1, g, f, ws, e, by simpa using a, b, by simpa using d⟩
    have hono : ∀ g f ws, i = .sfrbx g p f ws → conOf g = some c → o = none := by
      intro g f ws hi hc
      cases o with
      | none => rfl
      | some e => exact absurd ⟨0, g, f, ws, e, by simp [hi], hc, by simp⟩ hno
    obtain ⟨hu, hcase⟩ := ephStep_cases h1
    have hU1 : U st1.utc := by
      rw [hu]
      cases i with
      | rawx s l w => exact hUA _ (by simp) s l w rfl
      | navTow t => exact hU
      | sfrbx g p f ws => exact hU
    have hok1 : ∀ c p, SatOk c (st1.sat c p) := by
      intro c p
      rcases hcase with ⟨g, p0, f, ws, c0, s', rfl, hc, hs, hs', hoth⟩ | ⟨-, hsat⟩
      · by_cases he : c = c0 ∧ p = p0
        · obtain ⟨rfl, rfl⟩ := he
          rw [hs']
          obtain ⟨a, b⟩ := satStep_ok hs (hok c p)
          by_cases hk : ∃ k, IsPart L c p ws k
          · obtain ⟨k, hk⟩ := hk
            exact (b k hk).ok
          · rw [(a hk).1]; exact hok c p
        · rw [hoth c p he]; exact hok c p
      · rw [hsat]; exact hok c p
    -- the case in which nothing happens to this satellite
    have same : st1.sat c p = st.sat c p → (¬ ∃ k ws, Carries L i c p (k + 1) ws) → _ := fun e hnc =>
      ih hok1 (by rw [e]; exact hJ) hU1 (fun i' hi' => hUA i' (by simp [hi'])) (fun i' hi' => hG i' (by simp [hi'])) hno' h2 H N
        (by rw [e]; exact hH) (by rw [e]; exact hN)
    have fin : (∃ k ws, Carries L i c p (k + 1) ws) ∨ ¬ ∃ k ws, Carries L i c p (k + 1) ws := Classical.em _
    rcases fin with ⟨k, ws, hcar⟩ | hnc
    · obtain ⟨⟨g, f, hi, hc⟩, -⟩ := id hcar
      subst hi
      have ho := hono g f ws rfl hc
      subst ho
      have hpart := ((carries_iff hc c p ws).mp hcar).2.2.2
      rcases hcase with ⟨g0, p0, f0, ws0, c0, s', hi, hc0, hs, hs', hoth⟩ | ⟨hnone, -⟩
      · cases hi
        rw [hc] at hc0
        cases hc0
        obtain ⟨rJ, rk, rm, rf⟩ := hR st.utc f ws _ s' k hU hJ (hok c p) hpart (hG _ (by simp) k ws hcar) hs
        have bp := ((satStep_ok hs (hok c p)).2 k hpart).parts
        have gk : Good k (s'.parts k) := by rw [bp k, if_pos rfl]; exact hG _ (by simp) k ws hcar
        obtain ⟨q1, q2⟩ := ih hok1 (by rw [hs']; exact rJ) hU1 (fun i' hi' => hUA i' (by simp [hi'])) (fun i' hi' => hG i' (by simp [hi'])) hno' h2
          (fun j => H j ∨ j = k) True
          (by
            rw [hs']
            rintro j (hj | rfl)
            · obtain ⟨m1, m2⟩ := hH j hj
              by_cases hjk : j = k
              · subst hjk; exact ⟨rk, gk⟩
              · exact ⟨rm j m1 m2, by rw [bp j, if_neg hjk]; exact m2⟩
            · exact ⟨rk, gk⟩)
          (by rw [hs']; exact fun _ => rf)
        refine ⟨?_, fun _ => q2 (Or.inl trivial)⟩
        rintro j (hj | ⟨i', hi', ws', hcar'⟩)
        · exact q1 j (Or.inl (Or.inl hj))
        · rcases List.mem_cons.mp hi' with rfl | hm
          · have := isPart_unique ((carries_iff hc c p ws').mp hcar').2.2.2 hpart
            exact q1 j (Or.inl (Or.inr this))
          · exact q1 j (Or.inr ⟨i', hm, ws', hcar'⟩)
      · rw [hnone g p f ws rfl] at hc; cases hc
    · have e : st1.sat c p = st.sat c p := by
        rcases hcase with ⟨g0, p0, f0, ws0, c0, s', rfl, hc0, hs, hs', hoth⟩ | ⟨hnone, hsat⟩
        · by_cases he : c = c0 ∧ p = p0
          · obtain ⟨rfl, rfl⟩ := he
            rw [hs']
            refine ((satStep_ok hs (hok c p)).1 ?_).1
            rintro ⟨k, hk⟩
            exact hnc ⟨k, ws0, (carries_iff hc0 c p ws0).mpr ⟨rfl, rfl, rfl, hk⟩⟩
          · exact hoth c p he
        · rw [hsat]
      obtain ⟨q1, q2⟩ := same e hnc
      refine ⟨?_, ?_⟩
      · rintro j (hj | ⟨i', hi', ws', hcar'⟩)
        · exact q1 j (Or.inl hj)
        · rcases List.mem_cons.mp hi' with rfl | hm
          · exact absurd ⟨j, ws', hcar'⟩ hnc
          · exact q1 j (Or.inr ⟨i', hm, ws', hcar'⟩)
      · rintro (hj | ⟨i', hi', k', ws', hcar'⟩)
        · exact q2 (Or.inl hj)
        · rcases List.mem_cons.mp hi' with rfl | hm
          · exact absurd ⟨k', ws', hcar'⟩ hnc
          · exact q2 (Or.inr ⟨i', hm, k', ws', hcar'⟩)

/-- with all parts present, something is emitted -/
theorem complete {L : EphLib E} {c : Con} {p : Nat} {Good : Nat → List (BitVec 32) → Prop} {J : Sat → Prop} {U : Option (Nat × Nat) → Prop}
    (hR : Retains L c p Good J U) {A : List EphIn} {st : EphSt} {r : EphSt × List (Option E)}
    (hok : ∀ c p, SatOk c (st.sat c p)) (hJ : J (st.sat c p)) (hU : U st.utc)
    (hUA : ∀ i ∈ A, ∀ s l w, i = .rawx s l w → U (if s % 2 = 1 then some (l, w) else none))
    (hG : ∀ i ∈ A, ∀ k ws, Carries L i c p (k + 1) ws → Good k (keep c ws))
    (hall : AllParts L A c p) (h : ephRun L st A = some r) : EmittedFor A r.2 c p := by
  refine Classical.byContradiction fun hno => ?_
  obtain ⟨q1, q2⟩ := collect hR hok hJ hU hUA hG hno h (fun _ => False) False (fun _ h => h.elim) (fun h => h.elim)
  have hc : 1 ≤ partCount c := by cases c <;> decide
  obtain ⟨i, hi, ws, hcar⟩ := hall 1 (by omega) hc
  refine q2 (Or.inr ⟨i, hi, 0, ws, hcar⟩) ?_
  intro k hk
  obtain ⟨i, hi, ws, hcar⟩ := hall (k + 1) (by omega) (by omega)
  exact q1 k (Or.inr ⟨i, hi, ws, hcar⟩)

/-- a choice of words for kept parts -/
theorem from_choice {L : EphLib E} {A : List EphIn} {c : Con} {p : Nat} {q : Nat → List (BitVec 32)} (h : ∀ i, i < partCount c → From L A c p i (q i)) :
    ∃ w : Nat → List (BitVec 32), (∀ k, 1 ≤ k → k ≤ partCount c → ∃ i, i ∈ A ∧ Carries L i c p k (w k)) ∧ ∀ k, 1 ≤ k → k ≤ partCount c → one q k = keep c (w k) := by
  have ex : ∀ k, ∃ w, k < partCount c → ∃ i, i ∈ A ∧ Carries L i c p (k + 1) w ∧ q k = keep c w := by
    intro k
    by_cases hk : k < partCount c
    · obtain ⟨i, hi, ws, h1, h2⟩ := h k hk
      exact ⟨ws, fun _ => ⟨i, hi, h1, h2⟩⟩
    · exact ⟨[], fun h => absurd h hk⟩
  obtain ⟨w, hw⟩ := Classical.axiomOfChoice ex
  refine ⟨fun k => w (k - 1), ?_, ?_⟩
  · intro k h1 h2
    obtain ⟨i, hi, hc, -⟩ := hw (k - 1) (by omega)
    rw [show k - 1 + 1 = k by omega] at hc
    exact ⟨i, hi, hc⟩
  · intro k h1 h2
    obtain ⟨i, hi, -, hq⟩ := hw (k - 1) (by omega)
    exact hq

theorem satStep_part {L : EphLib E} {utc : Option (Nat × Nat)} {c : Con} {p f : Nat} {ws : List (BitVec 32)} {s : Sat} {k : Nat} (hp : IsPart L c p ws k) :
    satStep L utc c p f ws s = some (match c with
      | .gps => gpsCore L p k (s.store k ws)
      | .bds => bdsCore L p (s.store k ws)
      | .gal => galCore L k ws (s.store k (ws.take 8))
      | .glo => gloCore L p f utc ((gloNew ws s).store k ws)) := by
  obtain ⟨h1, h2, h3, h4, h5⟩ := hp
  unfold satStep
  rw [if_neg (by omega)]
  cases c
  · simp only [gpsStep_core L p ws s k h4 h5]
  · simp only [bdsStep_core L p ws s k (h3 rfl) h4 h5]
  · simp only [galStep_core L ws s k h4 h5]
  · simp only [gloStep_core L p f utc ws s k h4 h5]

theorem bds_retains {L : EphLib E} {A : List EphIn} {p : Nat} (hcons : Consistent L A .bds p) (hall : AllParts L A .bds p) :
    Retains L .bds p (From L A .bds p) (fun _ => True) (fun _ => True) := by
  intro utc f ws s s' k _ _ hs hp hg h
  have hps := (satStep_ok h hs).2 k hp
  rw [satStep_part hp] at h
  simp only [Option.some.injEq] at h
  -- a good part has a possible second of week
  have sow : ∀ j q, j < 3 → From L A .bds p j q → sowOf q < 604800 := by
    rintro j q hj ⟨i, hi, v, hcar, hqv⟩
    have hqv : q = v := hqv
    rw [hqv]
    have ex : ∀ m, ∃ w, (m = j + 1 → w = v) ∧ (1 ≤ m → m ≤ 3 → ∃ i, i ∈ A ∧ Carries L i .bds p m w) := by
      intro m
      by_cases hm : m = j + 1
      · subst hm; exact ⟨v, fun _ => rfl, fun _ _ => ⟨i, hi, hcar⟩⟩
      · by_cases hm2 : 1 ≤ m ∧ m ≤ 3
        · obtain ⟨i', hi', w, hw⟩ := hall m hm2.1 hm2.2
          exact ⟨w, fun h => absurd h hm, fun _ _ => ⟨i', hi', hw⟩⟩
        · exact ⟨[], fun h => absurd h hm, fun h1 h2 => absurd ⟨h1, h2⟩ hm2⟩
    obtain ⟨w, hw⟩ := Classical.axiomOfChoice ex
    have h1 := (hcons w (fun m a b => (hw m).2 a b)).1
    have e : w (j + 1) = v := (hw (j + 1)).1 rfl
    unfold SameIssue at h1
    rw [← e]
    simp only at h1
    rcases (by omega : j = 0 ∨ j = 1 ∨ j = 2) with rfl | rfl | rfl <;> simp only [Nat.reduceAdd] <;> omega
  have hm := store_mask s k ws
  have hpp : ∀ i, (s.store k ws).parts i = if i = k then keep .bds ws else s.parts i := fun i => rfl
  generalize s.store k ws = s1 at *
  have hk3 : k < 3 := hp.2.2.2.2
  have gk : From L A .bds p k (s1.parts k) := by rw [hpp k, if_pos rfl]; exact hg
  have gi : ∀ i, From L A .bds p i (s.parts i) → From L A .bds p i (s1.parts i) := by
    intro i hi
    rw [hpp i]; split
    · rename_i e; subst e; exact hg
    · exact hi
  -- the bit of a bad part may be cleared
  have clr : ∀ j, j < 3 → 604800 ≤ bdsSow (s1.parts j) → s' = s1.clear (fun i => i = j) →
      s'.mask k = true ∧ (∀ i, s.mask i = true → From L A .bds p i (s.parts i) → s'.mask i = true) ∧
      ¬ ∀ i, i < partCount .bds → s'.mask i = true ∧ From L A .bds p i (s'.parts i) := by
    intro j hj hbig he
    rw [bdsSow_eq] at hbig
    have ne : ∀ i, From L A .bds p i (s1.parts i) → i ≠ j := by
      rintro i hi rfl
      have := sow i _ hj hi
      omega
    subst he
    refine ⟨?_, ?_, ?_⟩
    · rw [clear_mask, hm]; exact ⟨Or.inl rfl, by simpa using ne k gk⟩
    · intro i h1 h2
      rw [clear_mask, hm]; exact ⟨Or.inr h1, by simpa using ne i (gi i h2)⟩
    · intro hh
      have := (hh j hj).1
      rw [clear_mask] at this
      simp at this
  have keepAll : s' = s1 → (¬ ∀ i, i < partCount .bds → s'.mask i = true ∧ From L A .bds p i (s'.parts i)) →
      s'.mask k = true ∧ (∀ i, s.mask i = true → From L A .bds p i (s.parts i) → s'.mask i = true) ∧
      ¬ ∀ i, i < partCount .bds → s'.mask i = true ∧ From L A .bds p i (s'.parts i) := by
    rintro rfl hn
    exact ⟨(hm k).mpr (Or.inl rfl), fun i h1 _ => (hm i).mpr (Or.inr h1), hn⟩
  refine ⟨trivial, ?_⟩
  unfold bdsCore at h
  by_cases h1 : (!s1.full 3) = true
  · rw [if_pos h1] at h
    simp only [Prod.mk.injEq, and_true] at h
    apply keepAll h.symm
    rw [← h]
    intro hh
    have : s1.full 3 = true := (full_iff _ _).mpr fun i hi => (hh i hi).1
    rw [this] at h1; cases h1
  rw [if_neg h1] at h
  by_cases g0 : 604800 ≤ bdsSow (s1.parts 0)
  · rw [if_pos g0] at h
    simp only [Prod.mk.injEq, and_true] at h
    exact clr 0 (by omega) g0 h.symm
  rw [if_neg g0] at h
  by_cases g1 : 604800 ≤ bdsSow (s1.parts 1)
  · rw [if_pos g1] at h
    simp only [Prod.mk.injEq, and_true] at h
    exact clr 1 (by omega) g1 h.symm
  rw [if_neg g1] at h
  by_cases g2 : 604800 ≤ bdsSow (s1.parts 2)
  · rw [if_pos g2] at h
    simp only [Prod.mk.injEq, and_true] at h
    exact clr 2 (by omega) g2 h.symm
  rw [if_neg g2] at h
  by_cases h2 : bdsSow (s1.parts 0) ≠ (bdsSow (s1.parts 1) + 2 ^ 32 - 6) % 2 ^ 32 ∨ bdsSow (s1.parts 1) ≠ (bdsSow (s1.parts 2) + 2 ^ 32 - 6) % 2 ^ 32
  · rw [if_pos h2] at h
    simp only [Prod.mk.injEq, and_true] at h
    apply keepAll h.symm
    rw [← h]
    intro hh
    obtain ⟨w, hw, hq⟩ := from_choice (q := s1.parts) (fun i hi => (hh i hi).2)
    have := (hcons w hw).1
    unfold SameIssue at this
    simp only at this
    have e1 := hq 1 (by omega) (by decide)
    have e2 := hq 2 (by omega) (by decide)
    have e3 := hq 3 (by omega) (by decide)
    simp only [one, keep, Nat.reduceSub] at e1 e2 e3
    simp only [bdsSow_eq, e1, e2, e3] at h2
    omega
  rw [if_neg h2] at h
  cases h

theorem gal_retains {L : EphLib E} {A : List EphIn} {p : Nat} (hcons : Consistent L A .gal p) (hall : AllParts L A .gal p) :
    Retains L .gal p (From L A .gal p) (fun _ => True) (fun _ => True) := by
  intro utc f ws s s' k _ _ hs hp hg h
  have hps := (satStep_ok h hs).2 k hp
  rw [satStep_part hp] at h
  simp only [Option.some.injEq] at h
  have hk5 : k < 5 := hp.2.2.2.2
  have ewt : ∀ v : List (BitVec 32), iodNav (v.take 8) = iodNav v := fun v => by unfold iodNav; rw [word_take _ (by omega)]
  -- good pages among the first four have one issue
  have iod : ∀ j j' q q', j < 4 → j' < 4 → From L A .gal p j q → From L A .gal p j' q' → iodNav q = iodNav q' := by
    -- a choice containing a given page
    have ch : ∀ (w0 : Nat → List (BitVec 32)) j v, (∀ m, 1 ≤ m → m ≤ 5 → ∃ i, i ∈ A ∧ Carries L i .gal p m (w0 m)) → (∃ i, i ∈ A ∧ Carries L i .gal p (j + 1) v) →
        ∀ m, 1 ≤ m → m ≤ 5 → ∃ i, i ∈ A ∧ Carries L i .gal p m ((fun m => if m = j + 1 then v else w0 m) m) := by
      intro w0 j v h0 hv m h1 h2
      by_cases hm : m = j + 1
      · subst hm; simpa using hv
      · simp only [hm, if_false]; exact h0 m h1 h2
    have ex : ∀ m, ∃ w, 1 ≤ m → m ≤ 5 → ∃ i, i ∈ A ∧ Carries L i .gal p m w := by
      intro m
      by_cases hm2 : 1 ≤ m ∧ m ≤ 5
      · obtain ⟨i', hi', w, hw⟩ := hall m hm2.1 hm2.2
        exact ⟨w, fun _ _ => ⟨i', hi', hw⟩⟩
      · exact ⟨[], fun h1 h2 => absurd ⟨h1, h2⟩ hm2⟩
    obtain ⟨w0, hw0⟩ := Classical.axiomOfChoice ex
    -- every good page agrees with the first page of the choice, or the second if it is the first
    have one' : ∀ j q, j < 4 → From L A .gal p j q → iodNav q = iodNav (w0 1) := by
      rintro j q hj ⟨i, hi, v, hcar, rfl⟩
      show iodNav (v.take 8) = _
      rw [ewt]
      have h0 := (hcons w0 hw0).1
      have h1 := (hcons _ (ch w0 j v hw0 ⟨i, hi, hcar⟩)).1
      unfold SameIssue at h0 h1
      simp only at h0 h1
      rcases (by omega : j = 0 ∨ j = 1 ∨ j = 2 ∨ j = 3) with rfl | rfl | rfl | rfl
      · simp only [Nat.reduceAdd, Nat.reduceEqDiff, if_true, if_false] at h1; rw [h1.1, h0.1]
      · simp only [Nat.reduceAdd, Nat.reduceEqDiff, if_true, if_false] at h1; rw [h1.1]
      · simp only [Nat.reduceAdd, Nat.reduceEqDiff, if_true, if_false] at h1; rw [h1.1, h1.2.1]
      · simp only [Nat.reduceAdd, Nat.reduceEqDiff, if_true, if_false] at h1; rw [h1.1, h1.2.1, h1.2.2]
    intro j j' q q' hj hj' h1 h2
    rw [one' j q hj h1, one' j' q' hj' h2]
  have hm := store_mask s k (ws.take 8)
  have hpp : ∀ i, (s.store k (ws.take 8)).parts i = if i = k then keep .gal ws else s.parts i := fun i => rfl
  unfold galCore at h
  generalize hs1 : s.store k (ws.take 8) = s1 at *
  simp only [iod_eq] at h
  generalize hs2 : (if k + 1 ≠ 5 then s1.clear fun i => decide (i < 4) && decide (iodNav (s1.parts i) ≠ iodNav ws) else s1) = s2 at h
  have hp2 : s2.parts = s1.parts := by rw [← hs2]; split <;> rfl
  have stay : ∀ i, s1.mask i = true → From L A .gal p i (s1.parts i) → s2.mask i = true := by
    intro i mi fi
    rw [← hs2]
    split
    · rename_i h4
      rw [clear_mask]
      refine ⟨mi, ?_⟩
      by_cases hi : i < 4
      · have e := iod i k _ _ hi (by omega) fi hg
        have e2 : iodNav (keep .gal ws) = iodNav ws := ewt ws
        rw [e2] at e
        simp [hi, e]
      · simp [hi]
    · exact mi
  have gk : From L A .gal p k (s1.parts k) := by rw [hpp k, if_pos rfl]; exact hg
  have gi : ∀ i, From L A .gal p i (s.parts i) → From L A .gal p i (s1.parts i) := by
    intro i hi
    rw [hpp i]; split
    · rename_i e; subst e; exact hg
    · exact hi
  have keepAll : s' = s2 → (¬ ∀ i, i < partCount .gal → s'.mask i = true ∧ From L A .gal p i (s'.parts i)) →
      s'.mask k = true ∧ (∀ i, s.mask i = true → From L A .gal p i (s.parts i) → s'.mask i = true) ∧
      ¬ ∀ i, i < partCount .gal → s'.mask i = true ∧ From L A .gal p i (s'.parts i) := by
    rintro rfl hn
    exact ⟨stay k ((hm k).mpr (Or.inl rfl)) gk, fun i h1 h2 => stay i ((hm i).mpr (Or.inr h1)) (gi i h2), hn⟩
  refine ⟨trivial, ?_⟩
  by_cases h1 : (!s2.full 5) = true
  · rw [if_pos h1] at h
    simp only [Prod.mk.injEq, and_true] at h
    apply keepAll h.symm
    rw [← h]
    intro hh
    have : s2.full 5 = true := (full_iff _ _).mpr fun i hi => (hh i hi).1
    rw [this] at h1; cases h1
  rw [if_neg h1] at h
  cases h4 : L.gal ((List.range 5).map fun i => galContent (s2.parts i)) with
  | none =>
    rw [h4] at h
    simp only [Prod.mk.injEq, and_true] at h
    apply keepAll h.symm
    rw [← h]
    intro hh
    obtain ⟨w, hw, hq⟩ := from_choice (q := s2.parts) (fun i hi => (hh i hi).2)
    have hd := (hcons w hw).2.2 rfl
    have e1 := hq 1 (by omega) (by decide)
    have e2 := hq 2 (by omega) (by decide)
    have e3 := hq 3 (by omega) (by decide)
    have e4' := hq 4 (by omega) (by decide)
    have e5 := hq 5 (by omega) (by decide)
    simp only [one, keep, Nat.reduceSub] at e1 e2 e3 e4' e5
    have e : ((List.range 5).map fun i => galContent (s2.parts i)) = [inavWord (w 1), inavWord (w 2), inavWord (w 3), inavWord (w 4), inavWord (w 5)] := by
      simp only [galContent_eq]
      show [inavWord (s2.parts 0), inavWord (s2.parts 1), inavWord (s2.parts 2), inavWord (s2.parts 3), inavWord (s2.parts 4)] = _
      rw [e1, e2, e3, e4', e5]
      simp only [galContent_take]
    rw [e] at h4
    rw [h4] at hd
    cases hd
  | some e => rw [h4] at h; cases h

theorem glo_retains {L : EphLib E} {A : List EphIn} {p : Nat} (hcons : Consistent L A .glo p) (hall : AllParts L A .glo p) :
    Retains L .glo p (From L A .glo p) (fun _ => True) (fun u => u.isSome = true) := by
  intro utc f ws s s' k hu _ hs hp hg h
  rw [satStep_part hp] at h
  simp only [Option.some.injEq] at h
  have hk5 : k < 5 := hp.2.2.2.2
  have sup : ∀ j j' q q', j < 5 → j' < 5 → From L A .glo p j q → From L A .glo p j' q' → superframe q = superframe q' := by
    have ex : ∀ m, ∃ w, 1 ≤ m → m ≤ 5 → ∃ i, i ∈ A ∧ Carries L i .glo p m w := by
      intro m
      by_cases hm2 : 1 ≤ m ∧ m ≤ 5
      · obtain ⟨i', hi', w, hw⟩ := hall m hm2.1 hm2.2
        exact ⟨w, fun _ _ => ⟨i', hi', hw⟩⟩
      · exact ⟨[], fun h1 h2 => absurd ⟨h1, h2⟩ hm2⟩
    obtain ⟨w0, hw0⟩ := Classical.axiomOfChoice ex
    have h0 := (hcons w0 hw0).1
    have one' : ∀ j q, j < 5 → From L A .glo p j q → superframe q = superframe (w0 1) := by
      rintro j q hj ⟨i, hi, v, hcar, hqv⟩
      have hqv : q = v := hqv
      rw [hqv]
      have h1 := (hcons (fun m => if m = j + 1 then v else w0 m) (by
        intro m h1 h2
        by_cases hm : m = j + 1
        · subst hm; exact ⟨i, hi, by simpa using hcar⟩
        · simp only [hm, if_false]; exact hw0 m h1 h2)).1
      by_cases hj0 : j = 0
      · subst hj0
        have a := h1 2 (by omega) (by omega)
        have b := h0 2 (by omega) (by omega)
        simp only [Nat.reduceAdd, Nat.reduceEqDiff, if_true, if_false] at a
        rw [← a, b]
      · have a := h1 (j + 1) (by omega) (by omega)
        simp only [if_true] at a
        rw [a, if_neg (by omega)]
    intro j j' q q' hj hj' h1 h2
    rw [one' j q hj h1, one' j' q' hj' h2]
  have hm := store_mask (gloNew ws s) k ws
  have stay : ∀ i, s.mask i = true → From L A .glo p i (s.parts i) → (gloNew ws s).mask i = true := by
    intro i h1 h2
    unfold gloNew
    have : s.super = superframe ws := by
      rw [← hs.2.2 rfl i h1]
      exact sup i k _ _ (hs.1 i h1) hk5 h2 hg
    rw [if_neg (by simp [this])]
    exact h1
  generalize (gloNew ws s).store k ws = s1 at *
  obtain ⟨u, rfl⟩ := Option.isSome_iff_exists.mp hu
  unfold gloCore at h
  by_cases h1 : (!s1.full 5) = true
  · rw [if_pos h1] at h
    simp only [Prod.mk.injEq, and_true] at h
    subst h
    refine ⟨trivial, (hm k).mpr (Or.inl rfl), fun i h1 h2 => (hm i).mpr (Or.inr (stay i h1 h2)), ?_⟩
    intro hh
    have : s1.full 5 = true := (full_iff _ _).mpr fun i hi => (hh i hi).1
    rw [this] at h1; cases h1
  rw [if_neg h1] at h
  cases h

theorem gps_retains {L : EphLib E} {A : List EphIn} {p : Nat} (hcons : Consistent L A .gps p) :
    Retains L .gps p (From L A .gps p) (fun s => ∀ i, i < 3 → From L A .gps p i (s.parts i)) (fun _ => True) := by
  intro utc f ws s s' k _ hJ hs hp hg h
  have hps := (satStep_ok h hs).2 k hp
  rw [satStep_part hp] at h
  simp only [Option.some.injEq] at h
  have hk3 : k < 3 := hp.2.2.2.2
  have hJ' : ∀ i, i < 3 → From L A .gps p i (s'.parts i) := by
    intro i hi
    rw [hps.parts i]; split
    · rename_i e; subst e; exact hg
    · exact hJ i hi
  have hm := store_mask s k ws
  have hpp : ∀ i, (s.store k ws).parts i = if i = k then keep .gps ws else s.parts i := fun i => rfl
  generalize s.store k ws = s1 at *
  unfold gpsCore at h
  by_cases h1 : (!s1.full 3) = true
  · rw [if_pos h1] at h
    simp only [Prod.mk.injEq, and_true] at h
    subst h
    refine ⟨hJ', (hm k).mpr (Or.inl rfl), fun i h1 h2 => (hm i).mpr (Or.inr h1), ?_⟩
    intro hh
    have : s1.full 3 = true := (full_iff _ _).mpr fun i hi => (hh i hi).1
    rw [this] at h1; cases h1
  exfalso
  rw [if_neg h1] at h
  have hJ1 : ∀ i, i < partCount .gps → From L A .gps p i (s1.parts i) := by
    intro i hi
    have := hJ' i hi
    rwa [hps.parts i, ← hpp i] at this
  obtain ⟨w, hw, hq⟩ := from_choice hJ1
  obtain ⟨hsi, hdec, -⟩ := hcons w hw
  have e1 := hq 1 (by omega) (by decide)
  have e2 := hq 2 (by omega) (by decide)
  have e3 := hq 3 (by omega) (by decide)
  simp only [one, keep, Nat.reduceSub] at e1 e2 e3
  obtain ⟨i1, i2, i3⟩ := hsi
  have a1 : fld (wd (s1.parts 0) 7) 22 8 = gpsIssue 1 (w 1) := by rw [e1, wd_word]; rfl
  have a2 : fld (wd (s1.parts 1) 2) 22 8 = gpsIssue 2 (w 2) := by rw [e2, wd_word]; rfl
  have a3 : fld (wd (s1.parts 2) 9) 22 8 = gpsIssue 3 (w 3) := by rw [e3, wd_word]; rfl
  have a4 : fld (wd (s1.parts 0) 1) 13 17 = towCount (w 1) := by rw [e1, wd_word]; rfl
  rw [if_neg (by rw [a1, a2, a3]; omega), if_neg (by rw [a4]; omega)] at h
  have hd := hdec rfl (if fld (wd (s1.parts 0) 1) 13 17 = 0 then 604800 - 6 else (fld (wd (s1.parts 0) 1) 13 17 - 1) * 6)
  have e : ((List.range 3).map fun i => (s1.parts i).drop 2) = [(w 1).drop 2, (w 2).drop 2, (w 3).drop 2] := by
    show [(s1.parts 0).drop 2, (s1.parts 1).drop 2, (s1.parts 2).drop 2] = _
    rw [e1, e2, e3]
  rw [e] at h
  obtain ⟨x, hx⟩ := Option.isSome_iff_exists.mp hd
  rw [hx] at h
  cases h

/-- after all parts of a satellite have arrived, every stored part is one of them -/
theorem parts_replaced {L : EphLib E} {c : Con} {p : Nat} {Good : Nat → List (BitVec 32) → Prop} {A : List EphIn} {st : EphSt} {r : EphSt × List (Option E)}
    (hok : ∀ c p, SatOk c (st.sat c p)) (hG : ∀ i ∈ A, ∀ k ws, Carries L i c p (k + 1) ws → Good k (keep c ws)) (h : ephRun L st A = some r) :
    (∀ c p, SatOk c (r.1.sat c p)) ∧ ∀ k, (Good k ((st.sat c p).parts k) ∨ ∃ i ∈ A, ∃ ws, Carries L i c p (k + 1) ws) → Good k ((r.1.sat c p).parts k) := by
  induction A generalizing st r with
  | nil =>
    cases h
    refine ⟨hok, ?_⟩
    rintro k (h | ⟨i, hi, -⟩)
    · exact h
    · cases hi
  | cons i A ih =>
    simp only [ephRun, Option.bind_eq_bind, Option.bind_eq_some_iff, Option.some.injEq] at h
    obtain ⟨⟨st1, o⟩, h1, ⟨st2, os⟩, h2, rfl⟩ := h
    obtain ⟨hu, hcase⟩ := ephStep_cases h1
    have hok1 : ∀ c p, SatOk c (st1.sat c p) := by
      intro c p
      rcases hcase with ⟨g, p0, f, ws, c0, s', rfl, hc, hs, hs', hoth⟩ | ⟨-, hsat⟩
      · by_cases he : c = c0 ∧ p = p0
        · obtain ⟨rfl, rfl⟩ := he
          rw [hs']
          obtain ⟨a, b⟩ := satStep_ok hs (hok c p)
          by_cases hk : ∃ k, IsPart L c p ws k
          · obtain ⟨k, hk⟩ := hk
            exact (b k hk).ok
          · rw [(a hk).1]; exact hok c p
        · rw [hoth c p he]; exact hok c p
      · rw [hsat]; exact hok c p
    obtain ⟨q0, q1⟩ := ih hok1 (fun i' hi' => hG i' (by simp [hi'])) h2
    refine ⟨q0, ?_⟩
    have key : ∀ k, (Good k ((st.sat c p).parts k) ∨ ∃ ws, Carries L i c p (k + 1) ws) → Good k ((st1.sat c p).parts k) := by
      intro k hk
      rcases hcase with ⟨g, p0, f, ws, c0, s', rfl, hc, hs, hs', hoth⟩ | ⟨hnone, hsat⟩
      · by_cases he : c = c0 ∧ p = p0
        · obtain ⟨rfl, rfl⟩ := he
          rw [hs']
          obtain ⟨a, b⟩ := satStep_ok hs (hok c p)
          by_cases hk' : ∃ k, IsPart L c p ws k
          · obtain ⟨k0, hk0⟩ := hk'
            rw [(b k0 hk0).parts k]
            split
            · rename_i e; subst e
              exact hG (.sfrbx g p f ws) (by simp) k ws ((carries_iff hc c p ws).mpr ⟨rfl, rfl, rfl, hk0⟩)
            · rename_i e
              rcases hk with hk | ⟨ws', hcar⟩
              · exact hk
              · exact absurd (isPart_unique ((carries_iff hc c p ws').mp hcar).2.2.2 hk0) e
          · rw [(a hk').1]
            rcases hk with hk | ⟨ws', hcar⟩
            · exact hk
            · exact absurd ⟨k, ((carries_iff hc c p ws').mp hcar).2.2.2⟩ hk'
        · rw [hoth c p he]
          rcases hk with hk | ⟨ws', hcar⟩
          · exact hk
          · obtain ⟨e1, e2, -⟩ := (carries_iff hc c p ws').mp hcar
            exact absurd ⟨e1, e2⟩ he
      · rw [hsat]
        rcases hk with hk | ⟨ws', ⟨⟨g, f, hi, hc⟩, -⟩⟩
        · exact hk
        · rw [hnone g p f ws' hi] at hc; cases hc
    rintro k (hk | ⟨i', hi', ws', hcar'⟩)
    · exact q1 k (Or.inl (key k (Or.inl hk)))
    · rcases List.mem_cons.mp hi' with rfl | hm
      · exact q1 k (Or.inl (key k (Or.inr ⟨ws', hcar'⟩)))
      · exact q1 k (Or.inr ⟨i', hm, ws', hcar'⟩)

end Verif.Ubx
