import Verif.Lemmas.UbxEph
/-
Lemmas for C40: histories of messages.
-/
set_option linter.unusedSimpArgs false
set_option linter.unusedVariables false
namespace Verif.Ubx
open Verif.Ubx.Spec

variable {E : Type}

theorem ephRun_append {L : EphLib E} {st : EphSt} {is1 is2 : List EphIn} {r : EphSt × List (Option E)} (h : ephRun L st (is1 ++ is2) = some r) :
    ∃ r1 r2, ephRun L st is1 = some r1 ∧ ephRun L r1.1 is2 = some r2 ∧ r = (r2.1, r1.2 ++ r2.2) := by
  induction is1 generalizing st r with
  | nil => exact ⟨(st, []), r, rfl, h, rfl⟩
  | cons i is ih =>
    simp only [List.cons_append, ephRun, Option.bind_eq_bind, Option.bind_eq_some_iff, Option.some.injEq] at h ⊢
    obtain ⟨⟨st1, o⟩, h1, ⟨st2, os⟩, h2, rfl⟩ := h
    obtain ⟨r1, r2, e1, e2, e3⟩ := ih h2
    simp only [Prod.mk.injEq] at e3
    refine ⟨(r1.1, o :: r1.2), r2, ⟨_, h1, r1, e1, rfl⟩, e2, ?_⟩
    simp [e3.1, e3.2]

theorem ephRun_one {L : EphLib E} {st : EphSt} {i : EphIn} {r : EphSt × List (Option E)} (h : ephRun L st [i] = some r) :
    ∃ st' o, ephStep L st i = some (st', o) ∧ r = (st', [o]) := by
  simp only [ephRun, Option.bind_eq_bind, Option.bind_eq_some_iff, Option.some.injEq] at h
  obtain ⟨⟨st1, o⟩, h1, ⟨st2, os⟩, h2, rfl⟩ := h
  cases h2
  exact ⟨st1, o, h1, rfl⟩

theorem ephRun_length {L : EphLib E} {st : EphSt} {is : List EphIn} {r : EphSt × List (Option E)} (h : ephRun L st is = some r) : r.2.length = is.length := by
  induction is generalizing st r with
  | nil => cases h; rfl
  | cons i is ih =>
    simp only [ephRun, Option.bind_eq_bind, Option.bind_eq_some_iff, Option.some.injEq] at h
    obtain ⟨⟨st1, o⟩, h1, ⟨st2, os⟩, h2, rfl⟩ := h
    simp [ih h2]

/-- state and outputs after a message, satellite by satellite -/
theorem ephStep_cases {L : EphLib E} {st st' : EphSt} {i : EphIn} {o : Option E} (h : ephStep L st i = some (st', o)) :
    st'.utc = leapInfo.match_1 (motive := fun _ => Option (Nat × Nat)) i (fun status leap wn => if status % 2 = 1 then some (leap, wn) else none) (fun _ => st.utc) ∧
    ((∃ g p f ws c s', i = .sfrbx g p f ws ∧ conOf g = some c ∧ satStep L st.utc c p f ws (st.sat c p) = some (s', o) ∧ st'.sat c p = s' ∧
        (∀ c' p', ¬ (c' = c ∧ p' = p) → st'.sat c' p' = st.sat c' p')) ∨
     ((∀ g p f ws, i = .sfrbx g p f ws → conOf g = none) ∧ st'.sat = st.sat)) := by
  cases i with
  | rawx status leap wn =>
    simp only [ephStep, Option.some.injEq, Prod.mk.injEq] at h
    obtain ⟨rfl, -⟩ := h
    exact ⟨rfl, Or.inr ⟨nofun, rfl⟩⟩
  | navTow t =>
    simp only [ephStep, Option.some.injEq, Prod.mk.injEq] at h
    obtain ⟨rfl, -⟩ := h
    exact ⟨rfl, Or.inr ⟨nofun, rfl⟩⟩
  | sfrbx g p f ws =>
    simp only [ephStep] at h
    cases hc : conOf g with
    | some c =>
      rw [hc] at h
      simp only [Option.map_eq_some_iff, Prod.mk.injEq] at h
      obtain ⟨⟨s', o'⟩, h1, h2, h3⟩ := h
      simp only at h2 h3
      subst h2 h3
      refine ⟨rfl, Or.inl ⟨g, p, f, ws, c, s', rfl, hc, h1, by simp, ?_⟩⟩
      intro c' p' hn
      simp only [hn, if_false]
    | none =>
      rw [hc] at h
      have hst : st' = st := by
        simp only at h
        split at h
        · split at h
          · simp only [Option.some.injEq, Prod.mk.injEq] at h; exact h.1.symm
          · simp only [Option.some.injEq, Prod.mk.injEq] at h; exact h.1.symm
        · simp only [Option.some.injEq, Prod.mk.injEq] at h; exact h.1.symm
      subst hst
      refine ⟨rfl, Or.inr ⟨?_, rfl⟩⟩
      intro g' p' f' ws' he
      cases he
      exact hc

theorem leapInfo_snoc (is : List EphIn) (i : EphIn) : leapInfo (is ++ [i]) =
    leapInfo.match_1 (motive := fun _ => Option (Nat × Nat)) i (fun status leap wn => if status % 2 = 1 then some (leap, wn) else none) (fun _ => leapInfo is) := by
  unfold leapInfo
  rw [List.foldl_append]
  rfl

/-- what the state remembers of a history -/
structure HistInv (L : EphLib E) (is : List EphIn) (os : List (Option E)) (st : EphSt) : Prop where
  len : os.length = is.length
  utc : st.utc = leapInfo is
  ok : ∀ c p, SatOk c (st.sat c p)
  src : ∀ c p k, (st.sat c p).mask k = true → ∃ j ws i, is[j]? = some i ∧ Carries L i c p (k + 1) ws ∧ (st.sat c p).parts k = keep c ws ∧
    (∀ m i' ws', j < m → is[m]? = some i' → ¬ Carries L i' c p (k + 1) ws') ∧
    ∀ m, j ≤ m → m < is.length → SilentAt is os c p m

theorem HistInv.init (L : EphLib E) : HistInv L [] [] EphSt.init :=
  ⟨rfl, rfl, fun _ _ => ⟨nofun, fun _ _ _ _ _ h => (by cases h), fun _ _ h => (by cases h)⟩, fun _ _ _ h => (by cases h)⟩

theorem carries_iff {L : EphLib E} {g p f k : Nat} {ws : List (BitVec 32)} {c : Con} (hc : conOf g = some c) (c' : Con) (p' : Nat) (ws' : List (BitVec 32)) :
    Carries L (.sfrbx g p f ws) c' p' (k + 1) ws' ↔ c' = c ∧ p' = p ∧ ws' = ws ∧ IsPart L c p ws k := by
  constructor
  · rintro ⟨⟨g', f', he, hc'⟩, h1, h2, h3, h4, h5, h6⟩
    cases he
    rw [hc] at hc'
    cases hc'
    exact ⟨rfl, rfl, rfl, h1, h2, h3, h4, h6⟩
  · rintro ⟨rfl, rfl, rfl, h1, h2, h3, h4, h6⟩
    exact ⟨⟨g, f, rfl, hc⟩, h1, h2, h3, h4, by omega, h6⟩

theorem isPart_unique {L : EphLib E} {c : Con} {p : Nat} {ws : List (BitVec 32)} {k k' : Nat} (h : IsPart L c p ws k) (h' : IsPart L c p ws k') : k = k' := by
  have := h.2.2.2.1.symm.trans h'.2.2.2.1
  simp only [Option.some.injEq] at this
  omega

theorem getElem?_snoc {α : Type} {l : List α} {a x : α} {m : Nat} (h : (l ++ [a])[m]? = some x) : l[m]? = some x ∧ m < l.length ∨ m = l.length ∧ x = a := by
  rcases Nat.lt_trichotomy m l.length with h1 | h1 | h1
  · rw [List.getElem?_append_left h1] at h; exact Or.inl ⟨h, h1⟩
  · subst h1; simp at h; exact Or.inr ⟨rfl, h.symm⟩
  · rw [List.getElem?_eq_none (by simp; omega)] at h; cases h

theorem silent_snoc {is : List EphIn} {os : List (Option E)} {i : EphIn} {o : Option E} {c : Con} {p m : Nat} (hl : os.length = is.length) (hm : m < is.length)
    (h : SilentAt is os c p m) : SilentAt (is ++ [i]) (os ++ [o]) c p m := by
  intro g f ws hi hc
  rw [List.getElem?_append_left hm] at hi
  rw [List.getElem?_append_left (by omega)]
  exact h g f ws hi hc

theorem HistInv.step {L : EphLib E} {is : List EphIn} {os : List (Option E)} {st st' : EphSt} {i : EphIn} {o : Option E} (inv : HistInv L is os st)
    (h : ephStep L st i = some (st', o)) : HistInv L (is ++ [i]) (os ++ [o]) st' := by
  obtain ⟨hu, hcase⟩ := ephStep_cases h
  refine ⟨by simp [inv.len], by rw [hu, leapInfo_snoc, inv.utc], ?_, ?_⟩
  · intro c p
    rcases hcase with ⟨g, p0, f, ws, c0, s', rfl, hc, hs, hs', hoth⟩ | ⟨-, hsat⟩
    · by_cases he : c = c0 ∧ p = p0
      · obtain ⟨rfl, rfl⟩ := he
        rw [hs']
        obtain ⟨a, b⟩ := satStep_ok hs (inv.ok c p)
        by_cases hk : ∃ k, IsPart L c p ws k
        · obtain ⟨k, hk⟩ := hk
          exact (b k hk).ok
        · rw [(a hk).1]; exact inv.ok c p
      · rw [hoth c p he]; exact inv.ok c p
    · rw [hsat]; exact inv.ok c p
  · -- an old record stays valid when this satellite does nothing to part `k` and nothing is emitted for it
    have old : ∀ c p k, (st.sat c p).mask k = true → (∀ ws', ¬ Carries L i c p (k + 1) ws') →
        (∀ g f ws, i = .sfrbx g p f ws → conOf g = some c → o = none) → (st'.sat c p).parts k = (st.sat c p).parts k →
        ∃ j ws i', (is ++ [i])[j]? = some i' ∧ Carries L i' c p (k + 1) ws ∧ (st'.sat c p).parts k = keep c ws ∧
        (∀ m i' ws', j < m → (is ++ [i])[m]? = some i' → ¬ Carries L i' c p (k + 1) ws') ∧
        ∀ m, j ≤ m → m < (is ++ [i]).length → SilentAt (is ++ [i]) (os ++ [o]) c p m := by
      intro c p k hm hnc hno hpt
      obtain ⟨j, ws, i', hj, hcar, hpar, hlate, hsil⟩ := inv.src c p k hm
      have hjl : j < is.length := by
        rcases Nat.lt_or_ge j is.length with h | h
        · exact h
        · rw [List.getElem?_eq_none h] at hj; cases hj
      refine ⟨j, ws, i', by rw [List.getElem?_append_left hjl]; exact hj, hcar, by rw [hpt, hpar], ?_, ?_⟩
      · intro m i2 ws' hjm hi2
        rcases getElem?_snoc hi2 with ⟨h1, h2⟩ | ⟨h1, h2⟩
        · exact hlate m i2 ws' hjm h1
        · rw [h2]; exact hnc ws'
      · intro m hjm hml
        rcases Nat.lt_or_ge m is.length with h1 | h1
        · exact silent_snoc inv.len h1 (hsil m hjm h1)
        · have : m = is.length := by simp at hml; omega
          subst this
          intro g f ws hi hc
          simp only [List.getElem?_concat_length, Option.some.injEq] at hi
          rw [← inv.len, List.getElem?_concat_length, hno g f ws hi hc]
    intro c p k hm
    rcases hcase with ⟨g, p0, f, ws, c0, s', rfl, hc, hs, hs', hoth⟩ | ⟨hnone, hsat⟩
    · by_cases he : c = c0 ∧ p = p0
      · obtain ⟨rfl, rfl⟩ := he
        rw [hs'] at hm
        obtain ⟨a, b⟩ := satStep_ok hs (inv.ok c p)
        by_cases hk : ∃ k, IsPart L c p ws k
        · obtain ⟨k0, hk0⟩ := hk
          obtain ⟨bp, bm, bo, be⟩ := b k0 hk0
          have ho : o = none := by
            cases o with
            | none => rfl
            | some e => rw [(be e rfl).2.1 k] at hm; cases hm
          by_cases hkk : k = k0
          · subst hkk
            refine ⟨is.length, ws, .sfrbx g p f ws, by simp, (carries_iff hc c p ws).mpr ⟨rfl, rfl, rfl, hk0⟩, ?_, ?_, ?_⟩
            · rw [hs', bp k, if_pos rfl]
            · intro m i2 ws' h1 h2
              rw [List.getElem?_eq_none (by simp; omega)] at h2; cases h2
            · intro m h1 h2
              have : m = is.length := by simp at h2; omega
              subst this
              intro g' f' ws' hi hc'
              rw [← inv.len, List.getElem?_concat_length, ho]
          · refine old c p k ((bm k hm).resolve_left hkk) ?_ (fun _ _ _ _ _ => ho) ?_
            · intro ws' hcar
              have := ((carries_iff hc c p ws').mp hcar).2.2.2
              exact hkk (isPart_unique this hk0)
            · rw [hs', bp k, if_neg hkk]
        · obtain ⟨e1, e2⟩ := a hk
          rw [e1] at hm
          refine old c p k hm ?_ (fun _ _ _ _ _ => e2) (by rw [hs', e1])
          intro ws' hcar
          exact hk ⟨k, ((carries_iff hc c p ws').mp hcar).2.2.2⟩
      · rw [hoth c p he] at hm
        refine old c p k hm ?_ ?_ (by rw [hoth c p he])
        · intro ws' hcar
          obtain ⟨h1, h2, -⟩ := (carries_iff hc c p ws').mp hcar
          exact he ⟨h1, h2⟩
        · intro g' f' ws' hi hc'
          cases hi
          rw [hc] at hc'
          cases hc'
          exact absurd ⟨rfl, rfl⟩ he
    · rw [hsat] at hm
      refine old c p k hm ?_ ?_ (by rw [hsat])
      · rintro ws' ⟨⟨g, f, hi, hc⟩, -⟩
        rw [hnone g p f ws' hi] at hc
        cases hc
      · intro g f ws hi hc
        rw [hnone g p f ws hi] at hc
        cases hc

theorem HistInv.run {L : EphLib E} {is0 : List EphIn} {os0 : List (Option E)} {st : EphSt} (inv : HistInv L is0 os0 st) {is : List EphIn} {r : EphSt × List (Option E)}
    (h : ephRun L st is = some r) : HistInv L (is0 ++ is) (os0 ++ r.2) r.1 := by
  induction is generalizing st is0 os0 r with
  | nil => cases h; simpa using inv
  | cons i is ih =>
    simp only [ephRun, Option.bind_eq_bind, Option.bind_eq_some_iff, Option.some.injEq] at h
    obtain ⟨⟨st1, o⟩, h1, ⟨st2, os⟩, h2, rfl⟩ := h
    have := ih (inv.step h1) h2
    simpa using this

theorem gpsIssue_keep {c : Con} {ws : List (BitVec 32)} (h : c ≠ .gal) : keep c ws = ws := by cases c <;> first | rfl | exact absurd rfl h

theorem sameIssue_keep {c : Con} {q w : Nat → List (BitVec 32)} (h : ∀ k, 1 ≤ k → k ≤ partCount c → q k = keep c (w k)) : SameIssue c q → SameIssue c w := by
  cases c with
  | gps => intro hs; simp only [SameIssue, h 1 (by omega) (by decide), h 2 (by omega) (by decide), h 3 (by omega) (by decide), keep] at hs ⊢; exact hs
  | bds => intro hs; simp only [SameIssue, h 1 (by omega) (by decide), h 2 (by omega) (by decide), h 3 (by omega) (by decide), keep] at hs ⊢; exact hs
  | gal =>
    intro hs
    have e : ∀ v : List (BitVec 32), iodNav (v.take 8) = iodNav v := fun v => by unfold iodNav; rw [word_take _ (by omega)]
    simp only [SameIssue, h 1 (by omega) (by decide), h 2 (by omega) (by decide), h 3 (by omega) (by decide), h 4 (by omega) (by decide), keep, e] at hs ⊢; exact hs
  | glo =>
    intro hs k h1 h5
    have := hs k h1 h5
    rw [h k h1 h5, h 1 (by omega) (by decide)] at this
    exact this

theorem isEphemeris_keep {L : EphLib E} {utc : Option (Nat × Nat)} {p f : Nat} {e : E} {c : Con} {q w : Nat → List (BitVec 32)} (h : ∀ k, 1 ≤ k → k ≤ partCount c → q k = keep c (w k)) :
    IsEphemeris L utc c p f q e → IsEphemeris L utc c p f w e := by
  cases c with
  | gps => intro hs; simp only [IsEphemeris, h 1 (by omega) (by decide), h 2 (by omega) (by decide), h 3 (by omega) (by decide), keep] at hs ⊢; exact hs
  | bds => intro hs; simp only [IsEphemeris, h 1 (by omega) (by decide), h 2 (by omega) (by decide), h 3 (by omega) (by decide), keep] at hs ⊢; exact hs
  | gal =>
    intro hs
    simp only [IsEphemeris, h 1 (by omega) (by decide), h 2 (by omega) (by decide), h 3 (by omega) (by decide), h 4 (by omega) (by decide), h 5 (by omega) (by decide), keep, galContent_take] at hs ⊢; exact hs
  | glo =>
    intro hs
    simp only [IsEphemeris, h 1 (by omega) (by decide), h 2 (by omega) (by decide), h 3 (by omega) (by decide), h 4 (by omega) (by decide), h 5 (by omega) (by decide), keep] at hs ⊢; exact hs

/-- an emission at the end of a history -/
theorem emission {L : EphLib E} {is : List EphIn} {os : List (Option E)} {st st' : EphSt} {g p f : Nat} {ws : List (BitVec 32)} {c : Con} {e : E}
    (inv : HistInv L is os st) (hc : conOf g = some c) (h : ephStep L st (.sfrbx g p f ws) = some (st', some e)) :
    ∃ (idx : Nat → Nat) (w : Nat → List (BitVec 32)), (∃ k, 1 ≤ k ∧ k ≤ partCount c ∧ idx k = is.length) ∧
      (∀ k, 1 ≤ k → k ≤ partCount c → idx k ≤ is.length ∧ (∃ i, (is ++ [.sfrbx g p f ws])[idx k]? = some i ∧ Carries L i c p k (w k)) ∧
        (∀ m i ws', idx k < m → (is ++ [.sfrbx g p f ws])[m]? = some i → ¬ Carries L i c p k ws') ∧
        ∀ m, idx k ≤ m → m < is.length → SilentAt is os c p m) ∧
      SameIssue c w ∧ IsEphemeris L (leapInfo is) c p f w e := by
  obtain ⟨-, hcase⟩ := ephStep_cases h
  rcases hcase with ⟨g0, p0, f0, ws0, c0, s', he, hc0, hs, hs', hoth⟩ | ⟨hnone, -⟩
  · cases he
    rw [hc] at hc0
    cases hc0
    obtain ⟨a, b⟩ := satStep_ok hs (inv.ok c p)
    by_cases hk : ∃ k, IsPart L c p ws k
    · obtain ⟨k0, hk0⟩ := hk
      obtain ⟨bp, bm, bo, be⟩ := b k0 hk0
      obtain ⟨hall, -, hsame, heph⟩ := be e rfl
      have hk0c : k0 < partCount c := hk0.2.2.2.2
      have ex : ∀ k, ∃ j w, k < partCount c → (k = k0 → j = is.length) ∧ j ≤ is.length ∧ (∃ i, (is ++ [.sfrbx g p f ws])[j]? = some i ∧ Carries L i c p (k + 1) w) ∧
          (∀ m i ws', j < m → (is ++ [.sfrbx g p f ws])[m]? = some i → ¬ Carries L i c p (k + 1) ws') ∧
          (∀ m, j ≤ m → m < is.length → SilentAt is os c p m) ∧ s'.parts k = keep c w := by
        intro k
        by_cases hkk : k = k0
        · subst hkk
          refine ⟨is.length, ws, fun _ => ⟨fun _ => rfl, Nat.le_refl _, ⟨.sfrbx g p f ws, by simp, (carries_iff hc c p ws).mpr ⟨rfl, rfl, rfl, hk0⟩⟩, ?_, ?_, ?_⟩⟩
          · intro m i ws' h1 h2
            rw [List.getElem?_eq_none (by simp; omega)] at h2; cases h2
          · intro m h1 h2; omega
          · rw [bp k, if_pos rfl]
        · by_cases hkc : k < partCount c
          · obtain ⟨j, w, i, hj, hcar, hpar, hlate, hsil⟩ := inv.src c p k ((hall k hkc).resolve_left hkk)
            have hjl : j < is.length := by
              rcases Nat.lt_or_ge j is.length with h | h
              · exact h
              · rw [List.getElem?_eq_none h] at hj; cases hj
            refine ⟨j, w, fun _ => ⟨fun h => absurd h hkk, by omega, ⟨i, by rw [List.getElem?_append_left hjl]; exact hj, hcar⟩, ?_, hsil, ?_⟩⟩
            · intro m i2 ws' hjm hi2
              rcases getElem?_snoc hi2 with ⟨h1, h2⟩ | ⟨h1, h2⟩
              · exact hlate m i2 ws' hjm h1
              · subst h2
                intro hcar'
                exact hkk (isPart_unique ((carries_iff hc c p ws').mp hcar').2.2.2 hk0)
            · rw [bp k, if_neg hkk, hpar]
          · exact ⟨0, [], fun h => absurd h hkc⟩
      obtain ⟨idx, hidx⟩ := Classical.axiomOfChoice ex
      obtain ⟨wf, sp⟩ := Classical.axiomOfChoice hidx
      have hq : ∀ k, 1 ≤ k → k ≤ partCount c → one s'.parts k = keep c (wf (k - 1)) := by
        intro k h1 h2
        exact (sp (k - 1) (by omega)).2.2.2.2.2
      refine ⟨fun k => idx (k - 1), fun k => wf (k - 1), ⟨k0 + 1, by omega, by omega, (sp k0 hk0c).1 rfl⟩, ?_, sameIssue_keep hq hsame, ?_⟩
      · intro k h1 h2
        have := sp (k - 1) (by omega)
        have ek : k - 1 + 1 = k := by omega
        rw [ek] at this
        exact ⟨this.2.1, this.2.2.1, this.2.2.2.1, this.2.2.2.2.1⟩
      · rw [← inv.utc]; exact isEphemeris_keep hq heph
    · cases (a hk).2
  · rw [hnone g p f ws rfl] at hc; cases hc

end Verif.Ubx
