import Verif.Model.Programs
import Verif.Props.C45_C46
/-! The main loop of ixcom2sbp. -/
namespace Verif.Ixcom
open Verif.Ixcom.Spec Verif.Loop

/-- only non-empty reads until the end -/
def Live (src : List Rd) : Prop := ∀ r ∈ src, ∃ b, r = .data b ∧ b ≠ []

/-- a read that returns nothing or an error comes first -/
def Stops (tl : List Rd) : Prop := ∀ e r, tl = e :: r → e = .data [] ∨ ∃ k, e = .err k

/-- the same with further reads -/
def St.ext (tl : List Rd) (st : St) : St := { st with src := st.src ++ tl }

/-- the header says that nothing is missing, and yet the frame has not been handed on -/
def Empty (st : St) : Prop := 16 ≤ st.index ∧ lenField st.buf = st.index

/-- the results of the same operation without and with further reads -/
def SameTo (tl : List Rd) : Option (St × Option Int) → Option (St × Option Int) → Prop
  | none, r => r = none
  | some (st, none), r => r = some (st.ext tl, none) ∧ Live st.src
  | some (st, some ret), r =>
    (0 < ret ∧ r = some (st.ext tl, some ret) ∧ Live st.src) ∨
    (ret ≤ 0 ∧ (∃ st' ret', r = some (st', some ret') ∧ ret' ≤ 0) ∧ (st.src = [] ∨ Empty st))

/-- the same for a read -/
theorem readBytes_ext {tl : List Rd} (ht : Stops tl) {st : St} (hl : Live st.src) (n : Nat) :
    (readBytes st n = none ∧ readBytes (st.ext tl) n = none) ∨
    (∃ st' ret, readBytes st n = some (st', ret) ∧ 0 < ret ∧ readBytes (st.ext tl) n = some (st'.ext tl, ret) ∧ Live st'.src ∧ st'.left < st.left) ∨
    (∃ st' ret st'' ret', readBytes st n = some (st', ret) ∧ ret ≤ 0 ∧ readBytes (st.ext tl) n = some (st'', ret') ∧ ret' ≤ 0 ∧
      (st'.src = [] ∨ n = 0) ∧ st'.index = st.index ∧ st'.buf = st.buf) := by
  unfold readBytes
  show _ ∨ _ ∨ _
  have hidx : (st.ext tl).index = st.index := rfl
  rw [hidx]
  by_cases hc : ¬ st.index + n < 4096
  · rw [if_pos hc, if_pos hc]; exact .inl ⟨rfl, rfl⟩
  rw [if_neg hc, if_neg hc]
  right
  have hsrc : (st.ext tl).src = st.src ++ tl := rfl
  rw [hsrc]
  match h : st.src, hl with
  | [], _ =>
    right
    rw [List.nil_append]
    match tl, ht with
    | [], _ => exact ⟨_, _, _, _, rfl, by simp, rfl, by simp, .inl rfl, by simp, by simp⟩
    | .err k :: r, _ => exact ⟨_, _, _, _, rfl, by simp, rfl, by omega, .inl rfl, by simp, by simp⟩
    | .data b :: r, ht =>
      rcases ht _ _ rfl with h | ⟨k, h⟩
      · cases h
        exact ⟨_, _, _, _, rfl, by simp, rfl, by simp, .inl rfl, by simp, by simp⟩
      · cases h
  | .err k :: s, hl => obtain ⟨_, e, _⟩ := hl _ List.mem_cons_self; cases e
  | .data b :: s, hl =>
    obtain ⟨b', e, hb⟩ := hl _ List.mem_cons_self
    cases e
    have hl' : Live s := fun x hx => hl x (List.mem_cons_of_mem _ hx)
    rw [List.cons_append]
    unfold readFn
    by_cases hn : b.length ≤ n
    · simp only [hn, if_true]
      left
      refine ⟨_, _, rfl, by have := List.length_pos_iff.2 hb; omega, rfl, hl', ?_⟩
      have := List.length_pos_iff.2 hb
      unfold St.left
      rw [h]
      simp only [List.map_cons, List.sum_cons]
      omega
    · simp only [hn, if_false]
      by_cases h0 : n = 0
      · subst h0
        right
        exact ⟨_, _, _, _, rfl, by simp, rfl, by simp, .inr rfl, by simp, by simp⟩
      · left
        have hpos := List.length_pos_iff.2 hb
        refine ⟨_, _, rfl, by rw [List.length_take]; omega, rfl, ?_, ?_⟩
        · intro x hx
          rcases List.mem_cons.1 hx with rfl | hx
          · refine ⟨_, rfl, fun h => ?_⟩
            have := congrArg List.length h
            simp only [List.length_drop, List.length_nil] at this; omega
          · exact hl' x hx
        · unfold St.left
          rw [h]
          simp only [List.map_cons, List.sum_cons, List.length_drop]
          omega

theorem part3_ext {tl : List Rd} (ht : Stops tl) {st : St} (hl : Live st.src) :
    SameTo tl (part3 st) (part3 (st.ext tl)) ∧ ∀ st', part3 st = some (st', none) → st'.left < st.left ∨ st' = st ∧ st.index < 16 := by
  unfold part3
  have hidx : (st.ext tl).index = st.index := rfl
  have hbuf : (st.ext tl).buf = st.buf := rfl
  rw [hidx, hbuf]
  by_cases h16 : 16 ≤ st.index
  · rw [if_pos h16, if_pos h16]
    simp only [buf_len]
    by_cases hlen : lenField st.buf < st.index
    · rw [if_pos hlen, if_pos hlen]; exact ⟨rfl, by intro st' h; simp at h⟩
    rw [if_neg hlen, if_neg hlen]
    rcases readBytes_ext ht hl (lenField st.buf - st.index) with ⟨h1, h2⟩ | ⟨st', ret, h1, h2, h3, h4, h5⟩ | ⟨st', ret, s2, r2, h1, h2, h3, h4, h5, h6, h7⟩
    · rw [h1, h2]; exact ⟨rfl, by intro st' h; simp at h⟩
    · rw [h1, h3]
      simp only [Option.map_some, if_neg (by omega : ¬ ret ≤ 0)]
      have hi' : (st'.ext tl).index = st'.index := rfl
      rw [hi']
      by_cases hd : lenField st.buf ≤ st'.index
      · rw [if_pos hd]
        exact ⟨.inl ⟨by omega, rfl, h4⟩, by intro s h; simp at h⟩
      · rw [if_neg hd]
        refine ⟨⟨rfl, h4⟩, fun s h => ?_⟩
        simp only [Option.some.injEq, Prod.mk.injEq] at h
        rw [← h.1]; exact .inl h5
    · rw [h1, h3]
      simp only [Option.map_some, if_pos h2, if_pos h4]
      refine ⟨.inr ⟨h2, ⟨_, _, rfl, h4⟩, ?_⟩, by intro s h; simp at h⟩
      rcases h5 with h5 | h5
      · exact .inl h5
      · exact .inr ⟨by omega, by rw [h6, h7]; omega⟩
  · rw [if_neg h16, if_neg h16]
    refine ⟨⟨rfl, hl⟩, fun s h => ?_⟩
    simp only [Option.some.injEq, Prod.mk.injEq] at h
    exact .inr ⟨h.1.symm, by omega⟩

theorem part2_ext {tl : List Rd} (ht : Stops tl) {st : St} (hl : Live st.src) (h0 : 0 < st.index) :
    SameTo tl (part2 st) (part2 (st.ext tl)) ∧ ∀ st', part2 st = some (st', none) → st'.left < st.left := by
  unfold part2
  have hidx : (st.ext tl).index = st.index := rfl
  rw [hidx]
  by_cases hc : 0 < st.index ∧ st.index < 16
  · rw [if_pos hc, if_pos hc]
    rcases readBytes_ext ht hl (16 - st.index) with ⟨h1, h2⟩ | ⟨st', ret, h1, h2, h3, h4, h5⟩ | ⟨st', ret, s2, r2, h1, h2, h3, h4, h5, h6, h7⟩
    · rw [h1, h2]; exact ⟨rfl, by intro st' h; simp at h⟩
    · rw [h1, h3]
      simp only [Option.bind_eq_bind, Option.bind_some, if_neg (by omega : ¬ ret ≤ 0)]
      obtain ⟨k1, k2⟩ := part3_ext ht h4
      refine ⟨k1, fun s h => ?_⟩
      rcases k2 s h with k | ⟨rfl, -⟩ <;> omega
    · rw [h1, h3]
      simp only [Option.bind_eq_bind, Option.bind_some, if_pos h2, if_pos h4]
      refine ⟨.inr ⟨h2, ⟨_, _, rfl, h4⟩, ?_⟩, by intro s h; simp at h⟩
      rcases h5 with h5 | h5
      · exact .inl h5
      · omega
  · rw [if_neg hc, if_neg hc]
    obtain ⟨k1, k2⟩ := part3_ext ht hl
    refine ⟨k1, fun s h => ?_⟩
    rcases k2 s h with k | ⟨-, k⟩ <;> omega

theorem part1_ext {tl : List Rd} (ht : Stops tl) {st : St} (hl : Live st.src) :
    SameTo tl (part1 st) (part1 (st.ext tl)) ∧ ∀ st', part1 st = some (st', none) → st'.left < st.left := by
  unfold part1
  have hidx : (st.ext tl).index = st.index := rfl
  rw [hidx]
  by_cases hc : st.index = 0
  · rw [if_pos hc, if_pos hc]
    rcases readBytes_ext ht hl 1 with ⟨h1, h2⟩ | ⟨st', ret, h1, h2, h3, h4, h5⟩ | ⟨st', ret, s2, r2, h1, h2, h3, h4, h5, h6, h7⟩
    · rw [h1, h2]; exact ⟨rfl, by intro st' h; simp at h⟩
    · rw [h1, h3]
      simp only [Option.bind_eq_bind, Option.bind_some, if_neg (by omega : ¬ ret ≤ 0)]
      have hbuf : (st'.ext tl).buf = st'.buf := rfl
      rw [hbuf]
      by_cases hs : st'.buf.getD 0 0 ≠ 0x7E#8
      · rw [if_pos hs, if_pos hs]
        refine ⟨⟨rfl, h4⟩, fun s h => ?_⟩
        simp only [Option.some.injEq, Prod.mk.injEq] at h
        rw [← h.1]; exact h5
      · rw [if_neg hs, if_neg hs]
        have hidx : 0 < st'.index := by
          unfold readBytes at h1
          split at h1
          · cases h1
          · split at h1
            · simp only [Option.some.injEq, Prod.mk.injEq] at h1
              rename_i c hr
              exfalso
              match hsrc : st.src, hl with
              | [], _ => rw [hsrc] at hr; cases hr
              | .data b :: s, _ =>
                rw [hsrc] at hr; simp only [readFn] at hr
                by_cases hq : b.length ≤ 1
                · rw [if_pos hq] at hr; simp at hr
                · rw [if_neg hq] at hr; simp at hr
              | .err k :: s, hl => obtain ⟨_, e, -⟩ := hl _ List.mem_cons_self; cases e
            · simp only [Option.some.injEq, Prod.mk.injEq] at h1
              rw [← h1.1]; simp only; omega
        obtain ⟨k1, k2⟩ := part2_ext ht h4 hidx
        exact ⟨k1, fun s h => by have := k2 s h; omega⟩
    · rw [h1, h3]
      simp only [Option.bind_eq_bind, Option.bind_some, if_pos h2, if_pos h4]
      refine ⟨.inr ⟨h2, ⟨_, _, rfl, h4⟩, ?_⟩, by intro s h; simp at h⟩
      rcases h5 with h5 | h5
      · exact .inl h5
      · omega
  · rw [if_neg hc, if_neg hc]
    exact part2_ext ht hl (by omega)

/-- more fuel makes no difference -/
theorem loop_ext {tl : List Rd} (ht : Stops tl) : ∀ (fuel fuel' : Nat) {st : St}, Live st.src → st.left < fuel → fuel ≤ fuel' →
    SameTo tl ((readFrameLoop fuel st).map fun x => (x.1, some x.2)) ((readFrameLoop fuel' (st.ext tl)).map fun x => (x.1, some x.2)) := by
  intro fuel
  induction fuel with
  | zero => intro fuel' st _ h; omega
  | succ fuel ih =>
    intro fuel' st hl hf hff
    obtain ⟨f', rfl⟩ : ∃ f', fuel' = f' + 1 := ⟨fuel' - 1, by omega⟩
    obtain ⟨k1, k2⟩ := part1_ext ht hl
    unfold readFrameLoop
    match hp : part1 st with
    | none =>
      rw [hp] at k1
      have k1 : part1 (st.ext tl) = none := k1
      rw [k1]; rfl
    | some (s, none) =>
      rw [hp] at k1
      obtain ⟨e, k1⟩ : part1 (st.ext tl) = some (s.ext tl, none) ∧ Live s.src := k1
      rw [e]
      have := k2 s hp
      exact ih f' k1 (by omega) (by omega)
    | some (s, some ret) =>
      rw [hp] at k1
      rcases k1 with ⟨h1, e, h2⟩ | ⟨h1, ⟨s', r', e, h2⟩, h3⟩
      · rw [e]; exact .inl ⟨h1, rfl, h2⟩
      · rw [e]; exact .inr ⟨h1, ⟨s', r', rfl, h2⟩, h3⟩

theorem left_ext (st : St) (tl : List Rd) : st.left ≤ (st.ext tl).left := by
  unfold St.left St.ext
  simp

theorem loop_run {tl : List Rd} (ht : Stops tl) : ∀ (fs : List Buf) {B : Buf} {st : St}, Inv B st → Good st → Live st.src → ∀ {r : Buf},
    Cut st.rest fs r →
    (∀ os, convert B st.sent fs = some os → Ends ixcomBody (fun ret => ret > 0) (st.ext tl) os) ∧
    (convert B st.sent fs = none → Fails ixcomBody (fun ret => ret > 0) (st.ext tl)) := by
  intro fs
  induction fs with
  | nil =>
    intro B st hi hg hl r hc
    obtain ⟨st', ret, h1, h2, h3⟩ := loop_spec (st.left + 1) hi hg hc (by rw [left_eq]; omega)
    have hx := loop_ext ht (st.left + 1) ((st.ext tl).left + 1) hl (by omega) (by have := left_ext st tl; omega)
    rw [h1] at hx
    rcases h3 with ⟨h3, -⟩ | ⟨-, f, fs', h4, -⟩
    · rcases hx with ⟨h4, -⟩ | ⟨-, ⟨s', r', e, h5⟩, -⟩
      · simp only at h4 h3; omega
      · refine ⟨fun os h => ?_, by intro h; simp [convert] at h⟩
        have e' : readFrame (st.ext tl) = some (s', r') := by
          unfold readFrame
          rcases hr : readFrameLoop ((st.ext tl).left + 1) (st.ext tl) with _ | ⟨a, b⟩
          · rw [hr] at e; cases e
          · rw [hr] at e
            simp only [Option.map_some, Option.some.injEq, Prod.mk.injEq] at e
            rw [e.1, e.2]
        have : os = [] := by simpa [convert] using h.symm
        subst this
        refine .stop _ r' s' [] ?_ (by omega)
        unfold ixcomBody process
        rw [e']
        simp [h5]
    · cases h4
  | cons f fs ih =>
    intro B st hi hg hl r hc
    obtain ⟨st', ret, h1, h2, h3⟩ := loop_spec (st.left + 1) hi hg hc (by rw [left_eq]; omega)
    have hx := loop_ext ht (st.left + 1) ((st.ext tl).left + 1) hl (by omega) (by have := left_ext st tl; omega)
    rw [h1] at hx
    rcases h3 with ⟨h3, hi', hg', hc', -⟩ | ⟨h3, f', fs', h4, h5, h6, h7, h8, -⟩
    · exfalso
      rcases hx with ⟨h4, -⟩ | ⟨-, -, h5⟩
      · simp only at h4 h3; omega
      · rcases h5 with h5 | ⟨h5, h6⟩
        · have := good_end hi' hg' hc' h5; cases this
        · have := hg'.part h5; simp only at this h6; omega
    · cases h4
      rcases hx with ⟨-, e, hlive⟩ | ⟨h4, -⟩
      · simp only at h2 h3 h5 h7 h8 hlive
        have e' : readFrame (st.ext tl) = some (st'.ext tl, ret) := by
          unfold readFrame
          rcases hr : readFrameLoop ((st.ext tl).left + 1) (st.ext tl) with _ | ⟨a, b⟩
          · rw [hr] at e; cases e
          · rw [hr] at e
            simp only [Option.map_some, Option.some.injEq, Prod.mk.injEq] at e
            rw [e.1, e.2]
        have hb' : (st'.ext tl).buf = f ++ B.drop f.length := h7
        have hs' : (st'.ext tl).sent = st.sent := h2
        unfold convert
        rcases hh : handle (f ++ B.drop f.length) st.sent with _ | ⟨s, o⟩
        · refine ⟨by intro os h; simp at h, fun _ => .now _ ?_⟩
          unfold ixcomBody process
          rw [e']
          simp only [Option.bind_eq_bind, Option.bind_some, if_neg (by omega : ¬ ret ≤ 0), hb', hs', hh, Option.bind_none, Option.map_none]
        · have hl : (f ++ B.drop f.length).length = 4096 := by
            rw [List.length_append, List.length_drop, hi.lenB]; have := h6.hi; omega
          have hi2 : Inv (f ++ B.drop f.length) { st' with sent := s, index := 0 } :=
            ⟨hl, by simp only; rw [h7]; exact hl, by simp only; rw [h7], by simp⟩
          obtain ⟨k1, k2⟩ := ih hi2 ⟨by simp, by simp⟩ hlive (r := r) (by simpa [St.rest, St.pend] using h8)
          have hb : ixcomBody (st.ext tl) = some (ret, St.ext tl { st' with sent := s, index := 0 }, o) := by
            unfold ixcomBody process
            rw [e']
            simp only [Option.bind_eq_bind, Option.bind_some, if_neg (by omega : ¬ ret ≤ 0), hb', hs', hh, Option.map_some]
            unfold St.ext
            rw [h7]
          simp only [Option.bind_eq_bind, Option.bind_some]
          simp only at k1 k2
          rcases hr : convert (f ++ B.drop f.length) s fs with _ | os
          · exact ⟨by intro os h; simp at h, fun _ => .again _ _ _ _ hb (by omega) (k2 hr)⟩
          · refine ⟨fun os' h => ?_, by intro h; simp at h⟩
            simp only [Option.bind_some, Option.some.injEq] at h
            rw [← h]
            exact .again _ _ _ _ _ hb (by omega) (k1 os hr)
      · simp only at h4 h3; omega

theorem start_ext (src tl : List Rd) : start (src ++ tl) = (start src).ext tl := rfl

end Verif.Ixcom
