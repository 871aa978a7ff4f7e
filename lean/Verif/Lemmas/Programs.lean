import Verif.Model.Programs
import Verif.Props.C37_C38
import Verif.Props.C56
/-! The main loops of ubx2sbp and ixcom2sbp. -/
namespace Verif.Loop
variable {S M : Type} {body : S → Option (Int × S × List M)} {more : Int → Prop}

theorem ends_unique {s : S} {os os' : List M} (h : Ends body more s os) (h' : Ends body more s os') : os = os' := by
  induction h generalizing os' with
  | stop s ret s' o h1 h2 =>
    cases h' with
    | stop _ ret' s'' o' h3 h4 => rw [h1] at h3; cases h3; rfl
    | again _ ret' s'' o' os'' h3 h4 h5 => rw [h1] at h3; cases h3; exact absurd h4 h2
  | again s ret s' o os h1 h2 _ ih =>
    cases h' with
    | stop _ ret' s'' o' h3 h4 => rw [h1] at h3; cases h3; exact absurd h2 h4
    | again _ ret' s'' o' os'' h3 h4 h5 => rw [h1] at h3; cases h3; rw [ih h5]

theorem ends_not_fails {s : S} {os : List M} (h : Ends body more s os) : ¬ Fails body more s := by
  induction h with
  | stop s ret s' o h1 h2 =>
    intro h'
    cases h' with
    | now _ h3 => rw [h1] at h3; cases h3
    | again _ ret' s'' o' h3 h4 h5 => rw [h1] at h3; cases h3; exact h2 h4
  | again s ret s' o os h1 h2 _ ih =>
    intro h'
    cases h' with
    | now _ h3 => rw [h1] at h3; cases h3
    | again _ ret' s'' o' h3 h4 h5 => rw [h1] at h3; cases h3; exact ih h5

end Verif.Loop

namespace Verif.Ubx

/-! ### a read takes what it returns -/

theorem readBytes_left (src : List Rd) : ∀ (buf : Buf) (index length : Nat) (got : Buf) {st' : RSt} {g : Buf}, index ≤ buf.length →
    readBytes src buf index length got = (st', .ok g) →
    st'.index ≤ st'.buf.length ∧ st'.left + length = RSt.left { buf := buf, index := index, src := src } := by
  induction src with
  | nil =>
    intro buf index length got st' g hi h
    unfold readBytes at h
    by_cases hc : index + length > buf.length
    · rw [if_pos hc] at h; simp at h
    · rw [if_neg hc] at h
      simp only [Prod.mk.injEq, Except.ok.injEq] at h
      obtain ⟨rfl, rfl⟩ := h
      refine ⟨by simp only; omega, ?_⟩
      simp only [RSt.left]; omega
  | cons r src ih =>
    intro buf index length got st' g hi h
    unfold readBytes at h
    by_cases hc : index + length > buf.length
    · rw [if_pos hc] at h
      cases r with
      | err c => simp at h
      | data b =>
        simp only at h
        by_cases hb : b.length = 0
        · rw [if_pos hb] at h; simp at h
        · rw [if_neg hb] at h
          obtain ⟨h1, h2⟩ := ih _ _ _ _ (Nat.zero_le _) h
          refine ⟨h1, ?_⟩
          have hr : (if buf.length = 0 then [] else (buf.drop index).take (buf.length - index)).length = buf.length - index := by
            split
            · simp; omega
            · simp
          rw [hr] at h2
          simp only [RSt.left, List.map_cons, List.sum_cons] at h2 ⊢
          omega
    · rw [if_neg hc] at h
      simp only [Prod.mk.injEq, Except.ok.injEq] at h
      obtain ⟨rfl, rfl⟩ := h
      refine ⟨by simp only; omega, ?_⟩
      simp only [RSt.left]; omega

theorem read_left {st st' : RSt} {n : Nat} {g : Buf} (hi : st.index ≤ st.buf.length) (h : read st n = (st', .ok g)) :
    st'.index ≤ st'.buf.length ∧ st'.left + n = st.left := readBytes_left _ _ _ _ _ hi h

/-! ### more fuel makes no difference -/

theorem skipSync_fuel : ∀ (fuel fuel' : Nat) (st : RSt), st.index ≤ st.buf.length → st.left < fuel → fuel ≤ fuel' →
    skipSync fuel' st = skipSync fuel st ∧
      ∀ st' x, skipSync fuel st = (st', .ok x) → st'.index ≤ st'.buf.length ∧ st'.left < st.left := by
  intro fuel
  induction fuel with
  | zero => intro fuel' st _ h; omega
  | succ fuel ih =>
    intro fuel' st hi hl hf
    obtain ⟨f', rfl⟩ : ∃ f', fuel' = f' + 1 := ⟨fuel' - 1, by omega⟩
    unfold skipSync
    match h1 : read st 1 with
    | (s1, .error c) => exact ⟨rfl, by intro st' x h; simp at h⟩
    | (s1, .ok b) =>
      obtain ⟨i1, l1⟩ := read_left hi h1
      simp only
      by_cases hb : b.getD 0 0 = 0xB5#8
      · rw [if_pos hb, if_pos hb]
        obtain ⟨e, k⟩ := ih f' s1 i1 (by omega) (by omega)
        exact ⟨e, fun st' x h => by have := k st' x h; exact ⟨this.1, by omega⟩⟩
      · rw [if_neg hb, if_neg hb]
        refine ⟨rfl, fun st' x h => ?_⟩
        simp only [Prod.mk.injEq] at h
        obtain ⟨rfl, -⟩ := h
        exact ⟨i1, by omega⟩

theorem loop_fuel : ∀ (fuel fuel' : Nat) (st : RSt), st.index ≤ st.buf.length → st.left < fuel → fuel ≤ fuel' →
    readFrameLoop fuel' st = readFrameLoop fuel st ∧
      ∀ st' f, readFrameLoop fuel st = (st', .ok f) → st'.index ≤ st'.buf.length ∧ st'.left < st.left := by
  intro fuel
  induction fuel with
  | zero => intro fuel' st _ h; omega
  | succ fuel ih =>
    intro fuel' st hi hl hf
    obtain ⟨f', rfl⟩ : ∃ f', fuel' = f' + 1 := ⟨fuel' - 1, by omega⟩
    have again : ∀ s : RSt, s.index ≤ s.buf.length → s.left < st.left →
        (if s.buf.length ≠ 0 then readFrameLoop f' s else (s, .error (-1))) =
          (if s.buf.length ≠ 0 then readFrameLoop fuel s else (s, .error (-1))) ∧
        ∀ st' f, (if s.buf.length ≠ 0 then readFrameLoop fuel s else (s, .error (-1))) = (st', .ok f) →
          st'.index ≤ st'.buf.length ∧ st'.left < st.left := by
      intro s hs hls
      by_cases hc : s.buf.length ≠ 0
      · rw [if_pos hc, if_pos hc]
        obtain ⟨e, k⟩ := ih f' s hs (by omega) (by omega)
        exact ⟨e, fun st' f h => by have := k st' f h; exact ⟨this.1, by omega⟩⟩
      · rw [if_neg hc, if_neg hc]
        exact ⟨rfl, by intro st' f h; simp at h⟩
    unfold readFrameLoop
    simp only
    match h1 : read st 1 with
    | (s1, .error c) => exact ⟨rfl, by intro st' x h; simp at h⟩
    | (s1, .ok b) =>
      obtain ⟨i1, l1⟩ := read_left hi h1
      simp only
      by_cases hb : b.getD 0 0 ≠ 0xB5#8
      · rw [if_pos hb, if_pos hb]; exact again s1 i1 (by omega)
      rw [if_neg hb, if_neg hb]
      obtain ⟨e2, k2⟩ := skipSync_fuel fuel f' s1 i1 (by omega) (by omega)
      rw [e2]
      match h2 : skipSync fuel s1 with
      | (s2, .error c) => exact ⟨rfl, by intro st' x h; simp at h⟩
      | (s2, .ok x) =>
        obtain ⟨i2, l2⟩ := k2 _ _ h2
        simp only
        by_cases hx : x ≠ 0x62#8
        · rw [if_pos hx, if_pos hx]; exact again s2 i2 (by omega)
        rw [if_neg hx, if_neg hx]
        match h3 : read s2 4 with
        | (s3, .error c) => exact ⟨rfl, by intro st' x h; simp at h⟩
        | (s3, .ok hd) =>
          obtain ⟨i3, l3⟩ := read_left i2 h3
          simp only
          generalize (hd.getD 2 0).toNat + ((hd.getD 3 0).toNat <<< 8) = len
          by_cases hlen : len > frameSize - 6
          · rw [if_pos hlen, if_pos hlen]; exact again s3 i3 (by omega)
          rw [if_neg hlen, if_neg hlen]
          match h4 : read s3 (len + 2) with
          | (s4, .error c) => exact ⟨rfl, by intro st' x h; simp at h⟩
          | (s4, .ok p) =>
            obtain ⟨i4, l4⟩ := read_left i3 h4
            simp only
            by_cases hck : [(checksum ((hd ++ p).take (4 + len))).1, (checksum ((hd ++ p).take (4 + len))).2] ≠ ((hd ++ p).drop (4 + len)).take 2
            · rw [if_pos hck, if_pos hck]; exact again s4 i4 (by omega)
            rw [if_neg hck, if_neg hck]
            refine ⟨rfl, fun st' f h => ?_⟩
            simp only [Prod.mk.injEq] at h
            obtain ⟨rfl, -⟩ := h
            exact ⟨i4, by omega⟩

theorem readFrame_fuel {st : RSt} (hi : st.index ≤ st.buf.length) {fuel : Nat} (h : st.left < fuel) : readFrame st = readFrameLoop fuel st :=
  ((loop_fuel (st.left + 1) fuel st hi (by omega) (by omega)).1).symm

theorem readFrame_left {st st' : RSt} {f : Buf} (hi : st.index ≤ st.buf.length) (h : readFrame st = (st', .ok f)) :
    st'.index ≤ st'.buf.length ∧ st'.left < st.left := (loop_fuel (st.left + 1) _ st hi (by omega) (Nat.le_refl _)).2 _ _ h

/-! ### what comes after the first read without data does not matter -/

/-- a read that returns nothing or an error comes first -/
def Stops (tl : List Rd) : Prop := ∀ e r, tl = e :: r → e = .data [] ∨ ∃ c : Int, c < 0 ∧ e = .err c

/-- the same with further reads -/
def RSt.ext (tl : List Rd) (st : RSt) : RSt := { st with src := st.src ++ tl }

/-- the results of the same operation without and with further reads -/
def SameTo {α : Type} (tl : List Rd) (k : Int) : RSt × Except Int α → RSt × Except Int α → Prop
  | (st, .ok x), r => r = (st.ext tl, .ok x)
  | (_, .error _), r => ∃ st' c, r = (st', .error c) ∧ c ≤ k

theorem readBytes_ext {tl : List Rd} (ht : Stops tl) (src : List Rd) : ∀ (buf : Buf) (index length : Nat) (got : Buf), Live src →
    SameTo tl 0 (readBytes src buf index length got) (readBytes (src ++ tl) buf index length got) := by
  induction src with
  | nil =>
    intro buf index length got _
    rw [List.nil_append]
    by_cases hc : index + length > buf.length
    · have e : readBytes [] buf index length got = ({ buf := [], index := 0, src := [] }, .error 0) := by
        unfold readBytes; rw [if_pos hc]
      rw [e]
      unfold readBytes
      rw [if_pos hc]
      match tl, ht with
      | [], _ => exact ⟨_, _, rfl, Int.le_refl _⟩
      | .err c :: r, ht =>
        rcases ht _ _ rfl with h | ⟨c', h, h'⟩
        · cases h
        · cases h'; exact ⟨_, _, rfl, by omega⟩
      | .data b :: r, ht =>
        rcases ht _ _ rfl with h | ⟨c', h, h'⟩
        · cases h; exact ⟨_, _, rfl, Int.le_refl _⟩
        · cases h'
    · unfold readBytes
      rw [if_neg hc, if_neg hc]
      rfl
  | cons r src ih =>
    intro buf index length got hl
    obtain ⟨b, rfl, hb⟩ := hl r (by simp)
    rw [List.cons_append]
    unfold readBytes
    by_cases hc : index + length > buf.length
    · rw [if_pos hc, if_pos hc]
      have hb' : ¬ b.length = 0 := by simpa using hb
      simp only [if_neg hb']
      exact ih _ _ _ _ (fun x hx => hl x (by simp [hx]))
    · rw [if_neg hc, if_neg hc]
      rfl

theorem read_ext {tl : List Rd} (ht : Stops tl) {st : RSt} (hs : Live st.src) (n : Nat) : SameTo tl 0 (read st n) (read (st.ext tl) n) :=
  readBytes_ext ht _ _ _ _ _ hs

theorem read_live {st st' : RSt} {n : Nat} {g : Buf} (hs : Ok st) (h : read st n = (st', .ok g)) : Ok st' := by
  by_cases hn : n ≤ st.rest.length
  · obtain ⟨s, h1, h2, -⟩ := read_ok hs hn
    rw [h] at h1; cases h1; exact h2
  · obtain ⟨s, h1, -⟩ := read_end hs (n := n) (by omega)
    rw [h] at h1; cases h1

theorem sameTo_ok {α : Type} {tl : List Rd} {k : Int} {st : RSt} {x : α} {r : RSt × Except Int α} (h : SameTo tl k (st, .ok x) r) : r = (st.ext tl, .ok x) := h

theorem skipSync_ext {tl : List Rd} (ht : Stops tl) : ∀ (fuel : Nat) (st : RSt), Ok st →
    SameTo tl (-1) (skipSync fuel st) (skipSync fuel (st.ext tl)) ∧ ∀ st' x, skipSync fuel st = (st', .ok x) → Ok st' := by
  intro fuel
  induction fuel with
  | zero => intro st _; exact ⟨⟨_, _, rfl, Int.le_refl _⟩, by intro st' x h; simp [skipSync] at h⟩
  | succ fuel ih =>
    intro st hs
    have h := read_ext ht hs.1 1
    unfold skipSync
    match h1 : read st 1 with
    | (s1, .error c) =>
      rw [h1] at h
      obtain ⟨s', c', e, hc⟩ := h
      rw [e]
      refine ⟨⟨_, _, rfl, ?_⟩, by intro st' x h; simp at h⟩
      unfold fail; split <;> omega
    | (s1, .ok b) =>
      rw [h1] at h
      rw [sameTo_ok h]
      have o1 := read_live hs h1
      simp only
      by_cases hb : b.getD 0 0 = 0xB5#8
      · rw [if_pos hb, if_pos hb]; exact ih s1 o1
      · rw [if_neg hb, if_neg hb]
        exact ⟨rfl, by intro st' x h; simp only [Prod.mk.injEq] at h; obtain ⟨rfl, -⟩ := h; exact o1⟩

theorem loop_ext {tl : List Rd} (ht : Stops tl) : ∀ (fuel : Nat) (st : RSt), Ok st →
    SameTo tl (-1) (readFrameLoop fuel st) (readFrameLoop fuel (st.ext tl)) := by
  intro fuel
  induction fuel with
  | zero => intro st _; exact ⟨_, _, rfl, Int.le_refl _⟩
  | succ fuel ih =>
    intro st hs
    have again : ∀ s : RSt, Ok s → SameTo tl (-1) (if s.buf.length ≠ 0 then readFrameLoop fuel s else (s, .error (-1)))
        (if (s.ext tl).buf.length ≠ 0 then readFrameLoop fuel (s.ext tl) else (s.ext tl, .error (-1))) := by
      intro s hs
      show SameTo tl (-1) _ (if s.buf.length ≠ 0 then readFrameLoop fuel (s.ext tl) else (s.ext tl, .error (-1)))
      by_cases hc : s.buf.length ≠ 0
      · rw [if_pos hc, if_pos hc]; exact ih s hs
      · rw [if_neg hc, if_neg hc]; exact ⟨_, _, rfl, Int.le_refl _⟩
    have bad : ∀ {s : RSt} {c : Int} {α : Type} {r : RSt × Except Int α}, SameTo tl 0 (s, .error c) r →
        ∃ s' c', r = (s', .error c') ∧ fail c' ≤ -1 := by
      intro s c α r h
      obtain ⟨s', c', e, hc⟩ := h
      exact ⟨s', c', e, by unfold fail; split <;> omega⟩
    unfold readFrameLoop
    simp only
    have h := read_ext ht hs.1 1
    match h1 : read st 1 with
    | (s1, .error c) =>
      rw [h1] at h
      obtain ⟨s', c', e, hc⟩ := bad h
      rw [e]; exact ⟨_, _, rfl, hc⟩
    | (s1, .ok b) =>
      rw [h1] at h
      rw [sameTo_ok h]
      have o1 := read_live hs h1
      simp only
      by_cases hb : b.getD 0 0 ≠ 0xB5#8
      · rw [if_pos hb, if_pos hb]; exact again s1 o1
      rw [if_neg hb, if_neg hb]
      obtain ⟨h, k2⟩ := skipSync_ext ht fuel s1 o1
      match h2 : skipSync fuel s1 with
      | (s2, .error c) =>
        rw [h2] at h
        obtain ⟨s', c', e, hc⟩ := h
        rw [e]; exact ⟨_, _, rfl, hc⟩
      | (s2, .ok x) =>
        have o2 := k2 _ _ h2
        rw [h2] at h
        rw [sameTo_ok h]
        simp only
        by_cases hx : x ≠ 0x62#8
        · rw [if_pos hx, if_pos hx]; exact again s2 o2
        rw [if_neg hx, if_neg hx]
        have h := read_ext ht o2.1 4
        match h3 : read s2 4 with
        | (s3, .error c) =>
          rw [h3] at h
          obtain ⟨s', c', e, hc⟩ := bad h
          rw [e]; exact ⟨_, _, rfl, hc⟩
        | (s3, .ok hd) =>
          have o3 := read_live o2 h3
          rw [h3] at h
          rw [sameTo_ok h]
          simp only
          generalize (hd.getD 2 0).toNat + ((hd.getD 3 0).toNat <<< 8) = len
          by_cases hlen : len > frameSize - 6
          · rw [if_pos hlen, if_pos hlen]; exact again s3 o3
          rw [if_neg hlen, if_neg hlen]
          have h := read_ext ht o3.1 (len + 2)
          match h4 : read s3 (len + 2) with
          | (s4, .error c) =>
            rw [h4] at h
            obtain ⟨s', c', e, hc⟩ := bad h
            rw [e]; exact ⟨_, _, rfl, hc⟩
          | (s4, .ok p) =>
            have o4 := read_live o3 h4
            rw [h4] at h
            rw [sameTo_ok h]
            simp only
            by_cases hck : [(checksum ((hd ++ p).take (4 + len))).1, (checksum ((hd ++ p).take (4 + len))).2] ≠ ((hd ++ p).drop (4 + len)).take 2
            · rw [if_pos hck, if_pos hck]; exact again s4 o4
            rw [if_neg hck, if_neg hck]
            rfl

theorem readFrame_ext {tl : List Rd} (ht : Stops tl) {st : RSt} (hs : Ok st) : SameTo tl (-1) (readFrame st) (readFrame (st.ext tl)) := by
  have hi : (st.ext tl).index ≤ (st.ext tl).buf.length := hs.2
  rw [readFrame_fuel hs.2 (fuel := max st.left (st.ext tl).left + 1) (by omega), readFrame_fuel hi (fuel := max st.left (st.ext tl).left + 1) (by omega)]
  exact loop_ext ht _ _ hs

/-! ### the program -/
open Verif.Loop

variable {E : Type}

theorem loop_run (L : SbpLib E) {tl : List Rd} (ht : Stops tl) : ∀ (n : Nat) (st : RSt) (cst : CSt), Ok st → st.rest.length < n →
    (∀ cst' os, handleAll L cst (scan decision st.rest).1 = some (cst', os) → Ends (ubxBody L) (fun ret => ret ≥ 0) (st.ext tl, cst) os) ∧
    (handleAll L cst (scan decision st.rest).1 = none → Fails (ubxBody L) (fun ret => ret ≥ 0) (st.ext tl, cst)) := by
  intro n
  induction n with
  | zero => intro st cst _ h; omega
  | succ n ih =>
    intro st cst hs hn
    have he := readFrame_ext ht hs
    rcases readFrameLoop_spec (st.left + 1) st hs (by rw [left_rest]; omega) with ⟨st', f, h1, h2, h3, h4⟩ | ⟨st', h1, h2, h3, -⟩
    · have h1 : readFrame st = (st', .ok f) := h1
      rw [h1] at he
      have he := sameTo_ok he
      obtain ⟨ihe, ihf⟩ : _ ∧ _ := ⟨fun c => (ih st' c h2 (by omega)).1, fun c => (ih st' c h2 (by omega)).2⟩
      rw [h3]
      unfold handleAll
      rcases hf : handleFrame L cst f with _ | ⟨c1, o⟩
      · refine ⟨by intro c os h; simp at h, fun _ => .now _ ?_⟩
        unfold ubxBody process
        simp only [he, hf, Option.map_none]
      · have hb : ubxBody L (st.ext tl, cst) = some ((f.length : Int), (st'.ext tl, c1), o) := by
          unfold ubxBody process
          simp only [he, hf, Option.map_some]
        simp only [Option.bind_eq_bind, Option.bind_some]
        rcases hr : handleAll L c1 (scan decision st'.rest).1 with _ | ⟨c2, os⟩
        · exact ⟨by intro c os h; simp at h, fun _ => .again _ _ _ _ hb (by omega) (ihf c1 hr)⟩
        · refine ⟨fun c os' h => ?_, by intro h; simp at h⟩
          simp only [Option.bind_some, Option.some.injEq, Prod.mk.injEq] at h
          rw [← h.2]
          exact .again _ _ _ _ _ hb (by omega) (ihe c1 c2 os hr)
    · have h1 : readFrame st = (st', .error (-1)) := h1
      rw [h1] at he
      obtain ⟨s', c', e, hc⟩ := he
      rw [h3]
      refine ⟨fun c os h => ?_, by intro h; simp [handleAll] at h⟩
      simp only [handleAll, Option.some.injEq, Prod.mk.injEq] at h
      rw [← h.2]
      refine .stop _ c' (s', cst) [] ?_ (by omega)
      unfold ubxBody process
      simp only [e, Option.map_some]

theorem start_ext (src tl : List Rd) : start (src ++ tl) = (start src).ext tl := rfl

end Verif.Ubx
