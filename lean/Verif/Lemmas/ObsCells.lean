import Verif.Lemmas.ObsMsm
/-
C72: the cells of an MSM message and the observations of the epoch.
-/
namespace Verif.ObsStream
open Verif.ObsStream.Spec Verif.SbpRtcm.Spec Verif.Msm.Spec
open Verif.Msm hiding Inv
open Verif.SbpRtcm
open Verif.RtcmSbp (SbpTime SbpObs crint setCells msmCells hdrOf)
open Verif.RtcmSbp.Spec (positions)

theorem positions_append (l : List Bool) (b : Bool) : positions (l ++ [b]) = positions l ++ if b then [l.length] else [] := by
  unfold positions
  rw [List.length_append, List.length_singleton, List.range_succ, List.filter_append]
  congr 1
  · apply List.filter_congr
    intro i hi
    rw [List.mem_range] at hi
    rw [List.getD_eq_getElem?_getD, List.getD_eq_getElem?_getD, List.getElem?_append_left hi]
  · cases b <;> simp

/-- the i-th set position has i set positions before it -/
theorem positions_get (l : List Bool) : ∀ (i k : Nat), (positions l)[i]? = some k → l[k]? = some true ∧ (l.take k).count true = i := by
  induction l using List.reverseRecOn with
  | nil => intro i k h; simp [positions] at h
  | append_singleton l b ih =>
    intro i k h
    rw [positions_append] at h
    by_cases hi : i < (positions l).length
    · rw [List.getElem?_append_left hi] at h
      obtain ⟨h1, h2⟩ := ih i k h
      have hk : k < l.length := (List.getElem?_eq_some_iff.1 h1).1
      refine ⟨by rw [List.getElem?_append_left hk]; exact h1, ?_⟩
      rw [List.take_append_of_le_length hk.le]; exact h2
    · rw [List.getElem?_append_right (by omega)] at h
      cases b with
      | false => simp at h
      | true =>
        simp only [if_true] at h
        have h0 : i - (positions l).length = 0 := by
          by_contra hh
          rw [List.getElem?_singleton, if_neg hh] at h
          cases h
        rw [h0] at h
        simp only [List.getElem?_cons_zero, Option.some.injEq] at h
        subst h
        refine ⟨by simp, ?_⟩
        rw [List.take_left' rfl]
        have := RtcmSbp.positions_length l
        omega

theorem positions_mem (l : List Bool) (k : Nat) : k ∈ positions l ↔ l[k]? = some true := by
  unfold positions
  rw [List.mem_filter, List.mem_range, List.getD_eq_getElem?_getD]
  constructor
  · rintro ⟨h1, h2⟩
    rw [List.getElem?_eq_getElem h1] at h2 ⊢
    simpa using h2
  · intro h
    exact ⟨(List.getElem?_eq_some_iff.1 h).1, by rw [h]; rfl⟩

theorem positions_nodup (l : List Bool) : (positions l).Nodup := List.nodup_range.filter _

theorem grid_cells (p : Nat → Bool) (g : Nat) : ∀ n, (List.range n).flatMap (fun r => (List.range g).flatMap fun c =>
    if p (r * g + c) then [(r, c)] else []) = ((List.range (n * g)).filter p).map fun k => (k / g, k % g) := by
  intro n
  induction n with
  | zero => simp
  | succ n ih =>
    rw [List.range_succ, List.flatMap_append, ih, Nat.add_mul, Nat.one_mul, List.range_add, List.filter_append, List.map_append]
    congr 1
    simp only [List.flatMap_cons, List.flatMap_nil, List.append_nil]
    rw [List.filter_map, List.map_map]
    clear ih
    have : ∀ j ≤ g, (List.range j).flatMap (fun c => if p (n * g + c) then [(n, c)] else []) =
        ((List.range j).filter (p ∘ fun x => n * g + x)).map ((fun k => (k / g, k % g)) ∘ fun x => n * g + x) := by
      intro j
      induction j with
      | zero => simp
      | succ j ih =>
        intro hj
        rw [List.range_succ, List.flatMap_append, List.filter_append, List.map_append, ih (by omega)]
        congr 1
        simp only [List.flatMap_cons, List.flatMap_nil, List.append_nil, List.filter_cons, List.filter_nil, Function.comp]
        have e1 : (n * g + j) / g = n := by rw [Nat.mul_comm, Nat.mul_add_div (by omega), Nat.div_eq_of_lt (by omega)]; rfl
        have e2 : (n * g + j) % g = j := by rw [Nat.mul_comm, Nat.mul_add_mod]; exact Nat.mod_eq_of_lt (by omega)
        split <;> simp [e1, e2]
    exact this g (le_refl _)

/-- the cells in the order in which the receiver visits them -/
theorem msmCells_eq {h : Header} (hl : h.cellMask.length = nSats h * nSigs h) :
    msmCells h = (positions h.cellMask).zipIdx.map fun p => (p.1 / nSigs h, p.1 % nSigs h, p.2) := by
  unfold msmCells
  simp only
  have := grid_cells (fun k => h.cellMask.getD k false) (h.sigMask.count true) (h.satMask.count true)
  rw [this]
  rw [show h.satMask.count true * h.sigMask.count true = h.cellMask.length from hl.symm]
  rw [show (List.range h.cellMask.length).filter (fun k => h.cellMask.getD k false) = positions h.cellMask from rfl]
  rw [List.zipIdx_map, List.map_map]
  rfl

theorem forall₂_zipIdx {α β γ : Type} {R : β → γ → Prop} {l : List α} {f : α → β} {g : α × Nat → γ}
    (h : ∀ (i : Nat) a, l[i]? = some a → R (f a) (g (a, i))) : List.Forall₂ R (l.map f) (l.zipIdx.map g) := by
  rw [List.forall₂_iff_get]
  refine ⟨by simp, ?_⟩
  intro i h1 h2
  simp only [List.get_eq_getElem, List.getElem_map, List.getElem_zipIdx, Nat.zero_add]
  exact h i _ (List.getElem?_eq_getElem (by simpa using h1))

/-- observations whose cells are exactly the set ones are the set cells in another order -/
theorem perm_cells {obs : List SbpObs} {mask : List Bool} {id : SbpObs → Nat} (hn : obs.Nodup)
    (hinj : ∀ o ∈ obs, ∀ o' ∈ obs, id o = id o' → o = o') (hc : ∀ k : Nat, mask[k]? = some true ↔ ∃ o ∈ obs, id o = k) :
    ∃ ob : Nat → SbpObs, ((positions mask).map ob).Perm obs ∧ ∀ k, mask[k]? = some true → ob k ∈ obs ∧ id (ob k) = k := by
  have : ∀ k : Nat, ∃ o, mask[k]? = some true → o ∈ obs ∧ id o = k := by
    intro k
    by_cases h : mask[k]? = some true
    · obtain ⟨o, h1, h2⟩ := (hc k).1 h
      exact ⟨o, fun _ => ⟨h1, h2⟩⟩
    · exact ⟨⟨0, .invalid, 0, 0, 0, 0, 0, 0, 0, 0⟩, fun h' => absurd h' h⟩
  choose ob hob using this
  refine ⟨ob, ?_, hob⟩
  rw [List.perm_ext_iff_of_nodup]
  · intro o
    rw [List.mem_map]
    constructor
    · rintro ⟨k, hk, rfl⟩
      exact (hob k ((positions_mem _ _).1 hk)).1
    · intro ho
      have hk : mask[id o]? = some true := (hc _).2 ⟨o, ho, rfl⟩
      exact ⟨id o, (positions_mem _ _).2 hk, hinj _ (hob _ hk).1 _ ho (hob _ hk).2⟩
  · apply List.Nodup.map_on _ (positions_nodup _)
    intro k hk k' hk' he
    have h1 := (hob k ((positions_mem _ _).1 hk)).2
    have h2 := (hob k' ((positions_mem _ _).1 hk')).2
    rw [← h1, ← h2, he]
  · exact hn

end Verif.ObsStream
