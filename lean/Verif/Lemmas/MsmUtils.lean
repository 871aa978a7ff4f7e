import Verif.Model.MsmUtils
namespace Verif.Msm

theorem take_count_succ {l : List Bool} {k : Nat} (h : k < l.length) :
    (l.take (k + 1)).count true = (l.take k).count true + (if l[k] then 1 else 0) := by
  rw [List.take_succ_eq_append_getElem h, List.count_append]
  cases l[k] <;> simp

theorem findNthFrom_spec (n : Nat) (l : List Bool) (f pos r : Nat) (hn : f < n) (h : findNthFrom n l f pos = some r) :
    ∃ k, r = pos + k ∧ l[k]? = some true ∧ n = f + (l.take k).count true + 1 := by
  induction l generalizing f pos with
  | nil => simp [findNthFrom] at h
  | cons b bs ih =>
    unfold findNthFrom at h
    cases b with
    | true =>
      simp at h
      split at h
      · rename_i he
        simp at h
        exact ⟨0, by omega, by simp, by simp; omega⟩
      · obtain ⟨k, h1, h2, h3⟩ := ih (f + 1) (pos + 1) (by omega) h
        exact ⟨k + 1, by omega, by simpa using h2, by simp; omega⟩
    | false =>
      simp at h
      rw [if_neg (by omega)] at h
      obtain ⟨k, h1, h2, h3⟩ := ih f (pos + 1) (by omega) h
      exact ⟨k + 1, by omega, by simpa using h2, by simp; omega⟩

theorem findNthFrom_of (n : Nat) (l : List Bool) (f pos k : Nat) (hk : l[k]? = some true)
    (hn : n = f + (l.take k).count true + 1) : findNthFrom n l f pos = some (pos + k) := by
  induction l generalizing f pos k with
  | nil => simp at hk
  | cons b bs ih =>
    unfold findNthFrom
    cases k with
    | zero => simp at hk; simp [hk, hn]
    | succ k =>
      simp at hk
      cases b with
      | true =>
        simp at hn ⊢
        have : (bs.take k).count true ≥ 0 := Nat.zero_le _
        rw [if_neg (by omega)]
        rw [ih (f + 1) (pos + 1) k hk (by omega)]; simp; omega
      | false =>
        simp at hn ⊢
        rw [if_neg (by omega)]
        rw [ih f (pos + 1) k hk hn]; simp; omega

theorem findNthFrom_exists (n : Nat) (l : List Bool) (f pos : Nat) (h1 : f < n) (h2 : n ≤ f + l.count true) :
    ∃ r, findNthFrom n l f pos = some r := by
  induction l generalizing f pos with
  | nil => simp at h2; omega
  | cons b bs ih =>
    unfold findNthFrom
    cases b with
    | true =>
      simp at h2 ⊢
      by_cases hc : n = f + 1
      · rw [if_pos hc]; exact ⟨_, rfl⟩
      · rw [if_neg hc]; exact ih _ _ (by omega) (by omega)
    | false =>
      simp at h2 ⊢
      rw [if_neg (by omega)]; exact ih _ _ h1 h2

theorem findNth_of {size : Nat} {mask : List Bool} {p : Nat} (hp : p < size) (h : mask[p]? = some true) :
    findNth size mask (countMask p mask + 1) = some p := by
  unfold findNth
  rw [if_neg (by omega)]
  have := findNthFrom_of (countMask p mask + 1) (mask.take size) 0 0 p (by rw [List.getElem?_take]; simp [hp, h])
    (by rw [List.take_take, Nat.min_eq_left (by omega)]; unfold countMask; omega)
  simpa using this

theorem findNth_spec {size : Nat} {mask : List Bool} {n p : Nat} (h : findNth size mask n = some p) :
    p < size ∧ mask[p]? = some true ∧ n = countMask p mask + 1 := by
  unfold findNth at h
  by_cases h0 : n = 0
  · simp [h0] at h
  · rw [if_neg h0] at h
    obtain ⟨k, h1, h2, h3⟩ := findNthFrom_spec _ _ _ _ _ (by omega) h
    simp at h1
    subst h1
    rw [List.getElem?_take] at h2
    split at h2
    · rename_i hk
      refine ⟨hk, h2, ?_⟩
      rw [List.take_take, Nat.min_eq_left (by omega)] at h3
      unfold countMask; omega
    · simp at h2

theorem findNth_exists {size : Nat} {mask : List Bool} {n : Nat} (h1 : 1 ≤ n) (h2 : n ≤ countMask size mask) :
    ∃ p, findNth size mask n = some p := by
  unfold findNth
  rw [if_neg (by omega)]
  exact findNthFrom_exists _ _ _ _ (by omega) (by unfold countMask at h2; omega)

theorem countMask_lt {size : Nat} {mask : List Bool} {p : Nat} (hp : p < size) (h : mask[p]? = some true) :
    countMask p mask < countMask size mask := by
  have hlt : p < mask.length := by
    refine Nat.lt_of_not_le fun hc => ?_
    rw [List.getElem?_eq_none hc] at h; simp at h
  rw [List.getElem?_eq_getElem hlt] at h
  simp at h
  have e := take_count_succ hlt
  simp [h] at e
  have : (mask.take (p+1)).count true ≤ (mask.take size).count true := by
    have : mask.take (p+1) = (mask.take size).take (p+1) := by rw [List.take_take, Nat.min_eq_left (by omega)]
    rw [this]
    exact List.Sublist.count_le _ (List.take_sublist _ _)
  unfold countMask; omega

theorem countMask_inj {mask : List Bool} {p q : Nat} (hp : mask[p]? = some true) (hq : mask[q]? = some true)
    (h : countMask p mask = countMask q mask) : p = q := by
  rcases Nat.lt_trichotomy p q with hlt | he | hlt
  · have := countMask_lt hlt hp; omega
  · exact he
  · have := countMask_lt hlt hq; omega

theorem count_set {l : List Bool} {i : Nat} (h : l[i]? = some false) : (l.set i true).count true = l.count true + 1 := by
  induction l generalizing i with
  | nil => simp at h
  | cons b bs ih =>
    cases i with
    | zero => simp at h; subst h; simp
    | succ i => simp at h; simp only [List.set_cons_succ, List.count_cons, ih h]; omega

theorem countMask_full {size : Nat} {mask : List Bool} (h : mask.length = size) : countMask size mask = mask.count true := by
  unfold countMask; rw [List.take_of_length_le (by omega)]

end Verif.Msm
