import Verif.Spec.UbxEph
/-
Lemmas for C40: one step of the collection of subframes.
-/
set_option linter.unusedSimpArgs false
set_option linter.unusedVariables false
namespace Verif.Ubx
open Verif.Ubx.Spec

theorem fld30 (w : BitVec 32) (a b : Nat) (h : b ≤ 30) : fld w (30 - b) (b + 1 - a) = bits30 w a b := rfl
theorem fld32 (w : BitVec 32) (a b : Nat) : fld w (32 - b) (b + 1 - a) = bits32 w a b := rfl
theorem wd_word (ws : List (BitVec 32)) (i : Nat) : wd ws i = word ws (i + 1) := by
  unfold wd word; simp

theorem full_iff (s : Sat) (n : Nat) : s.full n = true ↔ ∀ i, i < n → s.mask i = true := by
  simp [Sat.full]

theorem word_take (ws : List (BitVec 32)) {m n : Nat} (h : n - 1 < m) : word (ws.take m) n = word ws n := by
  unfold word; rw [List.getElem?_take_of_lt h]

theorem wordBits_eq (w : BitVec 32) : wordBits w = bitsOf w := by
  unfold wordBits bitsOf
  apply List.map_congr_left
  intro i hi
  simp only [List.mem_range] at hi
  rw [BitVec.getMsbD_eq_getLsbD]; simp [hi]

theorem bitsOf_length (w : BitVec 32) : (bitsOf w).length = 32 := by simp [bitsOf]

theorem galContent_eq (w : List (BitVec 32)) : galContent w = inavWord w := by
  unfold galContent inavWord
  congr 1

theorem galContent_take (w : List (BitVec 32)) : inavWord (w.take 8) = inavWord w := by
  unfold inavWord
  rw [word_take w (by omega : 1 - 1 < 8), word_take w (by omega : 2 - 1 < 8), word_take w (by omega : 3 - 1 < 8),
    word_take w (by omega : 4 - 1 < 8), word_take w (by omega : 5 - 1 < 8)]

/-- swapping mirrored positions step by step -/
theorem foldl_swap (p : Nat → Bool) (n : Nat) (hn : n ≤ 43) (x : Nat) (hx : x < 85) :
    (List.range n).foldl (fun p k => swapBits p k (85 - 1 - k)) p x = if x < n ∨ 84 - x < n then p (84 - x) else p x := by
  induction n generalizing x with
  | zero => simp
  | succ n ih =>
    rw [List.range_succ, List.foldl_append]
    simp only [List.foldl_cons, List.foldl_nil, swapBits]
    have ih' := ih (by omega)
    by_cases h1 : x = 85 - 1 - n
    · rw [if_pos h1, ih' n (by omega)]
      subst h1
      by_cases h2 : n = 42
      · subst h2; simp
      · rw [if_neg (by omega), if_pos (by omega)]; congr 1; omega
    · rw [if_neg h1]
      by_cases h2 : x = n
      · rw [if_pos h2, ih' _ (by omega)]
        subst h2
        rw [if_neg (by omega), if_pos (by omega)]
      · rw [if_neg h2, ih' x hx]
        by_cases h3 : x < n ∨ 84 - x < n
        · rw [if_pos h3, if_pos (by omega)]
        · rw [if_neg h3, if_neg (by omega)]

theorem gloContent_ok (w : List (BitVec 32)) : IsGloString w (gloContent w) := by
  refine ⟨by simp [gloContent], ?_⟩
  intro n h1 h2
  unfold gloContent
  simp only
  rw [List.getElem?_map, List.getElem?_range (by omega)]
  simp only [Option.map_some, Option.some.injEq]
  rw [if_pos (by omega), foldl_swap _ 43 (by omega) _ (by omega), if_pos (by omega)]
  unfold gloBit
  have e : 84 - (n - 1) = 85 - n := by omega
  rw [e]
  have hk : 85 - n < 85 := by omega
  generalize 85 - n = k at hk
  have hb : ∀ (v : BitVec 32) (j : Nat), j < 32 → (bitsOf v)[j]? = some (v.getLsbD (31 - j)) := by
    intro v j hj
    rw [bitsOf, List.getElem?_map, List.getElem?_range hj]
    simp only [Option.map_some, Option.some.injEq]
    rw [BitVec.getMsbD_eq_getLsbD]; simp [hj]
  rw [List.getD_eq_getElem?_getD]
  by_cases k1 : k < 64
  · rw [List.getElem?_append_left (by simp [bitsOf_length]; omega)]
    by_cases k2 : k < 32
    · rw [List.getElem?_append_left (by simp [bitsOf_length]; omega), hb _ _ k2, wd_word]
      have a : k / 32 = 0 := by omega
      have b : k % 32 = k := by omega
      rw [a, b]; rfl
    · rw [List.getElem?_append_right (by simp [bitsOf_length]; omega), hb _ _ (by rw [bitsOf_length]; omega), wd_word, bitsOf_length]
      have a : k / 32 = 1 := by omega
      have b : k % 32 = k - 32 := by omega
      rw [a, b]; rfl
  · rw [List.getElem?_append_right (by simp [bitsOf_length]; omega), hb _ _ (by simp [bitsOf_length]; omega), wd_word, List.length_append, bitsOf_length, bitsOf_length]
    have a : k / 32 = 2 := by omega
    have b : k % 32 = k - 64 := by omega
    rw [a, b]; rfl

variable {E : Type}

/-- what is kept of the words of a message -/
def keep : Con → List (BitVec 32) → List (BitVec 32)
  | .gal, ws => ws.take 8
  | _, ws => ws

/-- the message is part `k` (from 0) -/
def IsPart (L : EphLib E) (c : Con) (prn : Nat) (ws : List (BitVec 32)) (k : Nat) : Prop :=
  1 ≤ prn ∧ prn ≤ L.numSats c ∧ (c = .bds → L.geo prn = false) ∧ claimedNo c ws = some (k + 1) ∧ k < partCount c

/-- invariant of the stored parts of one satellite -/
def SatOk (c : Con) (s : Sat) : Prop :=
  (∀ i, s.mask i = true → i < partCount c) ∧
  (c = .gal → ∀ i j, i < 4 → j < 4 → s.mask i = true → s.mask j = true → iodNav (s.parts i) = iodNav (s.parts j)) ∧
  (c = .glo → ∀ i, s.mask i = true → superframe (s.parts i) = s.super)

/-- the parts, numbered from 1 -/
def one (p : Nat → List (BitVec 32)) : Nat → List (BitVec 32) := fun n => p (n - 1)

structure PartStep (L : EphLib E) (utc : Option (Nat × Nat)) (c : Con) (prn f : Nat) (ws : List (BitVec 32)) (k : Nat) (s s' : Sat) (o : Option E) : Prop where
  parts : ∀ i, s'.parts i = if i = k then keep c ws else s.parts i
  mask : ∀ i, s'.mask i = true → i = k ∨ s.mask i = true
  ok : SatOk c s'
  emit : ∀ e, o = some e → (∀ i, i < partCount c → i = k ∨ s.mask i = true) ∧ (∀ i, s'.mask i = false) ∧
    SameIssue c (one s'.parts) ∧ IsEphemeris L utc c prn f (one s'.parts) e

theorem store_mask (s : Sat) (k : Nat) (ws) (i : Nat) : (s.store k ws).mask i = true ↔ i = k ∨ s.mask i = true := by
  unfold Sat.store; by_cases h : i = k <;> simp [h]
theorem clear_mask (s : Sat) (p : Nat → Bool) (i : Nat) : (s.clear p).mask i = true ↔ s.mask i = true ∧ p i = false := by
  simp [Sat.clear]

theorem all_clear {c : Con} {s : Sat} {p : Nat → Bool} (h : SatOk c (s.clear p)) (hp : ∀ i, i < partCount c → p i = true) (i : Nat) :
    (s.clear p).mask i = false := by
  cases hm : (s.clear p).mask i with
  | false => rfl
  | true =>
    have h1 := hp i (h.1 i hm)
    rw [clear_mask, h1] at hm
    cases hm.2

/-- gps_decode_subframe once the subframe is stored -/
def gpsCore (L : EphLib E) (prn k : Nat) (s : Sat) : Sat × Option E :=
  if !s.full 3 then (s, none) else
  if fld (wd (s.parts 0) 7) 22 8 ≠ fld (wd (s.parts 1) 2) 22 8 ∨ fld (wd (s.parts 1) 2) 22 8 ≠ fld (wd (s.parts 2) 9) 22 8 then
    (s.clear fun i => i < 3 && i ≠ k, none) else
  if 604800 / 6 ≤ fld (wd (s.parts 0) 1) 13 17 then (s.clear fun i => i = 0, none) else
  match L.gps ((List.range 3).map fun i => (s.parts i).drop 2) prn
      (if fld (wd (s.parts 0) 1) 13 17 = 0 then 604800 - 6 else (fld (wd (s.parts 0) 1) 13 17 - 1) * 6) with
  | none => (s.clear fun i => i < 3, none)
  | some e => (s.clear fun i => i < 3, some e)

theorem gpsStep_core (L : EphLib E) (prn : Nat) (ws : List (BitVec 32)) (s : Sat) (k : Nat) (h : claimedNo .gps ws = some (k + 1)) (hk : k < 3) :
    gpsStep L prn ws s = gpsCore L prn k (s.store k ws) := by
  simp only [claimedNo] at h
  split at h
  · rename_i h1
    simp only [Option.some.injEq] at h
    have e : fld (wd ws 1) 8 3 = k + 1 := by rw [← h, wd_word]; rfl
    have e2 : fld (wd ws 0) 22 8 = 0x8b := by rw [← h1.2, wd_word]; rfl
    unfold gpsStep
    rw [if_neg (by simp [h1.1]), if_neg (by simp [e2])]
    simp only [e]
    rw [if_neg (by omega)]
    rfl
  · cases h

theorem gpsStep_skip (L : EphLib E) (prn : Nat) (ws : List (BitVec 32)) (s : Sat) (h : ¬ ∃ k, claimedNo .gps ws = some (k + 1) ∧ k < 3) :
    gpsStep L prn ws s = (s, none) := by
  unfold gpsStep
  by_cases h1 : ws.length ≠ 10
  · rw [if_pos h1]
  rw [if_neg h1]
  by_cases h2 : fld (wd ws 0) 22 8 ≠ 0x8b
  · rw [if_pos h2]
  rw [if_neg h2]
  simp only
  by_cases h3 : fld (wd ws 1) 8 3 < 1 ∨ 3 < fld (wd ws 1) 8 3
  · rw [if_pos h3]
  exfalso
  apply h
  refine ⟨fld (wd ws 1) 8 3 - 1, ?_, by omega⟩
  simp only [claimedNo]
  rw [if_pos ⟨by omega, by rw [wd_word] at h2; exact Classical.not_not.mp h2⟩]
  congr 1
  have : fld (wd ws 1) 8 3 = bits30 (word ws 2) 20 22 := by rw [wd_word]; rfl
  omega

theorem gps_time (t : Nat) (h : t < 100800) : (if t = 0 then 604800 - 6 else (t - 1) * 6) = (6 * t + 604800 - 6) % 604800 := by
  split <;> omega

theorem gpsCore_ok (L : EphLib E) (utc : Option (Nat × Nat)) (prn f : Nat) (ws : List (BitVec 32)) (s : Sat) (k : Nat) (hk : k < 3) (hs : SatOk .gps s) :
    PartStep L utc .gps prn f ws k s (gpsCore L prn k (s.store k ws)).1 (gpsCore L prn k (s.store k ws)).2 := by
  have hm := store_mask s k ws
  have hp : ∀ i, (s.store k ws).parts i = if i = k then keep .gps ws else s.parts i := fun i => rfl
  have hok : ∀ p, SatOk .gps ((s.store k ws).clear p) := by
    intro p
    refine ⟨fun i hi => ?_, nofun, nofun⟩
    rw [clear_mask, hm] at hi
    rcases hi.1 with rfl | h
    · exact hk
    · exact hs.1 i h
  have hmc : ∀ p i, ((s.store k ws).clear p).mask i = true → i = k ∨ s.mask i = true := by
    intro p i hi; rw [clear_mask, hm] at hi; exact hi.1
  have base : ∀ p, PartStep L utc .gps prn f ws k s ((s.store k ws).clear p) none :=
    fun p => ⟨hp, hmc p, hok p, nofun⟩
  generalize hs1 : s.store k ws = s1 at *
  unfold gpsCore
  by_cases h1 : (!s1.full 3) = true
  · rw [if_pos h1]
    have := base fun _ => false
    have e : s1.clear (fun _ => false) = s1 := by unfold Sat.clear; simp
    rwa [e] at this
  rw [if_neg h1]
  by_cases h2 : fld (wd (s1.parts 0) 7) 22 8 ≠ fld (wd (s1.parts 1) 2) 22 8 ∨ fld (wd (s1.parts 1) 2) 22 8 ≠ fld (wd (s1.parts 2) 9) 22 8
  · rw [if_pos h2]; exact base _
  rw [if_neg h2]
  by_cases h3 : 604800 / 6 ≤ fld (wd (s1.parts 0) 1) 13 17
  · rw [if_pos h3]; exact base _
  rw [if_neg h3]
  cases h4 : L.gps ((List.range 3).map fun i => (s1.parts i).drop 2) prn
      (if fld (wd (s1.parts 0) 1) 13 17 = 0 then 604800 - 6 else (fld (wd (s1.parts 0) 1) 13 17 - 1) * 6) with
  | none => exact base _
  | some e =>
    refine ⟨hp, hmc _, hok _, ?_⟩
    intro e' he
    simp only [Option.some.injEq] at he
    subst he
    have h1' : s1.full 3 = true := by simpa using h1
    rw [full_iff] at h1'
    have h2' := not_or.mp h2
    refine ⟨fun i hi => (hm i).mp (h1' i hi), ?_, ?_, ?_⟩
    · exact all_clear (c := .gps) (hok _) (fun i hi => decide_eq_true hi)
    · refine ⟨?_, ?_, ?_⟩
      · have := Classical.not_not.mp h2'.1
        rw [wd_word, wd_word] at this
        exact this
      · have := Classical.not_not.mp h2'.2
        rw [wd_word, wd_word] at this
        exact this
      · rw [wd_word] at h3
        exact Nat.lt_of_not_le h3
    · rw [gps_time _ (Nat.lt_of_not_le h3), wd_word] at h4
      exact h4

/-- bds_decode_subframe once the subframe is stored -/
def bdsCore (L : EphLib E) (prn : Nat) (s : Sat) : Sat × Option E :=
  if !s.full 3 then (s, none) else
  if 604800 ≤ bdsSow (s.parts 0) then (s.clear fun i => i = 0, none) else
  if 604800 ≤ bdsSow (s.parts 1) then (s.clear fun i => i = 1, none) else
  if 604800 ≤ bdsSow (s.parts 2) then (s.clear fun i => i = 2, none) else
  if bdsSow (s.parts 0) ≠ (bdsSow (s.parts 1) + 2 ^ 32 - 6) % 2 ^ 32 ∨ bdsSow (s.parts 1) ≠ (bdsSow (s.parts 2) + 2 ^ 32 - 6) % 2 ^ 32 then (s, none) else
  (s.clear fun i => i < 3, some (L.bds ((List.range 3).map s.parts) prn))

theorem bdsStep_core (L : EphLib E) (prn : Nat) (ws : List (BitVec 32)) (s : Sat) (k : Nat) (hg : L.geo prn = false) (h : claimedNo .bds ws = some (k + 1)) (hk : k < 3) :
    bdsStep L prn ws s = bdsCore L prn (s.store k ws) := by
  simp only [claimedNo] at h
  split at h
  · rename_i h1
    simp only [Option.some.injEq] at h
    have e : fld (wd ws 0) 12 3 = k + 1 := by rw [← h, wd_word]; rfl
    unfold bdsStep
    rw [if_neg (by simp [h1]), if_neg (by simp [hg])]
    simp only [e]
    rw [if_neg (by omega)]
    rfl
  · cases h

theorem bdsStep_skip (L : EphLib E) (prn : Nat) (ws : List (BitVec 32)) (s : Sat) (h : ¬ (L.geo prn = false ∧ ∃ k, claimedNo .bds ws = some (k + 1) ∧ k < 3)) :
    bdsStep L prn ws s = (s, none) := by
  unfold bdsStep
  by_cases h1 : ws.length ≠ 10
  · rw [if_pos h1]
  rw [if_neg h1]
  by_cases h2 : L.geo prn = true
  · rw [if_pos h2]
  rw [if_neg h2]
  simp only
  by_cases h3 : fld (wd ws 0) 12 3 < 1 ∨ 3 < fld (wd ws 0) 12 3
  · rw [if_pos h3]
  exfalso
  apply h
  refine ⟨by simpa using h2, fld (wd ws 0) 12 3 - 1, ?_, by omega⟩
  simp only [claimedNo]
  rw [if_pos (by omega)]
  congr 1
  have : fld (wd ws 0) 12 3 = bits30 (word ws 1) 16 18 := by rw [wd_word]; rfl
  omega

theorem bdsSow_eq (ws : List (BitVec 32)) : bdsSow ws = sowOf ws := by
  unfold bdsSow sowOf; rw [wd_word, wd_word]; rfl

theorem bdsCore_ok (L : EphLib E) (utc : Option (Nat × Nat)) (prn f : Nat) (ws : List (BitVec 32)) (s : Sat) (k : Nat) (hk : k < 3) (hs : SatOk .bds s) :
    PartStep L utc .bds prn f ws k s (bdsCore L prn (s.store k ws)).1 (bdsCore L prn (s.store k ws)).2 := by
  have hm := store_mask s k ws
  have hp : ∀ i, (s.store k ws).parts i = if i = k then keep .bds ws else s.parts i := fun i => rfl
  have hok : ∀ p, SatOk .bds ((s.store k ws).clear p) := by
    intro p
    refine ⟨fun i hi => ?_, nofun, nofun⟩
    rw [clear_mask, hm] at hi
    rcases hi.1 with rfl | h
    · exact hk
    · exact hs.1 i h
  have hmc : ∀ p i, ((s.store k ws).clear p).mask i = true → i = k ∨ s.mask i = true := by
    intro p i hi; rw [clear_mask, hm] at hi; exact hi.1
  have base : ∀ p, PartStep L utc .bds prn f ws k s ((s.store k ws).clear p) none :=
    fun p => ⟨hp, hmc p, hok p, nofun⟩
  generalize hs1 : s.store k ws = s1 at *
  have base0 : PartStep L utc .bds prn f ws k s s1 none := by
    have := base fun _ => false
    have e : s1.clear (fun _ => false) = s1 := by unfold Sat.clear; simp
    rwa [e] at this
  unfold bdsCore
  by_cases h1 : (!s1.full 3) = true
  · rw [if_pos h1]; exact base0
  rw [if_neg h1]
  by_cases g0 : 604800 ≤ bdsSow (s1.parts 0)
  · rw [if_pos g0]; exact base _
  rw [if_neg g0]
  by_cases g1 : 604800 ≤ bdsSow (s1.parts 1)
  · rw [if_pos g1]; exact base _
  rw [if_neg g1]
  by_cases g2 : 604800 ≤ bdsSow (s1.parts 2)
  · rw [if_pos g2]; exact base _
  rw [if_neg g2]
  by_cases h2 : bdsSow (s1.parts 0) ≠ (bdsSow (s1.parts 1) + 2 ^ 32 - 6) % 2 ^ 32 ∨ bdsSow (s1.parts 1) ≠ (bdsSow (s1.parts 2) + 2 ^ 32 - 6) % 2 ^ 32
  · rw [if_pos h2]; exact base0
  rw [if_neg h2]
  refine ⟨hp, hmc _, hok _, ?_⟩
  intro e' he
  simp only [Option.some.injEq] at he
  subst he
  have h1' : s1.full 3 = true := by simpa using h1
  rw [full_iff] at h1'
  refine ⟨fun i hi => (hm i).mp (h1' i hi), all_clear (c := .bds) (hok _) (fun i hi => decide_eq_true hi), ?_, rfl⟩
  rw [bdsSow_eq] at g0 g1 g2
  simp only [bdsSow_eq] at h2
  unfold SameIssue one
  simp only [Nat.reduceSub, Sat.clear]
  omega

/-- gal_decode_page once the page is stored -/
def galCore (L : EphLib E) (k : Nat) (ws : List (BitVec 32)) (s : Sat) : Sat × Option E :=
  let s := if k + 1 ≠ 5 then
      s.clear fun i => i < 4 && fld (wd (s.parts i) 0) 14 10 ≠ fld (wd ws 0) 14 10
    else s
  if !s.full 5 then (s, none) else
  match L.gal ((List.range 5).map fun i => galContent (s.parts i)) with
  | none => (s, none)
  | some e => (s.clear fun i => i < 5, some e)

theorem bit_cases (w : BitVec 32) (n : Nat) : fld w n 1 = 0 ∨ fld w n 1 = 1 := by unfold fld; omega

theorem galStep_core (L : EphLib E) (ws : List (BitVec 32)) (s : Sat) (k : Nat) (h : claimedNo .gal ws = some (k + 1)) (hk : k < 5) :
    galStep L ws s = galCore L k ws (s.store k (ws.take 8)) := by
  simp only [claimedNo] at h
  split at h
  · rename_i h1
    simp only [Option.some.injEq] at h
    have e : fld (wd ws 0) 24 6 = k + 1 := by rw [← h, wd_word]; rfl
    have e1 : fld (wd ws 0) 31 1 = 0 := by rw [wd_word]; exact h1.2.1
    have e2 : fld (wd ws 0) 30 1 = 0 := by rw [wd_word]; exact h1.2.2.1
    have e3 : fld (wd ws 4) 31 1 = 1 := by rw [wd_word]; exact h1.2.2.2
    unfold galStep galCore
    rw [if_neg (by omega), if_neg (by omega), if_neg (by omega), if_neg (by omega)]
    simp only [e]
    rw [if_neg (by omega)]
    rfl
  · cases h

theorem galStep_skip (L : EphLib E) (ws : List (BitVec 32)) (s : Sat) (h : ¬ ∃ k, claimedNo .gal ws = some (k + 1) ∧ k < 5) :
    galStep L ws s = (s, none) := by
  unfold galStep
  by_cases h1 : ws.length ≤ 8
  · rw [if_pos h1]
  rw [if_neg h1]
  by_cases h2 : fld (wd ws 0) 30 1 = 1
  · rw [if_pos h2]
  rw [if_neg h2]
  by_cases h4 : fld (wd ws 0) 31 1 ≠ 0
  · rw [if_pos h4]
  rw [if_neg h4]
  by_cases h5 : fld (wd ws 4) 31 1 ≠ 1
  · rw [if_pos h5]
  rw [if_neg h5]
  simp only
  by_cases h3 : fld (wd ws 0) 24 6 < 1 ∨ 5 < fld (wd ws 0) 24 6
  · rw [if_pos h3]
  exfalso
  apply h
  refine ⟨fld (wd ws 0) 24 6 - 1, ?_, by omega⟩
  have e1 : fld (wd ws 0) 31 1 = bits32 (word ws 1) 1 1 := by rw [wd_word]; rfl
  have e2 : fld (wd ws 0) 30 1 = bits32 (word ws 1) 2 2 := by rw [wd_word]; rfl
  have e3 : fld (wd ws 4) 31 1 = bits32 (word ws 5) 1 1 := by rw [wd_word]; rfl
  have := bit_cases (wd ws 0) 30
  simp only [claimedNo]
  rw [if_pos (by omega)]
  congr 1
  have : fld (wd ws 0) 24 6 = bits32 (word ws 1) 3 8 := by rw [wd_word]; rfl
  omega

theorem iod_eq (ws : List (BitVec 32)) : fld (wd ws 0) 14 10 = iodNav ws := by unfold iodNav; rw [wd_word]; rfl

theorem galCore_ok (L : EphLib E) (utc : Option (Nat × Nat)) (prn f : Nat) (ws : List (BitVec 32)) (s : Sat) (k : Nat) (hk : k < 5) (hs : SatOk .gal s) :
    PartStep L utc .gal prn f ws k s (galCore L k ws (s.store k (ws.take 8))).1 (galCore L k ws (s.store k (ws.take 8))).2 := by
  have hm := store_mask s k (ws.take 8)
  have hp : ∀ i, (s.store k (ws.take 8)).parts i = if i = k then keep .gal ws else s.parts i := fun i => rfl
  have hw : iodNav (ws.take 8) = iodNav ws := by unfold iodNav; rw [word_take _ (by omega)]
  unfold galCore
  generalize hs1 : s.store k (ws.take 8) = s1 at *
  simp only [iod_eq]
  generalize hs2 : (if k + 1 ≠ 5 then s1.clear fun i => decide (i < 4) && decide (iodNav (s1.parts i) ≠ iodNav ws) else s1) = s2
  have hp2 : s2.parts = s1.parts := by rw [← hs2]; split <;> rfl
  have hm2 : ∀ i, s2.mask i = true → i = k ∨ s.mask i = true := by
    intro i hi
    rw [← hs2] at hi
    apply (hm i).mp
    split at hi
    · exact ((clear_mask _ _ _).mp hi).1
    · exact hi
  have hiod : ∀ i j, i < 4 → j < 4 → s2.mask i = true → s2.mask j = true → iodNav (s2.parts i) = iodNav (s2.parts j) := by
    by_cases h4 : k = 4
    · rw [if_neg (by simp [h4])] at hs2
      subst hs2
      intro i j hi hj mi mj
      rw [hp i, hp j, if_neg (by omega), if_neg (by omega)]
      refine hs.2.1 rfl i j hi hj ?_ ?_
      · rcases hm2 i mi with h | h
        · omega
        · exact h
      · rcases hm2 j mj with h | h
        · omega
        · exact h
    · rw [if_pos (by omega)] at hs2
      have key : ∀ i, i < 4 → s2.mask i = true → iodNav (s2.parts i) = iodNav ws := by
        intro i hi mi
        rw [← hs2, clear_mask] at mi
        rw [hp2]
        simpa [hi] using mi.2
      intro i j hi hj mi mj
      rw [key i hi mi, key j hj mj]
  have hok : ∀ p, SatOk .gal (s2.clear p) := by
    intro p
    refine ⟨fun i hi => ?_, fun _ i j hi hj mi mj => ?_, nofun⟩
    · rw [clear_mask] at hi
      rcases hm2 i hi.1 with rfl | h
      · exact hk
      · exact hs.1 i h
    · rw [clear_mask] at mi mj
      exact hiod i j hi hj mi.1 mj.1
  have base0 : PartStep L utc .gal prn f ws k s s2 none := by
    have e : s2.clear (fun _ => false) = s2 := by unfold Sat.clear; simp
    have := hok fun _ => false
    rw [e] at this
    exact ⟨fun i => by rw [hp2]; exact hp i, hm2, this, nofun⟩
  by_cases h1 : (!s2.full 5) = true
  · rw [if_pos h1]; exact base0
  rw [if_neg h1]
  cases h4 : L.gal ((List.range 5).map fun i => galContent (s2.parts i)) with
  | none => exact base0
  | some e =>
    refine ⟨fun i => ?_, fun i hi => hm2 i ((clear_mask _ _ _).mp hi).1, hok _, ?_⟩
    · show s2.parts i = _; rw [hp2]; exact hp i
    intro e' he
    simp only [Option.some.injEq] at he
    subst he
    have h1' : s2.full 5 = true := by simpa using h1
    rw [full_iff] at h1'
    refine ⟨fun i hi => hm2 i (h1' i hi), all_clear (c := .gal) (hok _) (fun i hi => decide_eq_true hi), ⟨?_, ?_, ?_⟩, ?_⟩
    · exact hiod 0 1 (by omega) (by omega) (h1' 0 (by omega)) (h1' 1 (by omega))
    · exact hiod 1 2 (by omega) (by omega) (h1' 1 (by omega)) (h1' 2 (by omega))
    · exact hiod 2 3 (by omega) (by omega) (h1' 2 (by omega)) (h1' 3 (by omega))
    · simp only [galContent_eq] at h4
      exact h4

/-- glo_decode_string once the superframe has been compared and the string stored -/
def gloCore (L : EphLib E) (prn f : Nat) (utc : Option (Nat × Nat)) (s : Sat) : Sat × Option E :=
  if !s.full 5 then (s, none) else
  match utc with
  | none => (s, none)
  | some u => (s.clear fun i => i < 5, some (L.glo ((List.range 5).map fun i => gloContent (s.parts i)) prn u (f + 1)))

/-- the superframe comparison -/
def gloNew (ws : List (BitVec 32)) (s : Sat) : Sat :=
  if s.super ≠ superframe ws then { s with mask := fun _ => false, super := superframe ws } else s

theorem gloStep_core (L : EphLib E) (prn f : Nat) (utc : Option (Nat × Nat)) (ws : List (BitVec 32)) (s : Sat) (k : Nat) (h : claimedNo .glo ws = some (k + 1)) (hk : k < 5) :
    gloStep L prn f utc ws s = some (gloCore L prn f utc ((gloNew ws s).store k ws)) := by
  simp only [claimedNo] at h
  split at h
  · rename_i h1
    simp only [Option.some.injEq] at h
    have e : fld (wd ws 0) 27 4 = k + 1 := by rw [← h, wd_word]; rfl
    have e1 : fld (wd ws 0) 31 1 = 0 := by rw [wd_word]; exact h1.2
    have e2 : fld (wd ws 3) 16 16 = superframe ws := by unfold superframe; rw [wd_word]; rfl
    unfold gloStep gloCore gloNew
    rw [if_neg (by omega), if_neg (by omega)]
    simp only [e, e2]
    rw [if_neg (by omega), if_neg (by omega)]
    simp only [Nat.add_sub_cancel]
    generalize Sat.store _ k ws = s1
    cases s1.full 5
    · rfl
    · cases utc <;> rfl
  · cases h

/-- a GLONASS string that claims to be number 0 -/
def StringZero (ws : List (BitVec 32)) : Prop := claimedNo .glo ws = some 0

theorem gloStep_skip (L : EphLib E) (prn f : Nat) (utc : Option (Nat × Nat)) (ws : List (BitVec 32)) (s : Sat) (h : ¬ ∃ k, claimedNo .glo ws = some (k + 1) ∧ k < 5) :
    gloStep L prn f utc ws s = if claimedNo .glo ws = some 0 then none else some (s, none) := by
  unfold gloStep
  have e1 : fld (wd ws 0) 31 1 = bits32 (word ws 1) 1 1 := by rw [wd_word]; rfl
  have e2 : fld (wd ws 0) 27 4 = bits32 (word ws 1) 2 5 := by rw [wd_word]; rfl
  by_cases h1 : ws.length ≠ 4
  · rw [if_pos h1, if_neg (by simp [claimedNo, h1])]
  rw [if_neg h1]
  by_cases h4 : fld (wd ws 0) 31 1 ≠ 0
  · rw [if_pos h4, if_neg (by rw [e1] at h4; simp [claimedNo, h4])]
  rw [if_neg h4]
  simp only
  have hc : claimedNo .glo ws = some (fld (wd ws 0) 27 4) := by
    simp only [claimedNo]
    rw [if_pos (by omega), e2]
  rw [hc]
  by_cases h3 : 5 < fld (wd ws 0) 27 4
  · rw [if_pos h3, if_neg (by simp; omega)]
  rw [if_neg h3]
  by_cases h6 : fld (wd ws 0) 27 4 = 0
  · rw [if_pos h6, if_pos (by rw [h6])]
  exfalso
  apply h
  exact ⟨fld (wd ws 0) 27 4 - 1, by rw [hc]; congr 1; omega, by omega⟩

theorem gloCore_ok (L : EphLib E) (utc : Option (Nat × Nat)) (prn f : Nat) (ws : List (BitVec 32)) (s : Sat) (k : Nat) (hk : k < 5) (hs : SatOk .glo s) :
    PartStep L utc .glo prn f ws k s (gloCore L prn f utc ((gloNew ws s).store k ws)).1 (gloCore L prn f utc ((gloNew ws s).store k ws)).2 := by
  have hm := store_mask (gloNew ws s) k ws
  have hn : ∀ i, (gloNew ws s).mask i = true → s.mask i = true := by
    intro i hi; unfold gloNew at hi; split at hi
    · cases hi
    · exact hi
  have hnp : (gloNew ws s).parts = s.parts := by unfold gloNew; split <;> rfl
  have hns : (gloNew ws s).super = superframe ws := by
    unfold gloNew; split
    · rfl
    · rename_i h; exact Classical.not_not.mp h
  have hnf : ∀ i, (gloNew ws s).mask i = true → superframe (s.parts i) = superframe ws := by
    intro i hi
    have hi' := hi
    unfold gloNew at hi'
    split at hi'
    · cases hi'
    · rename_i h; rw [hs.2.2 rfl i hi']; exact Classical.not_not.mp h
  have hp : ∀ i, ((gloNew ws s).store k ws).parts i = if i = k then keep .glo ws else s.parts i := fun i => by
    unfold Sat.store; rw [hnp]; rfl
  have hsup : ((gloNew ws s).store k ws).super = superframe ws := hns
  have hm1 : ∀ i, ((gloNew ws s).store k ws).mask i = true → i = k ∨ s.mask i = true :=
    fun i hi => ((hm i).mp hi).imp id (hn i)
  have hsf : ∀ i, ((gloNew ws s).store k ws).mask i = true → superframe (((gloNew ws s).store k ws).parts i) = superframe ws := by
    intro i hi
    rw [hp i]
    by_cases hik : i = k
    · rw [if_pos hik]; rfl
    · rw [if_neg hik]
      exact hnf i (((hm i).mp hi).resolve_left hik)
  generalize hs1 : (gloNew ws s).store k ws = s1 at *
  have hok : ∀ p, SatOk .glo (s1.clear p) := by
    intro p
    refine ⟨fun i hi => ?_, nofun, fun _ i hi => ?_⟩
    · rw [clear_mask] at hi
      rcases hm1 i hi.1 with rfl | h
      · exact hk
      · exact hs.1 i h
    · rw [clear_mask] at hi
      exact (hsf i hi.1).trans hsup.symm
  have base0 : PartStep L utc .glo prn f ws k s s1 none := by
    have e : s1.clear (fun _ => false) = s1 := by unfold Sat.clear; simp
    have := hok fun _ => false
    rw [e] at this
    exact ⟨hp, hm1, this, nofun⟩
  unfold gloCore
  by_cases h1 : (!s1.full 5) = true
  · rw [if_pos h1]; exact base0
  rw [if_neg h1]
  cases utc with
  | none => exact base0
  | some u =>
    refine ⟨hp, fun i hi => hm1 i ((clear_mask _ _ _).mp hi).1, hok _, ?_⟩
    intro e' he
    simp only [Option.some.injEq] at he
    subst he
    have h1' : s1.full 5 = true := by simpa using h1
    rw [full_iff] at h1'
    refine ⟨fun i hi => hm1 i (h1' i hi), all_clear (c := .glo) (hok _) (fun i hi => decide_eq_true hi), ?_, ?_⟩
    · intro k' h1 h5
      unfold one
      rw [show (s1.clear fun i => decide (i < 5)).parts = s1.parts from rfl]
      rw [hsf (k' - 1) (h1' _ (by omega)), hsf (1 - 1) (h1' _ (by omega))]
    · exact ⟨u, _, _, _, _, _, rfl, gloContent_ok _, gloContent_ok _, gloContent_ok _, gloContent_ok _, gloContent_ok _, rfl⟩

/-- one step of any of the four decoders -/
theorem satStep_ok {L : EphLib E} {utc : Option (Nat × Nat)} {c : Con} {prn f : Nat} {ws : List (BitVec 32)} {s s' : Sat} {o : Option E}
    (h : satStep L utc c prn f ws s = some (s', o)) (hs : SatOk c s) :
    ((¬ ∃ k, IsPart L c prn ws k) → s' = s ∧ o = none) ∧ ∀ k, IsPart L c prn ws k → PartStep L utc c prn f ws k s s' o := by
  unfold satStep at h
  by_cases hr : prn < 1 ∨ L.numSats c < prn
  · rw [if_pos hr] at h
    simp only [Option.some.injEq, Prod.mk.injEq] at h
    refine ⟨fun _ => ⟨h.1.symm, h.2.symm⟩, ?_⟩
    intro k hk
    have := hk.1
    have := hk.2.1
    omega
  rw [if_neg hr] at h
  have hr1 : 1 ≤ prn ∧ prn ≤ L.numSats c := by omega
  constructor
  · intro hnp
    have hnp' : ¬ ∃ k, (c = .bds → L.geo prn = false) ∧ claimedNo c ws = some (k + 1) ∧ k < partCount c :=
      fun ⟨k, hk⟩ => hnp ⟨k, hr1.1, hr1.2, hk⟩
    cases c
    · rw [gpsStep_skip L prn ws s (fun ⟨k, hk⟩ => hnp' ⟨k, nofun, hk⟩)] at h
      cases h; exact ⟨rfl, rfl⟩
    · rw [bdsStep_skip L prn ws s (fun ⟨g, k, hk⟩ => hnp' ⟨k, fun _ => g, hk⟩)] at h
      cases h; exact ⟨rfl, rfl⟩
    · rw [galStep_skip L ws s (fun ⟨k, hk⟩ => hnp' ⟨k, nofun, hk⟩)] at h
      cases h; exact ⟨rfl, rfl⟩
    · simp only at h
      rw [gloStep_skip L prn f utc ws s (fun ⟨k, hk⟩ => hnp' ⟨k, nofun, hk⟩)] at h
      split at h
      · cases h
      · cases h; exact ⟨rfl, rfl⟩
  · rintro k ⟨-, -, hg, hc, hk⟩
    cases c
    · simp only [gpsStep_core L prn ws s k hc hk, Option.some.injEq] at h
      have := gpsCore_ok L utc prn f ws s k hk hs
      rwa [h] at this
    · simp only [bdsStep_core L prn ws s k (hg rfl) hc hk, Option.some.injEq] at h
      have := bdsCore_ok L utc prn f ws s k hk hs
      rwa [h] at this
    · simp only [galStep_core L ws s k hc hk, Option.some.injEq] at h
      have := galCore_ok L utc prn f ws s k hk hs
      rwa [h] at this
    · simp only [gloStep_core L prn f utc ws s k hc hk, Option.some.injEq] at h
      have := gloCore_ok L utc prn f ws s k hk hs
      rwa [h] at this

end Verif.Ubx
