import Verif.Model.LockTime
import Verif.Lemmas.Num
import Mathlib.Tactic.IntervalCases
/-! C16: lock-time indicators never overstate the lock time, are monotone, and indicator -> time -> indicator is the
identity. -/
namespace Verif.Lock

theorem ctrunc_toNat_bounds {x : ℚ} (h : 0 ≤ x) : ((ctrunc x).toNat : ℚ) ≤ x ∧ x < ((ctrunc x).toNat : ℚ) + 1 := by
  rw [ctrunc_of_nonneg h]
  have h0 : 0 ≤ ⌊x⌋ := Int.floor_nonneg.mpr h
  have e : ((⌊x⌋.toNat : Nat) : ℚ) = (⌊x⌋ : ℚ) := by
    have : ((⌊x⌋.toNat : Nat) : ℤ) = ⌊x⌋ := Int.toNat_of_nonneg h0
    exact_mod_cast congrArg (Int.cast : ℤ → ℚ) this
  rw [e]
  exact ⟨Int.floor_le x, Int.lt_floor_add_one x⟩

/-- the indicator of a duration, characterised: the segment and the inequality it satisfies -/
theorem toLockInd_cases (t : ℚ) (h : 0 ≤ t) :
    (t < 24 ∧ (toLockInd t : ℚ) ≤ t ∧ t < toLockInd t + 1) ∨
    (24 ≤ t ∧ t < 72 ∧ (toLockInd t : ℚ) ≤ (t + 24) / 2 ∧ (t + 24) / 2 < toLockInd t + 1) ∨
    (72 ≤ t ∧ t < 168 ∧ (toLockInd t : ℚ) ≤ (t + 120) / 4 ∧ (t + 120) / 4 < toLockInd t + 1) ∨
    (168 ≤ t ∧ t < 360 ∧ (toLockInd t : ℚ) ≤ (t + 408) / 8 ∧ (t + 408) / 8 < toLockInd t + 1) ∨
    (360 ≤ t ∧ t < 744 ∧ (toLockInd t : ℚ) ≤ (t + 1176) / 16 ∧ (t + 1176) / 16 < toLockInd t + 1) ∨
    (744 ≤ t ∧ t < 937 ∧ (toLockInd t : ℚ) ≤ (t + 3096) / 32 ∧ (t + 3096) / 32 < toLockInd t + 1) ∨
    (937 ≤ t ∧ toLockInd t = 127) := by
  unfold toLockInd
  split
  · rename_i h1; exact Or.inl ⟨h1, ctrunc_toNat_bounds h⟩
  split
  · rename_i h0 h1; push Not at h0
    exact Or.inr (Or.inl ⟨h0, h1, ctrunc_toNat_bounds (by linarith)⟩)
  split
  · rename_i h0 h1; push Not at h0
    exact Or.inr (Or.inr (Or.inl ⟨h0, h1, ctrunc_toNat_bounds (by linarith)⟩))
  split
  · rename_i h0 h1; push Not at h0
    exact Or.inr (Or.inr (Or.inr (Or.inl ⟨h0, h1, ctrunc_toNat_bounds (by linarith)⟩)))
  split
  · rename_i h0 h1; push Not at h0
    exact Or.inr (Or.inr (Or.inr (Or.inr (Or.inl ⟨h0, h1, ctrunc_toNat_bounds (by linarith)⟩))))
  split
  · rename_i h0 h1; push Not at h0
    exact Or.inr (Or.inr (Or.inr (Or.inr (Or.inr (Or.inl ⟨h0, h1, ctrunc_toNat_bounds (by linarith)⟩)))))
  · rename_i h0; push Not at h0
    exact Or.inr (Or.inr (Or.inr (Or.inr (Or.inr (Or.inr ⟨h0, rfl⟩)))))

theorem natq_lt {a b : Nat} (h : (a : ℚ) < b) : a < b := by exact_mod_cast h
theorem natq_le {a b : Nat} (h : (a : ℚ) ≤ b) : a ≤ b := by exact_mod_cast h

/-- **C16** (7-bit legacy scale) the indicator fits 7 bits and the time it stands for never exceeds the actual lock time. -/
theorem C16_legacy_never_overstates (t : ℚ) (h : 0 ≤ t) : toLockInd t < 128 ∧ (fromLockInd (toLockInd t) : ℚ) ≤ t := by
  have key : ∀ (a b : Nat) (n : Nat), (n : ℚ) < b → (a : ℚ) < n + 1 → a ≤ n ∧ n < b := by
    intro a b n h1 h2
    have h2' : (a : ℚ) < ((n + 1 : Nat) : ℚ) := by push_cast; exact h2
    have := natq_lt h1; have := natq_lt h2'; omega
  rcases toLockInd_cases t h with ⟨h1, h2, h3⟩ | ⟨h0, h1, h2, h3⟩ | ⟨h0, h1, h2, h3⟩ | ⟨h0, h1, h2, h3⟩ | ⟨h0, h1, h2, h3⟩ | ⟨h0, h1, h2, h3⟩ | ⟨h0, h1⟩
  · obtain ⟨_, b⟩ := key 0 24 (toLockInd t) (by push_cast; linarith) (by push_cast; linarith)
    refine ⟨by omega, ?_⟩
    rw [fromLockInd, if_pos b]; exact h2
  · obtain ⟨a, b⟩ := key 24 48 (toLockInd t) (by push_cast; linarith) (by push_cast; linarith)
    refine ⟨by omega, ?_⟩
    rw [fromLockInd, if_neg (by omega), if_pos b, Nat.cast_sub (by omega)]; push_cast; linarith
  · obtain ⟨a, b⟩ := key 48 72 (toLockInd t) (by push_cast; linarith) (by push_cast; linarith)
    refine ⟨by omega, ?_⟩
    rw [fromLockInd, if_neg (by omega), if_neg (by omega), if_pos b, Nat.cast_sub (by omega)]; push_cast; linarith
  · obtain ⟨a, b⟩ := key 72 96 (toLockInd t) (by push_cast; linarith) (by push_cast; linarith)
    refine ⟨by omega, ?_⟩
    rw [fromLockInd, if_neg (by omega), if_neg (by omega), if_neg (by omega), if_pos b, Nat.cast_sub (by omega)]; push_cast; linarith
  · obtain ⟨a, b⟩ := key 96 120 (toLockInd t) (by push_cast; linarith) (by push_cast; linarith)
    refine ⟨by omega, ?_⟩
    rw [fromLockInd, if_neg (by omega), if_neg (by omega), if_neg (by omega), if_neg (by omega), if_pos b, Nat.cast_sub (by omega)]; push_cast; linarith
  · obtain ⟨a, b⟩ := key 120 127 (toLockInd t) (by push_cast; linarith) (by push_cast; linarith)
    refine ⟨by omega, ?_⟩
    rw [fromLockInd, if_neg (by omega), if_neg (by omega), if_neg (by omega), if_neg (by omega), if_neg (by omega), if_pos b, Nat.cast_sub (by omega)]; push_cast; linarith
  · rw [h1]
    refine ⟨by omega, ?_⟩
    have : fromLockInd 127 = 937 := rfl
    rw [this]; push_cast; exact h0

/-- **C16** (legacy) below the top of the scale at most 32 s of lock time are lost. -/
theorem C16_legacy_tight (t : ℚ) (h : 0 ≤ t) (hlt : t < 937) : t < (fromLockInd (toLockInd t) : ℚ) + 32 := by
  have key : ∀ (a b : Nat) (n : Nat), (n : ℚ) < b → (a : ℚ) < n + 1 → a ≤ n ∧ n < b := by
    intro a b n h1 h2
    have h2' : (a : ℚ) < ((n + 1 : Nat) : ℚ) := by push_cast; linarith
    have := natq_lt h1; have := natq_lt h2'; omega
  rcases toLockInd_cases t h with ⟨h1, h2, h3⟩ | ⟨h0, h1, h2, h3⟩ | ⟨h0, h1, h2, h3⟩ | ⟨h0, h1, h2, h3⟩ | ⟨h0, h1, h2, h3⟩ | ⟨h0, h1, h2, h3⟩ | ⟨h0, h1⟩
  · obtain ⟨_, b⟩ := key 0 24 (toLockInd t) (by push_cast; linarith) (by push_cast; linarith)
    rw [fromLockInd, if_pos b]; linarith
  · obtain ⟨a, b⟩ := key 24 48 (toLockInd t) (by push_cast; linarith) (by push_cast; linarith)
    rw [fromLockInd, if_neg (by omega), if_pos b, Nat.cast_sub (by omega)]; push_cast; linarith
  · obtain ⟨a, b⟩ := key 48 72 (toLockInd t) (by push_cast; linarith) (by push_cast; linarith)
    rw [fromLockInd, if_neg (by omega), if_neg (by omega), if_pos b, Nat.cast_sub (by omega)]; push_cast; linarith
  · obtain ⟨a, b⟩ := key 72 96 (toLockInd t) (by push_cast; linarith) (by push_cast; linarith)
    rw [fromLockInd, if_neg (by omega), if_neg (by omega), if_neg (by omega), if_pos b, Nat.cast_sub (by omega)]; push_cast; linarith
  · obtain ⟨a, b⟩ := key 96 120 (toLockInd t) (by push_cast; linarith) (by push_cast; linarith)
    rw [fromLockInd, if_neg (by omega), if_neg (by omega), if_neg (by omega), if_neg (by omega), if_pos b, Nat.cast_sub (by omega)]; push_cast; linarith
  · obtain ⟨a, b⟩ := key 120 127 (toLockInd t) (by push_cast; linarith) (by push_cast; linarith)
    rw [fromLockInd, if_neg (by omega), if_neg (by omega), if_neg (by omega), if_neg (by omega), if_neg (by omega), if_pos b, Nat.cast_sub (by omega)]; push_cast; linarith
  · linarith

/-- **C16** (legacy) indicator → time → indicator is the identity on all 128 indicators. -/
theorem C16_legacy_indicator_roundtrip (i : Nat) (hi : i < 128) : toLockInd (fromLockInd i) = i := by
  have hnn : (0 : ℚ) ≤ fromLockInd i := Nat.cast_nonneg _
  have sand : ∀ n : Nat, (n : ℚ) ≤ (i : ℚ) → (i : ℚ) < n + 1 → n = i := by
    intro n h1 h2
    have h2' : (i : ℚ) < ((n + 1 : Nat) : ℚ) := by push_cast; exact h2
    have := natq_le h1; have := natq_lt h2'; omega
  have hc := toLockInd_cases (fromLockInd i) hnn
  have hv : (i < 24 ∧ (fromLockInd i : ℚ) = i) ∨ ((24:ℚ) ≤ i ∧ (i : ℚ) ≤ 47 ∧ (fromLockInd i : ℚ) = 2 * i - 24)
      ∨ ((48:ℚ) ≤ i ∧ (i : ℚ) ≤ 71 ∧ (fromLockInd i : ℚ) = 4 * i - 120) ∨ ((72:ℚ) ≤ i ∧ (i : ℚ) ≤ 95 ∧ (fromLockInd i : ℚ) = 8 * i - 408)
      ∨ ((96:ℚ) ≤ i ∧ (i : ℚ) ≤ 119 ∧ (fromLockInd i : ℚ) = 16 * i - 1176) ∨ ((120:ℚ) ≤ i ∧ (i : ℚ) ≤ 126 ∧ (fromLockInd i : ℚ) = 32 * i - 3096)
      ∨ (i = 127 ∧ (fromLockInd i : ℚ) = 937) := by
    have c : ∀ (a : Nat), a ≤ i → (a : ℚ) ≤ i := fun a h => by exact_mod_cast h
    have d : ∀ (a : Nat), i ≤ a → (i : ℚ) ≤ a := fun a h => by exact_mod_cast h
    unfold fromLockInd
    split
    · left; exact ⟨by assumption, rfl⟩
    split
    · right; left; exact ⟨by simpa using c 24 (by omega), by simpa using d 47 (by omega), by rw [Nat.cast_sub (by omega)]; push_cast; ring⟩
    split
    · right; right; left; exact ⟨by simpa using c 48 (by omega), by simpa using d 71 (by omega), by rw [Nat.cast_sub (by omega)]; push_cast; ring⟩
    split
    · right; right; right; left; exact ⟨by simpa using c 72 (by omega), by simpa using d 95 (by omega), by rw [Nat.cast_sub (by omega)]; push_cast; ring⟩
    split
    · right; right; right; right; left; exact ⟨by simpa using c 96 (by omega), by simpa using d 119 (by omega), by rw [Nat.cast_sub (by omega)]; push_cast; ring⟩
    split
    · right; right; right; right; right; left; exact ⟨by simpa using c 120 (by omega), by simpa using d 126 (by omega), by rw [Nat.cast_sub (by omega)]; push_cast; ring⟩
    · right; right; right; right; right; right; exact ⟨by omega, by norm_num⟩
  rcases hv with ⟨hr, hv⟩ | ⟨hr, hs, hv⟩ | ⟨hr, hs, hv⟩ | ⟨hr, hs, hv⟩ | ⟨hr, hs, hv⟩ | ⟨hr, hs, hv⟩ | ⟨hr, hv⟩ <;>
    rw [hv] at hc ⊢ <;>
    rcases hc with ⟨h1, h2, h3⟩ | ⟨h0, h1, h2, h3⟩ | ⟨h0, h1, h2, h3⟩ | ⟨h0, h1, h2, h3⟩ | ⟨h0, h1, h2, h3⟩ | ⟨h0, h1, h2, h3⟩ | ⟨h0, h1⟩
  all_goals first
    | (exfalso; linarith)
    | exact sand _ (by linarith) (by linarith)
    | (rw [h1, hr])
    | (exfalso; have hr' : (i : ℚ) < 24 := by exact_mod_cast hr
       linarith)

theorem fromLockInd_mono {i j : Nat} (h : i ≤ j) (hj : j < 128) : fromLockInd i ≤ fromLockInd j := by
  unfold fromLockInd
  repeat' split
  all_goals omega

/-- **C16** (legacy) both directions are monotone. -/
theorem C16_legacy_monotone (t u : ℚ) (h : 0 ≤ t) (htu : t ≤ u) : toLockInd t ≤ toLockInd u := by
  by_contra hc
  push Not at hc
  -- the indicator of t stands for a time at most t, and the next indicator after that of u for a time beyond u
  have h1 := toLockInd_cases t h
  have h2 := toLockInd_cases u (by linarith)
  have hc' : (toLockInd u : ℚ) + 1 ≤ toLockInd t := by exact_mod_cast hc
  rcases h1 with ⟨a1, a2, a3⟩ | ⟨a0, a1, a2, a3⟩ | ⟨a0, a1, a2, a3⟩ | ⟨a0, a1, a2, a3⟩ | ⟨a0, a1, a2, a3⟩ | ⟨a0, a1, a2, a3⟩ | ⟨a0, a1⟩ <;>
  rcases h2 with ⟨b1, b2, b3⟩ | ⟨b0, b1, b2, b3⟩ | ⟨b0, b1, b2, b3⟩ | ⟨b0, b1, b2, b3⟩ | ⟨b0, b1, b2, b3⟩ | ⟨b0, b1, b2, b3⟩ | ⟨b0, b1⟩ <;>
  first
    | linarith
    | (have a1' : (toLockInd t : ℚ) = 127 := by exact_mod_cast a1
       linarith)
    | (have b1' : (toLockInd u : ℚ) = 127 := by exact_mod_cast b1
       linarith)
    | (have : (toLockInd t : ℚ) < 128 := by exact_mod_cast (C16_legacy_never_overstates t h).1
       have b1' : (toLockInd u : ℚ) = 127 := by exact_mod_cast b1
       linarith)
theorem C16_legacy_decode_monotone (i j : Nat) (h : i ≤ j) (hj : j < 128) : fromLockInd i ≤ fromLockInd j := fromLockInd_mono h hj

/-! ### the 4-bit scale used by MSM and by SBP observations -/

/-- the indicator of a duration, characterised -/
theorem encodeLockTime_cases (t : ℚ) : (t < 32 / 1000 ∧ encodeLockTime t = 0) ∨
    ∃ i, i < 15 ∧ encodeLockTime t = i + 1 ∧ (32 * 2 ^ i : ℚ) / 1000 ≤ t ∧ (i < 14 → t < (32 * 2 ^ (i + 1) : ℚ) / 1000) := by
  unfold encodeLockTime
  by_cases h0 : t < 32 / 1000
  · rw [if_pos h0]; exact Or.inl ⟨h0, rfl⟩
  rw [if_neg h0]; right; push Not at h0
  by_cases h1 : t < 64 / 1000
  · rw [if_pos h1]; exact ⟨0, by norm_num, rfl, by norm_num at *; linarith, fun _ => by norm_num at *; linarith⟩
  rw [if_neg h1]; push Not at h1
  by_cases h2 : t < 128 / 1000
  · rw [if_pos h2]; exact ⟨1, by norm_num, rfl, by norm_num at *; linarith, fun _ => by norm_num at *; linarith⟩
  rw [if_neg h2]; push Not at h2
  by_cases h3 : t < 256 / 1000
  · rw [if_pos h3]; exact ⟨2, by norm_num, rfl, by norm_num at *; linarith, fun _ => by norm_num at *; linarith⟩
  rw [if_neg h3]; push Not at h3
  by_cases h4 : t < 512 / 1000
  · rw [if_pos h4]; exact ⟨3, by norm_num, rfl, by norm_num at *; linarith, fun _ => by norm_num at *; linarith⟩
  rw [if_neg h4]; push Not at h4
  by_cases h5 : t < 1024 / 1000
  · rw [if_pos h5]; exact ⟨4, by norm_num, rfl, by norm_num at *; linarith, fun _ => by norm_num at *; linarith⟩
  rw [if_neg h5]; push Not at h5
  by_cases h6 : t < 2048 / 1000
  · rw [if_pos h6]; exact ⟨5, by norm_num, rfl, by norm_num at *; linarith, fun _ => by norm_num at *; linarith⟩
  rw [if_neg h6]; push Not at h6
  by_cases h7 : t < 4096 / 1000
  · rw [if_pos h7]; exact ⟨6, by norm_num, rfl, by norm_num at *; linarith, fun _ => by norm_num at *; linarith⟩
  rw [if_neg h7]; push Not at h7
  by_cases h8 : t < 8192 / 1000
  · rw [if_pos h8]; exact ⟨7, by norm_num, rfl, by norm_num at *; linarith, fun _ => by norm_num at *; linarith⟩
  rw [if_neg h8]; push Not at h8
  by_cases h9 : t < 16384 / 1000
  · rw [if_pos h9]; exact ⟨8, by norm_num, rfl, by norm_num at *; linarith, fun _ => by norm_num at *; linarith⟩
  rw [if_neg h9]; push Not at h9
  by_cases h10 : t < 32768 / 1000
  · rw [if_pos h10]; exact ⟨9, by norm_num, rfl, by norm_num at *; linarith, fun _ => by norm_num at *; linarith⟩
  rw [if_neg h10]; push Not at h10
  by_cases h11 : t < 65536 / 1000
  · rw [if_pos h11]; exact ⟨10, by norm_num, rfl, by norm_num at *; linarith, fun _ => by norm_num at *; linarith⟩
  rw [if_neg h11]; push Not at h11
  by_cases h12 : t < 131072 / 1000
  · rw [if_pos h12]; exact ⟨11, by norm_num, rfl, by norm_num at *; linarith, fun _ => by norm_num at *; linarith⟩
  rw [if_neg h12]; push Not at h12
  by_cases h13 : t < 262144 / 1000
  · rw [if_pos h13]; exact ⟨12, by norm_num, rfl, by norm_num at *; linarith, fun _ => by norm_num at *; linarith⟩
  rw [if_neg h13]; push Not at h13
  by_cases h14 : t < 524288 / 1000
  · rw [if_pos h14]; exact ⟨13, by norm_num, rfl, by norm_num at *; linarith, fun _ => by norm_num at *; linarith⟩
  rw [if_neg h14]; push Not at h14
  exact ⟨14, by norm_num, rfl, by norm_num at *; linarith, fun h => by omega⟩

theorem encodeLockTime_lt (t : ℚ) : encodeLockTime t < 16 := by
  rcases encodeLockTime_cases t with ⟨_, h⟩ | ⟨i, hi, h, _⟩ <;> omega

theorem decodeLockTime_succ (i : Nat) (hi : i < 15) : decodeLockTime (i + 1) = (32 * 2 ^ i : ℚ) / 1000 := by
  unfold decodeLockTime
  simp only [Nat.mod_eq_of_lt (show i + 1 < 16 by omega)]
  rw [if_neg (by omega)]; simp
theorem decodeLockTime_zero : decodeLockTime 0 = 0 := by unfold decodeLockTime; simp

/-- **C16** (4-bit scale) never overstates. -/
theorem C16_msm_never_overstates (t : ℚ) (h : 0 ≤ t) : encodeLockTime t < 16 ∧ decodeLockTime (encodeLockTime t) ≤ t := by
  refine ⟨encodeLockTime_lt t, ?_⟩
  rcases encodeLockTime_cases t with ⟨_, e⟩ | ⟨i, hi, e, h1, _⟩
  · rw [e, decodeLockTime_zero]; exact h
  · rw [e, decodeLockTime_succ i hi]; exact h1

/-- **C16** (4-bit scale) indicator → time → indicator is the identity on all 16 indicators. -/
theorem C16_msm_indicator_roundtrip (i : Nat) (hi : i < 16) : encodeLockTime (decodeLockTime i) = i := by
  interval_cases i <;> (unfold decodeLockTime encodeLockTime; norm_num)

/-- **C16** (4-bit scale) monotone in both directions. -/
theorem C16_msm_monotone (t u : ℚ) (htu : t ≤ u) : encodeLockTime t ≤ encodeLockTime u := by
  rcases encodeLockTime_cases t with ⟨_, e⟩ | ⟨i, hi, e, h1, _⟩
  · omega
  · rcases encodeLockTime_cases u with ⟨hu, e'⟩ | ⟨j, hj, e', _, h3⟩
    · exfalso
      have : (1 : ℚ) ≤ 2 ^ i := one_le_pow₀ (by norm_num)
      have : (32 : ℚ) / 1000 ≤ 32 * 2 ^ i / 1000 := by linarith
      linarith
    · rw [e, e']
      by_contra hc
      push Not at hc
      have h4 := h3 (by omega)
      have : (2 : ℚ) ^ (j + 1) ≤ 2 ^ i := pow_le_pow_right₀ (by norm_num) (by omega)
      have : (32 : ℚ) * 2 ^ (j + 1) / 1000 ≤ 32 * 2 ^ i / 1000 := by linarith
      linarith
theorem C16_msm_decode_monotone (i j : Nat) (h : i ≤ j) (hj : j < 16) : decodeLockTime i ≤ decodeLockTime j := by
  unfold decodeLockTime
  simp only [Nat.mod_eq_of_lt hj, Nat.mod_eq_of_lt (Nat.lt_of_le_of_lt h hj)]
  by_cases hi : i = 0
  · rw [if_pos hi]; split <;> positivity
  · rw [if_neg hi, if_neg (by omega)]
    apply div_le_div_of_nonneg_right _ (by norm_num)
    have : 32 * 2 ^ (i - 1) ≤ 32 * 2 ^ (j - 1) := Nat.mul_le_mul_left _ (Nat.pow_le_pow_right (by omega) (by omega))
    exact_mod_cast this

/-- **C16** the indicator understates by less than half: the true lock time is below twice the reported one (for
indicators 1..14). -/
theorem C16_msm_tight (t : ℚ) (h1 : 32 / 1000 ≤ t) (h2 : t < 524288 / 1000) : t < 2 * decodeLockTime (encodeLockTime t) := by
  rcases encodeLockTime_cases t with ⟨h, e⟩ | ⟨i, hi, e, h3, h4⟩
  · linarith
  · rw [e, decodeLockTime_succ i hi]
    by_cases hi' : i < 14
    · have := h4 hi'
      rw [pow_succ] at this; linarith
    · have : i = 14 := by omega
      subst this
      norm_num at *; linarith

/-! ### the 10-bit scale of MSM6/7 (decode only) -/

/-- **C16** the 10-bit scale is RTCM 10403.3 Table 3.5-75: 64 one-millisecond steps, then 20 segments of 32 steps of
2, 4, ..., 2^20 ms, each starting at 32 times its step. -/
theorem C16_ext_table :
    (∀ i < 64, fromLockIndExt i = i) ∧
    (∀ k < 20, ∀ j < 32, fromLockIndExt (64 + 32 * k + j) = 2 ^ (k + 1) * (32 + j)) ∧
    (∀ i, 704 ≤ i → fromLockIndExt i = 2 ^ 26) := by
  refine ⟨?_, ?_, ?_⟩
  · intro i hi; unfold fromLockIndExt; rw [if_pos hi]
  · decide +kernel
  · intro i hi
    unfold fromLockIndExt
    iterate 21 rw [if_neg (by omega)]
    rfl

/-- **C16** and it is strictly increasing up to its last entry. -/
theorem C16_ext_monotone (i j : Nat) (h : i < j) (hj : j ≤ 704) : fromLockIndExt i < fromLockIndExt j := by
  have step : ∀ k, k < 704 → fromLockIndExt k < fromLockIndExt (k + 1) := by
    decide +kernel
  have : ∀ d, i + d + 1 ≤ 704 → fromLockIndExt i < fromLockIndExt (i + d + 1) := by
    intro d
    induction d with
    | zero => intro hd; exact step i (by omega)
    | succ d ih =>
      intro hd
      have h1 := ih (by omega)
      have h2 := step (i + d + 1) (by omega)
      have e : i + (d + 1) + 1 = i + d + 1 + 1 := by omega
      rw [e]; omega
  have := this (j - i - 1) (by omega)
  rwa [show i + (j - i - 1) + 1 = j by omega] at this

example : toLockInd (1001 / 10) = 55 ∧ fromLockInd 55 = 100 := by
  constructor
  · unfold toLockInd ctrunc; norm_num; rfl
  · rfl
example : fromLockIndExt 703 = 66060288 := by decide

end Verif.Lock
