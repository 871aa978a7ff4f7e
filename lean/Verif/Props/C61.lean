import Verif.Lemmas.NovVal
import Verif.Lemmas.NovSbp
import Verif.Lemmas.NovEx
/-! C61: NovAtel observations. -/
namespace Verif.Nov
open Verif.Fp Verif.Nov.Spec
open Verif.Ubx (Fl dbl flt castTo)
open Verif.Msm (Code)

/-! ### the tracking status -/

theorem mask_bit (t : BitVec 32) (i : Nat) : decide (t &&& BitVec.twoPow 32 i ≠ 0#32) = (decide (i < 32) && t.getLsbD i) := by
  rw [BitVec.and_twoPow]
  by_cases h : t.getLsbD i = true
  · have hi : i < 32 := BitVec.lt_of_getLsbD h
    rw [if_pos h]
    have : BitVec.twoPow 32 i ≠ 0#32 := by
      intro e
      have := congrArg (fun v => BitVec.getLsbD v i) e
      simp [hi] at this
    simp [this, h, hi]
  · simp only [Bool.not_eq_true] at h
    simp [h]

theorem flags_eq (r : RangeRec) : trackingFlags r.tracking_status =
    { code := bit r 12, phase := bit r 10 || bit r 11, doppler := bit r 12, half := bit r 28, cn0 := bit r 12 } := by
  have h : ∀ i < 32, decide (r.tracking_status &&& BitVec.twoPow 32 i ≠ 0#32) = bit r i := by
    intro i hi
    rw [mask_bit]
    simp [bit, hi]
  have h2 : decide (r.tracking_status &&& (0x00000400#32 ||| 0x00000800#32) ≠ 0#32) = (bit r 10 || bit r 11) := by
    rw [← h 10 (by norm_num), ← h 11 (by norm_num), BitVec.and_or_distrib_left]
    have e : (BitVec.twoPow 32 10) = 0x00000400#32 := rfl
    have e2 : (BitVec.twoPow 32 11) = 0x00000800#32 := rfl
    rw [e, e2, ← Bool.decide_or]
    congr 1
    rw [← not_and_or]
    exact propext (not_congr BitVec.or_eq_zero_iff)
  unfold trackingFlags
  rw [h2]
  have := h 12 (by norm_num)
  have h28 := h 28 (by norm_num)
  change decide (r.tracking_status &&& 0x00001000#32 ≠ 0#32) = _ at this
  change decide (r.tracking_status &&& 0x10000000#32 ≠ 0#32) = _ at h28
  rw [this, h28]

theorem code_eq (t : BitVec 32) : trackingCode t = codeOf t.toNat := by
  unfold trackingCode codeOf
  have h1 : ((t &&& 0x00070000#32) >>> 16).toNat = t.toNat / 2 ^ 16 % 8 := by
    rw [BitVec.ushiftRight_and_distrib, BitVec.toNat_and, BitVec.toNat_ushiftRight, Nat.shiftRight_eq_div_pow]
    exact Nat.and_two_pow_sub_one_eq_mod _ 3
  have h2 : ((t &&& 0x03F00000#32) >>> 21).toNat = t.toNat / 2 ^ 21 % 32 := by
    rw [BitVec.ushiftRight_and_distrib, BitVec.toNat_and, BitVec.toNat_ushiftRight, Nat.shiftRight_eq_div_pow]
    exact Nat.and_two_pow_sub_one_eq_mod _ 5
  simp only [h1, h2]
  rfl

theorem sbpFlags_bits (a b c : Bool) : ∀ i < 8, (sbpFlags { code := a, phase := b, doppler := a, half := c, cn0 := a }).getLsbD i = match i with
    | 0 => a | 1 => b | 2 => c | 3 => a | _ => false := by
  cases a <;> cases b <;> cases c <;> decide

/-! ### a record -/

theorem f64_frac (n : Int) (h : |n| ≤ 9007199254740992) {k : Nat} (hk : k ≤ 1074) : f64 ((n : ℚ) / 2 ^ k) = n / 2 ^ k := by
  have := f64_exact (k := -(k : Int)) (m := n) h (by omega)
  rwa [zpow_neg, zpow_natCast, ← div_eq_mul_inv] at this

theorem pack_frac {lo hi : Int} {n : Int} (hn : |n| ≤ 9007199254740992) (hlo : lo * 256 ≤ n) (hhi : n < (hi + 1) * 256) :
    ∃ i f, packFrac lo hi ((n : ℚ) / 256) = some (i, f) ∧ i * 256 + f = n ∧ f < 256 := by
  unfold packFrac
  have hfl : ⌊(n : ℚ) / 256⌋ = n / 256 := by
    rw [show (256 : ℚ) = ((256 : Int) : ℚ) by norm_num]
    exact Rat.floor_intCast_div_natCast n 256
  rw [hfl]
  have hsub : (n : ℚ) / 256 - (n / 256 : Int) = ((n % 256 : Int) : ℚ) / 256 := by
    have := Int.emod_add_mul_ediv n 256
    have h2 : (n : ℚ) = ((n % 256 : Int) : ℚ) + 256 * ((n / 256 : Int) : ℚ) := by exact_mod_cast this.symm
    linarith
  have hm0 := Int.emod_nonneg n (by norm_num : (256 : Int) ≠ 0)
  have hm1 := Int.emod_lt_of_pos n (by norm_num : (0 : Int) < 256)
  have hx : f64 (((n % 256 : Int) : ℚ) / 256) = ((n % 256 : Int) : ℚ) / 256 := by
    have := f64_frac (n % 256) (by rw [abs_of_nonneg hm0]; omega) (k := 8) (by norm_num)
    norm_num at this ⊢
    exact this
  have hy : f64 ((n % 256 : Int) : ℚ) = ((n % 256 : Int) : ℚ) := by
    have := f64_frac (n % 256) (by rw [abs_of_nonneg hm0]; omega) (k := 0) (by norm_num)
    simpa using this
  have hz : cround (f64 (f64 ((n : ℚ) / 256 - (n / 256 : Int)) * 256)) = n % 256 := by
    rw [hsub, hx, div_mul_cancel₀ _ (by norm_num), hy, cround_int]
  simp only [hz]
  rw [if_neg (by omega), if_neg (by omega)]
  exact ⟨_, _, rfl, by omega, by omega⟩

theorem pack_frac_none {lo hi : Int} {n : Int} (h : n < lo * 256 ∨ (hi + 1) * 256 ≤ n) : packFrac lo hi ((n : ℚ) / 256) = none := by
  unfold packFrac
  have hfl : ⌊(n : ℚ) / 256⌋ = n / 256 := by
    rw [show (256 : ℚ) = ((256 : Int) : ℚ) by norm_num]
    exact Rat.floor_intCast_div_natCast n 256
  rw [hfl]
  simp only
  rw [if_pos (by omega)]

theorem psr_eq {r : RangeRec} (h : InRange r) : f64 (f64 ((r.pseudorange.toNat : ℚ) / 128) * 50) = (r.pseudorange.toNat : ℚ) / 128 * 50 := by
  have hb := h.pseudorange
  have h1 : f64 ((r.pseudorange.toNat : ℚ) / 128) = (r.pseudorange.toNat : ℚ) / 128 := by
    have := f64_frac (r.pseudorange.toNat : Int) (by rw [abs_of_nonneg (by omega)]; omega) (k := 7) (by norm_num)
    norm_num at this ⊢
    exact this
  have h2 : f64 (((50 * r.pseudorange.toNat : Nat) : ℚ) / 128) = ((50 * r.pseudorange.toNat : Nat) : ℚ) / 128 := by
    have := f64_frac ((50 * r.pseudorange.toNat : Nat) : Int) (by rw [abs_of_nonneg (by omega)]; omega) (k := 7) (by norm_num)
    norm_num at this ⊢
    exact this
  rw [h1]
  have e : (r.pseudorange.toNat : ℚ) / 128 * 50 = ((50 * r.pseudorange.toNat : Nat) : ℚ) / 128 := by push_cast; ring
  rw [e, h2]

theorem cround_le_iff {x : ℚ} (hx : 0 ≤ x) (k : Int) : cround x ≤ k ↔ x < k + 1 / 2 := by
  unfold cround
  rw [if_pos hx]
  constructor
  · intro h
    have h1 := Int.lt_floor_add_one (x + 1 / 2)
    have h2 : (⌊x + 1 / 2⌋ : ℚ) ≤ k := by exact_mod_cast h
    linarith
  · intro h
    have : ⌊x + 1 / 2⌋ < k + 1 := by
      rw [Int.floor_lt]; push_cast; linarith
    omega

/-- what is made of a record -/
theorem packObs_spec (L : Lib) {r : RangeRec} (h : InRange r) :
    (Usable L r → ∃ o, packObs L (toMiniNav r) = some o ∧ SaysObs L r o) ∧ (¬ Usable L r → packObs L (toMiniNav r) = none) := by
  have hA := h.ADR
  have hD := h.doppler
  have hC := h.CN0
  have hl : f64 ((r.ADR : ℚ) / 256) = (r.ADR : ℚ) / 256 := by
    have := f64_frac r.ADR (by rw [abs_le]; omega) (k := 8) (by norm_num)
    norm_num at this ⊢
    exact this
  have hd : f64 ((r.doppler : ℚ) / 256) = (r.doppler : ℚ) / 256 := by
    have := f64_frac r.doppler (by rw [abs_le]; omega) (k := 8) (by norm_num)
    norm_num at this ⊢
    exact this
  have hlk : f64 ((r.lock_time.toNat : ℚ) / 32) = (r.lock_time.toNat : ℚ) / 32 := by
    have := h.lock
    have := f64_frac (r.lock_time.toNat : Int) (by rw [abs_of_nonneg (by omega)]; omega) (k := 5) (by norm_num)
    norm_num at this ⊢
    exact this
  have hc : f64 ((r.CN0.toNat : ℚ) + 20) = ((r.CN0.toNat + 20 : Nat) : ℚ) := by
    have := f64_frac ((r.CN0.toNat + 20 : Nat) : Int) (by rw [abs_of_nonneg (by omega)]; omega) (k := 0) (by norm_num)
    simpa using this
  have hc4 : cround (f64 (((r.CN0.toNat + 20 : Nat) : ℚ) * 4)) = ((4 * (r.CN0.toNat + 20) : Nat) : Int) := by
    have := f64_frac ((4 * (r.CN0.toNat + 20) : Nat) : Int) (by rw [abs_of_nonneg (by omega)]; omega) (k := 0) (by norm_num)
    have e : ((r.CN0.toNat + 20 : Nat) : ℚ) * 4 = (((4 * (r.CN0.toNat + 20) : Nat) : Int) : ℚ) := by push_cast; ring
    simp only [pow_zero, div_one] at this
    rw [e, this, cround_int]
  have hp := psr_eq h
  have hp0 : (0 : ℚ) ≤ (r.pseudorange.toNat : ℚ) / 128 * 50 := by positivity
  have hpn : ¬ f64 ((r.pseudorange.toNat : ℚ) / 128) < 0 := by
    have hb := h.pseudorange
    have := f64_frac (r.pseudorange.toNat : Int) (by rw [abs_of_nonneg (by omega)]; omega) (k := 7) (by norm_num)
    norm_num at this
    rw [this]
    have : (0 : ℚ) ≤ (r.pseudorange.toNat : ℚ) / 128 := by positivity
    linarith
  have hneg : -((r.ADR : ℚ) / 256) = ((-r.ADR : Int) : ℚ) / 256 := by push_cast; ring
  obtain ⟨Li, Lf, hL1, hL2, hL3⟩ := pack_frac (lo := -2147483648) (hi := 2147483647) (n := -r.ADR) (by rw [abs_le]; omega) (by omega) (by omega)
  constructor
  · rintro ⟨u1, u2, u3, u4⟩
    obtain ⟨Di, Df, hD1, hD2, hD3⟩ := pack_frac (lo := -32768) (hi := 32767) (n := r.doppler) (by rw [abs_le]; omega) (by omega) (by omega)
    have hP : cround ((r.pseudorange.toNat : ℚ) / 128 * 50) ≤ 4294967295 := by
      rw [cround_le_iff hp0]; push_cast; linarith
    refine ⟨{ P := (cround ((r.pseudorange.toNat : ℚ) / 128 * 50)).toNat, Li, Lf, Di, Df,
              cn0 := if bit r 12 then 4 * (r.CN0.toNat + 20) else 0, lock := L.encodeLock ((r.lock_time.toNat : ℚ) / 32),
              flags := sbpFlags (trackingFlags r.tracking_status), sat := r.prn_slot.toNat, code := codeOf r.tracking_status.toNat }, ?_, ?_⟩
    · unfold packObs toMiniNav
      simp only [code_eq, u1, hp, hl, hd, hlk, hc, hc4, hneg, hL1, hD1, hpn, flags_eq, Bool.not_true, Bool.false_eq_true, if_false, false_or,
        bind, Option.bind, pure]
      rw [if_neg (by omega)]
      cases bit r 12
      · simp
      · simp only [if_true, true_and]
        rw [if_neg]
        · simp; omega
        · push Not
          refine ⟨by positivity, ?_⟩
          omega
    · refine ⟨?_, ⟨hL2, hL3⟩, ⟨hD2, hD3⟩, rfl, rfl, ?_, rfl, rfl⟩
      · have h1 := cround_abs ((r.pseudorange.toNat : ℚ) / 128 * 50)
        have h2 := cround_nonneg hp0
        have h3 : (((cround ((r.pseudorange.toNat : ℚ) / 128 * 50)).toNat : Nat) : ℚ) = (cround ((r.pseudorange.toNat : ℚ) / 128 * 50) : ℚ) := by
          exact_mod_cast congrArg (Int.cast : Int → ℚ) (Int.toNat_of_nonneg h2)
        simp only [h3]
        rw [abs_le] at h1 ⊢
        constructor <;> linarith
      · rw [flags_eq]
        exact sbpFlags_bits _ _ _
  · intro hu
    unfold packObs toMiniNav
    simp only [code_eq, hp, hl, hd, hneg, hL1, hpn, false_or, bind, Option.bind]
    by_cases u1 : L.sidValid (codeOf r.tracking_status.toNat) r.prn_slot.toNat = true
    · simp only [u1, Bool.not_true, Bool.false_eq_true, if_false]
      by_cases u2 : (r.pseudorange.toNat : ℚ) / 128 * 50 < 2 ^ 32 - 1 / 2
      · have hP : cround ((r.pseudorange.toNat : ℚ) / 128 * 50) ≤ 4294967295 := by
          rw [cround_le_iff hp0]; push_cast; linarith
        rw [if_neg (by omega), pack_frac_none]
        by_contra hcon
        exact hu ⟨u1, u2, by omega, by omega⟩
      · have hP : ¬ cround ((r.pseudorange.toNat : ℚ) / 128 * 50) ≤ 4294967295 := by
          rw [cround_le_iff hp0]; push_cast; linarith
        rw [if_pos (by omega)]
    · simp [u1]

theorem kept_filterMap (L : Lib) (rs : List RangeRec) (h : ∀ r ∈ rs, InRange r) :
    Kept (Usable L) (SaysObs L) rs ((rs.map toMiniNav).filterMap (packObs L)) := by
  induction rs with
  | nil => exact .nil
  | cons r rs ih =>
    have ih := ih (fun r hr => h r (List.mem_cons_of_mem _ hr))
    obtain ⟨h1, h2⟩ := packObs_spec L (h r (List.mem_cons_self ..))
    by_cases hu : Usable L r
    · obtain ⟨o, ho, hs⟩ := h1 hu
      rw [List.map_cons, List.filterMap_cons_some ho]
      exact .keep _ _ _ _ hu hs ih
    · rw [List.map_cons, List.filterMap_cons_none (h2 hu)]
      exact .skip _ _ _ hu ih

/-! ### messages -/

/-- the message number `k` -/
def obsAt (L : Lib) (t : BitVec 16 × Nat × Int) (total k : Nat) (l : List MiniNav) : ObsMsg :=
  { wn := t.1, tow := t.2.1, ns := t.2.2, seq := total * 16 + k % 16, obs := l.filterMap (packObs L) }

theorem obsLoop_eq (L : Lib) (t : BitVec 16 × Nat × Int) (total : Nat) : ∀ (n : Nat), n ≤ total → ∀ l : List MiniNav,
    obsLoop L t total n l = ((List.range n).map fun k => .obs (obsAt L t total (total - n + k) ((l.drop (14 * k)).take 14))) := by
  intro n
  induction n with
  | zero => intro _ l; rfl
  | succ n ih =>
    intro hn l
    rw [obsLoop, ih (by omega), List.range_succ_eq_map, List.map_cons, List.map_map]
    congr 1
    · apply List.map_congr_left
      intro k hk
      simp only [Function.comp, List.drop_drop]
      rw [show total - (n + 1) + (k + 1) = total - n + k by omega, show 14 * (k + 1) = 14 + 14 * k by ring]

theorem chunks (n : Nat) : ∀ {α β : Type} (f : List α → List β), f [] = [] → (∀ a b, f (a ++ b) = f a ++ f b) → ∀ l : List α, l.length ≤ 14 * n →
    (List.range n).flatMap (fun k => f ((l.drop (14 * k)).take 14)) = f l := by
  induction n with
  | zero =>
    intro α β f h0 _ l hl
    obtain rfl := List.length_eq_zero_iff.1 (by omega : l.length = 0)
    simp [h0]
  | succ n ih =>
    intro α β f h0 ha l hl
    rw [List.range_succ_eq_map, List.flatMap_cons, List.flatMap_map]
    have := ih f h0 ha (l.drop 14) (by rw [List.length_drop]; omega)
    have e : (fun k => f ((l.drop (14 * (k + 1))).take 14)) = fun k => f (((l.drop 14).drop (14 * k)).take 14) := by
      funext k
      rw [List.drop_drop, show 14 * (k + 1) = 14 + 14 * k by ring]
    simp only [Nat.mul_zero, List.drop_zero]
    show f (l.take 14) ++ (List.range n).flatMap (fun k => f ((l.drop (14 * (k + 1))).take 14)) = f l
    rw [e, this, ← ha, List.take_append_drop]

theorem time_ok {wn : BitVec 16} {ms : BitVec 32} (h : ms.toNat < 2 ^ 31) :
    roundTime wn (f64 ((ms.toInt : ℚ) / 1000)) = some (if 604800000 ≤ ms.toNat then (wn + 1, ms.toNat - 604800000, 0) else (wn, ms.toNat, 0)) := by
  have hi : ms.toInt = (ms.toNat : Int) := by
    rw [BitVec.toInt_eq_toNat_cond, if_pos (by omega)]
  rw [hi]
  push_cast
  have hnn : (0 : ℚ) ≤ (ms.toNat : ℚ) / 1000 := by positivity
  have hb : (ms.toNat : ℚ) ≤ 2147483648 := by exact_mod_cast h.le
  have e1 := f64_err ((ms.toNat : ℚ) / 1000)
  rw [abs_of_nonneg hnn] at e1
  have ht : (1 : ℚ) / 2 ^ 200 ≤ 1 / 1000000 := by norm_num
  have e1' : |f64 ((ms.toNat : ℚ) / 1000) - (ms.toNat : ℚ) / 1000| ≤ 1 / 100000 := by linarith
  have e2 := f64_err (f64 ((ms.toNat : ℚ) / 1000) * 1000)
  have hb2 : |f64 ((ms.toNat : ℚ) / 1000) * 1000| ≤ 3000000000 := by
    rw [abs_le] at e1' ⊢
    constructor <;> linarith [e1'.1, e1'.2]
  have e3 : |f64 (f64 ((ms.toNat : ℚ) / 1000) * 1000) - ms.toNat| ≤ 1 / 10 := by
    have e2' : |f64 (f64 ((ms.toNat : ℚ) / 1000) * 1000) - f64 ((ms.toNat : ℚ) / 1000) * 1000| ≤ 1 / 100 := by linarith
    rw [abs_le] at e1' e2' ⊢
    constructor <;> linarith [e1'.1, e1'.2, e2'.1, e2'.2]
  have hc : cround (f64 (f64 ((ms.toNat : ℚ) / 1000) * 1000)) = (ms.toNat : Int) := by
    have := cround_bounds (f64 (f64 ((ms.toNat : ℚ) / 1000) * 1000))
    rw [abs_le] at e3
    have a : (cround (f64 (f64 ((ms.toNat : ℚ) / 1000) * 1000)) : ℚ) < (ms.toNat : Int) + 1 := by push_cast; linarith [this.2]
    have b : ((ms.toNat : Int) : ℚ) - 1 < cround (f64 (f64 ((ms.toNat : ℚ) / 1000) * 1000)) := by push_cast; linarith [this.1]
    have a' : cround (f64 (f64 ((ms.toNat : ℚ) / 1000) * 1000)) < (ms.toNat : Int) + 1 := by exact_mod_cast a
    have b' : (ms.toNat : Int) - 1 < cround (f64 (f64 ((ms.toNat : ℚ) / 1000) * 1000)) := by exact_mod_cast b
    omega
  have ct : ∀ n : Int, ctrunc (n : ℚ) = n := by
    intro n
    unfold ctrunc
    split
    · exact Int.floor_intCast _
    · rw [← Int.cast_neg, Int.floor_intCast]; omega
  have h1 : castTo 0 4294967295 (cround (f64 (f64 ((ms.toNat : ℚ) / 1000) * 1000))) = some (ms.toNat : Int) := by
    unfold castTo
    rw [ct, hc, if_pos (by omega)]
  have h2 : castTo (-2147483648) 2147483647 (cround (f64 (f64 (f64 ((ms.toNat : ℚ) / 1000) - f64 (((ms.toNat : Int) : ℚ) / 1000)) * 1000000000))) = some 0 := by
    have : cround (f64 (f64 (f64 ((ms.toNat : ℚ) / 1000) - f64 (((ms.toNat : Int) : ℚ) / 1000)) * 1000000000)) = 0 := by
      push_cast
      rw [sub_self, f64_zero, zero_mul, f64_zero]
      exact cround_int 0
    unfold castTo
    rw [ct, this, if_pos (by omega)]
  unfold roundTime
  rw [h1]
  simp only [bind, Option.bind]
  rw [h2]
  simp only [pure]
  congr 1
  generalize ms.toNat = k
  by_cases hw : 604800000 ≤ k
  · have hw2 : (604800000 : Int) ≤ (k : Int) := by omega
    have hw3 : ((k : Int) - 604800000).toNat = k - 604800000 := by omega
    simp only [if_pos hw, if_pos hw2, hw3]
    rfl
  · have hw2 : ¬ (604800000 : Int) ≤ (k : Int) := by omega
    simp only [if_neg hw, if_neg hw2, Int.toNat_natCast]

/-- **C61 (observations).**  A RANGECMP log with records becomes as many MSG_OBS messages as are needed for 14 each; message number k has the
usable ones of the records 14 k to 14 k + 13, and all together have all the usable ones, in order. -/
theorem C61_obs_partial {L : Lib} {before : List Msg} (ha : (stateAfter L before).isSome) {m : Msg} {rs : List RangeRec} (hb : m.body = .rangecmp rs)
    (hn : rs ≠ []) (hn2 : rs.length ≤ 63) (hr : ∀ r ∈ rs, InRange r) (hm : m.header.ms.toNat < 2 ^ 31) :
    ∃ os : List ObsMsg, sentFor L before m = some (os.map .obs) ∧ os.length = (rs.length + 13) / 14 ∧
      (∀ (k : Nat) (o : ObsMsg), os[k]? = some o → SaysObsMsg L m rs os.length k o) ∧ Kept (Usable L) (SaysObs L) rs (os.flatMap (·.obs)) := by
  obtain ⟨st, hs⟩ := Option.isSome_iff_exists.1 ha
  have hpos : 0 < rs.length := List.length_pos_of_ne_nil hn
  have htot : min ((rs.length + 14 - 1) / 14) 15 = (rs.length + 13) / 14 := by omega
  set total := (rs.length + 13) / 14 with htd
  set t : BitVec 16 × Nat × Int := if 604800000 ≤ m.header.ms.toNat then (m.header.week + 1, m.header.ms.toNat - 604800000, 0)
    else (m.header.week, m.header.ms.toNat, 0) with ht
  refine ⟨(List.range total).map fun k => obsAt L t total (total - total + k) (((rs.map toMiniNav).drop (14 * k)).take 14), ?_, by simp, ?_, ?_⟩
  · rw [sentFor_eq hs]
    unfold convert
    rw [hb]
    simp only [writeRangeCmp, sendObs, List.length_map]
    rw [if_neg (by omega), htot, time_ok hm, ← ht]
    simp only [Option.map_some]
    rw [obsLoop_eq L t total total le_rfl, List.map_map]
    rfl
  · intro k o hk
    rw [List.getElem?_map] at hk
    rcases hk2 : (List.range total)[k]? with _ | k'
    · rw [hk2] at hk; cases hk
    rw [hk2] at hk
    obtain ⟨hlt, rfl⟩ : k < total ∧ k = k' := by
      have := List.getElem?_eq_some_iff.1 hk2
      obtain ⟨h1, h2⟩ := this
      simp at h1 h2
      exact ⟨h1, h2⟩
    obtain rfl := Option.some.inj hk
    refine ⟨?_, ?_, ?_, ?_⟩
    · simp only [List.length_map, List.length_range, Nat.sub_self, Nat.zero_add, obsAt]
      rw [Nat.mod_eq_of_lt (by omega)]
    · intro hlt
      simp only [ht, obsAt]
      rw [if_neg (by omega)]
      exact ⟨rfl, rfl⟩
    · simp only [ht, obsAt]
      split <;> rfl
    · simp only [obsAt, ← List.map_drop, ← List.map_take]
      exact kept_filterMap L _ fun r hr' => hr r (List.mem_of_mem_drop (List.mem_of_mem_take hr'))
  · have := chunks total (fun l : List RangeRec => (l.map toMiniNav).filterMap (packObs L)) rfl (by intro a b; simp [List.filterMap_append]) rs (by omega)
    rw [List.flatMap_map]
    simp only [← List.map_drop, ← List.map_take, obsAt] at this ⊢
    rw [this]
    exact kept_filterMap L rs hr

/-- every record of a log is in range, and there are at most 63 -/
theorem C61_range {f : List (BitVec 8)} {m : Msg} (h : Says f m) {rs : List RangeRec} (hb : m.body = .rangecmp rs) :
    rs.length ≤ 63 ∧ ∀ r ∈ rs, InRange r := by
  obtain ⟨_, _, _, _, _, _, h⟩ := h
  rw [hb] at h
  obtain ⟨_, _, _, h3, h4⟩ := h
  refine ⟨by omega, fun r hr => ?_⟩
  obtain ⟨i, hi⟩ := List.mem_iff_getElem?.1 hr
  obtain ⟨_, g2, g3, g4, _, _, _, g8, g9, _⟩ := h4 i r hi
  have hbits : ∀ p off n, bits (payload f) p off n < 2 ^ n := fun p off n => Nat.mod_lt _ (by positivity)
  have hsg : ∀ n v : Nat, 0 < n → v < 2 ^ n → -2 ^ (n - 1) ≤ signed n v ∧ signed n v < 2 ^ (n - 1) := by
    intro n v h0 hv
    unfold signed
    obtain ⟨n, rfl⟩ : ∃ k, n = k + 1 := ⟨n - 1, by omega⟩
    simp only [Nat.add_sub_cancel]
    have hv' : (v : Int) < 2 * 2 ^ n := by
      have : v < 2 * 2 ^ n := by rw [pow_succ] at hv; omega
      exact_mod_cast this
    have hp : (0 : Int) < 2 ^ n := by positivity
    have e : (2 : Int) ^ (n + 1) = 2 * 2 ^ n := by ring
    split
    · rename_i hlt
      have : (v : Int) < 2 ^ n := by exact_mod_cast hlt
      constructor <;> linarith [Int.natCast_nonneg v]
    · rename_i hlt
      have : (2 : Int) ^ n ≤ v := by exact_mod_cast (not_lt.1 hlt)
      rw [e]
      constructor <;> linarith
  refine ⟨?_, by rw [g3]; exact hbits _ _ _, ?_, by rw [g9]; exact hbits _ _ _, by rw [g8]; exact hbits _ _ _⟩
  · rw [g2]; exact hsg 28 _ (by norm_num) (hbits _ _ _)
  · rw [g4]; exact hsg 32 _ (by norm_num) (hbits _ _ _)

/-- Observations are sent for RANGECMP logs only, and nothing else is sent for these. -/
theorem C61_only {L : Lib} {before : List Msg} {m : Msg} {os : List Out} (h : sentFor L before m = some os) :
    (∀ o, .obs o ∈ os → ∃ rs, m.body = .rangecmp rs) ∧ ((∃ rs, m.body = .rangecmp rs) → ∀ x ∈ os, ∃ o, x = .obs o) := by
  obtain ⟨st, st', hs, hc, _⟩ := sentFor_some h
  obtain ⟨hd, body⟩ := m
  cases body with
  | rangecmp b =>
    refine ⟨fun _ _ => ⟨b, rfl⟩, fun _ x hx => ?_⟩
    simp only [convert, writeRangeCmp] at hc
    rcases h1 : sendObs L hd.week (Fp.f64 ((hd.ms.toInt : ℚ) / 1000)) (b.map toMiniNav) with _ | p
    · rw [h1] at hc; cases hc
    rw [h1] at hc
    obtain ⟨rfl, rfl⟩ := Prod.mk.inj (Option.some.inj hc)
    unfold sendObs at h1
    split at h1
    · rcases hr : roundTime 0xFFFF#16 (-1) with _ | t
      · rw [hr] at h1; cases h1
      · rw [hr] at h1
        obtain rfl := Option.some.inj h1
        exact ⟨_, List.mem_singleton.1 hx⟩
    · rcases hr : roundTime hd.week (Fp.f64 ((hd.ms.toInt : ℚ) / 1000)) with _ | t
      · simp only [hr] at h1; cases h1
      · simp only [hr] at h1
        obtain rfl := Option.some.inj h1
        simp only [obsLoop_eq _ _ _ _ le_rfl] at hx
        obtain ⟨k, _, rfl⟩ := List.mem_map.1 hx
        exact ⟨_, rfl⟩
  | gpsephem b =>
    refine ⟨fun o ho => ?_, by rintro ⟨_, h⟩; cases h⟩
    exfalso
    simp only [convert, writeGpsEphem] at hc
    rcases he : toEphGps L b with _ | e
    · rw [he] at hc; cases hc
    · rw [he] at hc
      obtain ⟨rfl, rfl⟩ := Prod.mk.inj (Option.some.inj hc)
      simp at ho
  | bestpos b =>
    refine ⟨fun o ho => ?_, by rintro ⟨_, h⟩; cases h⟩
    exfalso
    simp only [convert, writeBestPos] at hc
    rcases h1 : bestposToLlh L hd b with _ | p
    · rw [h1] at hc; cases hc
    rw [h1] at hc
    have h2 : _ = os := congrArg Prod.snd (Option.some.inj hc)
    rw [← h2] at ho
    unfold sendTime at ho
    split at ho <;> simp at ho
  | bestvel b =>
    refine ⟨fun o ho => ?_, by rintro ⟨_, h⟩; cases h⟩
    exfalso
    simp only [convert, writeBestVel] at hc
    rcases h1 : bestvelToNed L (sendTime st (headerTime hd)).1 hd b with _ | p
    · rw [h1] at hc; cases hc
    rw [h1] at hc
    have h2 : _ = os := congrArg Prod.snd (Option.some.inj hc)
    rw [← h2] at ho
    unfold sendTime at ho
    split at ho <;> simp at ho
  | insatt b =>
    refine ⟨fun o ho => ?_, by rintro ⟨_, h⟩; cases h⟩
    exfalso
    simp only [convert, writeInsAtt] at hc
    rcases h1 : doubleToS32 (mulFl rnd64 (dbl b.roll) (.fin 1000000)) with _ | e1
    · rw [h1] at hc; cases hc
    rcases h2 : doubleToS32 (mulFl rnd64 (dbl b.pitch) (.fin 1000000)) with _ | e2
    · rw [h1, h2] at hc; cases hc
    rcases h3 : doubleToS32 (mulFl rnd64 (dbl b.azimuth) (.fin 1000000)) with _ | e3
    · rw [h1, h2, h3] at hc; cases hc
    rw [h1, h2, h3] at hc
    have h2 : _ = os := congrArg Prod.snd (Option.some.inj hc)
    rw [← h2] at ho
    simp at ho
  | rawimusx b =>
    refine ⟨fun o ho => ?_, by rintro ⟨_, h⟩; cases h⟩
    exfalso
    simp only [convert, writeRawImu] at hc
    split at hc
    · cases hc
    rcases h1 : toAngularRate st.imuRecv hd b with _ | e1
    · rw [h1] at hc; cases hc
    rcases h2 : toImuRaw st.imuRecv hd b with _ | e2
    · rw [h1, h2] at hc; cases hc
    rw [h1, h2] at hc
    have h2 : _ = os := congrArg Prod.snd (Option.some.inj hc)
    rw [← h2] at ho
    rcases List.mem_append.1 ho with ho | ho
    · rcases List.mem_append.1 ho with ho | ho
      · cases e1 <;> simp at ho
      · cases e2 <;> simp at ho
    · split at ho <;> simp at ho
  | gloephemeris b =>
    obtain ⟨rfl, rfl⟩ := Prod.mk.inj (Option.some.inj hc)
    refine ⟨fun o ho => ?_, by rintro ⟨_, h⟩; cases h⟩
    cases ho
  | other =>
    obtain ⟨rfl, rfl⟩ := Prod.mk.inj (Option.some.inj hc)
    refine ⟨fun o ho => ?_, by rintro ⟨_, h⟩; cases h⟩
    cases ho

/-! ### defects -/

/-- A RANGECMP log without records is undefined behaviour: its time is unknown, -1 s, and is converted to an unsigned type. -/
theorem C61_empty_bug (L : Lib) (before : List Msg) {m : Msg} (hb : m.body = .rangecmp []) : sentFor L before m = none := by
  rcases hs : stateAfter L before with _ | st
  · unfold sentFor; rw [hs]; rfl
  rw [sentFor_eq hs]
  unfold convert
  rw [hb]
  have h1 : f64 (-1 * 1000) = -1000 := by
    have := f64_frac (-1000) (by norm_num) (k := 0) (by norm_num)
    norm_num at this ⊢
    exact this
  have : roundTime 0xFFFF#16 (-1) = none := by
    unfold roundTime
    rw [h1]
    have : castTo 0 4294967295 ((cround (-1000) : Int) : ℚ) = none := by
      have h2 : cround (-1000) = -1000 := by have := cround_int (-1000); push_cast at this; exact this
      rw [h2]
      unfold castTo ctrunc
      norm_num
    rw [this]
    rfl
  simp [writeRangeCmp, sendObs, this]

/-- Only the first 63 records of a log are looked at. -/
theorem C61_many_bug {f : List (BitVec 8)} {m : Msg} (h : Says f m) {rs : List RangeRec} (hb : m.body = .rangecmp rs)
    (hn : 63 < Verif.Ubx.Spec.leAt (payload f) 0 4) : rs.length = 63 := by
  obtain ⟨_, _, _, _, _, _, h⟩ := h
  rw [hb] at h
  obtain ⟨_, _, _, h3, _⟩ := h
  omega

/-- The phase of a satellite that is not locked in phase is declared valid, if its parity is known. -/
theorem C61_phase_bug {L : Lib} {r : RangeRec} {o : PackedObs} (h : SaysObs L r o) (h1 : bit r 10 = false) (h2 : bit r 11 = true) :
    o.flags.getLsbD 1 = true := by
  rw [h.flags 1 (by norm_num)]
  simp [h1, h2]

/-- The half cycle is declared unknown although the parity is known (bit 11), unless a half cycle was added (bit 28); and known when it was
added although the parity is not known. -/
theorem C61_half_bug {L : Lib} {r : RangeRec} {o : PackedObs} (h : SaysObs L r o) (h1 : bit r 11 ≠ bit r 28) :
    o.flags.getLsbD 2 ≠ bit r 11 := by
  rw [h.flags 2 (by norm_num)]
  exact h1.symm

/-- GLONASS satellites have the numbers 38 to 61 in the log; libswiftnav has numbers up to 28: their observations are dropped. -/
theorem C61_glonass_bug {L : Lib} (hL : ∀ c n, c = .glo_l1of ∨ c = .glo_l2of → L.sidValid c n = true → n ≤ 28) {r : RangeRec}
    (hc : r.tracking_status.toNat / 2 ^ 16 % 8 = 1) (hr : 38 ≤ r.prn_slot.toNat) (hv : ∀ n, L.sidValid .invalid n = false) : ¬ Usable L r := by
  rintro ⟨h, _⟩
  unfold codeOf at h
  rw [hc] at h
  split at h
  · rename_i h0 _; cases h0
  · rename_i h0 _; cases h0
  · have := hL _ _ (.inl rfl) h; omega
  · have := hL _ _ (.inr rfl) h; omega
  · rw [hv] at h; cases h

/-! ### concrete cases -/

/-- GPS L1 C/A, satellite 5, 22000000.5 m, Doppler -1000.5 Hz, phase -115000000/256 cycles, 45 dB-Hz -/
def exRec : RangeRec where
  tracking_status := 0x08109C44
  doppler := -256128
  pseudorange := 2816000064
  ADR := -115000000
  stddev_psr := 0
  stddev_adr := 0
  prn_slot := 5
  lock_time := 3200
  CN0 := 25
  glo_freq_no := 0
  reserved := 0

theorem exRec_ok : InRange exRec := ⟨by decide, by decide, by decide, by decide, by decide⟩
theorem exRec_usable : Usable exLib exRec := ⟨by decide +kernel, by decide +kernel, by decide, by decide⟩

/-- 20 records, the last of them with a number that is not usable -/
def exRange : Msg := ⟨exHeader 2100 345600000, .rangecmp (List.replicate 19 exRec ++ [{ exRec with prn_slot := 200 }])⟩

example : ∃ os : List ObsMsg, sentFor exLib [] exRange = some (os.map .obs) ∧ os.length = 2 ∧
    (∀ (k : Nat) (o : ObsMsg), os[k]? = some o → SaysObsMsg exLib exRange (List.replicate 19 exRec ++ [{ exRec with prn_slot := 200 }]) 2 k o) ∧
    Kept (Usable exLib) (SaysObs exLib) (List.replicate 19 exRec ++ [{ exRec with prn_slot := 200 }]) (os.flatMap (·.obs)) := by
  obtain ⟨os, h1, h2, h3, h4⟩ := C61_obs_partial (L := exLib) (before := []) rfl (m := exRange) rfl (by simp) (by simp) (by
    intro r hr
    rcases List.mem_append.1 hr with hr | hr
    · rw [List.eq_of_mem_replicate hr]; exact exRec_ok
    · rw [List.mem_singleton.1 hr]; exact ⟨by decide, by decide, by decide, by decide, by decide⟩) (by decide)
  have h2' : os.length = 2 := by simpa using h2
  rw [h2'] at h3
  exact ⟨os, h1, h2', h3, h4⟩

example : sentFor exLib [] ⟨exHeader 2100 345600000, .rangecmp []⟩ = none := C61_empty_bug _ _ rfl

/-- a record with known parity and no phase lock -/
example : ∃ o, SaysObs exLib { exRec with tracking_status := 0x08109844 } o ∧ o.flags.getLsbD 1 = true ∧ o.flags.getLsbD 2 = false := by
  obtain ⟨o, _, ho⟩ := (packObs_spec exLib (r := { exRec with tracking_status := 0x08109844 }) ⟨by decide, by decide, by decide, by decide, by decide⟩).1
    ⟨by decide +kernel, by decide +kernel, by decide, by decide⟩
  refine ⟨o, ho, C61_phase_bug ho (by decide) (by decide), ?_⟩
  have := C61_half_bug ho (by decide)
  rw [show bit { exRec with tracking_status := 0x08109844 } 11 = true by decide] at this
  simpa using this

/-- a GLONASS record -/
example : ¬ Usable { exLib with sidValid := fun c n => (c = .gps_l1ca ∨ c = .glo_l1of ∨ c = .glo_l2of) ∧ 1 ≤ n ∧ n ≤ 28 }
    { exRec with tracking_status := 0x08119C44, prn_slot := 40 } :=
  C61_glonass_bug (by intro c n _ h; simp at h; exact h.2.2) (by decide) (by decide) (by intro n; simp)

end Verif.Nov
