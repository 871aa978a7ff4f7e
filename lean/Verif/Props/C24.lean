import Verif.Model.TimeTruth
import Verif.Spec.GpsTime
import Mathlib.Tactic.Linarith
import Mathlib.Tactic.NormNum
import Mathlib.Tactic.Ring
import Mathlib.Tactic.Positivity
import Mathlib.Tactic.FieldSimp
import Mathlib.Algebra.Order.Field.Rat
import Mathlib.Data.Rat.Floor
/-! C24: the shared time estimate under any interleaving. -/
namespace Verif.TimeTruth
open Verif.Time Verif.Time.Spec

/-! ### binary32 rounding -/

theorem rne_lo {x : ℚ} {n : Int} (h : (n : ℚ) ≤ x) : n ≤ rne x := by
  have : n ≤ ⌊x⌋ := Int.le_floor.mpr h
  unfold rne; split_ifs <;> omega
theorem rne_hi {x : ℚ} {n : Int} (h : x ≤ n) : rne x ≤ n := by
  have h1 : ⌊x⌋ ≤ n := by
    have := Int.floor_le x
    have : (⌊x⌋ : ℚ) ≤ n := le_trans this h
    exact_mod_cast this
  by_cases he : ⌊x⌋ = n
  · have hx : x = n := le_antisymm h (by rw [← he]; exact Int.floor_le x)
    unfold rne; rw [he, hx, sub_self, if_pos (by norm_num)]
  · unfold rne; split_ifs <;> omega
theorem rne_err (x : ℚ) : |(rne x : ℚ) - x| ≤ 1 / 2 := by
  have h0 := Int.floor_le x
  have h1 := Int.lt_floor_add_one x
  unfold rne
  split_ifs <;> (rw [abs_le]; push_cast; constructor <;> linarith)

theorem pow_pos' (e : Int) : (0 : ℚ) < 2 ^ e := zpow_pos (by norm_num) e

theorem lt_pow_exp (x : ℚ) : x < 2 ^ (f32exp x + 1) := by
  have h1 : x < ((2 : ℕ) : ℚ) ^ (Int.log 2 x + 1) := Int.lt_zpow_succ_log_self (by norm_num) x
  refine lt_of_lt_of_le h1 ?_
  push_cast
  exact zpow_le_zpow_right₀ (by norm_num) (by unfold f32exp; omega)

theorem pow_exp_le {x : ℚ} (hx : 0 < x) (h : -126 < f32exp x) : (2 : ℚ) ^ f32exp x ≤ x := by
  have h1 : ((2 : ℕ) : ℚ) ^ Int.log 2 x ≤ x := Int.zpow_log_le_self (by norm_num) hx
  have : f32exp x = Int.log 2 x := by unfold f32exp at h ⊢; omega
  rw [this]; exact_mod_cast h1

/-- a value of the binary32 grid -/
def OnGrid (g : ℚ) : Prop := ∃ (m : Int) (e : Int), g = m * 2 ^ (e - 23) ∧ -126 ≤ e ∧ 0 ≤ m ∧ m ≤ 2 ^ 24

theorem f32_grid {x : ℚ} (hx : 0 ≤ x) : OnGrid (f32 x) := by
  unfold f32
  split
  · exact ⟨0, 0, by norm_num, by norm_num, le_refl _, by norm_num⟩
  · rename_i h
    have hx' : 0 < x := not_le.mp h
    refine ⟨_, f32exp x, rfl, by unfold f32exp; omega, ?_, ?_⟩
    · refine rne_lo ?_
      push_cast
      exact le_of_lt (div_pos hx' (pow_pos' _))
    · refine rne_hi ?_
      rw [div_le_iff₀ (pow_pos' _)]
      have := le_of_lt (lt_pow_exp x)
      refine le_trans this (le_of_eq ?_)
      rw [show (((2 ^ 24 : Int)) : ℚ) = 2 ^ (24 : Int) by norm_num, ← zpow_add₀ (by norm_num)]
      congr 1; ring

theorem f32_nonneg {x : ℚ} (hx : 0 ≤ x) : 0 ≤ f32 x := by
  obtain ⟨m, e, h, -, h0, -⟩ := f32_grid hx
  rw [h]
  have : (0 : ℚ) ≤ m := by exact_mod_cast h0
  have := pow_pos' (e - 23)
  positivity

/-- rounding does not go below a representable value -/
theorem f32_ge {g y : ℚ} (hg : OnGrid g) (h : g ≤ y) (hy : 0 ≤ y) : g ≤ f32 y := by
  obtain ⟨m, e, rfl, he, hm0, hm1⟩ := hg
  unfold f32
  split
  · rename_i hn
    exact le_trans h hn
  · rename_i hn
    have hy' : 0 < y := not_le.mp hn
    obtain ⟨k, hk⟩ : ∃ k, k = f32exp y := ⟨_, rfl⟩
    rw [← hk]
    by_cases hle : k ≤ e
    · -- the value is a multiple of the unit of `y`
      have hint : ((m * 2 ^ (e - k).toNat : Int) : ℚ) * 2 ^ (k - 23) = m * 2 ^ (e - 23) := by
        push_cast
        rw [mul_assoc]
        congr 1
        rw [← zpow_natCast, Int.toNat_of_nonneg (by omega), ← zpow_add₀ (by norm_num)]
        congr 1; ring
      rw [← hint]
      refine mul_le_mul_of_nonneg_right ?_ (le_of_lt (pow_pos' _))
      have : m * 2 ^ (e - k).toNat ≤ rne (y / 2 ^ (k - 23)) := by
        refine rne_lo ?_
        rw [le_div_iff₀ (pow_pos' _), hint]
        exact h
      exact_mod_cast this
    · have h1 : (2 : ℚ) ^ k ≤ y := by rw [hk]; exact pow_exp_le hy' (by omega)
      have h2 : (2 ^ 23 : Int) ≤ rne (y / 2 ^ (k - 23)) := by
        refine rne_lo ?_
        rw [le_div_iff₀ (pow_pos' _)]
        refine le_trans (le_of_eq ?_) h1
        rw [show (((2 ^ 23 : Int)) : ℚ) = 2 ^ (23 : Int) by norm_num, ← zpow_add₀ (by norm_num)]
        congr 1; ring
      have h3 : (2 ^ 23 : ℚ) ≤ (rne (y / 2 ^ (k - 23)) : ℚ) := by exact_mod_cast h2
      have h4 : (m : ℚ) ≤ 2 ^ 24 := by exact_mod_cast hm1
      calc (m : ℚ) * 2 ^ (e - 23) ≤ 2 ^ 24 * 2 ^ (e - 23) := mul_le_mul_of_nonneg_right h4 (le_of_lt (pow_pos' _))
        _ = 2 ^ 23 * 2 ^ (e + 1 - 23) := by
            rw [show (2 : ℚ) ^ 24 = 2 ^ (24 : Int) by norm_num, show (2 : ℚ) ^ 23 = 2 ^ (23 : Int) by norm_num,
              ← zpow_add₀ (by norm_num), ← zpow_add₀ (by norm_num)]
            congr 1; ring
        _ ≤ 2 ^ 23 * 2 ^ (k - 23) :=
            mul_le_mul_of_nonneg_left (zpow_le_zpow_right₀ (by norm_num) (by omega)) (by norm_num)
        _ ≤ _ := mul_le_mul_of_nonneg_right h3 (le_of_lt (pow_pos' _))

theorem exp_week {x : ℚ} (hx : 0 < x) (h : x ≤ 604800) : f32exp x ≤ 19 := by
  by_contra hc
  have h1 := pow_exp_le hx (by omega)
  have h2 : (2 : ℚ) ^ (20 : Int) ≤ 2 ^ f32exp x := zpow_le_zpow_right₀ (by norm_num) (by omega)
  norm_num at h2
  linarith

theorem f32_le_week {x : ℚ} (h : x ≤ 604800) : f32 x ≤ 604800 := by
  unfold f32
  split
  · norm_num
  · rename_i hn
    have hx : 0 < x := not_le.mp hn
    have he := exp_week hx h
    obtain ⟨k, hk⟩ : ∃ k, k = f32exp x := ⟨_, rfl⟩
    rw [← hk] at he ⊢
    have hint : ((9676800 * 2 ^ (19 - k).toNat : Int) : ℚ) * 2 ^ (k - 23) = 604800 := by
      push_cast
      rw [mul_assoc, ← zpow_natCast, Int.toNat_of_nonneg (by omega), ← zpow_add₀ (by norm_num)]
      rw [show (19 - k + (k - 23) : Int) = -4 by ring]
      norm_num
    rw [← hint]
    refine mul_le_mul_of_nonneg_right ?_ (le_of_lt (pow_pos' _))
    have : rne (x / 2 ^ (k - 23)) ≤ 9676800 * 2 ^ (19 - k).toNat := by
      refine rne_hi ?_
      rw [div_le_iff₀ (pow_pos' _), hint]
      exact h
    exact_mod_cast this

theorem f32_err {x : ℚ} (h0 : 0 ≤ x) (h : x ≤ 604800) : |f32 x - x| ≤ 1 / 32 := by
  unfold f32
  split
  · rename_i hn
    have : x = 0 := le_antisymm hn h0
    rw [this]; norm_num
  · rename_i hn
    have hx : 0 < x := not_le.mp hn
    have he := exp_week hx h
    have hp := pow_pos' (f32exp x - 23)
    have h1 := rne_err (x / 2 ^ (f32exp x - 23))
    have h2 : (rne (x / 2 ^ (f32exp x - 23)) : ℚ) * 2 ^ (f32exp x - 23) - x =
        ((rne (x / 2 ^ (f32exp x - 23)) : ℚ) - x / 2 ^ (f32exp x - 23)) * 2 ^ (f32exp x - 23) := by
      rw [sub_mul, div_mul_cancel₀ _ (ne_of_gt hp)]
    rw [h2, abs_mul, abs_of_pos hp]
    have h3 : (2 : ℚ) ^ (f32exp x - 23) ≤ 2 ^ (-4 : Int) := zpow_le_zpow_right₀ (by norm_num) (by omega)
    calc _ ≤ 1 / 2 * (2 : ℚ) ^ (-4 : Int) := mul_le_mul h1 h3 (le_of_lt hp) (by norm_num)
      _ = 1 / 32 := by norm_num

/-! ### specification -/

/-- the time in a time-truth value -/
def TT.time (v : TT) : GpsTime := ⟨v.wn, v.tow⟩

/-- `b` is at least as good as `a`: solved if `a` is, and then not earlier -/
def NotWorse (a b : TT) : Prop := a.solved = true → b.solved = true ∧ seconds a.time ≤ seconds b.time

theorem NotWorse.refl (a) : NotWorse a a := fun h => ⟨h, le_refl _⟩
theorem NotWorse.trans {a b c} (h1 : NotWorse a b) (h2 : NotWorse b c) : NotWorse a c := fun h =>
  ⟨(h2 (h1 h).1).1, le_trans (h1 h).2 (h2 (h1 h).1).2⟩

/-- the sources that can provide time -/
def Source.isEph : Source → Prop
  | .other => False
  | _ => True

/-- a legal value of the shared variable -/
def Legal (ref : Int) (calls : List (Source × GpsTime)) (v : TT) : Prop :=
  v = TT.init ∨ ∃ src t, (src, t) ∈ calls ∧ src.isEph ∧ Valid t ∧ ref ≤ t.wn ∧ v = ⟨t.wn, f32 t.tow, true⟩

theorem Legal.solved {ref calls v} (h : Legal ref calls v) (hs : v.solved = true) :
    ∃ src t, (src, t) ∈ calls ∧ src.isEph ∧ Valid t ∧ ref ≤ t.wn ∧ v = ⟨t.wn, f32 t.tow, true⟩ := by
  rcases h with rfl | h
  · simp [TT.init] at hs
  · exact h

/-- what the loop stores is never worse than what it expects to replace -/
theorem decide_notWorse {ref calls cur src t new} (hl : Legal ref calls cur) (ht : Valid t)
    (hd : decide' cur src t = some new) : NotWorse cur new ∧ new = ⟨t.wn, f32 t.tow, true⟩ ∧ src ≠ .other := by
  unfold decide' at hd
  split at hd
  · simp at hd
  rename_i hsrc
  split at hd
  · rename_i hs
    simp only [Option.some.injEq] at hd
    exact ⟨fun h => by rw [hs] at h; simp at h, hd.symm, hsrc⟩
  · split at hd
    · simp at hd
    · rename_i hs hdiff
      simp only [Option.some.injEq] at hd
      refine ⟨fun h => ?_, hd.symm, hsrc⟩
      obtain ⟨src0, t0, -, -, v0, -, rfl⟩ := hl.solved h
      subst hd
      refine ⟨rfl, ?_⟩
      obtain ⟨t1, t2, t3, t4⟩ := ht
      obtain ⟨u1, u2, u3, u4⟩ := v0
      have e0 := f32_nonneg u3
      have e1 := f32_le_week (le_of_lt u4)
      have e2 := f32_nonneg t3
      have hpos : 0 < t.tow - f32 t0.tow + ((t.wn - t0.wn : Int) : ℚ) * 604800 := not_le.mp hdiff
      simp only [TT.time, seconds]
      rcases lt_trichotomy t.wn t0.wn with hw | hw | hw
      · have : (t.wn : ℚ) ≤ t0.wn - 1 := by
          have : t.wn ≤ t0.wn - 1 := by omega
          exact_mod_cast this
        push_cast at hpos
        linarith
      · rw [hw] at hpos ⊢
        simp only [sub_self, Int.cast_zero, zero_mul, add_zero] at hpos
        have := f32_ge (f32_grid u3) (y := t.tow) (by linarith) t3
        linarith
      · have : (t0.wn : ℚ) ≤ t.wn - 1 := by
          have : t0.wn ≤ t.wn - 1 := by omega
          exact_mod_cast this
        linarith

/-- the invariant of all executions -/
structure Inv (ref : Int) (s : Sys) : Prop where
  legal : Legal ref s.calls s.shared
  load : ∀ i src t, s.pc i = .load src t → Valid t ∧ ref ≤ t.wn ∧ (src, t) ∈ s.calls
  loop : ∀ i src t cur, s.pc i = .loop src t cur →
    Valid t ∧ ref ≤ t.wn ∧ (src, t) ∈ s.calls ∧ Legal ref s.calls cur ∧ NotWorse cur s.shared
  done : ∀ i src t b, s.pc i = .done src t b → src.isEph → Valid t → ref ≤ t.wn →
    s.shared.solved = true ∧ seconds t - 1 / 32 ≤ seconds s.shared.time

theorem Legal.mono {ref calls v c} (h : Legal ref calls v) : Legal ref (c :: calls) v := by
  rcases h with h | ⟨src, t, h1, h2⟩
  · exact Or.inl h
  · exact Or.inr ⟨src, t, List.mem_cons_of_mem _ h1, h2⟩

theorem setPc_cases {pc : Nat → Pc} {i j : Nat} {p q : Pc} (h : setPc pc i p j = q) : (j = i ∧ p = q) ∨ (j ≠ i ∧ pc j = q) := by
  unfold setPc at h
  split at h
  · rename_i hj; exact Or.inl ⟨hj, h⟩
  · rename_i hj; exact Or.inr ⟨hj, h⟩

theorem inv_init (ref) : Inv ref .init :=
  ⟨Or.inl rfl, by intro i src t h; simp [Sys.init] at h, by intro i src t c h; simp [Sys.init] at h,
    by intro i src t b h; simp [Sys.init] at h⟩

theorem inv_step {ref s s'} (hi : Inv ref s) (h : Step ref s s') : Inv ref s' ∧ NotWorse s.shared s'.shared := by
  cases h with
  | call i src t hp =>
    refine ⟨⟨hi.legal.mono, ?_, ?_, ?_⟩, NotWorse.refl _⟩
    · intro j src' t' h
      rcases setPc_cases h with ⟨-, h⟩ | ⟨-, h⟩
      · split at h
        · rename_i ha
          simp only [Pc.load.injEq] at h
          obtain ⟨rfl, rfl⟩ := h
          exact ⟨ha.1, not_lt.mp ha.2, by simp⟩
        · simp at h
      · obtain ⟨a, b, c⟩ := hi.load j src' t' h
        exact ⟨a, b, List.mem_cons_of_mem _ c⟩
    · intro j src' t' cur h
      rcases setPc_cases h with ⟨-, h⟩ | ⟨-, h⟩
      · split at h <;> simp at h
      · obtain ⟨a, b, c, d, e⟩ := hi.loop j src' t' cur h
        exact ⟨a, b, List.mem_cons_of_mem _ c, d.mono, e⟩
    · intro j src' t' b h hs hv hr
      rcases setPc_cases h with ⟨-, h⟩ | ⟨-, h⟩
      · split at h
        · simp at h
        · rename_i ha
          simp only [Pc.done.injEq] at h
          obtain ⟨rfl, rfl, -⟩ := h
          exact absurd ⟨hv, not_lt.mpr hr⟩ ha
      · exact hi.done j src' t' b h hs hv hr
  | load i src t hp =>
    refine ⟨⟨hi.legal, ?_, ?_, ?_⟩, NotWorse.refl _⟩
    · intro j src' t' h
      rcases setPc_cases h with ⟨-, h⟩ | ⟨-, h⟩
      · simp at h
      · exact hi.load j src' t' h
    · intro j src' t' cur h
      rcases setPc_cases h with ⟨-, h⟩ | ⟨-, h⟩
      · simp only [Pc.loop.injEq] at h
        obtain ⟨rfl, rfl, rfl⟩ := h
        obtain ⟨a, b, c⟩ := hi.load i src t hp
        exact ⟨a, b, c, hi.legal, NotWorse.refl _⟩
      · exact hi.loop j src' t' cur h
    · intro j src' t' b h
      rcases setPc_cases h with ⟨-, h⟩ | ⟨-, h⟩
      · simp at h
      · exact hi.done j src' t' b h
  | giveUp i src t cur hp hd =>
    refine ⟨⟨hi.legal, ?_, ?_, ?_⟩, NotWorse.refl _⟩
    · intro j src' t' h
      rcases setPc_cases h with ⟨-, h⟩ | ⟨-, h⟩
      · simp at h
      · exact hi.load j src' t' h
    · intro j src' t' cur h
      rcases setPc_cases h with ⟨-, h⟩ | ⟨-, h⟩
      · simp at h
      · exact hi.loop j src' t' cur h
    · intro j src' t' b h hs hv hr
      rcases setPc_cases h with ⟨-, h⟩ | ⟨-, h⟩
      · simp only [Pc.done.injEq] at h
        obtain ⟨rfl, rfl, -⟩ := h
        obtain ⟨a, b, c, d, e⟩ := hi.loop i src t cur hp
        unfold decide' at hd
        rw [if_neg (by rintro rfl; exact hs)] at hd
        split at hd
        · simp at hd
        · rename_i hsol
          split at hd
          · rename_i hdiff
            obtain ⟨q1, q2⟩ := e (by simpa using hsol)
            refine ⟨q1, ?_⟩
            have : diff t ⟨cur.wn, cur.tow⟩ = seconds t - seconds cur.time := by
              unfold diff seconds weekSecs TT.time; push_cast; ring
            rw [this] at hdiff
            linarith
          · simp at hd
      · exact hi.done j src' t' b h hs hv hr
  | casOk i src t cur new hp hd hc =>
    obtain ⟨a, b, c, d, e⟩ := hi.loop i src t cur hp
    obtain ⟨n1, n2, n3⟩ := decide_notWorse d a hd
    have hse : src.isEph := by cases src <;> simp_all [Source.isEph]
    subst hc
    refine ⟨⟨Or.inr ⟨src, t, c, hse, a, b, n2⟩, ?_, ?_, ?_⟩, n1⟩
    · intro j src' t' h
      rcases setPc_cases h with ⟨-, h⟩ | ⟨-, h⟩
      · simp at h
      · exact hi.load j src' t' h
    · intro j src' t' cur h
      rcases setPc_cases h with ⟨-, h⟩ | ⟨-, h⟩
      · simp at h
      · obtain ⟨a', b', c', d', e'⟩ := hi.loop j src' t' cur h
        exact ⟨a', b', c', d', e'.trans n1⟩
    · intro j src' t' b' h hs hv hr
      rcases setPc_cases h with ⟨-, h⟩ | ⟨-, h⟩
      · simp only [Pc.done.injEq] at h
        obtain ⟨rfl, rfl, -⟩ := h
        rw [n2]
        refine ⟨rfl, ?_⟩
        have := f32_err a.2.2.1 (le_of_lt a.2.2.2)
        rw [abs_le] at this
        simp only [TT.time, seconds]
        linarith [this.1]
      · obtain ⟨q1, q2⟩ := hi.done j src' t' b' h hs hv hr
        exact ⟨(n1 q1).1, le_trans q2 (n1 q1).2⟩
  | casFail i src t cur new hp hd =>
    refine ⟨⟨hi.legal, ?_, ?_, ?_⟩, NotWorse.refl _⟩
    · intro j src' t' h
      rcases setPc_cases h with ⟨-, h⟩ | ⟨-, h⟩
      · simp at h
      · exact hi.load j src' t' h
    · intro j src' t' cur h
      rcases setPc_cases h with ⟨-, h⟩ | ⟨-, h⟩
      · simp only [Pc.loop.injEq] at h
        obtain ⟨rfl, rfl, rfl⟩ := h
        obtain ⟨a, b, c, d, e⟩ := hi.loop i src t _ hp
        exact ⟨a, b, c, hi.legal, NotWorse.refl _⟩
      · exact hi.loop j src' t' cur h
    · intro j src' t' b h
      rcases setPc_cases h with ⟨-, h⟩ | ⟨-, h⟩
      · simp at h
      · exact hi.done j src' t' b h
  | ret i src t b hp =>
    refine ⟨⟨hi.legal, ?_, ?_, ?_⟩, NotWorse.refl _⟩
    · intro j src' t' h
      rcases setPc_cases h with ⟨-, h⟩ | ⟨-, h⟩
      · simp at h
      · exact hi.load j src' t' h
    · intro j src' t' cur h
      rcases setPc_cases h with ⟨-, h⟩ | ⟨-, h⟩
      · simp at h
      · exact hi.loop j src' t' cur h
    · intro j src' t' b h
      rcases setPc_cases h with ⟨-, h⟩ | ⟨-, h⟩
      · simp at h
      · exact hi.done j src' t' b h

theorem inv_steps {ref s s'} (hi : Inv ref s) (h : Steps ref s s') : Inv ref s' ∧ NotWorse s.shared s'.shared := by
  induction h with
  | refl => exact ⟨hi, NotWorse.refl _⟩
  | tail _ hs ih =>
    obtain ⟨a, b⟩ := ih
    obtain ⟨c, d⟩ := inv_step a hs
    exact ⟨c, b.trans d⟩

/-! ### C24 -/

/-- C24: between any two points of any execution of any number of threads, the estimate a reader gets never becomes
unsolved again and never goes back in time. -/
theorem C24_never_back (ref : Int) (s s' : Sys) (h : Steps ref .init s) (h' : Steps ref s s') (hs : (get s).1 = true) :
    (get s').1 = true ∧ seconds (get s).2 ≤ seconds (get s').2 :=
  (inv_steps (inv_steps (inv_init ref) h).1 h').2 hs

/-- C24: when a call with a legal time not before the reference week returns (whatever it returns), the estimate is solved
and not earlier than the submitted time (up to the 1/32 s resolution of the stored `float`). -/
theorem C24_completed (ref : Int) (s : Sys) (h : Steps ref .init s) (i : Nat) (src : Source) (t : GpsTime) (b : Bool)
    (hd : s.pc i = .done src t b) (hsrc : src = .ephGps ∨ src = .ephGal ∨ src = .ephBds) (ht : Valid t) (hr : ref ≤ t.wn) :
    (get s).1 = true ∧ seconds t - 1 / 32 ≤ seconds (get s).2 :=
  (inv_steps (inv_init ref) h).1.done i src t b hd (by rcases hsrc with rfl | rfl | rfl <;> trivial) ht hr

/-- C24: a solved estimate is the time of one of the calls made so far, from an ephemeris, legal and not before the
reference week (up to the 1/32 s resolution of the stored `float`). -/
theorem C24_no_fabrication (ref : Int) (s : Sys) (h : Steps ref .init s) (hs : (get s).1 = true) :
    ∃ src t, (src, t) ∈ s.calls ∧ src ≠ .other ∧ Valid t ∧ ref ≤ t.wn ∧ (get s).2.wn = t.wn ∧
      |(get s).2.tow - t.tow| ≤ 1 / 32 := by
  obtain ⟨src, t, h1, h2, h3, h4, h5⟩ := (inv_steps (inv_init ref) h).1.legal.solved hs
  refine ⟨src, t, h1, by rintro rfl; exact h2, h3, h4, ?_, ?_⟩
  · simp only [get, h5]
  · simp only [get, h5]; exact f32_err h3.2.2.1 (le_of_lt h3.2.2.2)

/-- C24: a call with an illegal time, a time before the reference week or an unknown source never changes the estimate and
returns false. -/
theorem C24_rejected (ref : Int) (s s' : Sys) (h : Step ref s s') (i : Nat) (src : Source) (t : GpsTime)
    (hr : Steps ref .init s) (hbad : ¬ Valid t ∨ t.wn < ref ∨ src = .other) (hd : s'.pc i = .done src t true) :
    s.pc i = .done src t true := by
  have hi := (inv_steps (inv_init ref) hr).1
  cases h with
  | call j src' t' hp =>
    rcases setPc_cases hd with ⟨-, h⟩ | ⟨-, h⟩
    · split at h <;> simp at h
    · exact h
  | load j src' t' hp =>
    rcases setPc_cases hd with ⟨-, h⟩ | ⟨-, h⟩
    · simp at h
    · exact h
  | giveUp j src' t' cur hp _ =>
    rcases setPc_cases hd with ⟨-, h⟩ | ⟨-, h⟩
    · simp at h
    · exact h
  | casOk j src' t' cur new hp hdec hc =>
    rcases setPc_cases hd with ⟨-, h⟩ | ⟨-, h⟩
    · simp only [Pc.done.injEq] at h
      obtain ⟨rfl, rfl, -⟩ := h
      obtain ⟨a, b, c, d, e⟩ := hi.loop j src' t' cur hp
      obtain ⟨-, -, n3⟩ := decide_notWorse d a hdec
      rcases hbad with hb | hb | hb
      · exact absurd a hb
      · omega
      · exact absurd hb n3
    · exact h
  | casFail j src' t' cur new hp _ =>
    rcases setPc_cases hd with ⟨-, h⟩ | ⟨-, h⟩
    · simp at h
    · exact h
  | ret j src' t' b hp =>
    rcases setPc_cases hd with ⟨-, h⟩ | ⟨-, h⟩
    · simp at h
    · exact h

/-- C24: a call that returned true published its time: the estimate changed to it at some step. -/
theorem C24_true_published (ref : Int) (s s' : Sys) (h : Step ref s s') (i : Nat) (src : Source) (t : GpsTime)
    (hr : Steps ref .init s) (hd : s'.pc i = .done src t true) (hn : s.pc i ≠ .done src t true) :
    get s' = (true, ⟨t.wn, f32 t.tow⟩) := by
  have hi := (inv_steps (inv_init ref) hr).1
  cases h with
  | casOk j src' t' cur new hp hdec hc =>
    rcases setPc_cases hd with ⟨-, h⟩ | ⟨-, h⟩
    · simp only [Pc.done.injEq] at h
      obtain ⟨rfl, rfl, -⟩ := h
      obtain ⟨a, b, c, d, e⟩ := hi.loop j src' t' cur hp
      obtain ⟨-, n2, -⟩ := decide_notWorse d a hdec
      simp only [get, n2]
    · exact absurd h hn
  | call j src' t' hp =>
    rcases setPc_cases hd with ⟨-, h⟩ | ⟨-, h⟩
    · split at h <;> simp at h
    · exact absurd h hn
  | load j src' t' hp =>
    rcases setPc_cases hd with ⟨-, h⟩ | ⟨-, h⟩
    · simp at h
    · exact absurd h hn
  | giveUp j src' t' cur hp _ =>
    rcases setPc_cases hd with ⟨-, h⟩ | ⟨-, h⟩
    · simp at h
    · exact absurd h hn
  | casFail j src' t' cur new hp _ =>
    rcases setPc_cases hd with ⟨-, h⟩ | ⟨-, h⟩
    · simp at h
    · exact absurd h hn
  | ret j src' t' b hp =>
    rcases setPc_cases hd with ⟨-, h⟩ | ⟨-, h⟩
    · simp at h
    · exact absurd h hn

/-- C24: the estimate changes only when some call returns true. -/
theorem C24_changes_only_by_success (ref : Int) (s s' : Sys) (h : Step ref s s') (hc : s'.shared ≠ s.shared) :
    ∃ i src t cur, s.pc i = .loop src t cur ∧ s'.pc i = .done src t true ∧ s.shared = cur := by
  cases h with
  | casOk j src' t' cur new hp hdec hcur => exact ⟨j, src', t', cur, hp, by simp [setPc], hcur⟩
  | _ => exact absurd rfl hc

/-- C24: only a healthy GPS ephemeris updates the time from SBP messages. -/
theorem C24_from_sbp (m : SbpIn) (src : Source) (t : GpsTime) (h : fromSbp m = some (src, t)) :
    src = .ephGps ∧ ∃ wn tow, m = .ephGps 0 wn tow ∧ t.tow = tow ∧ (wn < 32768 → t.wn = wn) ∧
      (32768 ≤ wn → wn < 65536 → ¬ Valid t) := by
  cases m with
  | other => exact absurd h (by simp [fromSbp])
  | ephGps health wn tow =>
    simp only [fromSbp] at h
    split at h
    · rename_i hh
      obtain ⟨rfl, rfl⟩ := Prod.mk.inj (Option.some.inj h)
      refine ⟨rfl, wn, tow, by rw [hh], rfl, ?_, ?_⟩
      · intro hw
        simp only [BitVec.toInt_eq_toNat_cond, BitVec.toNat_ofNat]
        omega
      · intro h1 h2 hv
        have := hv.1
        simp only [BitVec.toInt_eq_toNat_cond, BitVec.toNat_ofNat] at this
        omega
    · simp at h

/-- an execution: thread 0 is delayed between its load and its compare-exchange while thread 1 publishes a newer time;
thread 0 then fails, reloads and gives up -/
def exTrace : Sys → Prop := fun s => s.shared = ⟨2100, 200, true⟩ ∧ s.pc 0 = .done .ephGps ⟨2100, 100⟩ false ∧
  s.pc 1 = .done .ephGal ⟨2100, 200⟩ true

theorem f32_100 : f32 100 = 100 := by decide +kernel
theorem f32_200 : f32 200 = 200 := by decide +kernel

example : ∃ s, Steps 2000 .init s ∧ exTrace s := by
  refine ⟨_, .tail (.tail (.tail (.tail (.tail (.tail (.tail (.refl _) (.call 0 .ephGps ⟨2100, 100⟩ rfl)) (.call 1 .ephGal ⟨2100, 200⟩ rfl))
      (.load 0 .ephGps ⟨2100, 100⟩ (by decide +kernel))) (.load 1 .ephGal ⟨2100, 200⟩ (by decide +kernel)))
      (.casOk 1 .ephGal ⟨2100, 200⟩ .init ⟨2100, f32 200, true⟩ (by decide +kernel) (by decide +kernel) rfl))
      (.casFail 0 .ephGps ⟨2100, 100⟩ .init ⟨2100, f32 100, true⟩ (by decide +kernel) (by decide +kernel)))
      (.giveUp 0 .ephGps ⟨2100, 100⟩ ⟨2100, f32 200, true⟩ (by decide +kernel) (by decide +kernel)), ?_⟩
  refine ⟨?_, ?_, ?_⟩ <;> decide +kernel

/-- C24, defect: the estimate given to readers can be an illegal GPS time: a legal time of week just below one week is
rounded up to 604800 s when it is stored as a `float`. -/
theorem C24_week_rounding_bug : ∃ s, Steps 2000 .init s ∧ (∀ c ∈ s.calls, Valid c.2) ∧ (get s).1 = true ∧ ¬ Valid (get s).2 := by
  refine ⟨_, .tail (.tail (.tail (.refl _) (.call 0 .ephGps ⟨2100, 60479999 / 100⟩ rfl))
      (.load 0 .ephGps ⟨2100, 60479999 / 100⟩ (by decide +kernel)))
      (.casOk 0 .ephGps ⟨2100, 60479999 / 100⟩ .init ⟨2100, f32 (60479999 / 100), true⟩ (by decide +kernel) (by decide +kernel) rfl), ?_, rfl, ?_⟩
  · intro c hc
    simp only [Sys.init, List.mem_singleton] at hc
    rw [hc]
    refine ⟨by norm_num, by norm_num, by norm_num, by norm_num⟩
  · rintro ⟨-, -, -, h⟩
    have : f32 (60479999 / 100) = 604800 := by decide +kernel
    simp only [get, this] at h
    norm_num at h

end Verif.TimeTruth
