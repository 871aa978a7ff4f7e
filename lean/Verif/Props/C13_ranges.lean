import Verif.Props.C51
/-! C13, C51: the values of every accepted MSM message are doubles and bounded; what is left to check before they are converted. -/
namespace Verif.Msm
open Verif.Dec Verif.Lock
open Verif.Fp (f64)

theorem getS_range {n : Nat} (hn : 0 < n) {s r : List Bool} {i : Int} (h : getS n s = (.ok i, r)) : -2 ^ (n - 1) ≤ i ∧ i < 2 ^ (n - 1) := by
  unfold getS at h
  split at h
  · simp at h
  · rename_i hl
    simp only [Prod.mk.injEq, Except.ok.injEq] at h
    rw [← h.1]
    have h1 := ofBits_lt (s.take n)
    rw [List.length_take, Nat.min_eq_left (by omega)] at h1
    obtain ⟨k, rfl⟩ : ∃ k, n = k + 1 := ⟨n - 1, by omega⟩
    generalize ofBits (s.take (k + 1)) = v at *
    unfold toSigned
    simp only [Nat.add_sub_cancel] at *
    have e : (2 : Int) ^ (k + 1) = 2 * 2 ^ k := by ring
    have e1 : (2 : Nat) ^ (k + 1) = 2 * 2 ^ k := by ring
    have p : (0 : Int) < 2 ^ k := by positivity
    split
    · rename_i hv
      have : (v : Int) < 2 ^ k := by exact_mod_cast hv
      omega
    · rename_i hv
      have a : (2 : Int) ^ k ≤ v := by exact_mod_cast Nat.le_of_not_lt hv
      have b : (v : Int) < 2 * 2 ^ k := by rw [e1] at h1; exact_mod_cast h1
      rw [e]; omega

theorem many_getS_range {n k : Nat} (hn : 0 < n) {s r : List Bool} {l : List Int} (h : many (getS n) k s = (.ok l, r)) :
    ∀ x ∈ l, -2 ^ (n - 1) ≤ x ∧ x < 2 ^ (n - 1) := by
  induction k generalizing s l r with
  | zero => unfold Dec.many at h; rw [Dec.pure_def] at h; simp at h; simp [h.1]
  | succ k ih =>
    unfold Dec.many at h
    obtain ⟨a, s1, h1, h⟩ := bind_ok h
    obtain ⟨as, s2, h2, h⟩ := bind_ok h
    rw [Dec.pure_def] at h; simp at h
    rw [← h.1]
    intro x hx
    rcases List.mem_cons.mp hx with rfl | hx
    · exact getS_range hn h1
    · exact ih h2 x hx

theorem getD_range {l : List Int} {N : Int} (hN : 0 < N) (h : ∀ x ∈ l, -N ≤ x ∧ x < N) (i : Nat) : -N ≤ l.getD i 0 ∧ l.getD i 0 < N := by
  rw [List.getD_eq_getElem?_getD]
  cases e : l[i]? with
  | none => simp only [Option.getD_none]; omega
  | some x => exact h x (List.mem_of_getElem? e)

/-- the raw fields of an accepted message -/
structure RawOk (ty : MsmType) (r : RawSat) (c : RawSig) : Prop where
  ints : ∀ i, r.ints.getD i 0 < 256
  infos : ∀ i, r.infos.getD i 0 < 16
  mods : ∀ i, r.mods.getD i 0 < 1024
  rates : ∀ i, -8192 ≤ r.rates.getD i 0 ∧ r.rates.getD i 0 < 8192
  prs : ∀ i, if ty.ext then -524288 ≤ c.prs.getD i 0 ∧ c.prs.getD i 0 < 524288 else -16384 ≤ c.prs.getD i 0 ∧ c.prs.getD i 0 < 16384
  cps : ∀ i, if ty.ext then -8388608 ≤ c.cps.getD i 0 ∧ c.cps.getD i 0 < 8388608 else -2097152 ≤ c.cps.getD i 0 ∧ c.cps.getD i 0 < 2097152
  cnrs : ∀ i, c.cnrs.getD i 0 < if ty.ext then 1024 else 64
  dops : ∀ i, -16384 ≤ c.dops.getD i 0 ∧ c.dops.getD i 0 < 16384

theorem decodeSatData_range {ty : MsmType} {ns : Nat} {s r : List Bool} {rs : RawSat} (hx : decodeSatData ty ns s = (.ok rs, r)) :
    (∀ i, rs.ints.getD i 0 < 256) ∧ (∀ i, rs.infos.getD i 0 < 16) ∧ (∀ i, rs.mods.getD i 0 < 1024) ∧
    ∀ i, -8192 ≤ rs.rates.getD i 0 ∧ rs.rates.getD i 0 < 8192 := by
  unfold decodeSatData at hx
  obtain ⟨ints, _, h1, hx⟩ := bind_ok hx
  have rep : ∀ i, (List.replicate ns 0 : List Nat).getD i 0 < 16 := fun i => by
    apply getD_lt _ (by norm_num); intro x hx; rw [(List.mem_replicate.1 hx).2]; norm_num
  have repI : ∀ i, -8192 ≤ (List.replicate ns 0 : List Int).getD i 0 ∧ (List.replicate ns 0 : List Int).getD i 0 < 8192 := fun i => by
    apply getD_range (by norm_num); intro x hx; rw [(List.mem_replicate.1 hx).2]; norm_num
  by_cases hr : ty.hasRates = true
  · simp only [hr, if_true] at hx
    obtain ⟨infos, _, h2, hx⟩ := bind_ok hx
    obtain ⟨mods, _, h3, hx⟩ := bind_ok hx
    obtain ⟨rates, _, h4, hx⟩ := bind_ok hx
    rw [Dec.pure_def] at hx; simp at hx
    rw [← hx.1]
    exact ⟨getD_lt (many_getU_lt h1) (by norm_num), getD_lt (many_getU_lt h2) (by norm_num), getD_lt (many_getU_lt h3) (by norm_num),
      getD_range (by norm_num) (many_getS_range (by norm_num) h4)⟩
  · simp only [hr] at hx
    obtain ⟨infos, _, h2, hx⟩ := bind_ok hx
    obtain ⟨mods, _, h3, hx⟩ := bind_ok hx
    obtain ⟨rates, _, h4, hx⟩ := bind_ok hx
    simp only [Dec.pure_def, Prod.mk.injEq, Except.ok.injEq] at hx h2 h4
    rw [← hx.1, ← h2.1, ← h4.1]
    exact ⟨getD_lt (many_getU_lt h1) (by norm_num), rep, getD_lt (many_getU_lt h3) (by norm_num), repI⟩

theorem decodeSigData_range {ty : MsmType} {nc : Nat} {s r : List Bool} {c : RawSig} (hx : decodeSigData ty nc s = (.ok c, r)) :
    (∀ i, if ty.ext then -524288 ≤ c.prs.getD i 0 ∧ c.prs.getD i 0 < 524288 else -16384 ≤ c.prs.getD i 0 ∧ c.prs.getD i 0 < 16384) ∧
    (∀ i, if ty.ext then -8388608 ≤ c.cps.getD i 0 ∧ c.cps.getD i 0 < 8388608 else -2097152 ≤ c.cps.getD i 0 ∧ c.cps.getD i 0 < 2097152) ∧
    (∀ i, c.cnrs.getD i 0 < if ty.ext then 1024 else 64) ∧ ∀ i, -16384 ≤ c.dops.getD i 0 ∧ c.dops.getD i 0 < 16384 := by
  unfold decodeSigData at hx
  obtain ⟨prs, _, h1, hx⟩ := bind_ok hx
  obtain ⟨cps, _, h2, hx⟩ := bind_ok hx
  obtain ⟨locks, _, h3, hx⟩ := bind_ok hx
  obtain ⟨hcas, _, h4, hx⟩ := bind_ok hx
  obtain ⟨cnrs, _, h5, hx⟩ := bind_ok hx
  obtain ⟨dops, hd, rfl⟩ : ∃ dops, (∀ i, -16384 ≤ dops.getD i 0 ∧ dops.getD i 0 < 16384) ∧ (⟨prs, cps, locks, hcas, cnrs, dops⟩ : RawSig) = c := by
    by_cases hr : ty.hasRates = true
    · simp only [hr, if_true] at hx
      obtain ⟨dops, _, h6, hx⟩ := bind_ok hx
      rw [Dec.pure_def] at hx; simp at hx
      exact ⟨dops, getD_range (by norm_num) (many_getS_range (by norm_num) h6), hx.1⟩
    · simp only [hr] at hx
      obtain ⟨dops, _, h6, hx⟩ := bind_ok hx
      rw [Dec.pure_def] at hx; simp at hx
      simp only [Dec.pure_def, Prod.mk.injEq, Except.ok.injEq] at h6
      refine ⟨dops, ?_, hx.1⟩
      rw [← h6.1]
      intro i
      apply getD_range (by norm_num); intro x hx; rw [(List.mem_replicate.1 hx).2]; norm_num
  cases hty : ty.ext
  · simp only [hty, Bool.false_eq_true, if_false] at h1 h2 h5 ⊢
    exact ⟨getD_range (by norm_num) (many_getS_range (by norm_num) h1), getD_range (by norm_num) (many_getS_range (by norm_num) h2),
      getD_lt (many_getU_lt h5) (by norm_num), hd⟩
  · simp only [hty, if_true] at h1 h2 h5 ⊢
    exact ⟨getD_range (by norm_num) (many_getS_range (by norm_num) h1), getD_range (by norm_num) (many_getS_range (by norm_num) h2),
      getD_lt (many_getU_lt h5) (by norm_num), hd⟩

theorem decodeMsm_raw {ty : MsmType} {p : Buf} {m : Msg} (h : (decodeMsm ty).run p = .ok m) :
    ∃ cons h rs rg, m = assemble ty cons h rs rg ∧ RawOk ty rs rg := by
  obtain ⟨r, hx⟩ := run_ok h
  unfold decodeMsm at hx
  obtain ⟨h0, hx⟩ := guard_ok hx
  obtain ⟨num, _, hn, hx⟩ := bind_ok hx
  obtain ⟨h1, hx⟩ := guard_ok hx
  cases hc : toConstellation num with
  | none => rw [hc] at hx; simp [fail] at hx
  | some cons =>
    rw [hc] at hx
    obtain ⟨h, _, hh, hx⟩ := bind_ok hx
    obtain ⟨h2, hx⟩ := guard_ok hx
    obtain ⟨h3, hx⟩ := guard_ok hx
    obtain ⟨rs, _, hs, hx⟩ := bind_ok hx
    obtain ⟨rg, _, hg, hx⟩ := bind_ok hx
    rw [Dec.pure_def] at hx; simp at hx
    obtain ⟨a, b, c, d⟩ := decodeSatData_range hs
    obtain ⟨e, f, g, k⟩ := decodeSigData_range hg
    exact ⟨cons, h, rs, rg, hx.1.symm, a, b, c, d, e, f, g, k⟩

/-! ### doubles -/

/-- a number that is a multiple of `2^-k` below `2^(53-k)` is a double -/
theorem f64_grid {k : Nat} (hk : k ≤ 1000) {x : ℚ} {n : Int} (h : x = n / 2 ^ k) (hn : |n| ≤ 9007199254740992) : f64 x = x := by
  have e : x = (n : ℚ) * 2 ^ (-(k : Int)) := by rw [h, zpow_neg, zpow_natCast, div_eq_mul_inv]
  rw [e]
  exact Fp.f64_exact hn (by omega)

theorem range_grid (r : RawSat) (i : Nat) (h1 : r.ints.getD i 0 < 256) (h2 : r.mods.getD i 0 < 1024) :
    ∃ n : Int, r.range i = n / 1024 ∧ 0 ≤ n ∧ n < 261121 := by
  unfold RawSat.range
  by_cases h : r.ints.getD i 0 ≠ 255
  · rw [if_pos h]
    refine ⟨1024 * (r.ints.getD i 0 : Nat) + (r.mods.getD i 0 : Nat), ?_, by positivity, by omega⟩
    push_cast
    generalize ((r.ints.getD i 0 : Nat) : ℚ) = a
    generalize ((r.mods.getD i 0 : Nat) : ℚ) = b
    linarith
  · rw [if_neg h]
    exact ⟨261120, by rw [not_not.1 h]; norm_num, by norm_num, by norm_num⟩

theorem getD_range_map' {α : Type} (f : Nat → α) (n i : Nat) (d : α) (h : i < n) : ((List.range n).map f).getD i d = f i := by
  rw [List.getD_eq_getElem?_getD, List.getElem?_map, List.getElem?_range h]; rfl

theorem rawOk_sig {ty : MsmType} {rs : RawSat} {rg : RawSig} (h : RawOk ty rs rg) (sat i : Nat) :
    (f64 (sigOf ty rs rg sat i).pr = (sigOf ty rs rg sat i).pr ∧ f64 (sigOf ty rs rg sat i).cp = (sigOf ty rs rg sat i).cp ∧
     f64 (sigOf ty rs rg sat i).rate = (sigOf ty rs rg sat i).rate ∧ f64 (sigOf ty rs rg sat i).cnr = (sigOf ty rs rg sat i).cnr) ∧
    (-(1 / 1024) ≤ (sigOf ty rs rg sat i).pr ∧ (sigOf ty rs rg sat i).pr < 255 + 1 / 1024) ∧
    (-(1 / 256) ≤ (sigOf ty rs rg sat i).cp ∧ (sigOf ty rs rg sat i).cp < 255 + 1 / 256) ∧
    |(sigOf ty rs rg sat i).rate| ≤ 8194 ∧ (0 ≤ (sigOf ty rs rg sat i).cnr ∧ (sigOf ty rs rg sat i).cnr < 64) := by
  obtain ⟨n, e, n1, n2⟩ := range_grid rs sat (h.ints sat) (h.mods sat)
  have z : f64 0 = 0 := rfl
  have q1 : (0 : ℚ) ≤ n := by exact_mod_cast n1
  have q2 : (n : ℚ) ≤ 261120 := by exact_mod_cast (by omega : n ≤ 261120)
  have p := h.prs i
  have c := h.cps i
  have s := h.cnrs i
  -- pseudorange and phase
  have key : ∀ (m : Int) (k : Nat) (M : Int), k ≤ 31 → 10 ≤ k → |m| ≤ M → M ≤ 8388608 →
      f64 (rs.range sat + (m : ℚ) / 2 ^ k) = rs.range sat + (m : ℚ) / 2 ^ k := by
    intro m k M hk hk2 hm hM
    refine f64_grid (k := k) (by omega) (n := n * 2 ^ (k - 10) + m) ?_ ?_
    · rw [e]
      have : (2 : ℚ) ^ k = 2 ^ (k - 10) * 1024 := by
        rw [show (1024 : ℚ) = 2 ^ 10 by norm_num, ← pow_add]; congr 1; omega
      rw [this]
      have hp : (0 : ℚ) < 2 ^ (k - 10) := by positivity
      push_cast
      field_simp
    · have h2 : (2 : Int) ^ (k - 10) ≤ 2 ^ 21 := pow_le_pow_right₀ (by norm_num) (by omega)
      have h3 : (0 : Int) < 2 ^ (k - 10) := by positivity
      rw [abs_le] at hm ⊢
      have h4 : n * 2 ^ (k - 10) ≤ 261120 * 2 ^ 21 := mul_le_mul (by omega) h2 h3.le (by norm_num)
      have h5 : 0 ≤ n * 2 ^ (k - 10) := mul_nonneg n1 h3.le
      norm_num at h4
      omega
  have hdop : |f64 ((rs.rates.getD sat 0 : ℚ) + f64 ((rg.dops.getD i 0 : ℚ) * rateUnit))| ≤ 8194 := by
    have u1 := abs_le.1 rateUnit_near
    have r1 : |(rs.rates.getD sat 0 : ℚ)| ≤ 8192 := by
      obtain ⟨a, b⟩ := h.rates sat
      have : |rs.rates.getD sat 0| ≤ 8192 := by rw [abs_le]; omega
      exact_mod_cast this
    have d1 : |(rg.dops.getD i 0 : ℚ)| ≤ 16384 := by
      obtain ⟨a, b⟩ := h.dops i
      have : |rg.dops.getD i 0| ≤ 16384 := by rw [abs_le]; omega
      exact_mod_cast this
    have d2 : |(rg.dops.getD i 0 : ℚ) * rateUnit| ≤ 16384 * (1 / 10000 + 1 / 2 ^ 66) := by
      rw [abs_mul, abs_of_pos rateUnit_pos]
      exact mul_le_mul d1 (by linarith [u1.2]) rateUnit_pos.le (by norm_num)
    have d3 := RtcmSbp.abs_of_near (RtcmSbp.f64_abs d2) d2
    have d4 := RtcmSbp.abs_add_of r1 d3
    have d5 := RtcmSbp.abs_of_near (RtcmSbp.f64_abs d4) d4
    exact le_trans d5 (by norm_num)
  unfold sigOf
  simp only
  cases hx : ty.ext
  · simp only [hx, Bool.false_eq_true, if_false] at p c s ⊢
    have pa : (-16384 : ℚ) ≤ rg.prs.getD i 0 := by exact_mod_cast p.1
    have pb : (rg.prs.getD i 0 : ℚ) < 16384 := by exact_mod_cast p.2
    have ca : (-2097152 : ℚ) ≤ rg.cps.getD i 0 := by exact_mod_cast c.1
    have cb : (rg.cps.getD i 0 : ℚ) < 2097152 := by exact_mod_cast c.2
    have sb : ((rg.cnrs.getD i 0 : Nat) : ℚ) < ((64 : Nat) : ℚ) := by exact_mod_cast s
    have sa : (0 : ℚ) ≤ ((rg.cnrs.getD i 0 : Nat) : ℚ) := by positivity
    push_cast at sb
    refine ⟨⟨?_, ?_, ?_, ?_⟩, ?_, ?_, ?_, ?_⟩
    · split
      · exact key (rg.prs.getD i 0) 24 16384 (by norm_num) (by norm_num) (by rw [abs_le]; omega) (by norm_num)
      · exact z
    · split
      · exact key (rg.cps.getD i 0) 29 2097152 (by norm_num) (by norm_num) (by rw [abs_le]; omega) (by norm_num)
      · exact z
    · split
      · exact Fp.f64_idem _
      · exact z
    · split
      · exact f64_grid (k := 0) (by norm_num) (n := ((rg.cnrs.getD i 0 : Nat) : Int)) (by push_cast; norm_num) (by rw [abs_le]; omega)
      · exact z
    · split
      · rw [e]; constructor <;> linarith
      · norm_num
    · split
      · rw [e]; constructor <;> linarith
      · norm_num
    · split
      · exact hdop
      · norm_num
    · split
      · constructor <;> linarith
      · norm_num
  · simp only [hx, if_true] at p c s ⊢
    have pa : (-524288 : ℚ) ≤ rg.prs.getD i 0 := by exact_mod_cast p.1
    have pb : (rg.prs.getD i 0 : ℚ) < 524288 := by exact_mod_cast p.2
    have ca : (-8388608 : ℚ) ≤ rg.cps.getD i 0 := by exact_mod_cast c.1
    have cb : (rg.cps.getD i 0 : ℚ) < 8388608 := by exact_mod_cast c.2
    have sb : ((rg.cnrs.getD i 0 : Nat) : ℚ) < ((1024 : Nat) : ℚ) := by exact_mod_cast s
    have sa : (0 : ℚ) ≤ ((rg.cnrs.getD i 0 : Nat) : ℚ) := by positivity
    push_cast at sb
    refine ⟨⟨?_, ?_, ?_, ?_⟩, ?_, ?_, ?_, ?_⟩
    · split
      · exact key (rg.prs.getD i 0) 29 524288 (by norm_num) (by norm_num) (by rw [abs_le]; omega) (by norm_num)
      · exact z
    · split
      · exact key (rg.cps.getD i 0) 31 8388608 (by norm_num) (by norm_num) (by rw [abs_le]; omega) (by norm_num)
      · exact z
    · split
      · exact Fp.f64_idem _
      · exact z
    · split
      · exact f64_grid (k := 4) (by norm_num) (n := ((rg.cnrs.getD i 0 : Nat) : Int)) (by push_cast; norm_num) (by rw [abs_le]; omega)
      · exact z
    · split
      · rw [e]; constructor <;> linarith
      · norm_num
    · split
      · rw [e]; constructor <;> linarith
      · norm_num
    · split
      · exact hdop
      · norm_num
    · split
      · constructor <;> linarith
      · norm_num

/-- **C13 (doubles).**  Whatever bytes are accepted as an MSM message: its ranges, phases, range rates and signal to noise ratios are doubles: the
decoder delivers the sum of the rough and the fine value without rounding error, but for range rates. -/
theorem C13_doubles (ty : MsmType) (p : Buf) (m : Msg) (h : (decodeMsm ty).run p = .ok m) :
    (∀ s ∈ m.sigs, f64 s.pr = s.pr ∧ f64 s.cp = s.cp ∧ f64 s.rate = s.rate ∧ f64 s.cnr = s.cnr) ∧
    ∀ s ∈ m.sats, f64 s.roughRangeMs = s.roughRangeMs ∧ f64 s.roughRate = s.roughRate := by
  obtain ⟨cons, hd, rs, rg, rfl, hr⟩ := decodeMsm_raw h
  constructor
  · intro s hs
    obtain ⟨i, -, rfl⟩ := List.mem_map.1 (show s ∈ (List.range _).map _ from hs)
    exact (rawOk_sig hr _ _).1
  · intro s hs
    obtain ⟨i, -, rfl⟩ := List.mem_map.1 (show s ∈ (List.range _).map _ from hs)
    obtain ⟨n, e, n1, n2⟩ := range_grid rs i (hr.ints i) (hr.mods i)
    refine ⟨f64_grid (k := 10) (by norm_num) (n := n) (by show rs.range i = _; rw [e]; norm_num) (by rw [abs_le]; omega), ?_⟩
    have := hr.rates i
    exact f64_grid (k := 0) (by norm_num) (n := rs.rates.getD i 0) (by simp [satOf]) (by rw [abs_le]; omega)

/-- **C13 (ranges).**  Whatever bytes are accepted as an MSM message, its values are those of the standard's fields: rough ranges up to 255 ms, fine
pseudoranges within 1/1024 ms and fine phases within 1/256 ms of that, range rates within 8194 m/s, signal to noise below 64 dB-Hz, GLONASS channels of
four bits or unknown (255). -/
theorem C13_ranges (ty : MsmType) (p : Buf) (m : Msg) (h : (decodeMsm ty).run p = .ok m) :
    (∀ s ∈ m.sigs, (-(1 / 1024) ≤ s.pr ∧ s.pr < 255 + 1 / 1024) ∧ (-(1 / 256) ≤ s.cp ∧ s.cp < 255 + 1 / 256) ∧ |s.rate| ≤ 8194 ∧
      (0 ≤ s.cnr ∧ s.cnr < 64) ∧ 0 ≤ s.lock) ∧
    ∀ s ∈ m.sats, (0 ≤ s.roughRangeMs ∧ s.roughRangeMs ≤ 255) ∧ |s.roughRate| ≤ 8192 ∧ (s.gloFcn < 16 ∨ s.gloFcn = 255) := by
  obtain ⟨cons, hd, rs, rg, rfl, hr⟩ := decodeMsm_raw h
  constructor
  · intro s hs
    obtain ⟨i, -, rfl⟩ := List.mem_map.1 (show s ∈ (List.range _).map _ from hs)
    obtain ⟨-, a, b, c, d⟩ := rawOk_sig hr ((cellRows (hd.satMask.count true) (hd.sigMask.count true) hd.cellMask).getD i 0) i
    refine ⟨a, b, c, d, ?_⟩
    show (0 : ℚ) ≤ if ty.ext then (fromLockIndExt (rg.locks.getD i 0) : ℚ) / 1000 else decodeLockTime (rg.locks.getD i 0)
    split
    · positivity
    · unfold decodeLockTime; simp only; split <;> positivity
  · intro s hs
    obtain ⟨i, -, rfl⟩ := List.mem_map.1 (show s ∈ (List.range _).map _ from hs)
    obtain ⟨n, e, n1, n2⟩ := range_grid rs i (hr.ints i) (hr.mods i)
    have q1 : (0 : ℚ) ≤ n := by exact_mod_cast n1
    have q2 : (n : ℚ) ≤ 261120 := by exact_mod_cast (by omega : n ≤ 261120)
    refine ⟨?_, ?_, ?_⟩
    · show 0 ≤ rs.range i ∧ rs.range i ≤ 255
      rw [e]
      constructor
      · positivity
      · linarith
    · show |(rs.rates.getD i 0 : ℚ)| ≤ 8192
      have := hr.rates i
      have : |rs.rates.getD i 0| ≤ 8192 := by rw [abs_le]; omega
      exact_mod_cast this
    · show (if cons = .glo ∧ ty.hasRates = false then 255 else rs.infos.getD i 0) < 16 ∨ (if cons = .glo ∧ ty.hasRates = false then 255 else rs.infos.getD i 0) = 255
      split
      · exact Or.inr rfl
      · exact Or.inl (hr.infos i)

end Verif.Msm
