import Verif.Lemmas.Relay
import Verif.Props.C13_ranges
/-!
C83: relaying MSM4 and MSM5.  A payload received from anywhere that the decoder accepts (at most 32 satellites), re-encoded from the
decoded message and decoded again at the next hop, gives exactly the same message: header, masks, rough and fine values, lock times,
flags and signal to noise ratios, to the last bit of the doubles.
-/
namespace Verif.Msm
open Verif.Dec Verif.Lock Spec
open Verif.Fp (f64)

/-! ### What an accepted payload says about the header -/

theorem header_wf {num : Nat} {cons : Cons} {ty : MsmType} {s r : List Bool} {h : Header} (hx : readMsmHeader num cons s = (.ok h, r))
    (hn : num < 2 ^ 12) (ht : toMsmType num = ty) (hc : toConstellation num = some cons)
    (htow : h.towMs ≤ if cons = .glo then gloMaxTowMs else maxTowMs) (hcells : h.satMask.count true * h.sigMask.count true ≤ maxCells)
    (hs : nSats h ≤ 32) : WFHeader ty cons h := by
  obtain ⟨e1, e2, e3, e4⟩ := header_inv hx
  unfold readMsmHeader at hx
  replace hx := kU hx
  obtain ⟨_, _, h1, -, hx⟩ := hx
  obtain ⟨_, _, -, hx⟩ := bind_ok hx
  replace hx := kU hx
  obtain ⟨_, _, h2, -, hx⟩ := hx
  replace hx := kU hx
  obtain ⟨_, _, h3, -, hx⟩ := hx
  replace hx := kU hx
  obtain ⟨_, _, h4, -, hx⟩ := hx
  replace hx := kU hx
  obtain ⟨_, _, h5, -, hx⟩ := hx
  replace hx := kU hx
  obtain ⟨_, _, h6, -, hx⟩ := hx
  replace hx := kU hx
  obtain ⟨_, _, h7, -, hx⟩ := hx
  replace hx := kU hx
  obtain ⟨_, _, h8, -, hx⟩ := hx
  obtain ⟨_, _, -, hx⟩ := bind_ok hx
  obtain ⟨_, _, -, hx⟩ := bind_ok hx
  obtain ⟨_, _, -, hx⟩ := bind_ok hx
  replace hx := kP hx
  obtain ⟨rfl, -⟩ := hx
  simp only [maxCells] at hcells
  constructor
  all_goals first | assumption | skip
  · refine le_trans htow ?_
    simp only [gloMaxTowMs, maxTowMs]
    split <;> omega
  · rw [e4]
    exact Nat.mod_eq_of_lt (Nat.lt_of_le_of_lt hcells (by norm_num))

/-- everything known about an accepted message -/
theorem decodeMsm_full {ty : MsmType} {p : Buf} {m : Msg} (h : (decodeMsm ty).run p = .ok m) (hs : nSats m.header ≤ 32) :
    ∃ cons rs rg, m = assemble ty cons m.header rs rg ∧ RawOk ty rs rg ∧ WFHeader ty cons m.header ∧
      (cons = .glo → m.header.towMs < 86400000) ∧
      (ty.hasRates = false → rs.infos = List.replicate (nSats m.header) 0 ∧ rs.rates = List.replicate (nSats m.header) 0) := by
  obtain ⟨r, hx⟩ := run_ok h
  unfold decodeMsm at hx
  obtain ⟨h0, hx⟩ := guard_ok hx
  obtain ⟨num, _, hn, hx⟩ := bind_ok hx
  obtain ⟨h1, hx⟩ := guard_ok hx
  cases hc : toConstellation num with
  | none => rw [hc] at hx; simp [fail] at hx
  | some cons =>
    rw [hc] at hx
    obtain ⟨hd, _, hh, hx⟩ := bind_ok hx
    obtain ⟨h2, hx⟩ := guard_ok hx
    obtain ⟨h3, hx⟩ := guard_ok hx
    obtain ⟨rs, _, hsd, hx⟩ := bind_ok hx
    obtain ⟨rg, _, hg, hx⟩ := bind_ok hx
    replace hx := kP hx
    obtain ⟨rfl, -⟩ := hx
    obtain ⟨a, b, c, d⟩ := decodeSatData_range hsd
    obtain ⟨e, f, g, k⟩ := decodeSigData_range hg
    refine ⟨cons, rs, rg, rfl, ⟨a, b, c, d, e, f, g, k⟩, ?_, ?_, ?_⟩
    · exact header_wf hh (getU_ok hn).1 h1 hc (Nat.le_of_not_lt h2) (Nat.le_of_not_lt h3) hs
    · intro hglo
      have := Nat.le_of_not_lt h2
      rw [if_pos hglo] at this
      show hd.towMs < 86400000
      simp only [gloMaxTowMs] at this
      omega
    · intro hr
      unfold decodeSatData at hsd
      obtain ⟨ints, _, -, hsd⟩ := bind_ok hsd
      simp only [hr] at hsd
      obtain ⟨infos, _, q2, hsd⟩ := bind_ok hsd
      obtain ⟨mods, _, -, hsd⟩ := bind_ok hsd
      obtain ⟨rates, _, q4, hsd⟩ := bind_ok hsd
      simp only [Dec.pure_def, Prod.mk.injEq, Except.ok.injEq] at hsd q2 q4
      rw [← hsd.1]
      exact ⟨q2.1.symm, q4.1.symm⟩

/-! ### The encoder finds the transmitted codes again -/

theorem ctrunc_int (k : ℤ) : ctrunc (k : ℚ) = k := by
  unfold ctrunc
  split
  · exact Int.floor_intCast k
  · rw [show (-(k : ℚ)) = ((-k : ℤ) : ℚ) by push_cast; rfl, Int.floor_intCast]; omega

theorem sat_codes (ty : MsmType) (cons : Cons) (rs : RawSat) (i : Nat) (h1 : rs.ints.getD i 0 < 256) (h2 : rs.mods.getD i 0 < 1024) :
    encInt (satOf ty cons rs i) = rs.ints.getD i 0 ∧
    encMod (satOf ty cons rs i) = (if rs.ints.getD i 0 = 255 then 0 else rs.mods.getD i 0) ∧
    encRange (satOf ty cons rs i) = rs.range i ∧ encRate (satOf ty cons rs i) = rs.rates.getD i 0 := by
  have key : encInt (satOf ty cons rs i) = rs.ints.getD i 0 ∧
      encMod (satOf ty cons rs i) = (if rs.ints.getD i 0 = 255 then 0 else rs.mods.getD i 0) := by
    have ei : encInt (satOf ty cons rs i) = rs.ints.getD i 0 := by
      unfold encInt
      have : ⌊(satOf ty cons rs i).roughRangeMs⌋ = ((rs.ints.getD i 0 : Nat) : ℤ) := by
        show ⌊rs.range i⌋ = _
        have hm : ((rs.mods.getD i 0 : Nat) : ℚ) < 1024 := by exact_mod_cast h2
        have hm0 : (0 : ℚ) ≤ ((rs.mods.getD i 0 : Nat) : ℚ) := by positivity
        rw [Int.floor_eq_iff]
        unfold RawSat.range
        split
        · constructor <;> push_cast <;> linarith
        · constructor <;> push_cast <;> linarith
      rw [this]
      omega
    refine ⟨ei, ?_⟩
    unfold encMod
    rw [ei]
    have : cround (1024 * ((satOf ty cons rs i).roughRangeMs - ((rs.ints.getD i 0 : Nat) : ℚ))) =
        ((if rs.ints.getD i 0 = 255 then 0 else rs.mods.getD i 0 : Nat) : ℤ) := by
      have e : 1024 * ((satOf ty cons rs i).roughRangeMs - ((rs.ints.getD i 0 : Nat) : ℚ)) =
          (((if rs.ints.getD i 0 = 255 then 0 else rs.mods.getD i 0 : Nat) : ℤ) : ℚ) := by
        show 1024 * (rs.range i - _) = _
        unfold RawSat.range
        by_cases h : rs.ints.getD i 0 = 255
        · rw [if_neg (not_not.2 h), if_pos h]; push_cast; ring
        · rw [if_pos h, if_neg h]; push_cast; ring
      rw [e, cround_int]
    rw [this]
    split <;> omega
  refine ⟨key.1, key.2, ?_, ?_⟩
  · unfold encRange
    rw [key.1, key.2]
    unfold RawSat.range
    by_cases h : rs.ints.getD i 0 = 255
    · rw [if_pos h, if_neg (not_not.2 h)]; push_cast; ring
    · rw [if_neg h, if_pos h]
  · exact ctrunc_int _

theorem fine_code {rough : ℚ} {n : ℤ} {k : Nat} (hk : k ≤ 30) (hn : |n| < 2 ^ 22) :
    f64 (rough + (n : ℚ) / 2 ^ k - rough) = n / 2 ^ k ∧ cround (f64 (rough + (n : ℚ) / 2 ^ k - rough) * 2 ^ k) = n := by
  have e : rough + (n : ℚ) / 2 ^ k - rough = n / 2 ^ k := by ring
  have e2 : f64 ((n : ℚ) / 2 ^ k) = n / 2 ^ k := f64_grid (k := k) (by omega) rfl (by norm_num at hn; omega)
  rw [e, e2]
  refine ⟨rfl, ?_⟩
  rw [div_mul_cancel₀ _ (by positivity), cround_int]

theorem dop_code {r d : ℤ} (hr : -8192 ≤ r ∧ r < 8192) (hd : -16384 < d ∧ d < 16384) :
    |f64 (f64 ((r : ℚ) + f64 ((d : ℚ) * rateUnit)) - r)| < rateUnit * 2 ^ 14 ∧
    cround (f64 (f64 (f64 ((r : ℚ) + f64 ((d : ℚ) * rateUnit)) - r) / rateUnit)) = d := by
  have u := abs_le.1 rateUnit_near
  have u0 := rateUnit_pos
  have hr1 : (-8192 : ℚ) ≤ r := by exact_mod_cast hr.1
  have hr2 : (r : ℚ) < 8192 := by exact_mod_cast hr.2
  have hd1 : (-16383 : ℚ) ≤ d := by exact_mod_cast (by omega : -16383 ≤ d)
  have hd2 : (d : ℚ) ≤ 16383 := by exact_mod_cast (by omega : d ≤ 16383)
  have k66 : (1 : ℚ) / 2 ^ 66 ≤ 1 / 1000000000000000 := by norm_num
  have ku1 : (1 : ℚ) / 10000 - 1 / 1000000000000000 ≤ rateUnit := by linarith [u.1]
  have ku2 : rateUnit ≤ (1 : ℚ) / 10000 + 1 / 1000000000000000 := by linarith [u.2]
  have hdu : |(d : ℚ) * rateUnit| ≤ 16383 * rateUnit := by
    rw [abs_mul, abs_of_pos u0]
    exact mul_le_mul_of_nonneg_right (abs_le.2 ⟨by linarith, hd2⟩) u0.le
  have k200 : (1 : ℚ) / 2 ^ 200 ≤ 1 / 1000000000000000 := by norm_num
  have e1 := abs_le.1 (Fp.f64_err ((d : ℚ) * rateUnit))
  have e2 := abs_le.1 (Fp.f64_err ((r : ℚ) + f64 ((d : ℚ) * rateUnit)))
  have e3 := abs_le.1 (Fp.f64_err (f64 ((r : ℚ) + f64 ((d : ℚ) * rateUnit)) - r))
  have hdu' := abs_le.1 hdu
  generalize hA : f64 ((d : ℚ) * rateUnit) = A at *
  generalize hB : f64 ((r : ℚ) + A) = B at *
  generalize hx : f64 (B - r) = x at *
  have a1 : |A - d * rateUnit| ≤ 2 / 1000000000000000 := by
    have : |(d : ℚ) * rateUnit| ≤ 2 := by linarith
    rw [abs_le]; constructor <;> linarith [e1.1, e1.2]
  have a1' := abs_le.1 a1
  have b0 : |(r : ℚ) + A| ≤ 8195 := by rw [abs_le]; constructor <;> linarith [hdu'.1, hdu'.2, a1'.1, a1'.2]
  have b1 : |B - (r + A)| ≤ 1 / 1000000000000 := by
    rw [abs_le]; constructor <;> linarith [e2.1, e2.2]
  have b1' := abs_le.1 b1
  have c0 : |B - r| ≤ 2 := by rw [abs_le]; constructor <;> linarith [hdu'.1, hdu'.2, a1'.1, a1'.2, b1'.1, b1'.2]
  have c1 : |x - (B - r)| ≤ 2 / 1000000000000000 := by
    rw [abs_le]; constructor <;> linarith [e3.1, e3.2]
  have c1' := abs_le.1 c1
  have hlt : |x| < rateUnit * 2 ^ 14 := by
    norm_num
    rw [abs_lt]; constructor <;> linarith [hdu'.1, hdu'.2, a1'.1, a1'.2, b1'.1, b1'.2, c1'.1, c1'.2]
  refine ⟨hlt, ?_⟩
  have q := abs_le.1 (dop_near hlt)
  have k35 : (1 : ℚ) / 2 ^ 35 ≤ 1 / 1000000000 := by norm_num
  have t1 : |(d : ℚ) * (10000 * rateUnit - 1)| ≤ 1 / 1000000 := by
    rw [abs_mul]
    have : |10000 * rateUnit - 1| ≤ 1 / 100000000000 := by rw [abs_le]; constructor <;> linarith
    calc _ ≤ (16383 : ℚ) * (1 / 100000000000) := mul_le_mul (abs_le.2 ⟨hd1, hd2⟩) this (abs_nonneg _) (by norm_num)
      _ ≤ _ := by norm_num
  have t1' := abs_le.1 t1
  have t2 : (d : ℚ) * (10000 * rateUnit - 1) = 10000 * (d * rateUnit) - d := by ring
  rw [t2] at t1'
  apply cround_near
  rw [abs_lt]
  constructor <;> linarith [q.1, q.2, a1'.1, a1'.2, b1'.1, b1'.2, c1'.1, c1'.2, t1'.1, t1'.2]

theorem sig_codes {ty : MsmType} (hext : ty.ext = false) {rs : RawSat} {rg : RawSig} (h : RawOk ty rs rg) (sat i : Nat) :
    encPr (rs.range sat) (sigOf ty rs rg sat i) =
      (if (sigOf ty rs rg sat i).vPr then rg.prs.getD i 0 else -16384) ∧
    encCp (rs.range sat) (sigOf ty rs rg sat i) =
      (if (sigOf ty rs rg sat i).vCp then rg.cps.getD i 0 else -2097152) ∧
    encLock (sigOf ty rs rg sat i) = rg.locks.getD i 0 % 16 ∧
    encCnr (sigOf ty rs rg sat i) = rg.cnrs.getD i 0 ∧
    encDop (rs.rates.getD sat 0) (sigOf ty rs rg sat i) =
      (if (sigOf ty rs rg sat i).vDop then rg.dops.getD i 0 else -16384) := by
  have p := h.prs i
  have c := h.cps i
  have s := h.cnrs i
  have d := h.dops i
  have rr := h.rates sat
  simp only [hext, Bool.false_eq_true, if_false] at p c s
  refine ⟨?_, ?_, ?_, ?_, ?_⟩
  · unfold encPr
    by_cases hv : (sigOf ty rs rg sat i).vPr = true
    · have hne : rg.prs.getD i 0 ≠ -16384 := by
        simp only [sigOf, hext, Bool.and_eq_true, decide_eq_true_eq, Bool.false_eq_true, if_false] at hv
        exact hv.2
      have e : (sigOf ty rs rg sat i).pr = rs.range sat + (rg.prs.getD i 0 : ℚ) / 2 ^ 24 := by
        show (if (sigOf ty rs rg sat i).vPr then _ else _) = _
        rw [if_pos hv, hext]; simp
      obtain ⟨f1, f2⟩ := fine_code (rough := rs.range sat) (n := rg.prs.getD i 0) (k := 24) (by norm_num)
        (by rw [abs_lt]; norm_num [-List.getD_eq_getElem?_getD]; omega)
      rw [e, f2, if_pos hv, if_pos]
      refine ⟨hv, ?_⟩
      rw [f1, abs_div, abs_of_pos (show (0 : ℚ) < 2 ^ 24 by positivity), div_lt_div_iff₀ (by positivity) (by positivity)]
      have : |rg.prs.getD i 0| < 16384 := by rw [abs_lt]; omega
      have : |(rg.prs.getD i 0 : ℚ)| < 16384 := by exact_mod_cast this
      norm_num [-List.getD_eq_getElem?_getD]
      linarith
    · rw [if_neg (fun q => hv q.1), if_neg hv]
  · unfold encCp
    by_cases hv : (sigOf ty rs rg sat i).vCp = true
    · have hne : rg.cps.getD i 0 ≠ -2097152 := by
        simp only [sigOf, hext, Bool.and_eq_true, decide_eq_true_eq, Bool.false_eq_true, if_false] at hv
        exact hv.2
      have e : (sigOf ty rs rg sat i).cp = rs.range sat + (rg.cps.getD i 0 : ℚ) / 2 ^ 29 := by
        show (if (sigOf ty rs rg sat i).vCp then _ else _) = _
        rw [if_pos hv, hext]; simp
      obtain ⟨f1, f2⟩ := fine_code (rough := rs.range sat) (n := rg.cps.getD i 0) (k := 29) (by norm_num)
        (by rw [abs_lt]; norm_num [-List.getD_eq_getElem?_getD]; omega)
      rw [e, f2, if_pos hv, if_pos]
      refine ⟨hv, ?_⟩
      rw [f1, abs_div, abs_of_pos (show (0 : ℚ) < 2 ^ 29 by positivity), div_lt_div_iff₀ (by positivity) (by positivity)]
      have : |rg.cps.getD i 0| < 2097152 := by rw [abs_lt]; omega
      have : |(rg.cps.getD i 0 : ℚ)| < 2097152 := by exact_mod_cast this
      norm_num [-List.getD_eq_getElem?_getD]
      linarith
    · rw [if_neg (fun q => hv q.1), if_neg hv]
  · have e : (sigOf ty rs rg sat i).lock = decodeLockTime (rg.locks.getD i 0 % 16) := by
      simp only [sigOf, hext, Bool.false_eq_true, if_false]
      unfold decodeLockTime; simp
    unfold encLock
    rw [if_pos (show (sigOf ty rs rg sat i).vLock = true from rfl), e]
    exact C16_msm_indicator_roundtrip _ (Nat.mod_lt _ (by norm_num))
  · unfold encCnr
    by_cases hv : (sigOf ty rs rg sat i).vCnr = true
    · have e : (sigOf ty rs rg sat i).cnr = (((rg.cnrs.getD i 0 : Nat) : ℤ) : ℚ) := by
        show (if (sigOf ty rs rg sat i).vCnr then _ else _) = _
        rw [if_pos hv, hext]; simp
      rw [if_pos hv, e, cround_int]
      omega
    · rw [if_neg hv]
      have : ¬ (decide (rg.cnrs.getD i 0 ≠ 0) = true) := hv
      simp at this
      simpa using this.symm
  · unfold encDop
    by_cases hv : (sigOf ty rs rg sat i).vDop = true
    · have hne : rg.dops.getD i 0 ≠ -16384 := by
        simp only [sigOf, Bool.and_eq_true, decide_eq_true_eq] at hv
        exact hv.2.2
      have e : (sigOf ty rs rg sat i).rate = f64 ((rs.rates.getD sat 0 : ℚ) + f64 ((rg.dops.getD i 0 : ℚ) * rateUnit)) := by
        show (if (sigOf ty rs rg sat i).vDop then _ else _) = _
        rw [if_pos hv]
      obtain ⟨f1, f2⟩ := dop_code (r := rs.rates.getD sat 0) (d := rg.dops.getD i 0) rr (by omega)
      rw [e, if_pos hv, if_pos ⟨hv, f1⟩, f2]
    · rw [if_neg (fun q => hv q.1), if_neg hv]

/-- a cell read back from the same codes, an invalid value with the invalid code, is the same cell -/
theorem sigOf_again {ty : MsmType} (hext : ty.ext = false) {rs rs' : RawSat} {rg rg' : RawSig} {sat i : Nat}
    (hr : rs'.range sat = rs.range sat) (hv : rs'.rangeValid sat = rs.rangeValid sat) (ht : rs'.rates.getD sat 0 = rs.rates.getD sat 0)
    (hp : rg'.prs.getD i 0 = if (sigOf ty rs rg sat i).vPr then rg.prs.getD i 0 else -16384)
    (hc : rg'.cps.getD i 0 = if (sigOf ty rs rg sat i).vCp then rg.cps.getD i 0 else -2097152)
    (hl : rg'.locks.getD i 0 = rg.locks.getD i 0 % 16) (hh : rg'.hcas.getD i false = (sigOf ty rs rg sat i).hca)
    (hn : rg'.cnrs.getD i 0 = rg.cnrs.getD i 0)
    (hd : ty.hasRates = true → rg'.dops.getD i 0 = if (sigOf ty rs rg sat i).vDop then rg.dops.getD i 0 else -16384) :
    sigOf ty rs' rg' sat i = sigOf ty rs rg sat i := by
  have elock : decodeLockTime (rg.locks.getD i 0 % 16) = decodeLockTime (rg.locks.getD i 0) := by unfold decodeLockTime; simp
  have erv : rs'.rateValid ty sat = rs.rateValid ty sat := by unfold RawSat.rateValid; rw [ht]
  have vp : (sigOf ty rs' rg' sat i).vPr = (sigOf ty rs rg sat i).vPr := by
    by_cases q : (sigOf ty rs rg sat i).vPr = true
    · rw [if_pos q] at hp
      simp only [sigOf, hv, hp]
    · rw [if_neg q] at hp
      rw [Bool.not_eq_true] at q
      rw [q]
      simp [-List.getD_eq_getElem?_getD, sigOf, hp, hext]
  have vc : (sigOf ty rs' rg' sat i).vCp = (sigOf ty rs rg sat i).vCp := by
    by_cases q : (sigOf ty rs rg sat i).vCp = true
    · rw [if_pos q] at hc
      simp only [sigOf, hv, hc]
    · rw [if_neg q] at hc
      rw [Bool.not_eq_true] at q
      rw [q]
      simp [-List.getD_eq_getElem?_getD, sigOf, hc, hext]
  have vd : (sigOf ty rs' rg' sat i).vDop = (sigOf ty rs rg sat i).vDop := by
    by_cases q : (sigOf ty rs rg sat i).vDop = true
    · have hy : ty.hasRates = true := by
        simp only [sigOf, Bool.and_eq_true] at q
        exact q.2.1
      rw [if_pos q] at hd
      simp only [sigOf, erv, hd hy]
    · rw [if_neg q] at hd
      rw [Bool.not_eq_true] at q
      rw [q]
      by_cases hy : ty.hasRates = true
      · simp [-List.getD_eq_getElem?_getD, sigOf, hd hy]
      · simp [sigOf, hy]
  have fields : ∀ a b : Sig, a.pr = b.pr → a.cp = b.cp → a.lock = b.lock → a.hca = b.hca → a.cnr = b.cnr → a.rate = b.rate →
      a.vPr = b.vPr → a.vCp = b.vCp → a.vCnr = b.vCnr → a.vLock = b.vLock → a.vDop = b.vDop → a = b := by
    rintro ⟨⟩ ⟨⟩ h1 h2 h3 h4 h5 h6 h7 h8 h9 h10 h11
    simp only at h1 h2 h3 h4 h5 h6 h7 h8 h9 h10 h11
    subst h1 h2 h3 h4 h5 h6 h7 h8 h9 h10 h11
    rfl
  refine fields _ _ ?_ ?_ ?_ ?_ ?_ ?_ vp vc ?_ rfl vd
  · show (if (sigOf ty rs' rg' sat i).vPr then _ else _) = (if (sigOf ty rs rg sat i).vPr then _ else _)
    rw [vp]
    by_cases q : (sigOf ty rs rg sat i).vPr = true
    · rw [if_pos q] at hp
      rw [if_pos q, if_pos q, hr, hp]
    · rw [if_neg q, if_neg q]
  · show (if (sigOf ty rs' rg' sat i).vCp then _ else _) = (if (sigOf ty rs rg sat i).vCp then _ else _)
    rw [vc]
    by_cases q : (sigOf ty rs rg sat i).vCp = true
    · rw [if_pos q] at hc
      rw [if_pos q, if_pos q, hr, hc]
    · rw [if_neg q, if_neg q]
  · simp only [sigOf, hext, Bool.false_eq_true, if_false, hl]
    exact elock
  · exact hh
  · simp only [sigOf, hn]
  · show (if (sigOf ty rs' rg' sat i).vDop then _ else _) = (if (sigOf ty rs rg sat i).vDop then _ else _)
    rw [vd]
    by_cases q : (sigOf ty rs rg sat i).vDop = true
    · have hy : ty.hasRates = true := by
        simp only [sigOf, Bool.and_eq_true] at q
        exact q.2.1
      rw [if_pos q] at hd
      rw [if_pos q, if_pos q, ht, hd hy]
    · rw [if_neg q, if_neg q]
  · simp only [sigOf, hn]

theorem again {ty : MsmType} {cons : Cons} {m : Msg} {rs : RawSat} {rg : RawSig} (hty : ty = .msm4 ∨ ty = .msm5)
    (hm : m = assemble ty cons m.header rs rg) (ho : RawOk ty rs rg) (hw : WFHeader ty cons m.header)
    (hglo : cons = .glo → m.header.towMs < 86400000)
    (hrep : ty.hasRates = false → rs.infos = List.replicate (nSats m.header) 0 ∧ rs.rates = List.replicate (nSats m.header) 0) :
    image ty cons m = m := by
  have hext : ty.ext = false := by rcases hty with ht | ht <;> subst ht <;> rfl
  have hr5 : ty.hasRates = decide (ty = .msm5) := by rcases hty with ht | ht <;> subst ht <;> rfl
  have ehd : sameHeader cons m.header = m.header := by
    unfold sameHeader
    have : (if cons = .glo then m.header.towMs % 86400000 else m.header.towMs) = m.header.towMs := by
      split
      · exact Nat.mod_eq_of_lt (hglo ‹_›)
      · rfl
    rw [this]
  have msat : ∀ i < nSats m.header, m.sat i = satOf ty cons rs i := by
    intro i hi
    have : m.sats = (List.range (nSats m.header)).map (satOf ty cons rs) := congrArg Msg.sats hm
    unfold Msg.sat
    rw [this, getD_range_map _ _ _ _ hi]
  have msig : ∀ i < nCells m.header, m.sig i = sigOf ty rs rg (m.row i) i := by
    intro i hi
    have : m.sigs = (List.range (nCells m.header)).map fun i => sigOf ty rs rg (m.row i) i := congrArg Msg.sigs hm
    unfold Msg.sig
    rw [this, getD_range_map _ _ _ _ hi]
  have sat_facts : ∀ i < nSats m.header,
      (rawSat ty (nSats m.header) m.sat).range i = rs.range i ∧
      (rawSat ty (nSats m.header) m.sat).rangeValid i = rs.rangeValid i ∧
      (rawSat ty (nSats m.header) m.sat).rates.getD i 0 = rs.rates.getD i 0 ∧
      satOf ty cons (rawSat ty (nSats m.header) m.sat) i = satOf ty cons rs i := by
    intro i hi
    obtain ⟨c1, c2, c3, c4⟩ := sat_codes ty cons rs i (ho.ints i) (ho.mods i)
    have i1 := ho.ints i
    have i2 := ho.mods i
    have i3 := ho.infos i
    have i4 := ho.rates i
    have e1 : (rawSat ty (nSats m.header) m.sat).ints.getD i 0 = rs.ints.getD i 0 := by
      unfold rawSat; simp only; rw [getD_range_map _ _ _ _ hi, msat i hi, c1, Nat.mod_eq_of_lt (by omega)]
    have e2 : (rawSat ty (nSats m.header) m.sat).mods.getD i 0 = if rs.ints.getD i 0 = 255 then 0 else rs.mods.getD i 0 := by
      unfold rawSat; simp only; rw [getD_range_map _ _ _ _ hi, msat i hi, c2, Nat.mod_eq_of_lt (by split <;> omega)]
    have e3 : (rawSat ty (nSats m.header) m.sat).rates.getD i 0 = rs.rates.getD i 0 := by
      unfold rawSat; simp only
      by_cases h5 : ty = .msm5
      · rw [if_pos h5, getD_range_map _ _ _ _ hi, msat i hi, c4, wrapS_id (by omega) (by omega) (by omega) (by omega)]
      · rw [if_neg h5, (hrep (by rw [hr5]; simp [h5])).2]
    have e4 : (satOf ty cons (rawSat ty (nSats m.header) m.sat) i).gloFcn = (satOf ty cons rs i).gloFcn := by
      show (if cons = .glo ∧ ty.hasRates = false then 255 else (rawSat ty (nSats m.header) m.sat).infos.getD i 0) =
        (if cons = .glo ∧ ty.hasRates = false then 255 else rs.infos.getD i 0)
      split
      · rfl
      · rename_i hno
        unfold rawSat; simp only
        by_cases h5 : ty = .msm5
        · rw [if_pos h5, getD_range_map _ _ _ _ hi, msat i hi]
          show (if cons = .glo ∧ ty.hasRates = false then 255 else rs.infos.getD i 0) % 2 ^ 4 = _
          rw [if_neg hno, Nat.mod_eq_of_lt (by omega)]
        · rw [if_neg h5, (hrep (by rw [hr5]; simp [h5])).1]
    have er : (rawSat ty (nSats m.header) m.sat).range i = rs.range i := by
      unfold RawSat.range
      rw [e1, e2]
      by_cases h : rs.ints.getD i 0 = 255
      · rw [if_neg (not_not.2 h), if_neg (not_not.2 h)]
      · rw [if_pos h, if_pos h, if_neg h]
    refine ⟨er, by unfold RawSat.rangeValid; rw [e1], e3, ?_⟩
    have fields : ∀ a b : Sat, a.gloFcn = b.gloFcn → a.roughRangeMs = b.roughRangeMs → a.roughRate = b.roughRate → a = b := by
      rintro ⟨⟩ ⟨⟩ h1 h2 h3
      simp only at h1 h2 h3
      subst h1 h2 h3
      rfl
    refine fields _ _ e4 er ?_
    show (((rawSat ty (nSats m.header) m.sat).rates.getD i 0 : ℤ) : ℚ) = _
    rw [e3]
    rfl
  have hsats : (image ty cons m).sats = m.sats := by
    have e : m.sats = (List.range (nSats m.header)).map (satOf ty cons rs) := congrArg Msg.sats hm
    rw [e]
    show (List.range (nSats m.header)).map (satOf ty cons (rawSat ty (nSats m.header) m.sat)) = _
    exact List.map_congr_left fun i hi => (sat_facts i (List.mem_range.1 hi)).2.2.2
  have hsigs : (image ty cons m).sigs = m.sigs := by
    have e : m.sigs = (List.range (nCells m.header)).map fun i => sigOf ty rs rg (m.row i) i := congrArg Msg.sigs hm
    rw [e]
    show (List.range (nCells m.header)).map (fun i => sigOf ty (rawSat ty (nSats m.header) m.sat) (rawSig ty m) (m.row i) i) = _
    refine List.map_congr_left fun i hi => ?_
    have hi := List.mem_range.1 hi
    have hns : 0 < nSats m.header := by
      rcases Nat.eq_zero_or_pos (nSats m.header) with h0 | h0
      · have h1 := hw.cellMask
        rw [h0, Nat.zero_mul] at h1
        have h2 : nCells m.header = 0 := by
          unfold nCells
          rw [List.length_eq_zero_iff.1 h1]; rfl
        omega
      · exact h0
    have hrow : m.row i < nSats m.header := cellRows_lt i hns
    obtain ⟨f1, f2, f3, -⟩ := sat_facts _ hrow
    obtain ⟨-, -, c3, c4⟩ := sat_codes ty cons rs (m.row i) (ho.ints _) (ho.mods _)
    obtain ⟨g1, g2, g3, g4, g5⟩ := sig_codes hext ho (m.row i) i
    have p := ho.prs i
    have c := ho.cps i
    have s := ho.cnrs i
    have d := ho.dops i
    simp only [hext, Bool.false_eq_true, if_false] at p c s
    refine sigOf_again hext f1 f2 f3 ?_ ?_ ?_ ?_ ?_ ?_
    · have : (rawSig ty m).prs.getD i 0 = wrapS 15 (encPr (encRange (m.sat (m.row i))) (m.sig i)) := getD_range_map _ _ _ _ hi
      rw [this, msat _ hrow, msig i hi, c3, g1]
      apply wrapS_id (by omega) (by omega) <;> split <;> omega
    · have : (rawSig ty m).cps.getD i 0 = wrapS 22 (encCp (encRange (m.sat (m.row i))) (m.sig i)) := getD_range_map _ _ _ _ hi
      rw [this, msat _ hrow, msig i hi, c3, g2]
      apply wrapS_id (by omega) (by omega) <;> split <;> omega
    · have : (rawSig ty m).locks.getD i 0 = encLock (m.sig i) % 2 ^ 4 := getD_range_map _ _ _ _ hi
      rw [this, msig i hi, g3]
      omega
    · have : (rawSig ty m).hcas.getD i false = (m.sig i).hca := getD_range_map _ _ _ _ hi
      rw [this, msig i hi]
    · have : (rawSig ty m).cnrs.getD i 0 = encCnr (m.sig i) % 2 ^ 6 := getD_range_map _ _ _ _ hi
      rw [this, msig i hi, g4, Nat.mod_eq_of_lt (by omega)]
    · intro hy
      have h5 : ty = .msm5 := by rw [hr5] at hy; simpa using hy
      have : (rawSig ty m).dops.getD i 0 = wrapS 15 (encDop (encRate (m.sat (m.row i))) (m.sig i)) := by
        unfold rawSig; simp only
        rw [if_pos h5]
        exact getD_range_map _ _ _ _ hi
      rw [this, msat _ hrow, msig i hi, c4, g5]
      apply wrapS_id (by omega) (by omega) <;> split <;> omega
  have hh : (image ty cons m).header = m.header := ehd
  cases hi : image ty cons m
  rw [hi] at hh hsats hsigs
  simp only at hh hsats hsigs
  subst hh hsats hsigs
  rfl

/-- **C83** MSM4 and MSM5: every accepted payload of at most 32 satellites is relayed to exactly the same message. -/
theorem C83_msm_relayed (ty : MsmType) (hty : ty = .msm4 ∨ ty = .msm5) (p : Buf) (m : Msg) (h : (decodeMsm ty).run p = .ok m)
    (hs : nSats m.header ≤ 32) (buf : Buf) (hb : 678 ≤ buf.length) :
    (decodeMsm ty).run (payloadOf (encodeMsm ty m buf)) = .ok m := by
  obtain ⟨cons, rs, rg, hm, ho, hw, hglo, hrep⟩ := decodeMsm_full h hs
  rw [run_msm hty hw buf hb, again hty hm ho hw hglo hrep]

/-- **C83** MSM6 and MSM7 are not relayed: nothing is written for an accepted message of these types. -/
theorem C83_high_resolution_not_written (ty : MsmType) (hty : ty = .msm6 ∨ ty = .msm7) (p : Buf) (m : Msg) (h : (decodeMsm ty).run p = .ok m)
    (hs : nSats m.header ≤ 32) (ty' : MsmType) (buf : Buf) : encodeMsm ty' m buf = (buf, 0) := by
  obtain ⟨cons, rs, rg, hm, ho, hw, hglo, hrep⟩ := decodeMsm_full h hs
  have e := hw.type
  unfold encodeMsm
  split
  · rfl
  · have : wrMsm m = none := by
      unfold wrMsm
      rw [e, if_pos (by rcases hty with h | h <;> subst h <;> simp)]
    rw [this]

/-! ### Accepted payloads with 3 satellites, 2 signals, 4 cells and arbitrary data bits (bytes follow the message) -/

theorem accepted {d : Dec Msg} {p : Buf}
    (h : ((d.run p).toOption.map fun m => (nSats m.header, nCells m.header)) = some (3, 4)) :
    ∃ m, d.run p = .ok m ∧ nSats m.header = 3 ∧ nCells m.header = 4 := by
  cases e : d.run p with
  | ok m =>
    rw [e] at h
    simp only [Except.toOption, Option.map_some, Option.some.injEq, Prod.mk.injEq] at h
    exact ⟨m, rfl, h⟩
  | error _ => rw [e] at h; cases h

def gps4 : Buf := [67, 32, 77, 144, 50, 15, 255, 61, 9, 192, 8, 0, 0, 0, 0, 0, 0, 160, 0, 64, 0, 109, 67, 252, 243, 166, 97, 146, 37, 64, 197, 80, 71, 42, 59, 213, 113, 136, 38, 131, 117, 228, 103, 39, 187, 146, 224, 214, 24, 129, 144, 59, 234, 243, 142, 44, 94, 226, 176, 154, 162, 93, 3, 240, 195, 89, 11, 3, 71, 55, 34, 170]
example : ∃ m, (decodeMsm .msm4).run gps4 = .ok m ∧ nSats m.header = 3 ∧ nCells m.header = 4 := accepted (by decide +kernel)
def glo5 : Buf := [67, 208, 77, 148, 153, 111, 254, 146, 215, 64, 8, 0, 0, 0, 0, 0, 0, 160, 0, 64, 0, 108, 59, 225, 35, 102, 230, 198, 154, 216, 182, 217, 249, 190, 116, 11, 20, 134, 124, 177, 219, 50, 185, 211, 54, 31, 180, 135, 95, 74, 232, 119, 160, 212, 64, 181, 79, 86, 37, 3, 196, 27, 241, 169, 93, 188, 91, 71, 86, 134, 253, 100]
example : ∃ m, (decodeMsm .msm5).run glo5 = .ok m ∧ nSats m.header = 3 ∧ nCells m.header = 4 := accepted (by decide +kernel)
def glo4 : Buf := [67, 192, 77, 148, 153, 111, 254, 148, 250, 64, 8, 0, 0, 0, 0, 0, 0, 160, 0, 64, 0, 108, 62, 234, 108, 56, 42, 79, 95, 149, 218, 235, 28, 25, 69, 230, 123, 64, 6, 247, 216, 159, 45, 244, 243, 40, 150, 61, 154, 45, 119, 244, 218, 105, 120, 78, 214, 103, 159, 151, 217, 242, 24, 17, 122, 185, 79, 200, 22, 222, 57, 148]
example : ∃ m, (decodeMsm .msm4).run glo4 = .ok m ∧ nSats m.header = 3 ∧ nCells m.header = 4 := accepted (by decide +kernel)
def gal5 : Buf := [68, 112, 77, 144, 50, 15, 252, 218, 147, 192, 8, 0, 0, 0, 0, 0, 0, 160, 0, 64, 0, 109, 62, 126, 204, 57, 161, 163, 117, 126, 61, 215, 6, 252, 174, 182, 88, 242, 237, 29, 36, 162, 238, 2, 211, 20, 234, 75, 56, 187, 62, 142, 127, 11, 42, 96, 62, 70, 220, 235, 189, 8, 59, 132, 109, 105, 223, 235, 235, 199, 189, 222]
example : ∃ m, (decodeMsm .msm5).run gal5 = .ok m ∧ nSats m.header = 3 ∧ nCells m.header = 4 := accepted (by decide +kernel)

def gps7 : Buf := [67, 80, 77, 144, 50, 15, 254, 177, 142, 64, 8, 0, 0, 0, 0, 0, 0, 160, 0, 64, 0, 108, 107, 32, 250, 161, 176, 35, 45, 58, 174, 170, 210, 49, 134, 100, 184, 73, 15, 52, 112, 130, 223, 168, 228, 144, 79, 153, 189, 138, 223, 195, 204, 70, 237, 168, 176, 168, 137, 34, 174, 165, 236, 248, 112, 35, 166, 34, 25, 250, 122, 162, 90, 90, 90, 90, 90, 90, 90, 90, 90, 90, 90, 90, 90, 90, 90, 90, 90, 90, 90, 90]
example : ∃ m, (decodeMsm .msm7).run gps7 = .ok m ∧ nSats m.header = 3 ∧ nCells m.header = 4 := accepted (by decide +kernel)

end Verif.Msm
