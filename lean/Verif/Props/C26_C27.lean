import Verif.Spec.SsrSbp
import Verif.Props.C14
import Verif.Props.C22_C23
/-
C26, C27: SSR messages.
-/
namespace Verif.SsrSbp
open Verif.SsrSbp.Spec Verif.Ssr Verif.Spec Verif.Dec
open Verif.Msm (Cons)
open Verif.RtcmSbp (SbpTime crint messageType)
open Verif.Time Verif.Time.Spec

theorem messageType_eq (p : Buf) : messageType p = msgNum p := by
  unfold messageType msgNum
  have h1 := (p.getD 0 0).isLt
  have h2 := (p.getD 1 0).isLt
  have h3 : ((p.getD 1 0).toNat >>> 4) &&& 0xf = (p.getD 1 0).toNat / 16 := by
    rw [Nat.shiftRight_eq_div_pow, show (0xf : Nat) = 2 ^ 4 - 1 by rfl, Nat.and_two_pow_sub_one_eq_mod]; omega
  rw [h3, ← Nat.shiftLeft_add_eq_or_of_lt (by omega), Nat.shiftLeft_eq]

/-- the constellation of a decoded SSR header -/
theorem ssr_header_cons {s s' : List Bool} {h : Ssr.Header} (hr : Ssr.readHeader s = (.ok h, s')) :
    Msm.toConstellation h.msgNum = some h.cons := by
  unfold Ssr.readHeader at hr
  obtain ⟨n, s1, h1, hr⟩ := bind_ok hr
  cases hc : Msm.toConstellation n with
  | none => rw [hc] at hr; simp [Dec.fail] at hr
  | some c =>
    rw [hc] at hr
    simp only at hr
    obtain ⟨_, _, _, hr⟩ := bind_ok hr
    obtain ⟨_, _, _, hr⟩ := bind_ok hr
    obtain ⟨_, _, _, hr⟩ := bind_ok hr
    cases h1 : Ssr.isOrbitClock n <;> cases h2 : Ssr.isPhaseBias n <;>
    · rw [h1, h2] at hr
      simp only [if_true, if_false, Bool.false_eq_true] at hr
      iterate 7 obtain ⟨_, _, _, hr⟩ := bind_ok hr
      rw [Dec.pure_def] at hr
      simp only [Prod.mk.injEq, Except.ok.injEq] at hr
      rw [← hr.1]; exact hc

theorem orbit_cons {p : Buf} {m : OrbitMsg} (h : decodeOrbit.run p = .ok m) :
    Msm.toConstellation (msgNum p) = some m.1.cons ∧ msgNum p ∈ [1057, 1063, 1240, 1246, 1258] := by
  refine ⟨?_, Decoders.C14_ssr_types.1 p m h⟩
  obtain ⟨r, hr⟩ := run_ok h
  unfold decodeOrbit at hr
  obtain ⟨hd, s1, h1, hr⟩ := bind_ok hr
  rw [← Decoders.ssr_header_num h1, ssr_header_cons h1]
  obtain ⟨_, _, _, hr⟩ := bind_ok hr
  obtain ⟨_, _, _, hr⟩ := bind_ok hr
  rw [Dec.pure_def] at hr
  simp only [Prod.mk.injEq, Except.ok.injEq] at hr
  rw [← hr.1]

theorem clock_cons {p : Buf} {m : ClockMsg} (h : decodeClock.run p = .ok m) :
    Msm.toConstellation (msgNum p) = some m.1.cons ∧ msgNum p ∈ [1058, 1064, 1241, 1247, 1259] := by
  refine ⟨?_, Decoders.C14_ssr_types.2.1 p m h⟩
  obtain ⟨r, hr⟩ := run_ok h
  unfold decodeClock at hr
  obtain ⟨hd, s1, h1, hr⟩ := bind_ok hr
  rw [← Decoders.ssr_header_num h1, ssr_header_cons h1]
  obtain ⟨_, _, _, hr⟩ := bind_ok hr
  obtain ⟨_, _, _, hr⟩ := bind_ok hr
  rw [Dec.pure_def] at hr
  simp only [Prod.mk.injEq, Except.ok.injEq] at hr
  rw [← hr.1]

/-- the waiting message of constellation `c`, as a received message (its time context plays no role) -/
def cached (c : Cons) (k : Cache) : List Rx → Prop
  | [] => k.containsClock = false ∧ k.containsOrbit = false
  | [.orbit _ m] => m.1.cons = c ∧ k = { data := .inr m, containsClock := false, containsOrbit := true }
  | [.clock _ m] => m.1.cons = c ∧ k = { data := .inl m, containsClock := true, containsOrbit := false }
  | _ => False

/-- what a pair is converted to -/
def conv (env : Env) (q : Ctx × ClockMsg × OrbitMsg) : List Out := separate env q.1 q.2.1 q.2.2

theorem rx_orbit {c : Cons} {x : Ctx} {p : Buf} {m : OrbitMsg} (h : decodeOrbit.run p = .ok m) (hc : m.1.cons = c) :
    some (msgNum p) = orbitNumber c ∧ rx c (x, p) = some (.orbit x m) := by
  obtain ⟨h1, h2⟩ := orbit_cons h
  have h3 : some (msgNum p) = orbitNumber c := by
    rw [hc] at h1
    simp only [List.mem_cons, List.not_mem_nil, or_false] at h2
    rcases h2 with e | e | e | e | e <;> rw [e] at h1 ⊢ <;> simp [Msm.toConstellation] at h1 <;> subst h1 <;> rfl
  refine ⟨h3, ?_⟩
  unfold rx
  rw [if_pos h3, h]; rfl

theorem rx_clock {c : Cons} {x : Ctx} {p : Buf} {m : ClockMsg} (h : decodeClock.run p = .ok m) (hc : m.1.cons = c) :
    some (msgNum p) ≠ orbitNumber c ∧ some (msgNum p) = clockNumber c ∧ rx c (x, p) = some (.clock x m) := by
  obtain ⟨h1, h2⟩ := clock_cons h
  have h3 : some (msgNum p) ≠ orbitNumber c ∧ some (msgNum p) = clockNumber c := by
    rw [hc] at h1
    simp only [List.mem_cons, List.not_mem_nil, or_false] at h2
    rcases h2 with e | e | e | e | e <;> rw [e] at h1 ⊢ <;> simp [Msm.toConstellation] at h1 <;> subst h1 <;>
      exact ⟨by simp [orbitNumber], rfl⟩
  refine ⟨h3.1, h3.2, ?_⟩
  unfold rx
  rw [if_neg h3.1, if_pos h3.2, h]; rfl

theorem orbitNumber_mem {c : Cons} {n : Nat} (h : some n = orbitNumber c) :
    n ∈ [1057, 1063, 1240, 1246, 1258] := by
  cases c <;> simp [orbitNumber] at h <;> subst h <;> simp
theorem clockNumber_mem {c : Cons} {n : Nat} (h : some n = clockNumber c) :
    n ∈ [1058, 1064, 1241, 1247, 1259] ∧ n ∉ [1057, 1063, 1240, 1246, 1258] := by
  cases c <;> simp [clockNumber] at h <;> subst h <;> simp
/-- the constellation of a number is unique -/
theorem number_cons {c : Cons} {n : Nat} (h : some n = orbitNumber c ∨ some n = clockNumber c) : Msm.toConstellation n = some c := by
  rcases h with h | h <;> cases c <;> simp [orbitNumber, clockNumber] at h <;> subst h <;> rfl

/-- one step, seen from constellation `c` -/
theorem step_cached (env : Env) (c : Cons) (s : State) (i : Ctx × Buf) (P : List Rx) (h : cached c (s c) P) :
    ∃ P', cached c ((step env s i.1 i.2).1 c) P' ∧
      match rx c i with
      | none => P' = P ∧ (isSeparate c i.2 = true → (step env s i.1 i.2).2 = [])
      | some b => isSeparate c i.2 = true ∧
          match P with
          | [] => P' = [b] ∧ (step env s i.1 i.2).2 = []
          | a :: _ => match fit a b with
            | some q => P' = [] ∧ (step env s i.1 i.2).2 = conv env q
            | none => P' = [b] ∧ (step env s i.1 i.2).2 = [] := by
  obtain ⟨x, p⟩ := i
  have hmt := messageType_eq p
  have hother : ∀ {d : Cons} {v : Cache}, d ≠ c → upd s d v c = s c := by
    intro d v hd; unfold upd; rw [if_neg (Ne.symm hd)]
  have hsame : ∀ {v : Cache}, upd s c v c = v := by intro v; unfold upd; rw [if_pos rfl]
  simp only [step, hmt]
  by_cases ho : msgNum p ∈ [1057, 1063, 1240, 1246, 1258]
  · simp only [if_pos ho]
    cases hd : decodeOrbit.run p with
    | error e =>
      have hr : rx c (x, p) = none := by
        unfold rx
        by_cases h1 : some (msgNum p) = orbitNumber c
        · rw [if_pos h1, hd]; rfl
        · rw [if_neg h1, if_neg]; intro h2; exact (clockNumber_mem h2).2 ho
      rw [hr]; exact ⟨P, h, rfl, fun _ => rfl⟩
    | ok m =>
      simp only
      by_cases hc : m.1.cons = c
      · obtain ⟨h1, h2⟩ := rx_orbit (x := x) hd hc
        rw [h2]
        have hsep : isSeparate c p = true := by simp [isSeparate, h1]
        match P, h with
        | [], h =>
          refine ⟨[.orbit x m], ?_, hsep, rfl, ?_⟩
          · unfold onOrbit
            rw [hc, if_neg (by rw [h.1]; simp)]; exact ⟨hc, hsame⟩
          · unfold onOrbit
            rw [hc, if_neg (by rw [h.1]; simp)]
        | [.orbit y m'], h =>
          have hcond : ¬ ((s c).containsClock = true ∧ (s c).containsOrbit = false ∧ (s c).header.epoch = m.1.epoch ∧
              (s c).header.iodSsr = m.1.iodSsr ∧ (s c).header.cons = c) := by rw [h.2]; simp
          refine ⟨[.orbit x m], ?_, hsep, rfl, ?_⟩
          · unfold onOrbit
            rw [hc, if_neg hcond]; exact ⟨hc, hsame⟩
          · unfold onOrbit
            rw [hc, if_neg hcond]
        | [.clock y m'], h =>
          have hk : (s c).header = m'.1 ∧ (s c).containsClock = true ∧ (s c).containsOrbit = false ∧ (s c).data = .inl m' := by
            rw [h.2]; exact ⟨rfl, rfl, rfl, rfl⟩
          by_cases hf : m'.1.epoch = m.1.epoch ∧ m'.1.iodSsr = m.1.iodSsr
          · have hcond : (s c).containsClock = true ∧ (s c).containsOrbit = false ∧ (s c).header.epoch = m.1.epoch ∧
                (s c).header.iodSsr = m.1.iodSsr ∧ (s c).header.cons = c :=
              ⟨hk.2.1, hk.2.2.1, by rw [hk.1]; exact hf.1, by rw [hk.1]; exact hf.2, by rw [hk.1]; exact h.1⟩
            refine ⟨[], ?_, hsep, ?_⟩
            · unfold onOrbit
              rw [hc, if_pos hcond]; simp only [hsame]; exact ⟨rfl, hk.2.2.1⟩
            · simp only [fit, if_pos hf]
              refine ⟨trivial, ?_⟩
              unfold onOrbit
              rw [hc, if_pos hcond]; simp only [hk.2.2.2, conv]
          · have hcond : ¬ ((s c).containsClock = true ∧ (s c).containsOrbit = false ∧ (s c).header.epoch = m.1.epoch ∧
                (s c).header.iodSsr = m.1.iodSsr ∧ (s c).header.cons = c) := by
              rintro ⟨-, -, a, b, -⟩; rw [hk.1] at a b; exact hf ⟨a, b⟩
            refine ⟨[.orbit x m], ?_, hsep, ?_⟩
            · unfold onOrbit
              rw [hc, if_neg hcond]; exact ⟨hc, hsame⟩
            · simp only [fit, if_neg hf]
              refine ⟨trivial, ?_⟩
              unfold onOrbit
              rw [hc, if_neg hcond]
      · have hcn := (orbit_cons hd).1
        have hns : ¬ (some (msgNum p) = orbitNumber c ∨ some (msgNum p) = clockNumber c) := by
          intro h'; have := number_cons h'; rw [this] at hcn; simp at hcn; exact hc hcn.symm
        have hr : rx c (x, p) = none := by
          unfold rx
          rw [if_neg (fun e => hns (Or.inl e)), if_neg (fun e => hns (Or.inr e))]
        rw [hr]
        refine ⟨P, ?_, rfl, ?_⟩
        · simp only [onOrbit]; split <;> simpa only [hother hc] using h
        · intro hsp; simp only [isSeparate, Bool.or_eq_true, decide_eq_true_eq] at hsp; exact absurd hsp hns
  · simp only [if_neg ho]
    by_cases hk : msgNum p ∈ [1058, 1064, 1241, 1247, 1259]
    · simp only [if_pos hk]
      cases hd : decodeClock.run p with
      | error e =>
        have hr : rx c (x, p) = none := by
          unfold rx
          rw [if_neg (fun e => ho (orbitNumber_mem e))]
          split
          · rw [hd]; rfl
          · rfl
        rw [hr]; exact ⟨P, h, rfl, fun _ => rfl⟩
      | ok m =>
        simp only
        by_cases hc : m.1.cons = c
        · obtain ⟨-, h1, h2⟩ := rx_clock (x := x) hd hc
          rw [h2]
          have hsep : isSeparate c p = true := by simp [isSeparate, h1]
          match P, h with
          | [], h =>
            refine ⟨[.clock x m], ?_, hsep, rfl, ?_⟩
            · unfold onClock
              rw [hc, if_neg (by rw [h.2]; simp)]; exact ⟨hc, hsame⟩
            · unfold onClock
              rw [hc, if_neg (by rw [h.2]; simp)]
          | [.clock y m'], h =>
            have hcond : ¬ ((s c).containsClock = false ∧ (s c).containsOrbit = true ∧ (s c).header.epoch = m.1.epoch ∧
                (s c).header.iodSsr = m.1.iodSsr ∧ (s c).header.cons = c) := by rw [h.2]; simp
            refine ⟨[.clock x m], ?_, hsep, rfl, ?_⟩
            · unfold onClock
              rw [hc, if_neg hcond]; exact ⟨hc, hsame⟩
            · unfold onClock
              rw [hc, if_neg hcond]
          | [.orbit y m'], h =>
            have hk : (s c).header = m'.1 ∧ (s c).containsClock = false ∧ (s c).containsOrbit = true ∧ (s c).data = .inr m' := by
              rw [h.2]; exact ⟨rfl, rfl, rfl, rfl⟩
            by_cases hf : m.1.epoch = m'.1.epoch ∧ m.1.iodSsr = m'.1.iodSsr
            · have hcond : (s c).containsClock = false ∧ (s c).containsOrbit = true ∧ (s c).header.epoch = m.1.epoch ∧
                  (s c).header.iodSsr = m.1.iodSsr ∧ (s c).header.cons = c :=
                ⟨hk.2.1, hk.2.2.1, by rw [hk.1]; exact hf.1.symm, by rw [hk.1]; exact hf.2.symm, by rw [hk.1]; exact h.1⟩
              refine ⟨[], ?_, hsep, ?_⟩
              · unfold onClock
                rw [hc, if_pos hcond]; simp only [hsame]; exact ⟨hk.2.1, rfl⟩
              · simp only [fit, if_pos hf]
                refine ⟨trivial, ?_⟩
                unfold onClock
                rw [hc, if_pos hcond]; simp only [hk.2.2.2, conv]
            · have hcond : ¬ ((s c).containsClock = false ∧ (s c).containsOrbit = true ∧ (s c).header.epoch = m.1.epoch ∧
                  (s c).header.iodSsr = m.1.iodSsr ∧ (s c).header.cons = c) := by
                rintro ⟨-, -, a, b, -⟩; rw [hk.1] at a b; exact hf ⟨a.symm, b.symm⟩
              refine ⟨[.clock x m], ?_, hsep, ?_⟩
              · unfold onClock
                rw [hc, if_neg hcond]; exact ⟨hc, hsame⟩
              · simp only [fit, if_neg hf]
                refine ⟨trivial, ?_⟩
                unfold onClock
                rw [hc, if_neg hcond]
        · have hcn := (clock_cons hd).1
          have hns : ¬ (some (msgNum p) = orbitNumber c ∨ some (msgNum p) = clockNumber c) := by
            intro h'; have := number_cons h'; rw [this] at hcn; simp at hcn; exact hc hcn.symm
          have hr : rx c (x, p) = none := by
            unfold rx
            rw [if_neg (fun e => hns (Or.inl e)), if_neg (fun e => hns (Or.inr e))]
          rw [hr]
          refine ⟨P, ?_, rfl, ?_⟩
          · simp only [onClock]; split <;> simpa only [hother hc] using h
          · intro hsp; simp only [isSeparate, Bool.or_eq_true, decide_eq_true_eq] at hsp; exact absurd hsp hns
    · simp only [if_neg hk]
      have hns : ¬ (some (msgNum p) = orbitNumber c ∨ some (msgNum p) = clockNumber c) := by
        rintro (e | e)
        · exact ho (orbitNumber_mem e)
        · exact hk (clockNumber_mem e).1
      have hr : rx c (x, p) = none := by
        unfold rx
        rw [if_neg (fun e => hns (Or.inl e)), if_neg (fun e => hns (Or.inr e))]
      have hsp : isSeparate c p = true → False := by
        intro hsp; simp only [isSeparate, Bool.or_eq_true, decide_eq_true_eq] at hsp; exact hns hsp
      rw [hr]
      refine ⟨P, ?_, rfl, fun hsp' => (hsp hsp').elim⟩
      split
      · split <;> exact h
      · split
        · split <;> exact h
        · split
          · split <;> exact h
          · exact h

theorem cached_two {c k a b r} (h : cached c k (a :: b :: r)) : False := by
  cases a <;> exact h

theorem pairs_single (a : Rx) : pairs [a] = [] := by unfold pairs; rfl
theorem pairs_nil : pairs [] = [] := by unfold pairs; rfl

theorem trace_pairs (env : Env) (c : Cons) : ∀ (l : List (Ctx × Buf)) (s : State) (P : List Rx), cached c (s c) P →
    ((trace env s l).filter fun t => isSeparate c t.1.2).flatMap (·.2) =
      (pairs (P ++ l.filterMap (rx c))).flatMap (conv env) := by
  intro l
  induction l with
  | nil =>
    intro s P h
    match P, h with
    | [], _ => simp [trace, pairs_nil]
    | [a], _ => simp [trace, pairs_single]
    | a :: b :: r, h => exact (cached_two h).elim
  | cons i r ih =>
    intro s P h
    obtain ⟨P', h', hm⟩ := step_cached env c s i P h
    have ih' := ih _ P' h'
    simp only [trace, List.filter_cons, List.filterMap_cons]
    cases hr : rx c i with
    | none =>
      rw [hr] at hm
      obtain ⟨rfl, ho⟩ := hm
      simp only
      split
      · rename_i hs; simp only [List.flatMap_cons, ho hs, List.nil_append]; exact ih'
      · exact ih'
    | some b =>
      rw [hr] at hm
      obtain ⟨hs, hm⟩ := hm
      simp only [hs, if_true, List.flatMap_cons]
      match P, h, hm with
      | [], _, hm =>
        obtain ⟨rfl, ho⟩ := hm
        rw [ho, List.nil_append, ih']; rfl
      | a :: b' :: r, h, _ => exact (cached_two h).elim
      | [a], _, hm =>
        simp only at hm
        cases hf : fit a b with
        | none =>
          rw [hf] at hm
          obtain ⟨rfl, ho⟩ := hm
          rw [ho, List.nil_append, ih', List.singleton_append, List.singleton_append]
          conv_rhs => unfold pairs
          simp only [hf]
        | some q =>
          rw [hf] at hm
          obtain ⟨rfl, ho⟩ := hm
          rw [ho, ih', List.singleton_append]
          conv_rhs => unfold pairs
          simp only [hf, List.flatMap_cons, List.nil_append]

/-- C26: whatever messages arrive in whatever order, the SBP messages produced by the separate orbit and clock messages of
a constellation are those of the pairs of successive messages (of that constellation) with the same epoch and the same IOD
SSR, in order; every message is used in at most one pair and messages without a partner are never converted. -/
theorem C26_pairing (env : Env) (c : Cons) (l : List (Ctx × Buf)) :
    ((trace env State.zero l).filter fun t => isSeparate c t.1.2).flatMap (·.2) =
      (pairs (l.filterMap (rx c))).flatMap fun q => separate env q.1 q.2.1 q.2.2 :=
  trace_pairs env c l State.zero [] ⟨rfl, rfl⟩

/-- the trace is the run -/
theorem C26_trace (env : Env) (s : State) (l : List (Ctx × Buf)) : (trace env s l).flatMap (·.2) = (run env s l).2 := by
  induction l generalizing s with
  | nil => rfl
  | cons i r ih => simp only [trace, run, List.flatMap_cons, ih]

/-! ### contents of a pair -/

theorem mk_combines {env x h o c m} (hm : mkOrbitClock env x h o c = some m) :
    Combines env h o c m ∧ validTime h x = some m.common.time := by
  unfold mkOrbitClock at hm
  cases ht : validTime h x with
  | none => rw [ht] at hm; simp at hm
  | some t =>
    rw [ht] at hm
    simp only [Option.map_some, Option.some.injEq] at hm
    subst hm
    exact ⟨⟨rfl, rfl, rfl, rfl, rfl, rfl, rfl, rfl, rfl, rfl, rfl, rfl⟩, rfl⟩

/-- C26: every SBP message made from a pair combines an orbit and a clock correction for the same satellite, unchanged, and
carries the time and the IOD SSR of the pair. -/
theorem C26_contents (env : Env) (x : Ctx) (cm : ClockMsg) (om : OrbitMsg) (out : Out) (h : out ∈ separate env x cm om) :
    ∃ m o c, out = .orbitClock m ∧ o ∈ om.2 ∧ (o.satId, c) ∈ cm.2 ∧ Combines env om.1 o c m ∧
      validTime om.1 x = some m.common.time := by
  unfold separate at h
  generalize om.2.length = k at h
  have key : ∀ (l : List (Nat × Option Clock)) (k : Nat), out ∈ separateLoop env x om l k →
      ∃ m o c, out = .orbitClock m ∧ o ∈ om.2 ∧ (o.satId, c) ∈ l ∧ Combines env om.1 o c m ∧
        validTime om.1 x = some m.common.time := by
    intro l
    induction l with
    | nil => intro k h; simp [separateLoop] at h
    | cons c cs ih =>
      intro k h
      cases k with
      | zero => simp [separateLoop] at h
      | succ k =>
        simp only [separateLoop] at h
        cases hf : om.2.find? (fun o => o.satId = c.1) with
        | none =>
          rw [hf] at h
          obtain ⟨m, o, c', h1, h2, h3, h4⟩ := ih k h
          exact ⟨m, o, c', h1, h2, by simp [h3], h4⟩
        | some o =>
          rw [hf] at h
          simp only at h
          have ho : o.satId = c.1 := by simpa using List.find?_some hf
          cases hm : mkOrbitClock env x om.1 o c.2 with
          | none => rw [hm] at h; simp at h
          | some m =>
            rw [hm] at h
            simp only [List.mem_cons] at h
            rcases h with rfl | h
            · exact ⟨m, o, c.2, rfl, List.mem_of_find?_eq_some hf, by rw [ho]; simp, mk_combines hm⟩
            · obtain ⟨m, o, c', h1, h2, h3, h4⟩ := ih k h
              exact ⟨m, o, c', h1, h2, by simp [h3], h4⟩
  exact key _ _ h

/-- C26 (partial): if the clock message lists at most as many satellites as the orbit message and the time is known, every
satellite of the clock message that also has an orbit correction is converted, once per clock correction, in order.
Missing: the case of more clock than orbit corrections (see `C26_dropped_bug`). -/
theorem C26_complete_partial (env : Env) (x : Ctx) (cm : ClockMsg) (om : OrbitMsg) (t : SbpTime)
    (ht : validTime om.1 x = some t) (hlen : cm.2.length ≤ om.2.length) :
    (orbitClocks (separate env x cm om)).map (fun m => (m.common.sat, m.clock)) =
      (cm.2.filter fun c => decide (c.1 ∈ om.2.map (·.satId))).map fun c => (c.1, c.2.map fun k => (k.c0, k.c1, k.c2)) := by
  unfold separate
  have key : ∀ (l : List (Nat × Option Clock)) (k : Nat), l.length ≤ k →
      (orbitClocks (separateLoop env x om l k)).map (fun m => (m.common.sat, m.clock)) =
      (l.filter fun c => decide (c.1 ∈ om.2.map (·.satId))).map fun c => (c.1, c.2.map fun k => (k.c0, k.c1, k.c2)) := by
    intro l
    induction l with
    | nil => intro k h; simp [separateLoop, orbitClocks]
    | cons c cs ih =>
      intro k h
      cases k with
      | zero => simp at h
      | succ k =>
        have ih' := ih k (by simpa using h)
        simp only [separateLoop]
        cases hf : om.2.find? (fun o => o.satId = c.1) with
        | none =>
          have : c.1 ∉ om.2.map (·.satId) := by
            intro hm
            obtain ⟨o, ho, e⟩ := List.mem_map.mp hm
            have := List.find?_eq_none.mp hf o ho
            simp [e] at this
          rw [List.filter_cons_of_neg (by simpa using this)]
          exact ih'
        | some o =>
          have ho : o.satId = c.1 := by simpa using List.find?_some hf
          have : c.1 ∈ om.2.map (·.satId) := List.mem_map.mpr ⟨o, List.mem_of_find?_eq_some hf, ho⟩
          rw [List.filter_cons_of_pos (by simpa using this), List.map_cons, ← ih']
          simp only [mkOrbitClock, ht, Option.map_some, orbitClocks, List.filterMap_cons, List.map_cons, common, ho]
  exact key _ _ hlen

/-- C26: without a usable time nothing is converted. -/
theorem C26_no_time (env : Env) (x : Ctx) (cm : ClockMsg) (om : OrbitMsg) (ht : validTime om.1 x = none) :
    separate env x cm om = [] := by
  apply List.eq_nil_iff_forall_not_mem.mpr
  intro o ho
  obtain ⟨m, _, _, _, _, _, _, h⟩ := C26_contents env x cm om o ho
  rw [ht] at h; simp at h

/-- C26: a combined orbit/clock message gives one SBP message per satellite, in order, with its own corrections. -/
theorem C26_combined (env : Env) (x : Ctx) (h : Header) (l : List (Orbit × Option Clock)) (t : SbpTime)
    (ht : validTime h x = some t) :
    ∃ ms : List OrbitClock, combined env x h l = ms.map .orbitClock ∧
      List.Forall₂ (fun oc m => Combines env h oc.1 oc.2 m ∧ m.common.time = t) l ms := by
  induction l with
  | nil => exact ⟨[], rfl, .nil⟩
  | cons a r ih =>
    obtain ⟨ms, h1, h2⟩ := ih
    cases hm : mkOrbitClock env x h a.1 a.2 with
    | none => simp [mkOrbitClock, ht] at hm
    | some m =>
      obtain ⟨h3, h4⟩ := mk_combines hm
      refine ⟨m :: ms, ?_, .cons ⟨h3, ?_⟩ h2⟩
      · obtain ⟨o, c⟩ := a
        simp only [combined, hm, h1, List.map_cons]
      · rw [ht] at h4; exact (Option.some.inj h4).symm

/-! ### the time of the messages -/

theorem crint_int (n : Int) : crint (n : ℚ) = n := by
  unfold crint
  rw [Int.floor_intCast, sub_self, if_pos (by norm_num)]

/-- C26: for the constellations on GPS time the time of week is the epoch time of the message, for BeiDou it is 14 s
later; the week is the one that brings the time nearest to the reference time. -/
theorem C26_time (h : Header) (x : Ctx) (hg : h.cons ≠ .glo) (he : h.epoch < 604800) (hr : Valid x.rover)
    (h0 : 0 < x.rover.wn) (h1 : x.rover.wn < 32765) :
    ∃ t, validTime h x = some t ∧ t.tow = (h.epoch + if h.cons = .bds then 14 else 0) % 604800 ∧
      |(t.wn * 604800 + t.tow : ℚ) - seconds x.rover| ≤ 302400 := by
  obtain ⟨ms, hms, hms2, hms3⟩ : ∃ ms : Nat, (if h.cons = .bds then beidouTowToGpsTow (h.epoch * 1000) else h.epoch * 1000) = ms * 1000 ∧
      ms < 604800 ∧ ms = (h.epoch + if h.cons = .bds then 14 else 0) % 604800 := by
    refine ⟨(h.epoch + if h.cons = .bds then 14 else 0) % 604800, ?_, by omega, rfl⟩
    by_cases hb : h.cons = .bds
    · simp only [if_pos hb, beidouTowToGpsTow, weekMs]
      split <;> omega
    · simp only [if_neg hb]; omega
  obtain ⟨t, ht, htv, htt, htd⟩ := C22_nearest_week (ms * 1000) x.rover (by omega) hr h0 (by omega)
  have htow : t.tow = ((ms : Int) : ℚ) := by push_cast at htt ⊢; linarith
  have hm : messageTime h.cons (h.epoch * 1000) x = some ⟨t.wn, ms⟩ := by
    unfold messageTime
    rw [if_neg hg]
    have : (if h.cons = .bds then computeGpsMessageTime (beidouTowToGpsTow (h.epoch * 1000)) x.rover
        else computeGpsMessageTime (h.epoch * 1000) x.rover) = some t := by
      rw [← ht, ← hms]; split <;> rfl
    rw [this, Option.map_some, htow, crint_int]; rfl
  refine ⟨⟨t.wn, ms⟩, ?_, hms3, ?_⟩
  · unfold validTime
    rw [hm]
    have hw : t.wn < 32767 := by
      rw [abs_le] at htd
      have h2 := htd.2
      have h3 := htv.2.2.1
      unfold seconds at h2
      have h4 := hr.2.2.2
      have : (t.wn : ℚ) < x.rover.wn + 2 := by linarith
      have : t.wn < x.rover.wn + 2 := by exact_mod_cast this
      omega
    simp [Option.filter, timeOk, hw, hms2]
  · unfold seconds at htd ⊢
    rw [htow] at htd
    exact htd

/-- C26: for GLONASS the time is the epoch time of day (Moscow time) converted with the leap seconds, on the day nearest
to the reference time. -/
theorem C26_time_glo (h : Header) (x : Ctx) (hg : h.cons = .glo) (leap : Int) (hx : x.leap = some leap)
    (hl : -128 ≤ leap ∧ leap ≤ 127) (t : SbpTime) (ht : validTime h x = some t) :
    |(t.wn * 604800 + t.tow : ℚ) - seconds x.rover| ≤ 43200 ∧
      ∃ k : Int, t.wn * 604800 + t.tow = h.epoch - 3 * 3600 + leap + 86400 * k := by
  unfold validTime messageTime at ht
  rw [if_pos hg, hx] at ht
  cases hc : computeGloTime (h.epoch * 1000) x.rover (some leap) with
  | none => rw [hc] at ht; simp at ht
  | some u =>
    obtain ⟨hv, hd, k, hk⟩ := C23_glo_time _ _ _ hl _ hc
    rw [hc] at ht
    simp only [Option.map_some, Option.filter, Option.ite_none_right_eq_some, Option.some.injEq] at ht
    obtain ⟨-, rfl⟩ := ht
    have htow : u.tow = (((h.epoch : Int) - 3 * 3600 + leap + 86400 * k - u.wn * 604800 : Int) : ℚ) := by
      unfold seconds at hk; push_cast at hk ⊢; linarith
    have h0 : 0 ≤ (h.epoch : Int) - 3 * 3600 + leap + 86400 * k - u.wn * 604800 := by
      have := hv.2.2.1; rw [htow] at this; exact_mod_cast this
    simp only [htow, crint_int]
    have e : (((((h.epoch : Int) - 3 * 3600 + leap + 86400 * k - u.wn * 604800).toNat : Nat) : Int)) = (h.epoch : Int) - 3 * 3600 + leap + 86400 * k - u.wn * 604800 :=
      Int.toNat_of_nonneg h0
    refine ⟨?_, k, ?_⟩
    · have e' : ((((h.epoch : Int) - 3 * 3600 + leap + 86400 * k - u.wn * 604800).toNat : Nat) : ℚ) = u.tow := by
        rw [htow, ← e]; push_cast; rfl
      rw [e']; exact hd
    · rw [e]; ring

/-- C26: an epoch time of a week or more is refused for constellations on GPS time. -/
theorem C26_epoch_range (h : Header) (x : Ctx) (hg : h.cons ≠ .glo) (hb : h.cons ≠ .bds) (he : 604800 ≤ h.epoch) :
    validTime h x = none := by
  unfold validTime messageTime
  rw [if_neg hg, if_neg hb, C22_rejects _ _ (by omega)]; rfl

/-! ### C27 -/

theorem phaseLoop_spec (n : Nat) (hn : 0 < n) (mk : List PhaseSig → Out) : ∀ (l acc : List PhaseSig), acc.length < n →
    ∃ gs : List (List PhaseSig), phaseLoop n mk false l acc = gs.map mk ∧ gs.flatten = acc ++ l ∧ (∀ g ∈ gs, g.length ≤ n) ∧
      (∀ g ∈ gs, g ≠ []) ∧ (∀ g ∈ gs.dropLast, g.length = n) := by
  intro l
  induction l with
  | nil =>
    intro acc ha
    unfold phaseLoop
    by_cases h : acc.length > 0
    · rw [if_pos (Or.inr h)]
      refine ⟨[acc], rfl, by simp, by simp; omega, ?_, by simp⟩
      intro g hg; simp at hg; subst hg; intro h'; simp [h'] at h
    · rw [if_neg (by simpa using h)]
      have : acc = [] := by simpa using h
      subst this
      exact ⟨[], rfl, by simp, by simp, by simp, by simp⟩
  | cons s r ih =>
    intro acc ha
    unfold phaseLoop
    by_cases h : (acc ++ [s]).length ≥ n
    · rw [if_pos h]
      obtain ⟨gs, h1, h2, h3, h4, h7⟩ := ih [] (by simpa using hn)
      refine ⟨(acc ++ [s]) :: gs, by simp [h1], by simp [h2], ?_, ?_, ?_⟩
      · intro g hg
        rcases List.mem_cons.mp hg with rfl | hg
        · simp at ha ⊢; omega
        · exact h3 g hg
      · intro g hg
        rcases List.mem_cons.mp hg with rfl | hg
        · simp
        · exact h4 g hg
      · intro g hg
        cases gs with
        | nil => simp at hg
        | cons g0 gs' =>
          rw [List.dropLast_cons_of_ne_nil (by simp)] at hg
          rcases List.mem_cons.mp hg with rfl | hg
          · simp at ha h ⊢; omega
          · exact h7 g hg
    · rw [if_neg h]
      obtain ⟨gs, h1, h2, h3, h4, h7⟩ := ih (acc ++ [s]) (by omega)
      exact ⟨gs, h1, by simp [h2], h3, h4, h7⟩

theorem phaseLoop_split (n : Nat) (hn : 0 < n) (mk : List PhaseSig → Out) (l : List PhaseSig) :
    ∃ gs, phaseLoop n mk l.isEmpty l [] = gs.map mk ∧ SplitOf n l gs := by
  cases l with
  | nil => exact ⟨[[]], by simp [phaseLoop], ⟨rfl, by simp, by simp, by simp, by simp⟩⟩
  | cons a r =>
    obtain ⟨gs, h1, h2, h3, h4, h5⟩ := phaseLoop_spec n hn mk (a :: r) [] (by simpa using hn)
    refine ⟨gs, h1, ⟨by simpa using h2, h3, h5, fun g hg he => absurd he (h4 g hg), ?_⟩⟩
    rintro rfl; simp at h2

/-- C27: a phase-bias message gives, for each satellite in turn, its signals split into SBP messages of at most
`maxPhase` signals, nothing lost, duplicated or reordered, all with the data of that satellite. -/
theorem C27_phase (env : Env) (hn : 0 < env.maxPhase) (x : Ctx) (h : Header) (l : List PhaseBias) (t : SbpTime)
    (ht : validTime h x = some t) :
    ∃ parts : List (List (List PhaseSig)), List.Forall₂ (fun b gs => SplitOf env.maxPhase b.signals gs) l parts ∧
      phaseBias env x h l = ((l.zip parts).flatMap fun q => q.2.map fun g => Out.phaseBias (phaseMsg env h t q.1 g)) := by
  induction l with
  | nil => exact ⟨[], .nil, rfl⟩
  | cons b r ih =>
    obtain ⟨parts, h1, h2⟩ := ih
    obtain ⟨gs, h3, h4⟩ := phaseLoop_split env.maxPhase hn (fun sigs => Out.phaseBias (phaseMsg env h t b sigs)) b.signals
    refine ⟨gs :: parts, .cons h4 h1, ?_⟩
    simp only [phaseBias, ht, List.zip_cons_cons, List.flatMap_cons, ← h2, ← h3]
    rfl

/-- C27: a code-bias message gives one SBP message per satellite with all its biases. -/
theorem C27_code (env : Env) (x : Ctx) (h : Header) (l : List CodeBias) (t : SbpTime) (ht : validTime h x = some t) :
    codeBias env x h l = l.map fun b => Out.codeBias (codeMsg env h t b) := by
  induction l with
  | nil => rfl
  | cons b r ih => simp only [codeBias, ht, ih, List.map_cons]; rfl

/-- C27: without a usable time nothing is sent. -/
theorem C27_no_time (env : Env) (x : Ctx) (h : Header) (ht : validTime h x = none) (l : List PhaseBias) (l' : List CodeBias) :
    phaseBias env x h l = [] ∧ codeBias env x h l' = [] := by
  constructor
  · cases l <;> simp [phaseBias, ht]
  · cases l' <;> simp [codeBias, ht]

theorem many_ok_mem {α} {d : Dec α} {k : Nat} {s r : List Bool} {l : List α} (h : Dec.many d k s = (.ok l, r)) :
    ∀ a ∈ l, ∃ s1 s2, d s1 = (.ok a, s2) := by
  induction k generalizing s l r with
  | zero => unfold Dec.many at h; rw [Dec.pure_def] at h; simp at h; intro a ha; rw [h.1] at ha; simp at ha
  | succ k ih =>
    unfold Dec.many at h
    obtain ⟨a, s1, h1, h⟩ := bind_ok h
    obtain ⟨l', s2, h2, h⟩ := bind_ok h
    rw [Dec.pure_def] at h
    simp only [Prod.mk.injEq, Except.ok.injEq] at h
    rw [← h.1]
    intro b hb
    rcases List.mem_cons.mp hb with rfl | hb
    · exact ⟨_, _, h1⟩
    · exact ih h2 b hb

theorem ssr_numSats {s s' : List Bool} {h : Ssr.Header} (hr : Ssr.readHeader s = (.ok h, s')) : h.numSats < 64 := by
  unfold Ssr.readHeader at hr
  obtain ⟨n, s1, h1, hr⟩ := bind_ok hr
  cases hc : Msm.toConstellation n with
  | none => rw [hc] at hr; simp [Dec.fail] at hr
  | some c =>
    rw [hc] at hr
    simp only at hr
    obtain ⟨_, _, _, hr⟩ := bind_ok hr
    obtain ⟨_, _, _, hr⟩ := bind_ok hr
    obtain ⟨_, _, _, hr⟩ := bind_ok hr
    cases h1 : Ssr.isOrbitClock n <;> cases h2 : Ssr.isPhaseBias n <;>
    · rw [h1, h2] at hr
      simp only [if_true, if_false, Bool.false_eq_true] at hr
      iterate 6 obtain ⟨_, _, _, hr⟩ := bind_ok hr
      obtain ⟨_, _, hn, hr⟩ := bind_ok hr
      rw [Dec.pure_def] at hr
      simp only [Prod.mk.injEq, Except.ok.injEq] at hr
      rw [← hr.1]; exact (getU_ok hn).1

/-- C27: decoded bias messages never exceed the decoder's arrays (64 satellites, 32 signals) nor, for code biases, the 81
entries of the SBP message. -/
theorem C27_bounded (p : Buf) (h : Header) :
    (∀ l, decodeCodeBias.run p = .ok (h, l) → l.length < 64 ∧ ∀ b ∈ l, b.signals.length < 32) ∧
    (∀ l, decodePhaseBias.run p = .ok (h, l) → l.length < 64 ∧ ∀ b ∈ l, b.signals.length < 32) := by
  constructor
  · intro l hd
    obtain ⟨r, hr⟩ := run_ok hd
    unfold decodeCodeBias at hr
    obtain ⟨hd, s1, h1, hr⟩ := bind_ok hr
    obtain ⟨_, _, _, hr⟩ := bind_ok hr
    obtain ⟨l', _, h3, hr⟩ := bind_ok hr
    rw [Dec.pure_def] at hr
    simp only [Prod.mk.injEq, Except.ok.injEq] at hr
    obtain ⟨⟨-, rfl⟩, -⟩ := hr
    refine ⟨by rw [many_ok_length h3]; exact ssr_numSats h1, ?_⟩
    intro b hb
    obtain ⟨t1, t2, h4⟩ := many_ok_mem h3 b hb
    obtain ⟨_, _, _, h4⟩ := bind_ok h4
    obtain ⟨_, _, h5, h4⟩ := bind_ok h4
    obtain ⟨_, _, h6, h4⟩ := bind_ok h4
    rw [Dec.pure_def] at h4
    simp only [Prod.mk.injEq, Except.ok.injEq] at h4
    rw [← h4.1]
    simp only [many_ok_length h6]
    exact (getU_ok h5).1
  · intro l hd
    obtain ⟨r, hr⟩ := run_ok hd
    unfold decodePhaseBias at hr
    obtain ⟨hd, s1, h1, hr⟩ := bind_ok hr
    obtain ⟨_, _, _, hr⟩ := bind_ok hr
    obtain ⟨l', _, h3, hr⟩ := bind_ok hr
    rw [Dec.pure_def] at hr
    simp only [Prod.mk.injEq, Except.ok.injEq] at hr
    obtain ⟨⟨-, rfl⟩, -⟩ := hr
    refine ⟨by rw [many_ok_length h3]; exact ssr_numSats h1, ?_⟩
    intro b hb
    obtain ⟨t1, t2, h4⟩ := many_ok_mem h3 b hb
    obtain ⟨_, _, _, h4⟩ := bind_ok h4
    obtain ⟨_, _, h5, h4⟩ := bind_ok h4
    obtain ⟨_, _, _, h4⟩ := bind_ok h4
    obtain ⟨_, _, _, h4⟩ := bind_ok h4
    obtain ⟨_, _, h6, h4⟩ := bind_ok h4
    rw [Dec.pure_def] at h4
    simp only [Prod.mk.injEq, Except.ok.injEq] at h4
    rw [← h4.1]
    simp only [many_ok_length h6]
    exact (getU_ok h5).1

/-- C27: what the dispatcher does with the bias and combined messages: exactly these conversions, and the waiting orbit or
clock messages are untouched. -/
theorem C27_dispatch (env : Env) (s : State) (x : Ctx) (p : Buf) :
    (∀ h l, msgNum p ∈ [1059, 1065, 1242, 1248, 1260] → decodeCodeBias.run p = .ok (h, l) →
      step env s x p = (s, codeBias env x h l)) ∧
    (∀ h l, msgNum p ∈ [1265, 1266, 1267, 1268, 1269, 1270] → decodePhaseBias.run p = .ok (h, l) →
      step env s x p = (s, phaseBias env x h l)) ∧
    (∀ h l, msgNum p ∈ [1060, 1066, 1243, 1249, 1261] → decodeOrbitClock.run p = .ok (h, l) →
      step env s x p = (s, combined env x h l)) := by
  refine ⟨?_, ?_, ?_⟩ <;>
  · intro h l hn hd
    unfold step
    simp only [messageType_eq, List.mem_cons, List.not_mem_nil, or_false] at hn ⊢
    first
    | (rcases hn with e | e | e | e | e | e <;> simp only [e] <;> simp [hd])
    | (rcases hn with e | e | e | e | e <;> simp only [e] <;> simp [hd])

/-! ### witnesses -/

def exEnv : Env := ⟨fun _ => .gps_l1ca, 30⟩
def exCtx : Ctx := ⟨⟨2100, 345600⟩, some 18⟩
def exHeader (n : Nat) (sats : Nat) : Header := ⟨n, .gps, 345600, 2, 0, 0, 3, 11, 1, 0, 0, sats⟩
def exOrbit (sat : Nat) : Orbit := ⟨sat, 77, 0, 1, 2, 3, 4, 5, 6⟩
def exClock (sat : Nat) : Nat × Option Clock := (sat, some ⟨sat, 7, 8, 9⟩)

/-- an orbit message 1057 (one satellite) and a clock message 1058 for the same epoch and IOD SSR -/
def exOrbitPayload : Buf := [66, 21, 70, 0, 32, 192, 2, 196, 17, 83, 64, 0, 1, 0, 0, 32, 0, 3, 0, 0, 32, 0, 5, 0, 0, 192]
def exClockPayload : Buf := [66, 37, 70, 0, 33, 128, 5, 136, 34, 128, 0, 14, 0, 0, 128, 0, 0, 18]

/-- the hypotheses above are met: a usable time; an orbit and a clock message are paired and converted -/
example : validTime (exHeader 1057 1) exCtx = some ⟨2100, 345600⟩ := by decide +kernel
example : (run exEnv State.zero [(exCtx, exOrbitPayload), (exCtx, exClockPayload)]).2 =
    [.orbitClock ⟨⟨⟨2100, 345600⟩, .gps_l1ca, 5, 2, 3⟩, 77, 1, 2, 3, 4, 5, 6, some (7, 8, 9)⟩] := by decide +kernel
/-- a second clock message finds no partner -/
example : (run exEnv State.zero [(exCtx, exOrbitPayload), (exCtx, exClockPayload), (exCtx, exClockPayload)]).2.length = 1 := by
  decide +kernel

/-- C26 does not hold in full: with more clock than orbit corrections, a satellite (9) present in both messages is not
converted, because the loop stops at the number of orbit corrections. -/
theorem C26_dropped_bug : ∃ cm om, 9 ∈ cm.2.map (·.1) ∧ 9 ∈ om.2.map (·.satId) ∧ validTime om.1 exCtx ≠ none ∧
    9 ∉ (orbitClocks (separate exEnv exCtx cm om)).map (·.common.sat) :=
  ⟨(exHeader 1058 2, [exClock 5, exClock 9]), (exHeader 1057 1, [exOrbit 9]), by decide, by decide, by decide +kernel, by decide +kernel⟩

/-- C26 does not hold in full: the cache is not initialised by `rtcm2sbp_init`; if the caller's memory is not zeroed, a
single clock message can be combined with an orbit message that was never received. -/
theorem C26_uninitialised_bug : ∃ s : State, (run exEnv s [(exCtx, exClockPayload)]).2 ≠ [] :=
  ⟨fun _ => ⟨.inr (exHeader 1057 1, [exOrbit 5]), false, true⟩, by decide +kernel⟩

/-- C26 does not hold in full: a BeiDou epoch time of a week or more is accepted (it is wrapped before it is checked). -/
theorem C26_bds_epoch_bug : validTime { exHeader 1258 1 with cons := .bds, epoch := 700000 } exCtx = some ⟨2100, 95214⟩ := by
  decide +kernel

/-- C26: a Galileo issue of data (10 bits) does not fit the SBP field (8 bits), so different issues become equal. -/
theorem C26_galileo_iod_bug : ∃ o1 o2 : Orbit, o1.iode ≠ o2.iode ∧ o1.iode < 1024 ∧ o2.iode < 1024 ∧
    mkOrbitClock exEnv exCtx { exHeader 1240 1 with cons := .gal } o1 none =
      mkOrbitClock exEnv exCtx { exHeader 1240 1 with cons := .gal } o2 none :=
  ⟨{ exOrbit 5 with iode := 1 }, { exOrbit 5 with iode := 257 }, by decide, by decide, by decide, by decide +kernel⟩

/-- C26 does not hold in full: the provider (and likewise solution and update interval) is not compared, so the clock
correction of provider 13 is applied to the orbit correction of provider 11. -/
theorem C26_provider_bug : ∃ p q : Buf, (decodeOrbit.run p).toOption.map (·.1.provider) = some 11 ∧
    (decodeClock.run q).toOption.map (·.1.provider) = some 13 ∧
    (run exEnv State.zero [(exCtx, p), (exCtx, q)]).2.length = 1 :=
  ⟨exOrbitPayload, [66, 37, 70, 0, 33, 128, 6, 136, 34, 128, 0, 14, 0, 0, 128, 0, 0, 18], by decide +kernel, by decide +kernel,
    by decide +kernel⟩

end Verif.SsrSbp
