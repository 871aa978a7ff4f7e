import Verif.Spec.SbpMsm
import Verif.Props.C17_C19
import Verif.Props.C22_C23
import Verif.Lemmas.RtcmSbp
import Verif.Lemmas.Rounding
/-
C29: the MSM messages of an epoch.
-/
namespace Verif.SbpRtcm
open Verif.SbpRtcm.Spec Verif.Msm.Spec
open Verif.Msm hiding Inv
open Verif.RtcmSbp (SbpTime SbpObs crint)
open Verif.Spec (Rounded)

/-! ### the three passes, constellation by constellation -/

def pairs (env : Env) (c : Cons) (l : List SbpObs) : List (Code × Nat) := (obsFor env c l).map fun o => (o.code, o.sat)

theorem obsFor_cons (env : Env) (c : Cons) (o : SbpObs) (l : List SbpObs) :
    obsFor env c (o :: l) = if env.consOf o.code = some c then o :: obsFor env c l else obsFor env c l := by
  simp [obsFor, List.filter_cons]

theorem Builds.set_self (b : Builds) (c : Cons) (v : Build) : Builds.set b c v c = v := by simp [Builds.set]
theorem Builds.set_other (b : Builds) (c d : Cons) (v : Build) (h : d ≠ c) : Builds.set b c v d = b d := by simp [Builds.set, h]

theorem pass1_eq (env : Env) (l : List SbpObs) (b : Builds) (H : Cons → Hdr) (oks : Cons → List Bool)
    (hk : ∀ o ∈ l, ∃ c, env.consOf o.code = some c)
    (h : ∀ c, addAll env.prn (b c).hdr (pairs env c l) = some (H c, oks c)) :
    pass1 env b l = some fun c => { b c with hdr := H c } := by
  induction l generalizing b oks with
  | nil =>
    simp only [pass1, Option.some.injEq]
    funext c
    have := h c
    simp only [pairs, obsFor, List.filter_nil, List.map_nil, addAll, Option.some.injEq, Prod.mk.injEq] at this
    rw [← this.1]
  | cons o r ih =>
    obtain ⟨c, hc⟩ := hk o (by simp)
    unfold pass1
    have hcc := h c
    simp only [pairs, obsFor_cons, hc, if_true, List.map_cons, addAll] at hcc
    simp only [hc, Option.bind_eq_bind, Option.bind_some]
    cases ha : addToHeader env.prn (b c).hdr o.code o.sat with
    | none => rw [ha] at hcc; simp at hcc
    | some x =>
      rw [ha] at hcc
      simp only [Option.bind_eq_bind, Option.bind_some] at hcc ⊢
      cases hr : addAll env.prn x.1 ((obsFor env c r).map fun o => (o.code, o.sat)) with
      | none => rw [hr] at hcc; simp at hcc
      | some y =>
        rw [hr] at hcc
        simp only [Option.bind_some, Option.pure_def, Option.some.injEq, Prod.mk.injEq] at hcc
        rw [ih (Builds.set b c { b c with hdr := x.1 }) (fun d => if d = c then y.2 else oks d) (fun o ho => hk o (by simp [ho]))]
        · congr 1
          funext d
          by_cases hd : d = c
          · subst hd; simp [Builds.set]
          · simp [Builds.set, hd]
        · intro d
          by_cases hd : d = c
          · subst hd
            simp only [Builds.set_self, if_true]
            show addAll env.prn x.1 ((obsFor env d r).map fun o => (o.code, o.sat)) = _
            rw [hr, ← hcc.1]
          · have := h d
            simp only [pairs, obsFor_cons, hc, Option.some.injEq, if_neg (Ne.symm hd)] at this
            simp only [Builds.set_other _ _ _ _ hd, if_neg hd]
            exact this

theorem pass2_eq (env : Env) (l : List SbpObs) (b : Builds) (H : Cons → Hdr) (oks : Cons → List Bool)
    (hk : ∀ o ∈ l, ∃ c, env.consOf o.code = some c)
    (h : ∀ c, cellAll env.prn (b c).hdr (pairs env c l) = some (H c, oks c)) :
    pass2 env b l = some fun c => { b c with hdr := H c } := by
  induction l generalizing b oks with
  | nil =>
    simp only [pass2, Option.some.injEq]
    funext c
    have := h c
    simp only [pairs, obsFor, List.filter_nil, List.map_nil, cellAll, Option.some.injEq, Prod.mk.injEq] at this
    rw [← this.1]
  | cons o r ih =>
    obtain ⟨c, hc⟩ := hk o (by simp)
    unfold pass2
    have hcc := h c
    simp only [pairs, obsFor_cons, hc, if_true, List.map_cons, cellAll] at hcc
    simp only [hc, Option.bind_eq_bind, Option.bind_some]
    cases ha : addToCellMask env.prn (b c).hdr o.code o.sat with
    | none => rw [ha] at hcc; simp at hcc
    | some x =>
      rw [ha] at hcc
      simp only [Option.bind_eq_bind, Option.bind_some] at hcc ⊢
      cases hr : cellAll env.prn x.1 ((obsFor env c r).map fun o => (o.code, o.sat)) with
      | none => rw [hr] at hcc; simp at hcc
      | some y =>
        rw [hr] at hcc
        simp only [Option.bind_some, Option.pure_def, Option.some.injEq, Prod.mk.injEq] at hcc
        rw [ih (Builds.set b c { b c with hdr := x.1 }) (fun d => if d = c then y.2 else oks d) (fun o ho => hk o (by simp [ho]))]
        · congr 1
          funext d
          by_cases hd : d = c
          · subst hd; simp [Builds.set]
          · simp [Builds.set, hd]
        · intro d
          by_cases hd : d = c
          · subst hd
            simp only [Builds.set_self, if_true]
            show cellAll env.prn x.1 ((obsFor env d r).map fun o => (o.code, o.sat)) = _
            rw [hr, ← hcc.1]
          · have := h d
            simp only [pairs, obsFor_cons, hc, Option.some.injEq, if_neg (Ne.symm hd)] at this
            simp only [Builds.set_other _ _ _ _ hd, if_neg hd]
            exact this

/-- the third pass on one message -/
def fillAll (env : Env) (cfg : Config) (c : Cons) : Build → List SbpObs → Option Build
  | b, [] => some b
  | b, o :: r => do
    let v ← fillSignal env cfg c b o
    fillAll env cfg c v r

theorem pass3_eq (env : Env) (cfg : Config) (l : List SbpObs) (b B : Builds)
    (hk : ∀ o ∈ l, ∃ c, env.consOf o.code = some c)
    (h : ∀ c, fillAll env cfg c (b c) (obsFor env c l) = some (B c)) : pass3 env cfg b l = some B := by
  induction l generalizing b with
  | nil =>
    simp only [pass3, Option.some.injEq]
    funext c
    simpa [obsFor, fillAll] using h c
  | cons o r ih =>
    obtain ⟨c, hc⟩ := hk o (by simp)
    unfold pass3
    have hcc := h c
    simp only [obsFor_cons, hc, if_true, fillAll] at hcc
    simp only [hc, Option.bind_eq_bind, Option.bind_some]
    cases ha : fillSignal env cfg c (b c) o with
    | none => rw [ha] at hcc; simp at hcc
    | some x =>
      rw [ha] at hcc
      simp only [Option.bind_eq_bind, Option.bind_some] at hcc ⊢
      apply ih _ (fun o ho => hk o (by simp [ho]))
      intro d
      by_cases hd : d = c
      · subst hd; rw [Builds.set_self]; exact hcc
      · have := h d
        simp only [obsFor_cons, hc, Option.some.injEq, if_neg (Ne.symm hd)] at this
        rw [Builds.set_other _ _ _ _ hd]
        exact this

/-! ### masks -/

theorem count_le_of_positions (mask : List Bool) (S : List Nat) (h : ∀ i : Nat, mask[i]? = some true → i ∈ S) :
    mask.count true ≤ S.length := by
  have e : mask.count true = ((List.range mask.length).filter fun i => mask[i]? == some true).length := by
    clear h
    induction mask using List.reverseRecOn with
    | nil => simp
    | append_singleton l b ih =>
      rw [List.count_append, List.length_append, List.length_singleton, List.range_succ, List.filter_append,
        List.length_append, ih]
      congr 1
      · congr 1
        apply List.filter_congr
        intro i hi
        rw [List.getElem?_append_left (by simpa using hi)]
      · cases b <;> simp
  rw [e]
  apply List.Subperm.length_le
  apply List.Nodup.subperm
  · exact (List.nodup_range).filter _
  · intro i hi
    simp only [List.mem_filter, List.mem_range, beq_iff_eq] at hi
    exact h i hi.2

/-- positions set in the masks -/
def Within (h : Hdr) (S G : List Nat) : Prop :=
  (∀ i : Nat, h.sat[i]? = some true → i ∈ S) ∧ (∀ i : Nat, h.sig[i]? = some true → i ∈ G)

theorem set_positions {l : List Bool} {k : Nat} {S : List Nat} (h : ∀ i : Nat, l[i]? = some true → i ∈ S) (hk : k ∈ S) :
    ∀ i : Nat, (l.set k true)[i]? = some true → i ∈ S := by
  intro i hi
  rw [List.getElem?_set] at hi
  split at hi
  · rename_i e; rw [← e]; exact hk
  · exact h i hi

theorem add_true (t : PrnTable) (ht : t.WF) (h : Hdr) (hi : Verif.Msm.Inv h) (hc : h.cell = List.replicate maxCells false)
    (code : Code) (prn : Nat) (S G : List Nat) (hw : Within h S G) (hsg : S.length * G.length ≤ 64)
    (hs : Supported h.cons code) (hp : prnValid t h.cons prn) (hS : prnToSatId t prn h.cons ∈ S)
    (hG : codeToSignalId code h.cons ∈ G) :
    ∃ h', addToHeader t h code prn = some (h', true) ∧ Within h' S G := by
  have h64 := C18_prn_roundtrip t ht h.cons prn hp
  have h32 := codeToSignalId_some hs
  have l1 := hi.sat
  have l2 := hi.sig
  have b1 : numSats h ≤ S.length := by
    unfold numSats; rw [countMask_full l1]; exact count_le_of_positions _ _ hw.1
  have b2 : numSigs h ≤ G.length := by
    unfold numSigs; rw [countMask_full l2]; exact count_le_of_positions _ _ hw.2
  unfold addToHeader
  rw [if_neg (by rw [not_not]; exact numCells_empty hc), if_neg hs.1, if_neg (by simpa using hp)]
  simp only
  have hg1 : ∃ g, h.sig[codeToSignalId code h.cons]? = some g :=
    ⟨_, List.getElem?_eq_getElem (by rw [l2]; exact h32.1)⟩
  have hs1 : ∃ g, h.sat[prnToSatId t prn h.cons]? = some g :=
    ⟨_, List.getElem?_eq_getElem (by rw [l1]; exact h64.1)⟩
  obtain ⟨g, hg⟩ := hg1
  obtain ⟨a, ha⟩ := hs1
  have wG : Within { h with sig := h.sig.set (codeToSignalId code h.cons) true } S G := ⟨hw.1, set_positions hw.2 hG⟩
  have gsucc : g = false → numSigs h + 1 ≤ G.length := by
    rintro rfl
    have := count_le_of_positions _ _ wG.2
    simp only at this
    rw [count_set hg] at this
    unfold numSigs; rw [countMask_full l2]; exact this
  have ssucc : a = false → numSats h + 1 ≤ S.length := by
    rintro rfl
    have := count_le_of_positions _ _ (set_positions hw.1 hS)
    rw [count_set ha] at this
    unfold numSats; rw [countMask_full l1]; exact this
  rw [ha]
  cases a with
  | true =>
    simp only [hg]
    cases g with
    | true => exact ⟨h, rfl, hw⟩
    | false =>
      simp only
      rw [if_pos ((Nat.mul_le_mul b1 (gsucc rfl)).trans hsg)]
      exact ⟨_, rfl, wG⟩
  | false =>
    simp only [hg]
    rw [if_pos ((Nat.mul_le_mul (ssucc rfl) b2).trans hsg)]
    cases g with
    | true => exact ⟨_, rfl, set_positions hw.1 hS, hw.2⟩
    | false =>
      simp only
      rw [if_pos ((Nat.mul_le_mul (ssucc rfl) (gsucc rfl)).trans hsg)]
      exact ⟨_, rfl, set_positions hw.1 hS, set_positions hw.2 hG⟩

theorem addAll_true (t : PrnTable) (ht : t.WF) (ps : List (Code × Nat)) (S G : List Nat) (hsg : S.length * G.length ≤ 64)
    (h : Hdr) (hi : Verif.Msm.Inv h) (hc : h.cell = List.replicate maxCells false) (hw : Within h S G)
    (hp : ∀ p ∈ ps, Supported h.cons p.1 ∧ prnValid t h.cons p.2 ∧ prnToSatId t p.2 h.cons ∈ S ∧ codeToSignalId p.1 h.cons ∈ G) :
    ∃ h', addAll t h ps = some (h', ps.map fun _ => true) ∧ Within h' S G := by
  induction ps generalizing h with
  | nil => exact ⟨h, rfl, hw⟩
  | cons p ps ih =>
    obtain ⟨h1, h2, h3, h4⟩ := hp p (by simp)
    obtain ⟨h', e, w⟩ := add_true t ht h hi hc p.1 p.2 S G hw hsg h1 h2 h3 h4
    obtain ⟨h1', ok, e1, i1, c1, d1, -, -, -⟩ := add_spec t ht h hi hc p.1 p.2 (Or.inr h1)
    rw [e] at e1
    simp only [Option.some.injEq, Prod.mk.injEq] at e1
    obtain ⟨rfl, -⟩ := e1
    obtain ⟨h2', e2, w2⟩ := ih h' i1 (c1.trans hc) w (by rw [d1]; exact fun q hq => hp q (by simp [hq]))
    exact ⟨h2', by simp [addAll, e, e2], w2⟩

/-! ### signal data -/

/-- index of the data of an observation among the set cells -/
def rank (env : Env) (h : Hdr) (o : SbpObs) : Nat := countMask (cellId env.prn h (o.code, o.sat)) h.cell

def freqOf (env : Env) (cfg : Config) (c : Cons) (o : SbpObs) : Option ℚ := env.freq o.code (channel cfg c o.sat)

structure Filled (env : Env) (cfg : Config) (c : Cons) (h : Hdr) (D : List SbpObs) (b : Build) : Prop where
  hdr : b.hdr = h
  nsats : b.sats.length = 32
  nsigs : b.sigs.length = 64
  sigs : ∀ o ∈ D, ∃ s, b.sigs[rank env h o]? = some (sigData (freqOf env cfg c o) o s)
  sats : ∀ o ∈ D, ∃ o' ∈ D, o'.sat = o.sat ∧ ∃ s, b.sats[prnToSatIndex env.prn h o.sat]? =
    some (satData c cfg (freqOf env cfg c o') o' s)

theorem signalToCode_in {t : PrnTable} {h : Hdr} {p : Code × Nat} (hp : InMasks t h p) :
    signalToCode h (codeToSignalIndex h p.1) = some p.1 := by
  have h32 := codeToSignalId_some hp.1
  unfold signalToCode codeToSignalIndex
  rw [findNth_of h32.1 hp.2.2.2]
  simp [h32.2]

theorem row_lt {t : PrnTable} (ht : t.WF) {h : Hdr} {p : Code × Nat} (hp : InMasks t h p) :
    prnToSatIndex t h p.2 < numSats h :=
  countMask_lt (C18_prn_roundtrip t ht h.cons p.2 hp.2.1).1 hp.2.2.1

theorem fill_step (env : Env) (ht : env.prn.WF) (cfg : Config) (c : Cons) (h : Hdr) (hi : Verif.Msm.Inv h) (hc : h.cons = c)
    (hn : numSats h ≤ 32) (D : List SbpObs) (b : Build) (hf : Filled env cfg c h D b) (o : SbpObs)
    (hin : ∀ o' ∈ o :: D, InMasks env.prn h (o'.code, o'.sat) ∧ h.cell[cellId env.prn h (o'.code, o'.sat)]? = some true)
    (hd : ∀ o' ∈ D, (o'.code, o'.sat) ≠ (o.code, o.sat)) :
    ∃ b', fillSignal env cfg c b o = some b' ∧ Filled env cfg c h (o :: D) b' := by
  obtain ⟨hm, hcell⟩ := hin o (by simp)
  have hlt := cellId_lt env.prn ht h _ hm
  have hprod := hi.prod
  have hid : (prnToSatIndex env.prn h o.sat * numSigs h + codeToSignalIndex h o.code) % 256 =
      cellId env.prn h (o.code, o.sat) := by unfold cellId at hlt ⊢; simp only at hlt ⊢; omega
  have hrow := row_lt ht hm
  simp only at hrow
  have hrank : rank env h o < 64 := by
    unfold rank
    have := countMask_lt (size := 64) (p := cellId env.prn h (o.code, o.sat)) (by omega) hcell
    have h2 : countMask 64 h.cell ≤ 64 := by
      unfold countMask; exact List.count_le_length.trans (by simp)
    omega
  obtain ⟨s, hs⟩ : ∃ s, b.sats[prnToSatIndex env.prn h o.sat]? = some s :=
    ⟨_, List.getElem?_eq_getElem (by rw [hf.nsats]; omega)⟩
  obtain ⟨g, hg⟩ : ∃ g, b.sigs[rank env h o]? = some g :=
    ⟨_, List.getElem?_eq_getElem (by rw [hf.nsigs]; exact hrank)⟩
  refine ⟨{ b with sats := b.sats.set (prnToSatIndex env.prn h o.sat) (satData c cfg (freqOf env cfg c o) o s),
                   sigs := b.sigs.set (rank env h o) (sigData (freqOf env cfg c o) o g) }, ?_, ?_⟩
  · unfold fillSignal
    have hv : prnValid env.prn c o.sat := hc ▸ hm.2.1
    rw [if_neg (by simpa using hv)]
    simp only [hf.hdr, hid, hcell]
    have hr : countMask (cellId env.prn h (o.code, o.sat)) h.cell = rank env h o := rfl
    rw [hr, hs, hg, signalToCode_in hm]
    rfl
  · refine ⟨hf.hdr, by simp [hf.nsats], by simp [hf.nsigs], ?_, ?_⟩
    · intro o' ho'
      by_cases he : rank env h o = rank env h o'
      · have hin' := hin o' ho'
        have := countMask_inj hcell hin'.2 he
        have := cellId_inj env.prn h _ _ hm hin'.1 this
        rcases List.mem_cons.mp ho' with rfl | hD
        · refine ⟨g, ?_⟩
          simp only
          rw [List.getElem?_set_self (by rw [hf.nsigs]; exact hrank)]
        · exact absurd this.symm (hd o' hD)
      · rcases List.mem_cons.mp ho' with rfl | hD
        · exact absurd rfl he
        · obtain ⟨s', hs'⟩ := hf.sigs o' hD
          refine ⟨s', ?_⟩
          simp only
          rw [List.getElem?_set_ne he]
          exact hs'
    · intro o' ho'
      by_cases he : prnToSatIndex env.prn h o.sat = prnToSatIndex env.prn h o'.sat
      · have hin' := (hin o' ho').1
        have e1 := countMask_inj hm.2.2.1 hin'.2.2.1 he
        have e2 : o.sat = o'.sat := C18_prn_injective env.prn h.cons _ _ hm.2.1 hin'.2.1 e1
        refine ⟨o, by simp, e2, s, ?_⟩
        simp only
        rw [← he, List.getElem?_set_self (by rw [hf.nsats]; omega)]
      · rcases List.mem_cons.mp ho' with rfl | hD
        · exact absurd rfl he
        · obtain ⟨o2, h2, e2, s', hs'⟩ := hf.sats o' hD
          refine ⟨o2, by simp [h2], e2, s', ?_⟩
          simp only
          rw [List.getElem?_set_ne he]
          exact hs'

theorem fillAll_spec (env : Env) (ht : env.prn.WF) (cfg : Config) (c : Cons) (h : Hdr) (hi : Verif.Msm.Inv h) (hc : h.cons = c)
    (hn : numSats h ≤ 32) (l D : List SbpObs) (b : Build) (hf : Filled env cfg c h D b)
    (hin : ∀ o' ∈ D ++ l, InMasks env.prn h (o'.code, o'.sat) ∧ h.cell[cellId env.prn h (o'.code, o'.sat)]? = some true)
    (hd : ((D ++ l).map fun o => (o.code, o.sat)).Nodup) :
    ∃ b', fillAll env cfg c b l = some b' ∧ b'.hdr = h ∧ b'.sats.length = 32 ∧ b'.sigs.length = 64 ∧
      (∀ o ∈ D ++ l, ∃ s, b'.sigs[rank env h o]? = some (sigData (freqOf env cfg c o) o s)) ∧
      (∀ o ∈ D ++ l, ∃ o' ∈ D ++ l, o'.sat = o.sat ∧ ∃ s, b'.sats[prnToSatIndex env.prn h o.sat]? =
        some (satData c cfg (freqOf env cfg c o') o' s)) := by
  induction l generalizing D b with
  | nil => exact ⟨b, rfl, hf.hdr, hf.nsats, hf.nsigs, by simpa using hf.sigs, by simpa using hf.sats⟩
  | cons o r ih =>
    have hd' : ∀ o' ∈ D, (o'.code, o'.sat) ≠ (o.code, o.sat) := by
      intro o' ho' he
      rw [List.map_append, List.nodup_append] at hd
      exact hd.2.2 _ (List.mem_map.mpr ⟨o', ho', rfl⟩) _ (by simp) he
    obtain ⟨b1, e1, f1⟩ := fill_step env ht cfg c h hi hc hn D b hf o (fun o' ho' => hin o' (by
      simp only [List.mem_cons] at ho'; simp only [List.mem_append, List.mem_cons]; tauto)) hd'
    have hperm : (D ++ o :: r).Perm (o :: D ++ r) := List.perm_middle
    obtain ⟨b2, e2, g⟩ := ih (o :: D) b1 f1 (fun o' ho' => hin o' (hperm.mem_iff.mpr ho')) ((hperm.map _).nodup hd)
    refine ⟨b2, by simp [fillAll, e1, e2], g.1, g.2.1, g.2.2.1, ?_, ?_⟩
    · intro o' ho'
      exact g.2.2.2.1 o' (hperm.mem_iff.mp ho')
    · intro o' ho'
      obtain ⟨o2, h2, h3⟩ := g.2.2.2.2 o' (hperm.mem_iff.mp ho')
      exact ⟨o2, hperm.mem_iff.mpr h2, h3⟩

/-! ### one constellation -/

theorem count_eq_of_positions (mask : List Bool) (S : List Nat) (hn : S.Nodup)
    (h : ∀ i : Nat, mask[i]? = some true ↔ i ∈ S) : mask.count true = S.length := by
  apply Nat.le_antisymm (count_le_of_positions mask S fun i hi => (h i).mp hi)
  revert hn h
  induction mask using List.reverseRecOn generalizing S with
  | nil =>
    intro _ h
    cases S with
    | nil => simp
    | cons a r => have := (h a).mpr (by simp); simp at this
  | append_singleton l b ih =>
    intro hn h
    rw [List.count_append]
    have hl : ∀ i : Nat, l[i]? = some true ↔ i ∈ S.erase l.length := by
      intro i
      rw [hn.mem_erase_iff, ← h i]
      constructor
      · intro hi
        have : i < l.length := by
          by_contra hh
          rw [List.getElem?_eq_none (by omega)] at hi
          simp at hi
        exact ⟨by omega, by rw [List.getElem?_append_left this]; exact hi⟩
      · rintro ⟨h1, h2⟩
        by_cases hh : i < l.length
        · rwa [List.getElem?_append_left hh] at h2
        · rw [List.getElem?_append_right (by omega)] at h2
          have : i - l.length ≠ 0 := by omega
          rw [List.getElem?_singleton, if_neg this] at h2
          simp at h2
    have := ih _ (hn.erase _) hl
    rw [List.length_erase] at this
    have hb : b = true ↔ l.length ∈ S := by rw [← h l.length]; simp
    split at this
    · rename_i hm
      rw [hb.mpr hm]
      simp only [List.count_singleton_self]
      omega
    · omega

structure ConsOk (env : Env) (cfg : Config) (c : Cons) (l : List SbpObs) (h1 h2 : Hdr) (b : Build) : Prop where
  add : addAll env.prn (Hdr.empty c) (pairs env c l) = some (h1, (pairs env c l).map fun _ => true)
  cell : cellAll env.prn h1 (pairs env c l) = some (h2, (pairs env c l).map fun _ => true)
  fill : fillAll env cfg c ⟨h2, List.replicate 32 Sat.zero, List.replicate 64 Sig.zero⟩ (obsFor env c l) = some b
  hdr : b.hdr = h2
  cons : h2.cons = c
  inv : Verif.Msm.Inv h2
  numSats : Msm.numSats h2 ≤ 32
  inMasks : ∀ o ∈ obsFor env c l, InMasks env.prn h2 (o.code, o.sat)
  cells : ∀ k : Nat, h2.cell[k]? = some true ↔ ∃ p ∈ pairs env c l, cellId env.prn h2 p = k
  nsats : b.sats.length = 32
  nsigs : b.sigs.length = 64
  sigs : ∀ o ∈ obsFor env c l, ∃ s, b.sigs[rank env h2 o]? = some (sigData (freqOf env cfg c o) o s)
  sats : ∀ o ∈ obsFor env c l, ∃ o' ∈ obsFor env c l, o'.sat = o.sat ∧ ∃ s, b.sats[prnToSatIndex env.prn h2 o.sat]? =
    some (satData c cfg (freqOf env cfg c o') o' s)
  pos : Msm.numSats h2 > 0 ↔ obsFor env c l ≠ []

theorem cons_ok (env : Env) (ht : env.prn.WF) (cfg : Config) (l : List SbpObs) (hc : Clean env l) (c : Cons) :
    ∃ h1 h2 b, ConsOk env cfg c l h1 h2 b := by
  have hmem : ∀ o ∈ obsFor env c l, Supported c o.code ∧ prnValid env.prn c o.sat := by
    intro o ho
    simp only [obsFor, List.mem_filter, decide_eq_true_eq] at ho
    obtain ⟨c', e, -, h1, h2⟩ := hc.known o ho.1
    rw [ho.2] at e
    simp only [Option.some.injEq] at e
    subst e
    exact ⟨h1, h2⟩
  have hnd : (pairs env c l).Nodup := by
    unfold pairs obsFor
    exact (List.Sublist.map _ List.filter_sublist).nodup hc.distinct
  -- first pass
  let S := (((obsFor env c l).map (·.sat)).dedup).map fun prn => prnToSatId env.prn prn c
  let G := (((obsFor env c l).map (·.code)).dedup).map fun code => codeToSignalId code c
  have hS : S.length ≤ 32 := by simpa [S] using hc.sats c
  have hSG : S.length * G.length ≤ 64 := by simpa [S, G] using hc.cells c
  have hps : ∀ p ∈ pairs env c l, Supported c p.1 ∧ prnValid env.prn c p.2 ∧ prnToSatId env.prn p.2 c ∈ S ∧ codeToSignalId p.1 c ∈ G := by
    intro p hp
    simp only [pairs, List.mem_map] at hp
    obtain ⟨o, ho, rfl⟩ := hp
    refine ⟨(hmem o ho).1, (hmem o ho).2, ?_, ?_⟩
    · simp only [S, List.mem_map, List.mem_dedup]
      exact ⟨o.sat, ⟨o, ho, rfl⟩, rfl⟩
    · simp only [G, List.mem_map, List.mem_dedup]
      exact ⟨o.code, ⟨o, ho, rfl⟩, rfl⟩
  have hw0 : Within (Hdr.empty c) S G := by
    constructor <;>
    · intro i hi
      simp [Hdr.empty, List.getElem?_replicate] at hi
  obtain ⟨h1, e1, w1⟩ := addAll_true env.prn ht (pairs env c l) S G hSG (Hdr.empty c) (Verif.Msm.Inv.empty c) rfl hw0 hps
  obtain ⟨h1', oks, e1', -, i1, c1, d1, -, -, r1⟩ := addAll_spec env.prn ht (pairs env c l) (Hdr.empty c) (Verif.Msm.Inv.empty c) rfl
    (fun p hp => Or.inr (hps p hp).1)
  rw [e1] at e1'
  simp only [Option.some.injEq, Prod.mk.injEq] at e1'
  obtain ⟨rfl, rfl⟩ := e1'
  have dc : h1.cons = c := d1
  have hin1 : ∀ p ∈ pairs env c l, InMasks env.prn h1 p := by
    intro p hp
    have hz : (p, true) ∈ (pairs env c l).zip ((pairs env c l).map fun _ => true) := by
      rw [List.mem_iff_getElem] at hp ⊢
      obtain ⟨k, hk, rfl⟩ := hp
      exact ⟨k, by simpa using hk, by simp⟩
    obtain ⟨a, b, x, y⟩ := r1 p true hz rfl
    unfold InMasks
    rw [dc]
    exact ⟨(hps p hp).1, (hps p hp).2.1, x, y⟩
  have hns : Msm.numSats h1 ≤ 32 := by
    unfold Msm.numSats
    rw [countMask_full i1.sat]
    exact (count_le_of_positions _ _ w1.1).trans hS
  -- second pass
  obtain ⟨h2, e2, s2, g2, c2, l2, m2⟩ := cellAll_spec env.prn ht (pairs env c l) h1 i1 hin1 hnd (by
    intro p hp
    have := cellId_lt env.prn ht h1 p (hin1 p hp)
    have := i1.prod
    rw [c1]
    show (List.replicate maxCells false)[cellId env.prn h1 p]? = some false
    rw [List.getElem?_replicate, if_pos (by simp only [maxCells]; omega)])
  have n1 : Msm.numSats h2 = Msm.numSats h1 := by unfold Msm.numSats; rw [s2]
  have n2 : Msm.numSigs h2 = Msm.numSigs h1 := by unfold Msm.numSigs; rw [g2]
  have hid : ∀ p, cellId env.prn h2 p = cellId env.prn h1 p := by
    intro p; unfold cellId prnToSatIndex codeToSignalIndex; rw [n2, s2, g2, c2]
  have hcons2 : h2.cons = c := c2.trans dc
  have hi2 : Verif.Msm.Inv h2 := ⟨by rw [s2]; exact i1.sat, by rw [g2]; exact i1.sig, l2, by rw [n1, n2]; exact i1.prod⟩
  have hin2 : ∀ p ∈ pairs env c l, InMasks env.prn h2 p := by
    intro p hp
    have := hin1 p hp
    unfold InMasks at this ⊢
    rw [c2, s2, g2]; exact this
  have hcells : ∀ k : Nat, h2.cell[k]? = some true ↔ ∃ p ∈ pairs env c l, cellId env.prn h2 p = k := by
    intro k
    rw [m2 k, c1]
    simp only [hid]
    constructor
    · rintro (h | h)
      · simp [Hdr.empty, List.getElem?_replicate] at h
      · exact h
    · exact Or.inr
  have hpo : ∀ o ∈ obsFor env c l, (o.code, o.sat) ∈ pairs env c l := fun o ho => List.mem_map.mpr ⟨o, ho, rfl⟩
  -- third pass
  obtain ⟨b, e3, f1, f2, f3, f4, f5⟩ := fillAll_spec env ht cfg c h2 hi2 hcons2 (by rw [n1]; exact hns) (obsFor env c l) []
    ⟨h2, List.replicate 32 Sat.zero, List.replicate 64 Sig.zero⟩ ⟨rfl, by simp, by simp, by simp, by simp⟩
    (fun o ho => ⟨hin2 _ (hpo o ho), (hcells _).mpr ⟨_, hpo o ho, rfl⟩⟩) hnd
  refine ⟨h1, h2, b, e1, e2, e3, f1, hcons2, hi2, by rw [n1]; exact hns, fun o ho => hin2 _ (hpo o ho), hcells, f2, f3, f4, f5, ?_⟩
  constructor
  · intro hp he
    have : pairs env c l = [] := by simp [pairs, he]
    rw [this] at e1
    simp only [addAll, Option.some.injEq, Prod.mk.injEq] at e1
    rw [n1, ← e1.1] at hp
    revert hp
    cases c <;> decide
  · intro hne
    obtain ⟨o, ho⟩ := List.exists_mem_of_ne_nil _ hne
    have := row_lt ht (hin2 _ (hpo o ho))
    omega

theorem crint_near (x : ℚ) : |(crint x : ℚ) - x| ≤ 1 / 2 := by
  have h1 := Int.floor_le x
  have h2 := Int.lt_floor_add_one x
  unfold crint
  rw [abs_le]
  split
  · constructor <;> linarith
  · split
    · push_cast; constructor <;> linarith
    · split <;> (push_cast; constructor <;> linarith)

theorem prMs_near (o : SbpObs) : Rounded (prMs o) ((o.P : ℚ) / 50 / 299792458 * 1000) := by
  have h := ((((Fp.Rel.refl ((o.P : ℚ) / 50)).rnd (by norm_num)).mul 1000).rnd (by norm_num)).div 299792458 |>.rnd (by norm_num)
  unfold prMs gpsC
  have e : (o.P : ℚ) / 50 / 299792458 * 1000 = (o.P : ℚ) / 50 * 1000 / 299792458 := by ring
  rw [e]
  exact h.rounded (by norm_num) (by norm_num)

theorem cpMs_near (o : SbpObs) {hz : ℚ} (h1 : 1 ≤ hz) : Rounded (cpMs hz o) (((o.Li : ℚ) + o.Lf / 256) / hz * 1000) := by
  have h := ((Fp.Rel.refl (((o.Li : ℚ) + o.Lf / 256) * 1000)).rnd (by norm_num)).div' h1 |>.rnd (by norm_num)
  unfold cpMs
  have e : ((o.Li : ℚ) + o.Lf / 256) / hz * 1000 = ((o.Li : ℚ) + o.Lf / 256) * 1000 / hz := by ring
  rw [e]
  exact h.rounded (by norm_num) (by norm_num)

theorem rateMs_near (o : SbpObs) {hz : ℚ} (h1 : 1 ≤ hz) : Rounded (rateMs hz o) (-(((o.Di : ℚ) + o.Df / 256) / hz * 299792458)) := by
  have h := ((Fp.Rel.refl (-((o.Di : ℚ) + o.Df / 256) * 299792458)).rnd (by norm_num)).div' h1 |>.rnd (by norm_num)
  unfold rateMs gpsC
  have e : -(((o.Di : ℚ) + o.Df / 256) / hz * 299792458) = -((o.Di : ℚ) + o.Df / 256) * 299792458 / hz := by ring
  rw [e]
  exact h.rounded (by norm_num) (by norm_num)

theorem sigOf_sigData (f : Option ℚ) (o : SbpObs) (s : Sig) : SigOf f o (sigData f o s) where
  prValid := rfl
  pr := by intro h; simp only [sigData] at h ⊢; rw [if_pos h]; exact prMs_near o
  cpValid := by cases f <;> simp [sigData]
  cp := by
    rintro hz rfl h1 h
    have h' : o.flags.testBit 1 = true := by simpa [sigData] using h
    simp only [sigData, h', if_true]; exact cpMs_near o h1
  hca := by intro h; simp only [sigData] at h ⊢; rw [if_pos h]
  dopValid := by cases f <;> simp [sigData]
  dop := by
    rintro hz rfl h1 h
    have h' : o.flags.testBit 3 = true := by simpa [sigData] using h
    simp only [sigData, h', if_true]; exact rateMs_near o h1
  lockValid := rfl
  lock := rfl
  cnrValid := rfl
  cnr := rfl

theorem lastCons_last (b : Builds) : lastCons b = (allCons.filter fun c => decide (numSats (b c).hdr > 0)).getLast? := by
  unfold lastCons allCons
  cases decide (numSats (b .gps).hdr > 0) <;> cases decide (numSats (b .sbas).hdr > 0) <;>
  cases decide (numSats (b .glo).hdr > 0) <;> cases decide (numSats (b .bds).hdr > 0) <;>
  cases decide (numSats (b .qzs).hdr > 0) <;> cases decide (numSats (b .gal).hdr > 0) <;>
  simp_all

/-! ### C29 -/

theorem bufferToMsm_some {env : Env} {e : Epoch} {msgs : List Msg} (h : bufferToMsm env e = some msgs) :
    ∃ b : Builds, msgs = (allCons.filter fun c => decide (numSats (b c).hdr > 0)).map fun c =>
      finish e c (if lastCons b = some c then 0 else 1) (b c) := by
  unfold bufferToMsm at h
  cases h1 : pass1 env Build.empty e.obs with
  | none => simp [h1] at h
  | some b1 =>
    cases h2 : pass2 env b1 e.obs with
    | none => simp [h1, h2] at h
    | some b2 =>
      cases h3 : pass3 env e.cfg b2 e.obs with
      | none => simp [h1, h2, h3] at h
      | some b3 =>
        simp only [h1, h2, h3, Option.bind_eq_bind, Option.bind_some] at h
        split at h
        · simp only [Option.some.injEq] at h
          exact ⟨b3, h.symm⟩
        · simp at h

/-- **C29** Whatever observations an epoch holds: if it is converted at all, each constellation gets at most one message,
in the fixed order, and the multiple-message bit is 0 in the last message sent and 1 in all others. -/
theorem C29_last (env : Env) (e : Epoch) (msgs : List Msg) (h : bufferToMsm env e = some msgs) :
    (msgs.map (·.header.msgNum)).Sublist (allCons.map fun c => toMsmMsgNum (some c) e.cfg.msmType) ∧
    ∀ (i : Nat) m, msgs[i]? = some m → m.header.multiple = if i + 1 = msgs.length then 0 else 1 := by
  obtain ⟨b, rfl⟩ := bufferToMsm_some h
  constructor
  · rw [List.map_map]
    exact List.Sublist.map _ List.filter_sublist
  · intro i m hm
    rw [List.getElem?_map] at hm
    cases hc : (allCons.filter fun c => decide (numSats (b c).hdr > 0))[i]? with
    | none => rw [hc] at hm; simp at hm
    | some c =>
      rw [hc] at hm
      simp only [Option.map_some, Option.some.injEq] at hm
      rw [← hm]
      simp only [finish, lastCons_last, List.length_map]
      have hnd : (allCons.filter fun c => decide (numSats (b c).hdr > 0)).Nodup := List.Nodup.filter _ (by decide)
      have hlt : i < (allCons.filter fun c => decide (numSats (b c).hdr > 0)).length := by
        by_contra hh
        rw [List.getElem?_eq_none (by omega)] at hc
        simp at hc
      rw [List.getLast?_eq_getElem?]
      by_cases hl : i + 1 = (allCons.filter fun c => decide (numSats (b c).hdr > 0)).length
      · rw [if_pos hl, if_pos]
        rw [← hl, Nat.add_sub_cancel, hc]
      · rw [if_neg hl, if_neg]
        intro he
        rw [← hc] at he
        have := (List.getElem?_inj (by omega) hnd).mp he
        omega

/-- **C29** The messages of an epoch MSM can carry: one for each constellation with observations, in the fixed order, with
the station, the time in the constellation's time scale, as many cells as observations, and every observation in a cell
of its own. -/
theorem C29_messages (env : Env) (ht : env.prn.WF) (e : Epoch) (hc : Clean env e.obs)
    (hty : e.cfg.msmType = .msm4 ∨ e.cfg.msmType = .msm5) :
    ∃ msgs, bufferToMsm env e = some msgs ∧
      msgs.map (·.header.msgNum) = (consOrder.filter fun c => !(obsFor env c e.obs).isEmpty).map
        (fun c => toMsmMsgNum (some c) e.cfg.msmType) ∧
      ∀ m ∈ msgs, ∀ c, m.header.msgNum = toMsmMsgNum (some c) e.cfg.msmType →
        m.header.stnId = e.sender % 4096 ∧
        (c ≠ .glo → c ≠ .bds → m.header.towMs = e.t.tow) ∧
        (c = .bds → e.t.tow < 604800000 → (m.header.towMs + 14000) % 604800000 = e.t.tow) ∧
        (c = .glo → e.t.tow < 604800000 → ∀ leap, e.cfg.leap = some leap → -128 ≤ leap → leap ≤ 127 →
          (m.header.towMs : Int) = (e.t.tow + 10800000 - leap * 1000) % 604800000) ∧
        m.header.cellMask.count true = (obsFor env c e.obs).length ∧
        ∀ o ∈ obsFor env c e.obs, Carries env e.cfg c e.obs m o := by
  choose h1 h2 b hok using cons_ok env ht e.cfg e.obs hc
  have hk : ∀ o ∈ e.obs, ∃ c, env.consOf o.code = some c := fun o ho => (hc.known o ho).imp fun _ h => h.1
  have p1 : pass1 env Build.empty e.obs = some fun c => { Build.empty c with hdr := h1 c } :=
    pass1_eq env e.obs Build.empty h1 _ hk fun c => (hok c).add
  have p2 : pass2 env (fun c => { Build.empty c with hdr := h1 c }) e.obs = some fun c => { Build.empty c with hdr := h2 c } :=
    pass2_eq env e.obs _ h2 _ hk fun c => (hok c).cell
  have p3 : pass3 env e.cfg (fun c => { Build.empty c with hdr := h2 c }) e.obs = some b :=
    pass3_eq env e.cfg e.obs _ b hk fun c => (hok c).fill
  have hpos : ∀ c, decide (numSats (b c).hdr > 0) = !(obsFor env c e.obs).isEmpty := by
    intro c
    rw [(hok c).hdr]
    cases ho : obsFor env c e.obs with
    | nil =>
      have := (hok c).pos.not.mpr (by simp [ho])
      simpa using this
    | cons x r =>
      have := (hok c).pos.mpr (by simp [ho])
      simpa using this
  have hsb : obsFor env .sbas e.obs = [] := by
    rw [obsFor, List.filter_eq_nil_iff]
    intro o ho
    obtain ⟨c, h, hne, -⟩ := hc.known o ho
    simp [h, hne]
  have hfil : (allCons.filter fun c => decide (numSats (b c).hdr > 0)) = consOrder.filter fun c => !(obsFor env c e.obs).isEmpty := by
    have : (fun c => decide (numSats (b c).hdr > 0)) = fun c => !(obsFor env c e.obs).isEmpty := funext hpos
    rw [this]
    simp only [allCons, consOrder, List.filter_cons, hsb, List.isEmpty_nil, Bool.not_true, Bool.false_eq_true, if_false]
  have hne : ∀ c ∈ consOrder, c ≠ .sbas := by decide
  refine ⟨(allCons.filter fun c => decide (numSats (b c).hdr > 0)).map fun c =>
      finish e c (if lastCons b = some c then 0 else 1) (b c), ?_, ?_, ?_⟩
  · unfold bufferToMsm
    simp only [p1, p2, p3, Option.bind_eq_bind, Option.bind_some]
    rw [if_pos]
    rw [List.all_map, List.all_eq_true, hfil]
    intro c hcm
    have hcs := hne c (List.mem_filter.mp hcm).1
    show msmEncodable (toMsmMsgNum (some c) e.cfg.msmType) = true
    rcases hty with h | h <;> rw [h] <;> revert hcs <;> cases c <;> decide
  · rw [List.map_map, hfil]; rfl
  · intro m hm c hnum
    rw [List.mem_map] at hm
    obtain ⟨d, hd, rfl⟩ := hm
    have hdc : d = c := by
      have := C17_number_injective d c e.cfg.msmType e.cfg.msmType (by rcases hty with h | h <;> rw [h] <;> decide)
        (by rcases hty with h | h <;> rw [h] <;> decide) hnum
      exact this.1
    subst hdc
    have hh := (hok d).hdr
    have hprod := (hok d).inv.prod
    have hcl := (hok d).inv.cell
    have hidlt : ∀ o ∈ obsFor env d e.obs, cellId env.prn (h2 d) (o.code, o.sat) < numSats (h2 d) * numSigs (h2 d) :=
      fun o ho => cellId_lt env.prn ht (h2 d) _ ((hok d).inMasks o ho)
    refine ⟨rfl, ?_, ?_, ?_, ?_, ?_⟩
    · intro g1 g2
      simp only [finish, msmTow, if_neg g1, if_neg g2]
    · intro g1 g2
      have g3 : d ≠ .glo := by rw [g1]; decide
      simp only [finish, msmTow, if_neg g3, if_pos g1]
      have := (Time.C23_bds e.t.tow g2)
      have h5 := (Time.C23_bds (Time.gpsTowToBeidouTow e.t.tow) this.2.2.2.1).2.2.2.2
      rw [← h5, this.2.1]
    · intro g1 g2 leap g3 g4 g5
      simp only [finish, msmTow, if_pos g1, g3]
      have := (Time.C23_glo_tow e.t.tow leap g2 ⟨g4, g5⟩).2
      rw [this]
      norm_num
    · -- number of cells
      simp only [finish, hh]
      have hlen : (obsFor env d e.obs).length = ((pairs env d e.obs).map (cellId env.prn (h2 d))).length := by simp [pairs]
      rw [hlen]
      apply count_eq_of_positions
      · apply List.Nodup.map_on
        · intro p hp q hq he
          simp only [pairs, List.mem_map] at hp hq
          obtain ⟨o, ho, rfl⟩ := hp
          obtain ⟨o', ho', rfl⟩ := hq
          exact cellId_inj env.prn (h2 d) _ _ ((hok d).inMasks o ho) ((hok d).inMasks o' ho') he
        · unfold pairs obsFor
          exact (List.Sublist.map _ List.filter_sublist).nodup hc.distinct
      · intro i
        rw [List.getElem?_take]
        have hci := (hok d).cells i
        simp only [List.mem_map]
        split
        · exact hci
        · rename_i hge
          constructor
          · simp
          · rintro ⟨p, hp, rfl⟩
            simp only [pairs, List.mem_map] at hp
            obtain ⟨o, ho, rfl⟩ := hp
            exact absurd (hidlt o ho) hge
    · intro o ho
      have hin := (hok d).inMasks o ho
      have hlt := hidlt o ho
      have hcell : (h2 d).cell[cellId env.prn (h2 d) (o.code, o.sat)]? = some true :=
        ((hok d).cells _).mpr ⟨_, List.mem_map.mpr ⟨o, ho, rfl⟩, rfl⟩
      obtain ⟨s, hs⟩ := (hok d).sigs o ho
      obtain ⟨o', ho', esat, s', hs'⟩ := (hok d).sats o ho
      have l1 := sigIdx_lt env.prn (h2 d) _ hin
      have hrow := row_lt ht hin
      simp only at hrow
      have ed : cellId env.prn (h2 d) (o.code, o.sat) / numSigs (h2 d) = prnToSatIndex env.prn (h2 d) o.sat := by
        unfold cellId
        rw [Nat.mul_comm, Nat.mul_add_div (by omega), Nat.div_eq_of_lt l1]; simp
      refine ⟨cellId env.prn (h2 d) (o.code, o.sat), _, satData d e.cfg (freqOf env e.cfg d o') o' s', ?_, ?_, ?_, sigOf_sigData _ o s, ?_, ?_, ?_⟩
      · simp only [finish, hh]
        rw [List.getElem?_take, if_pos hlt]; exact hcell
      · have := pairOfCell_cellId env.prn ht (h2 d) _ hin
        rw [← this]
        unfold pairOfCell signalToCode satToPrn numSigs
        simp only [masks, finish, hh, (hok d).cons]
      · simp only [finish, hh]
        rw [List.take_take, Nat.min_eq_left (by omega)]
        have hr : ((h2 d).cell.take (cellId env.prn (h2 d) (o.code, o.sat))).count true = rank env (h2 d) o := rfl
        rw [hr, List.getElem?_take, if_pos]
        · exact hs
        · exact countMask_lt hlt hcell
      · have hg : numSigs (masks d (finish e d (if lastCons b = some d then 0 else 1) (b d))) = numSigs (h2 d) := by
          simp only [masks, finish, hh, numSigs]
        rw [hg, ed]
        simp only [finish, hh]
        rw [List.getElem?_take, if_pos hrow]
        exact hs'
      · simp only [satData, channel, esat]
      · intro hv
        have hmem : o' ∈ e.obs ∧ env.consOf o'.code = some d := by simpa [obsFor] using ho'
        refine ⟨o', hmem.1, esat, hmem.2, prMs o', prMs_near o', ?_⟩
        simp only [satData, hv o' hmem.1, if_true]
        have := crint_near (prMs o' * 1024)
        rw [abs_le] at this ⊢
        constructor <;> linarith

/-! ### witnesses -/

def exEnv : Env where
  prn := { first := fun c => match c with | .sbas => 120 | .qzs => 193 | _ => 1
           num := fun c => match c with | .gps => 32 | .sbas => 19 | .glo => 28 | .bds => 63 | .qzs => 10 | .gal => 36 }
  consOf := fun c => match c with
    | .gps_l1ca | .gps_l2cm | .gps_l1p | .gps_l2p | .gps_l5x | .gps_l1ci => some .gps
    | .glo_l1of | .glo_l2of => some .glo
    | .gal_e1x => some .gal
    | .sbas_l1ca => some .sbas
    | .bds2_b1 | .bds3_b7q => some .bds
    | _ => none
  freq := fun c _ => match c with | .gps_l1ca => some 1575420000 | _ => none

def exO (sat : Nat) (code : Code) : SbpObs := ⟨sat, code, 1100000000, 5, 6, 7, 8, 160, 9, 15⟩
def exCfg : Config := { leap := some 18, fcn := List.replicate 29 255, legacy := false, msm := true, msmType := .msm5 }
def exEpoch (l : List SbpObs) : Epoch := ⟨exCfg, 4103, ⟨2100, 5000⟩, l⟩
def exL : List SbpObs := [exO 3 .gps_l1ca, exO 5 .glo_l1of, exO 3 .gps_l2cm, exO 7 .gps_l2cm, exO 11 .gal_e1x]

theorem exEnv_wf : exEnv.prn.WF := ⟨by intro c; cases c <;> decide, by intro c; cases c <;> decide, by intro c; cases c <;> decide⟩

/-- the hypotheses of `C29_messages` are met by an epoch with three constellations -/
example : Clean exEnv exL := by
  refine ⟨?_, by decide, ?_, ?_⟩
  · intro o ho
    simp only [exL, List.mem_cons, List.not_mem_nil, or_false] at ho
    rcases ho with rfl | rfl | rfl | rfl | rfl
    · exact ⟨.gps, rfl, by decide, ⟨by decide, 2, by decide⟩, by decide⟩
    · exact ⟨.glo, rfl, by decide, ⟨by decide, 2, by decide⟩, by decide⟩
    · exact ⟨.gps, rfl, by decide, ⟨by decide, 15, by decide⟩, by decide⟩
    · exact ⟨.gps, rfl, by decide, ⟨by decide, 15, by decide⟩, by decide⟩
    · exact ⟨.gal, rfl, by decide, ⟨by decide, 5, by decide⟩, by decide⟩
  · intro c; cases c <;> decide +kernel
  · intro c; cases c <;> decide +kernel
example : (bufferToMsm exEnv (exEpoch exL)).map (fun l => l.map fun m => (m.header.msgNum, m.header.stnId, m.header.multiple, m.sigs.length)) =
    some [(1075, 7, 1, 3), (1085, 7, 1, 1), (1095, 7, 0, 1)] := by decide +kernel

/-- C29 does not hold in full: an SBAS observation makes the converter abort (`assert(0)` in `encode_rtcm3_payload`,
which has no case for 1104/1105), so nothing of the epoch is sent. -/
theorem C29_sbas_bug : ∃ o, exEnv.consOf o.code = some .sbas ∧ prnValid exEnv.prn .sbas o.sat ∧ Supported .sbas o.code ∧
    bufferToMsm exEnv (exEpoch [exO 3 .gps_l1ca, o]) = none ∧ (bufferToMsm exEnv (exEpoch [exO 3 .gps_l1ca])).isSome :=
  ⟨exO 121 .sbas_l1ca, rfl, by decide, ⟨by decide, 2, by decide⟩, by decide +kernel, by decide +kernel⟩

/-- C29 does not hold in full: an observation with an illegal satellite number aborts the converter (assertion in
`prn_to_msm_sat_id`), although the first two passes ignore it. -/
theorem C29_invalid_sat_bug : ∃ o, exEnv.consOf o.code = some .gps ∧ ¬ prnValid exEnv.prn .gps o.sat ∧
    bufferToMsm exEnv (exEpoch [exO 3 .gps_l1ca, o]) = none :=
  ⟨exO 33 .gps_l1ca, rfl, by decide, by decide +kernel⟩

/-- C29 does not hold in full: the same signal of the same satellite twice in an epoch aborts the converter (assertion in
`msm_add_to_cell_mask`). -/
theorem C29_duplicate_bug (o : SbpObs) (h : o = exO 3 .gps_l1ca) : bufferToMsm exEnv (exEpoch [o, o]) = none := by
  subst h; decide +kernel

/-- C29 does not hold in full: when satellites x signals exceeds 64, an observation that does not fit overwrites the cell
of another signal: the only GPS message has a set cell 1 for satellite 1, signal L2CM, but the pseudorange stored there is
that of the L1 P signal (P = 2) that did not fit, not that of the L2CM observation (P = 1100000000). -/
theorem C29_overwrite_bug : ∃ l : List SbpObs, l.filter (fun o => o.sat = 1 ∧ o.code = .gps_l2cm) = [exO 1 .gps_l2cm] ∧
    (bufferToMsm exEnv (exEpoch l)).map (fun ms => ms.map fun m =>
      (pairOfCell exEnv.prn (masks .gps m) 1, m.header.cellMask[1]?, (m.sigs[1]?).map fun s => crint (s.pr * 299792458 / 1000 * 50))) =
    some [(some (.gps_l2cm, 1), some true, some 2)] :=
  ⟨((List.range 32).flatMap fun i => [exO (i + 1) .gps_l1ca, exO (i + 1) .gps_l2cm]) ++ [{ exO 1 .gps_l1p with P := 2 }],
    by decide +kernel, by decide +kernel⟩

end Verif.SbpRtcm
