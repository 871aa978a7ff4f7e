import Verif.Spec.LegacyStream
import Verif.Props.C11
import Verif.Props.C49
import Verif.Props.C72
/-
C78: the satellites of the legacy messages of an epoch, over the wire.
-/
namespace Verif.LegacyStream
open Verif.LegacyStream.Spec Verif.SbpRtcm.Spec
open Verif.SbpRtcm hiding legacyLoop
open Verif.Msm (Code)
open Verif.Obs (Kind)
open Verif.ObsStream.Spec (range cycles)
open Verif.ObsStream (packFrac_of_near perm_keys forall₂_append)
open Verif.RtcmSbp (SbpObs)

/-! ### the satellites that are sent -/

/-- observations of a band -/
def inB (b : Band) (l : List SbpObs) : List SbpObs := l.filter fun o => band o.code = some b

/-- the second-frequency observations of a satellite -/
def secondsOf (glo : Bool) (l : List SbpObs) (sat : Nat) : List SbpObs :=
  l.filter fun o => decide (band o.code = some (secondOf glo)) && decide (o.sat = sat)

def l2Of : List SbpObs → Obs.Freq
  | [o] => freqOfObs o 0
  | _ => {}

/-- the satellite with first-frequency observation `o` -/
def satOf (cfg : Config) (glo : Bool) (l : List SbpObs) (o : SbpObs) : Obs.Sat :=
  { svId := o.sat, fcn := chan cfg glo o.sat, l1 := freqOfObs o 0, l2 := l2Of (secondsOf glo l o.sat) }

def noP (l : List SbpObs) : Prop := ∀ o ∈ l, o.code ∉ [Code.gps_l1p, .gps_l2p, .glo_l1p, .glo_l2p]

theorem signal_band {c : Code} (h : c ∉ [Code.gps_l1p, .gps_l2p, .glo_l1p, .glo_l2p]) : signal c = (band c).map (·, 0) := by
  revert h; cases c <;> decide

theorem inBand_eq (b : Band) (l : List SbpObs) (h : noP l) : inBand b l = (inB b l).map (·, 0) := by
  induction l with
  | nil => rfl
  | cons o l ih =>
    rw [inBand_cons, ih fun x hx => h x (List.mem_cons_of_mem _ hx), signal_band (h o List.mem_cons_self)]
    unfold inB
    rw [List.filter_cons]
    cases hb : band o.code with
    | none => simp
    | some b' => by_cases e : b' = b <;> simp [e]

theorem second_eq (glo : Bool) (l : List SbpObs) (sat : Nat) (h : noP l) (h1 : ((inB (secondOf glo) l).map (·.sat)).Nodup) :
    second (secondOf glo) sat l {} = l2Of (secondsOf glo l sat) ∧ (secondsOf glo l sat).length ≤ 1 := by
  have e : ((inBand (secondOf glo) l).filter fun p => p.1.sat = sat) = (secondsOf glo l sat).map (·, 0) := by
    rw [inBand_eq _ _ h, List.filter_map]
    unfold inB secondsOf
    rw [List.filter_filter]
    congr 1
    apply List.filter_congr
    intro o _
    simp [Bool.and_comm]
  have hl : (secondsOf glo l sat).length ≤ 1 := by
    have e2 : secondsOf glo l sat = (inB (secondOf glo) l).filter fun o => decide (o.sat = sat) := by
      unfold inB secondsOf; rw [List.filter_filter]
      apply List.filter_congr; intro o _; rw [Bool.and_comm]
    rw [e2]
    generalize inB (secondOf glo) l = m at *
    clear e e2
    induction m with
    | nil => simp
    | cons a m ih =>
      rw [List.map_cons, List.nodup_cons] at h1
      rw [List.filter_cons]
      split
      · rename_i ha
        have : (m.filter fun o => decide (o.sat = sat)) = [] := by
          rw [List.filter_eq_nil_iff]
          intro x hx hs
          simp only [decide_eq_true_eq] at hs ha
          exact h1.1 (List.mem_map.2 ⟨x, hx, hs.trans ha.symm⟩)
        rw [this]; simp
      · exact ih h1.2
  refine ⟨?_, hl⟩
  unfold second
  rw [e]
  match hm : secondsOf glo l sat with
  | [] => rfl
  | [o] => rfl
  | o :: o' :: r => rw [hm] at hl; simp at hl

theorem second_skip {b : Band} {sat : Nat} {a : List SbpObs} (r : List SbpObs) (h : noP a) (ha : ∀ o ∈ a, band o.code = some b → o.sat ≠ sat) :
    second b sat (a ++ r) {} = second b sat r {} := by
  have : inBand b (a ++ r) = inBand b a ++ inBand b r := by unfold inBand; rw [List.filterMap_append]
  unfold second
  rw [this, List.filter_append]
  have : ((inBand b a).filter fun p => p.1.sat = sat) = [] := by
    rw [inBand_eq _ _ h, List.filter_eq_nil_iff]
    intro p hp
    obtain ⟨o, ho, rfl⟩ := List.mem_map.1 hp
    unfold inB at ho
    rw [List.mem_filter] at ho
    simpa using ha o ho.1 (by simpa using ho.2)
  rw [this, List.nil_append]

theorem firstOf_ne (glo : Bool) : firstOf glo ≠ secondOf glo := by cases glo <;> decide

/-- satellites of the message, by the specification of C49 -/
def satsOf (cfg : Config) (glo : Bool) (l : List SbpObs) : List Obs.Sat := if glo then gloSats cfg.fcn l else gpsSats l

theorem chan_known {cfg : Config} {sat : Nat} (h : chan cfg true sat ≤ 13) : cfg.fcn.getD sat 255 ≠ 255 ∧ sat < cfg.fcn.length := by
  unfold chan at h
  simp only [if_true] at h
  refine ⟨by omega, ?_⟩
  by_contra hh
  rw [List.getD_eq_getElem?_getD, List.getElem?_eq_none (by omega)] at h
  simp at h

theorem sats_cons {cfg : Config} {glo : Bool} {o : SbpObs} {r : List SbpObs} (h : o.code ∉ [Code.gps_l1p, .gps_l2p, .glo_l1p, .glo_l2p])
    (hc : band o.code = some (firstOf glo) → chan cfg glo o.sat ≤ 13) :
    satsOf cfg glo (o :: r) = (if band o.code = some (firstOf glo) then
      [{ svId := o.sat, fcn := chan cfg glo o.sat, l1 := freqOfObs o 0, l2 := second (secondOf glo) o.sat r {} }] else []) ++ satsOf cfg glo r := by
  have hs := signal_band h
  cases glo with
  | false =>
    simp only [satsOf, gpsSats, hs, Bool.false_eq_true, if_false, firstOf, chan, secondOf]
    cases hb : band o.code with
    | none => rfl
    | some b => cases b <;> simp
  | true =>
    simp only [satsOf, gloSats, hs, if_true, firstOf, chan, secondOf]
    cases hb : band o.code with
    | none => rfl
    | some b =>
      cases b <;> simp
      · intro e
        exact absurd e (chan_known (hc hb)).1

theorem sats_eq {cfg : Config} {glo : Bool} {l : List SbpObs} (hp : noP l) (h : ConsOk cfg glo l) :
    satsOf cfg glo l = (inB (firstOf glo) l).map (satOf cfg glo l) := by
  have key : ∀ r a, l = a ++ r → satsOf cfg glo r = (inB (firstOf glo) r).map (satOf cfg glo l) := by
    intro r
    induction r with
    | nil => intro a _; cases glo <;> rfl
    | cons o r ih =>
      intro a ha
      have ho : o ∈ l := by rw [ha]; simp
      rw [sats_cons (hp o ho) (fun hb => (h.sats o ho (Or.inl hb)).2.2), ih (a ++ [o]) (by rw [ha]; simp)]
      unfold inB
      rw [List.filter_cons]
      by_cases hb : band o.code = some (firstOf glo)
      · rw [if_pos hb, if_pos (by simpa using hb), List.map_cons, List.singleton_append]
        congr 1
        unfold satOf
        congr 1
        rw [← (second_eq glo l o.sat hp h.once2).1]
        rw [show l = (a ++ [o]) ++ r by rw [ha]; simp]
        refine (second_skip r (fun x hx => hp x (by rw [ha]; simp only [List.mem_append, List.mem_singleton] at hx; rcases hx with hx | hx <;> simp [hx])) ?_).symm
        intro o2 h2 hb2 hsat
        rw [List.mem_append, List.mem_singleton] at h2
        rcases h2 with h2 | rfl
        · obtain ⟨a1, a2, rfl⟩ := List.append_of_mem h2
          obtain ⟨o1, m1, m2, m3⟩ := h.after a1 o2 (a2 ++ o :: r) (by rw [ha]; simp) hb2
          have := h.once1
          rw [ha, List.append_assoc, List.filter_append, List.map_append, List.nodup_append] at this
          refine this.2.2 o1.sat (List.mem_map.2 ⟨o1, List.mem_filter.2 ⟨m1, by simpa using m2⟩, rfl⟩) o.sat
            (List.mem_map.2 ⟨o, List.mem_filter.2 ⟨by simp, by simpa using hb⟩, rfl⟩) (m3.trans hsat)
        · rw [hb] at hb2; exact firstOf_ne glo (Option.some.inj hb2)
      · rw [if_neg hb, if_neg (by simpa using hb), List.nil_append]
  exact key l [] rfl

/-- the observations that come back for a satellite, in the order of the messages -/
def listOf (glo : Bool) (l : List SbpObs) : List SbpObs := (inB (firstOf glo) l).flatMap fun o => o :: secondsOf glo l o.sat

theorem list_perm {cfg : Config} {glo : Bool} {l : List SbpObs} (h : ConsOk cfg glo l) :
    (listOf glo l).Perm (inB (firstOf glo) l ++ inB (secondOf glo) l) := by
  have h1 : (listOf glo l).Perm ((inB (firstOf glo) l).flatMap (fun o => [o]) ++ (inB (firstOf glo) l).flatMap fun o => secondsOf glo l o.sat) :=
    (List.flatMap_append_perm (inB (firstOf glo) l) (fun o => [o]) fun o => secondsOf glo l o.sat).symm
  refine h1.trans ?_
  rw [List.flatMap_singleton']
  refine List.Perm.append_left _ ?_
  have h2 := perm_keys (fun o : SbpObs => some o.sat) ((inB (firstOf glo) l).map (·.sat)) (inB (secondOf glo) l) h.once1 (by
    intro o ho
    unfold inB at ho
    rw [List.mem_filter] at ho
    obtain ⟨a, r, e⟩ := List.append_of_mem ho.1
    obtain ⟨o1, m1, m2, m3⟩ := h.after a o r e (by simpa using ho.2)
    refine ⟨o.sat, List.mem_map.2 ⟨o1, List.mem_filter.2 ⟨by rw [e]; simp [m1], by simpa using m2⟩, m3⟩, rfl⟩)
  refine List.Perm.trans (List.Perm.of_eq ?_) h2
  rw [List.flatMap_map]
  apply List.flatMap_congr
  intro o _
  unfold secondsOf inB
  rw [List.filter_filter]
  apply List.filter_congr
  intro x _
  simp [Bool.and_comm]

theorem all_perm {cfg : Config} {l : List SbpObs} (hg : ConsOk cfg false l) (hr : ConsOk cfg true l) :
    (listOf false l ++ listOf true l).Perm (l.filter fun o => (band o.code).isSome) := by
  refine ((list_perm hg).append (list_perm hr)).trans ?_
  have := perm_keys (fun o : SbpObs => band o.code) [.gps1, .gps2, .glo1, .glo2] (l.filter fun o => (band o.code).isSome) (by decide) (by
    intro o ho
    rw [List.mem_filter] at ho
    obtain ⟨b, hb⟩ := Option.isSome_iff_exists.1 ho.2
    exact ⟨b, by cases b <;> simp, hb⟩)
  refine List.Perm.trans (List.Perm.of_eq ?_) this
  have e : ∀ b, ((l.filter fun o => (band o.code).isSome).filter fun o => decide (band o.code = some b)) = inB b l := by
    intro b
    unfold inB
    rw [List.filter_filter]
    apply List.filter_congr
    intro o _
    by_cases h : band o.code = some b <;> simp [h]
  simp only [List.flatMap_cons, List.flatMap_nil, e, firstOf, secondOf, Bool.false_eq_true, if_false, if_true, List.append_nil, List.append_assoc]

theorem list_length {cfg : Config} {glo : Bool} {l : List SbpObs} (hp : noP l) (h : ConsOk cfg glo l) : (listOf glo l).length ≤ 62 := by
  have : ∀ m : List SbpObs, (m.flatMap fun o => o :: secondsOf glo l o.sat).length ≤ 2 * m.length := by
    intro m
    induction m with
    | nil => simp
    | cons a m ih =>
      have := (second_eq glo l a.sat hp h.once2).2
      rw [List.flatMap_cons, List.length_append, List.length_cons, List.length_cons]
      omega
  have := this (inB (firstOf glo) l)
  have h2 : (inB (firstOf glo) l).length ≤ 31 := h.count
  unfold listOf
  omega

end Verif.LegacyStream
