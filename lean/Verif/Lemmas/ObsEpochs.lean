import Verif.Lemmas.ObsEpoch
/-
C72: an epoch, all frames.
-/
namespace Verif.ObsStream
open Verif.ObsStream.Spec Verif.SbpRtcm.Spec Verif.Msm.Spec
open Verif.Msm hiding Inv
open Verif.SbpRtcm Verif.Time
open Verif.Misc (blank)
open Verif.RtcmSbp (SbpTime SbpObs ObsMsg Out Input sbpTime stnToSender obsOut_append messageType endsEpoch dispatch sendObservations
  sendMsgs sendObservations_snd wellSplit_sendMsgs obsOut_map_obs)
open Verif.RtcmSbp.Spec (notDelivered obsOut WellSplit)

/-! ### the observations of the constellations together -/

theorem perm_keys {α κ} [DecidableEq κ] (key : α → Option κ) : ∀ (ks : List κ) (l : List α), ks.Nodup → (∀ a ∈ l, ∃ k ∈ ks, key a = some k) →
    (ks.flatMap fun k => l.filter fun a => key a = some k).Perm l
  | [], l, _, h => by
    cases l with
    | nil => simp
    | cons a l => obtain ⟨k, hk, -⟩ := h a (by simp); simp at hk
  | k :: ks, l, hn, h => by
    rw [List.nodup_cons] at hn
    rw [List.flatMap_cons]
    have hp := List.filter_append_perm (fun a => decide (key a = some k)) l
    refine List.Perm.trans (List.Perm.append_left _ ?_) hp
    have ih := perm_keys key ks (l.filter fun a => !decide (key a = some k)) hn.2 (by
      intro a ha
      rw [List.mem_filter] at ha
      obtain ⟨k', h1, h2⟩ := h a ha.1
      rw [List.mem_cons] at h1
      rcases h1 with rfl | h1
      · simp [h2] at ha
      · exact ⟨k', h1, h2⟩)
    refine List.Perm.trans (List.Perm.of_eq ?_) ih
    rw [List.flatMap_congr]
    intro k' hk'
    rw [List.filter_filter]
    apply List.filter_congr
    intro a _
    by_cases h2 : key a = some k'
    · have : k' ≠ k := fun h => hn.1 (h ▸ hk')
      simp [h2, this]
    · simp [h2]

theorem clean_cons {env : Env} {l : List SbpObs} (hc : Clean env l) : ∀ o ∈ l, ∃ c ∈ consOrder, env.consOf o.code = some c := by
  intro o ho
  obtain ⟨c, h, hne, -⟩ := hc.known o ho
  exact ⟨c, by revert hne; cases c <;> decide, h⟩

theorem sent_flat (env : Env) (e : Epoch) (f : Cons → List SbpObs) (hf : ∀ c, obsFor env c e.obs = [] → f c = []) :
    (sentCons env e).flatMap f = consOrder.flatMap f := by
  unfold sentCons
  generalize consOrder = l
  induction l with
  | nil => rfl
  | cons c l ih =>
    rw [List.filter_cons]
    cases h : obsFor env c e.obs with
    | nil => simp [hf c h, ih]
    | cons a r => simp [ih]

theorem sent_length (env : Env) (e : Epoch) (hc : Clean env e.obs) : ((sentCons env e).flatMap fun c => obsFor env c e.obs).length = e.obs.length := by
  rw [sent_flat env e _ fun _ h => h]
  exact (perm_keys (fun o : SbpObs => env.consOf o.code) consOrder e.obs (by decide) (clean_cons hc)).length_eq

theorem sent_perm (env : Env) (e : Epoch) (hc : Clean env e.obs) :
    ((sentCons env e).flatMap fun c => if c = .qzs then [] else obsFor env c e.obs).Perm
      (e.obs.filter fun o => decide (env.consOf o.code ≠ some .qzs)) := by
  rw [sent_flat env e _ fun c h => by split <;> simp [h]]
  have h := perm_keys (fun o : SbpObs => env.consOf o.code) [.gps, .glo, .bds, .gal] (e.obs.filter fun o => decide (env.consOf o.code ≠ some .qzs))
    (by decide) (by
      intro o ho
      rw [List.mem_filter] at ho
      obtain ⟨c, h1, h2⟩ := clean_cons hc o ho.1
      refine ⟨c, ?_, h2⟩
      have : c ≠ .qzs := by rintro rfl; simp [h2] at ho
      revert h1 this; cases c <;> decide)
  refine List.Perm.trans (List.Perm.of_eq ?_) h
  have hg : ∀ c, c ≠ .qzs → ((e.obs.filter fun o => decide (env.consOf o.code ≠ some .qzs)).filter fun o => env.consOf o.code = some c) = obsFor env c e.obs := by
    intro c hcq
    rw [List.filter_filter]
    unfold obsFor
    apply List.filter_congr
    intro o _
    by_cases h2 : env.consOf o.code = some c
    · simp [h2, hcq]
    · simp [h2]
  simp only [consOrder, List.flatMap_cons, List.flatMap_nil]
  rw [hg _ (by decide), hg _ (by decide), hg _ (by decide), hg _ (by decide)]
  simp

/-! ### the frames of an epoch -/

theorem send_ok (s : RtcmSbp.State) (h : s.buf.length ≤ 210) :
    WellSplit s.obsTime s.sender s.buf (obsOut (sendObservations s).2) ∧ (sendObservations s).1.buf = [] ∧ (sendObservations s).1.fcn = s.fcn := by
  rw [sendObservations_snd, obsOut_map_obs]
  exact ⟨wellSplit_sendMsgs s h, rfl, rfl⟩

theorem forall₂_append {α β} {r : α → β → Prop} {a c : List α} {b d : List β} (h : List.Forall₂ r a b) (h' : List.Forall₂ r c d) :
    List.Forall₂ r (a ++ c) (b ++ d) := by
  induction h with
  | nil => exact h'
  | cons h _ ih => exact .cons h ih

theorem epoch_run (env : Env) (env' : RtcmSbp.Env) (ht : env.prn.WF) (hm : Match env env') (table : List Nat) (e : Epoch)
    (he : EpochOk env table e) {h1 h2 : Cons → Hdr} {b : Builds} (hok : ∀ c, ConsOk env e.cfg c e.obs (h1 c) (h2 c) (b c)) (last : Option Cons) :
    ∀ (cs : List Cons) (xs : List Input) (s : RtcmSbp.State), cs ≠ [] → cs.Nodup → (∀ c ∈ cs, c ≠ .sbas ∧ obsFor env c e.obs ≠ []) →
      cs.getLast? = last →
      List.Forall₂ (fun c x => x.payload = msmPayload (finish e c (if last = some c then 0 else 1) (b c)) ∧ TimeOk env env' e x) cs xs →
      s.fcn = table → s.buf.length + (cs.flatMap fun c => obsFor env c e.obs).length ≤ 210 →
      Fits (epochTime e.t) (stnToSender (e.sender % 4096)) s →
      (.glo ∈ cs → (∃ o ∈ e.obs, env.consOf o.code = some .gps) → cs.head? = some .gps ∨ s.lastGps = epochTime e.t) →
      ((∃ c ∈ cs, c ≠ .qzs) ∨ (s.obsTime = e.t ∧ s.sender = stnToSender (e.sender % 4096))) →
      ∃ L R : List SbpObs, L.Perm (cs.flatMap fun c => if c = .qzs then [] else obsFor env c e.obs) ∧
        List.Forall₂ (fun o o' => Back e.cfg.msmType (known env e o) o o') (L.filter wanted) R ∧
        WellSplit e.t (stnToSender (e.sender % 4096)) (s.buf ++ R) (obsOut (RtcmSbp.run env' s xs).2) ∧
        (RtcmSbp.run env' s xs).1.buf = [] ∧ (RtcmSbp.run env' s xs).1.fcn = table ∧
        ∀ pre x post, xs = pre ++ x :: post → obsOut (RtcmSbp.run env' s pre).2 = [] := by
  intro cs
  induction cs with
  | nil => intro _ _ h; exact absurd rfl h
  | cons c cs ih =>
    intro xs s _ hnd hcs hla hall hf hlen hfit hgg htag
    cases hall with
    | cons hpx hr =>
    rename_i x xs
    obtain ⟨hp, hx⟩ := hpx
    have hgl : c = .glo → (∃ o ∈ e.obs, env.consOf o.code = some .gps) → s.lastGps = epochTime e.t := by
      rintro rfl h
      rcases hgg (by simp) h with h | h
      · cases h
      · exact h
    cases cs with
    | nil =>
      cases hr
      have one : ∀ pre y post, [x] = pre ++ y :: post → obsOut (RtcmSbp.run env' s pre).2 = [] := by
        intro pre y post h
        cases pre with
        | nil => rfl
        | cons => simp at h
      obtain ⟨c1, c2⟩ := hcs c (by simp)
      have hl : last = some c := by rw [← hla]; rfl
      rw [if_pos hl] at hp
      simp only [List.flatMap_cons, List.flatMap_nil, List.append_nil] at hlen ⊢
      obtain ⟨f1, f2, f3, L, R, f4, f5, f6, f7⟩ := frame_in env env' ht hm table e he (hok c) c1 c2 (by norm_num) x hx hp s hf hlen hfit hgl
      simp only [RtcmSbp.run]
      rw [step_solved env' s x hx.solved (by omega), if_pos (f3.2 rfl), f7]
      simp only [List.append_nil]
      rw [obsOut_append, f6, List.nil_append]
      by_cases hq : c = .qzs
      · rw [if_pos hq] at f5
        simp only [if_pos hq]
        cases f5
        obtain ⟨g1, g2⟩ : s.obsTime = e.t ∧ s.sender = stnToSender (e.sender % 4096) := by
          rcases htag with ⟨c', h, h'⟩ | h
          · rw [List.mem_singleton] at h; exact absurd (h.trans hq) h'
          · exact h
        obtain ⟨w1, w2, w3⟩ := send_ok (timed env' s x) (by show s.buf.length ≤ 210; omega)
        have w1 : WellSplit s.obsTime s.sender s.buf _ := w1
        rw [g1, g2] at w1
        exact ⟨[], [], List.Perm.refl _, .nil, by rw [List.append_nil]; exact w1, w2, w3.trans hf, one⟩
      · rw [if_neg hq] at f5
        simp only [if_neg hq]
        have hR : R.length ≤ (obsFor env c e.obs).length := by
          rw [← f5.length_eq, ← f4.length_eq]; exact List.length_filter_le _ _
        obtain ⟨w1, w2, w3⟩ := send_ok (after (timed env' s x) (epochTime e.t) (stnToSender (e.sender % 4096)) R) (by
          show (s.buf ++ R).length ≤ 210
          rw [List.length_append]; omega)
        have w1 : WellSplit (sbpTime (epochTime e.t)) _ (s.buf ++ R) _ := w1
        rw [sbpTime_epoch] at w1
        exact ⟨L, R, f4, f5, w1, w2, w3.trans hf, one⟩
    | cons c' cs =>
      obtain ⟨c1, c2⟩ := hcs c (by simp)
      have hl : ¬ last = some c := by
        intro h
        rw [List.getLast?_cons_cons, h] at hla
        rw [List.nodup_cons] at hnd
        exact hnd.1 (List.mem_of_getLast? hla)
      rw [if_neg hl] at hp
      rw [List.flatMap_cons, List.length_append] at hlen
      obtain ⟨f1, f2, f3, L, R, f4, f5, f6, f7⟩ := frame_in env env' ht hm table e he (hok c) c1 c2 (by norm_num) x hx hp s hf (by omega) hfit hgl
      have hstep : RtcmSbp.step env' s x = dispatch env' x (messageType x.payload) (timed env' s x) := by
        rw [step_solved env' s x hx.solved (by omega), if_neg (fun h => by have := f3.1 h; omega)]
      have more : ∀ s', (dispatch env' x (messageType x.payload) (timed env' s x)).1 = s' →
          (∀ pre y post, xs = pre ++ y :: post → obsOut (RtcmSbp.run env' s' pre).2 = []) →
          ∀ pre y post, x :: xs = pre ++ y :: post → obsOut (RtcmSbp.run env' s pre).2 = [] := by
        intro s' hs' hh pre y post h
        cases pre with
        | nil => rfl
        | cons z pre =>
          rw [List.cons_append, List.cons.injEq] at h
          obtain ⟨rfl, h⟩ := h
          simp only [RtcmSbp.run]
          rw [hstep, obsOut_append, f6, List.nil_append, hs']
          exact hh pre y post h
      have more := more _ f7
      simp only [RtcmSbp.run]
      rw [hstep, obsOut_append, f6, List.nil_append, f7]
      have hcs' : ∀ d ∈ c' :: cs, d ≠ .sbas ∧ obsFor env d e.obs ≠ [] := fun d hd => hcs d (List.mem_cons_of_mem _ hd)
      rw [List.getLast?_cons_cons] at hla
      rw [List.nodup_cons] at hnd
      rw [List.flatMap_cons]
      by_cases hq : c = .qzs
      · rw [if_pos hq] at f5
        cases f5
        obtain ⟨L', R', i1, i2, i3, i4, i5, i6⟩ := ih xs (timed env' s x) (by simp) hnd.2 hcs' hla hr hf
          (by show s.buf.length + _ ≤ 210; omega) hfit (by
            intro h1 h2
            rcases hgg (List.mem_cons_of_mem _ h1) h2 with h | h
            · rw [List.head?_cons, hq] at h; cases h
            · exact Or.inr h) (by
            rcases htag with ⟨d, h, h'⟩ | h
            · rw [List.mem_cons] at h
              rcases h with h | h
              · exact absurd (h.trans hq) h'
              · exact Or.inl ⟨d, h, h'⟩
            · exact Or.inr h)
        simp only [if_pos hq]
        exact ⟨L', R', by rw [List.nil_append]; exact i1, i2, i3, i4, i5, more (by rw [if_pos hq]; exact i6)⟩
      · rw [if_neg hq] at f5
        simp only [if_neg hq]
        have hR : R.length ≤ (obsFor env c e.obs).length := by
          rw [← f5.length_eq, ← f4.length_eq]; exact List.length_filter_le _ _
        obtain ⟨L', R', i1, i2, i3, i4, i5, i6⟩ := ih xs
          (after (timed env' s x) (epochTime e.t) (stnToSender (e.sender % 4096)) R) (by simp) hnd.2 hcs' hla hr hf
          (by show (s.buf ++ R).length + _ ≤ 210; rw [List.length_append]; omega) (Or.inr ⟨rfl, rfl, rfl⟩) (fun _ _ => Or.inr rfl) (Or.inr ⟨sbpTime_epoch _, rfl⟩)
        refine ⟨L ++ L', R ++ R', f4.append i1, ?_, ?_, i4, i5, more (by rw [if_neg hq]; exact i6)⟩
        · rw [List.filter_append]; exact forall₂_append f5 i2
        · rw [← List.append_assoc]; exact i3

end Verif.ObsStream
