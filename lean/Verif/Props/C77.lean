import Verif.Spec.Options
import Verif.Props.C51
/-!
# C77: the options of rtcm3tosbp
-/
namespace Verif.Options
open Verif.Options.Spec
open Verif.Msm (Cons Code)
open Verif.RtcmSbp (Env State Input)
open Verif.RtcmSbp.Spec (obsOut)

/-! ### the command line -/

/-- the effect of a setting -/
def setBias (t : Int → ℚ) (e : Int × ℚ) : Int → ℚ := fun c => if c = e.1 then e.2 else t c
def setGlo (w : World) (t : ℚ × ℚ) (e : Int × ℚ) : ℚ × ℚ :=
  if e.1 = w.codeNum .glo_l1of then (e.2, t.2) else if e.1 = w.codeNum .glo_l2of then (t.1, e.2) else t
def apply (w : World) (o : Opts) : Setting → Opts
  | .disable k => { o with masked := fun x => o.masked x || decide (x = k) }
  | .biases l => { o with sigBias := l.foldl setBias o.sigBias }
  | .gloCode l => { o with gloCode := l.foldl (setGlo w) o.gloCode }
  | .gloPhase l => { o with gloPhase := l.foldl (setGlo w) o.gloPhase }
  | .time t => { o with unix := t }
  | .obs => { o with obs := true }
  | .verbose => o

theorem tokens_text {w : World} {t : List Char} {l : List (Int × ℚ)} (h : BiasText w t l) :
    ∃ toks, tokens t = toks ∧ List.Forall₂ (fun tok e => w.bias tok = some e) toks l := by
  obtain ⟨toks, rfl, hne, h⟩ := h
  have h1 : ∀ tok ∈ toks, tok ≠ [] ∧ ',' ∉ tok := by
    clear hne
    induction h with
    | nil => simp
    | cons h _ ih =>
      intro tok ht
      rcases List.mem_cons.1 ht with rfl | ht
      · exact ⟨h.1, h.2.1⟩
      · exact ih tok ht
  refine ⟨toks, ?_, h.imp fun _ _ h => h.2.2⟩
  unfold tokens
  rw [List.splitOn_intercalate ',' (by
    intro tok ht hm
    exact (h1 tok ht).2 hm) hne]
  rw [List.filter_eq_self]
  intro tok ht
  simpa using (h1 tok ht).1

theorem parseBiases_ok {w : World} {toks : List (List Char)} {l : List (Int × ℚ)} (h : List.Forall₂ (fun tok e => w.bias tok = some e) toks l) :
    ∀ (t : Int → ℚ), (∀ e ∈ l, 0 ≤ e.1 ∧ e.1 < w.codeCount) → parseBiases w toks t = some (l.foldl setBias t) := by
  induction h with
  | nil => intro t _; rfl
  | @cons tok e toks l h _ ih =>
    intro t hl
    have := hl e (by simp)
    obtain ⟨code, b⟩ := e
    unfold parseBiases
    rw [h]
    simp only at this ⊢
    rw [if_neg (by omega), if_neg (by omega), ih _ fun e he => hl e (List.mem_cons_of_mem _ he)]
    rfl

theorem parseGlo_ok {w : World} {toks : List (List Char)} {l : List (Int × ℚ)} (h : List.Forall₂ (fun tok e => w.bias tok = some e) toks l) :
    ∀ (t : ℚ × ℚ), parseGlo w toks t = l.foldl (setGlo w) t := by
  induction h with
  | nil => intro t; rfl
  | @cons tok e toks l h _ ih =>
    intro t
    obtain ⟨code, b⟩ := e
    unfold parseGlo
    rw [h]
    simp only
    rw [ih]
    rfl

theorem option_takes {w : World} {c : Char} {s : Setting} {t : List Char} (h : Takes w c s t) (o : Opts) {a : List Char} (ha : noEq a = t) :
    option w o c (some a) = .go (apply w o s) ∧ takesArg c = some true ∧ c ≠ '-' := by
  cases h with
  | biases l t h hl =>
    obtain ⟨toks, h1, h2⟩ := tokens_text h
    refine ⟨?_, by decide, by decide⟩
    simp only [option, Option.getD_some, ha, h1, parseBiases_ok h2 o.sigBias hl]
    rfl
  | gloCode l t h =>
    obtain ⟨toks, h1, h2⟩ := tokens_text h
    refine ⟨?_, by decide, by decide⟩
    simp only [option, Option.getD_some, ha, h1, parseGlo_ok h2]
    rfl
  | gloPhase l t h =>
    obtain ⟨toks, h1, h2⟩ := tokens_text h
    refine ⟨?_, by decide, by decide⟩
    simp only [option, Option.getD_some, ha, h1, parseGlo_ok h2]
    rfl
  | week wn tow t h hv =>
    refine ⟨?_, by decide, by decide⟩
    simp only [option, Option.getD_some, ha, h, hv]
    rfl
  | date d t h hv =>
    refine ⟨?_, by decide, by decide⟩
    simp only [option, Option.getD_some, ha, h, hv]
    rfl

theorem option_flag {w : World} {c : Char} {s : Setting} (h : Flag w c s) (o : Opts) :
    option w o c none = .go (apply w o s) ∧ takesArg c = some false ∧ c ≠ '-' := by
  cases h <;> exact ⟨rfl, by decide, by decide⟩

theorem noEq_id {t : List Char} (h : t.head? ≠ some '=') : noEq t = t := by
  cases t with
  | nil => rfl
  | cons c t =>
    unfold noEq
    split
    · rename_i h'; cases h'; exact absurd rfl h
    · rfl

theorem options_append {w : World} {o o' : Opts} {a b : List (Char × Option (List Char))} (h : options w o a = .go o') :
    options w o (a ++ b) = options w o' b := by
  induction a generalizing o with
  | nil => cases h; rfl
  | cons x a ih =>
    obtain ⟨c, s⟩ := x
    simp only [List.cons_append, options] at h ⊢
    cases hx : option w o c s with
    | go o1 => rw [hx] at h; exact ih h
    | bye => rw [hx] at h; cases h
    | wrong => rw [hx] at h; cases h
    | undef => rw [hx] at h; cases h

theorem cluster_flags {w : World} {cs : List Char} {fs : List Setting} (h : List.Forall₂ (Flag w) cs fs) :
    (cluster cs).2 = none ∧ ∀ o, options w o (cluster cs).1 = .go (fs.foldl (apply w) o) := by
  induction h with
  | nil => exact ⟨rfl, fun o => rfl⟩
  | @cons c s cs fs h _ ih =>
    have h1 := fun o => option_flag h o
    unfold cluster
    rw [(h1 {}).2.1]
    refine ⟨ih.1, fun o => ?_⟩
    simp only [options, (h1 o).1, List.foldl_cons]
    exact ih.2 _

theorem line_ok {w : World} {ss : List Setting} {args : List (List Char)} (h : Line w ss args) :
    ∀ o, options w o (getopt none args) = .go (ss.foldl (apply w) o) := by
  induction h with
  | nil => intro o; rfl
  | rest args => intro o; rfl
  | word a ss args ha _ ih =>
    intro o
    unfold getopt
    split
    · rename_i c s; exact absurd rfl (ha c s)
    · exact ih o
  | flags cs fs ss args hc hf _ ih =>
    intro o
    obtain ⟨h1, h2⟩ := cluster_flags hf
    cases hf with
    | nil => exact absurd rfl hc
    | @cons c s cs fs hcs hf =>
      unfold getopt
      simp only
      rw [if_neg (fun h => (option_flag hcs o).2.2 h.1), options_append (h2 o), h1, ih, List.foldl_append]
  | next c s t ss args ht he _ ih =>
    intro o
    obtain ⟨h1, h2, h3⟩ := option_takes ht o (noEq_id he)
    unfold getopt
    simp only
    rw [if_neg (fun h => h3 h.1)]
    unfold cluster
    rw [h2]
    simp only [if_true, List.nil_append, getopt, options, h1, List.foldl_cons]
    exact ih _
  | joined c s t ss args ht hn he _ ih =>
    intro o
    obtain ⟨h1, h2, h3⟩ := option_takes ht o (noEq_id he)
    unfold getopt
    simp only
    rw [if_neg (fun h => h3 h.1)]
    unfold cluster
    rw [h2]
    simp only [if_neg hn, List.cons_append, List.nil_append, options, h1, List.foldl_cons]
    exact ih _
  | equals c s t ss args ht _ ih =>
    intro o
    obtain ⟨h1, h2, h3⟩ := option_takes ht o (a := '=' :: t) rfl
    unfold getopt
    simp only
    rw [if_neg (fun h => h3 h.1)]
    unfold cluster
    rw [h2]
    simp only [if_neg (List.cons_ne_nil _ _), List.cons_append, List.nil_append, options, h1, List.foldl_cons]
    exact ih _

theorem lastFor_append (code : Int) (l : List (Int × ℚ)) (e : Int × ℚ) : lastFor code (l ++ [e]) = if e.1 = code then e.2 else lastFor code l := by
  unfold lastFor
  rw [List.reverse_append, List.reverse_singleton, List.singleton_append, List.find?_cons]
  by_cases h : e.1 = code
  · simp [h]
  · simp [h]

theorem bias_fold (l l' : List (Int × ℚ)) : l'.foldl setBias (fun c => lastFor c l) = fun c => lastFor c (l ++ l') := by
  induction l' generalizing l with
  | nil => simp
  | cons e l' ih =>
    rw [List.foldl_cons, show l ++ e :: l' = (l ++ [e]) ++ l' by simp, ← ih]
    congr 1
    funext c
    rw [lastFor_append]
    unfold setBias
    by_cases h : c = e.1
    · rw [if_pos h, if_pos h.symm]
    · rw [if_neg h, if_neg (fun h' => h h'.symm)]

theorem glo_fold (w : World) (hw : w.codeNum .glo_l1of ≠ w.codeNum .glo_l2of) (l l' : List (Int × ℚ)) :
    l'.foldl (setGlo w) (lastFor (w.codeNum .glo_l1of) l, lastFor (w.codeNum .glo_l2of) l) =
      (lastFor (w.codeNum .glo_l1of) (l ++ l'), lastFor (w.codeNum .glo_l2of) (l ++ l')) := by
  induction l' generalizing l with
  | nil => simp
  | cons e l' ih =>
    rw [List.foldl_cons, show l ++ e :: l' = (l ++ [e]) ++ l' by simp, ← ih]
    congr 1
    rw [lastFor_append, lastFor_append]
    unfold setGlo
    by_cases h1 : e.1 = w.codeNum .glo_l1of
    · rw [if_pos h1, if_pos h1, if_neg (fun h => hw (h1.symm.trans h))]
    · rw [if_neg h1, if_neg h1]
      by_cases h2 : e.1 = w.codeNum .glo_l2of
      · rw [if_pos h2, if_pos h2]
      · rw [if_neg h2, if_neg h2]

theorem configured {w : World} (hw : w.codeNum .glo_l1of ≠ w.codeNum .glo_l2of) (ss : List Setting) :
    Configured w ss (ss.foldl (apply w) {}) := by
  induction ss using List.reverseRecOn with
  | nil => exact ⟨by simp, by intro c; rfl, rfl, rfl, rfl, by simp⟩
  | append_singleton ss s ih =>
    rw [List.foldl_append, List.foldl_cons, List.foldl_nil]
    generalize ss.foldl (apply w) {} = o at ih
    have hb : o.sigBias = fun c => lastFor c (biasesOf ss) := funext ih.bias
    have e1 : ∀ s, biasesOf (ss ++ [s]) = biasesOf ss ++ biasesOf [s] := fun s => by simp [biasesOf]
    have e2 : ∀ s, gloCodesOf (ss ++ [s]) = gloCodesOf ss ++ gloCodesOf [s] := fun s => by simp [gloCodesOf]
    have e3 : ∀ s, gloPhasesOf (ss ++ [s]) = gloPhasesOf ss ++ gloPhasesOf [s] := fun s => by simp [gloPhasesOf]
    have e4 : ∀ s, timesOf (ss ++ [s]) = timesOf ss ++ timesOf [s] := fun s => by simp [timesOf, List.filterMap_append]
    constructor
    · intro c
      have := ih.masked c
      cases s <;> simp [apply, this]
    · intro c
      rw [e1]
      cases s with
      | biases l =>
        simp only [apply]
        rw [hb, bias_fold]
        simp [biasesOf]
      | _ => simpa [apply, biasesOf] using ih.bias c
    · rw [e2]
      cases s with
      | gloCode l => simp only [apply]; rw [ih.gloCode, glo_fold w hw]; simp [gloCodesOf]
      | _ => simpa [apply, gloCodesOf] using ih.gloCode
    · rw [e3]
      cases s with
      | gloPhase l => simp only [apply]; rw [ih.gloPhase, glo_fold w hw]; simp [gloPhasesOf]
      | _ => simpa [apply, gloPhasesOf] using ih.gloPhase
    · rw [e4]
      cases s with
      | time t => simp [apply, timesOf]
      | _ => simpa [apply, timesOf] using ih.unix
    · have := ih.obs
      cases s <;> simp [apply, this]

/-- **C77 (command line).**  Whatever settings a command line asks for, in whatever notation, the program begins with them: constellations
disabled, biases, time and time source; of several values the last counts.  It refuses to start when the times of the observations are to be
used and no time is given.  Missing: -S, see `C77_sbas_bug`. -/
theorem C77_command_line_partial (w : World) (hw : w.codeNum .glo_l1of ≠ w.codeNum .glo_l2of) {ss : List Setting} {args : List (List Char)}
    (h : Line w ss args) :
    (.obs ∈ ss ∧ (timesOf ss).getLast?.getD 0 = 0 → commandLine w args = .wrong) ∧
    (¬ (.obs ∈ ss ∧ (timesOf ss).getLast?.getD 0 = 0) → ∃ o, commandLine w args = .go o ∧ Configured w ss o) := by
  have hc := configured hw ss
  unfold commandLine
  rw [line_ok h {}]
  generalize ss.foldl (apply w) {} = o at hc
  simp only
  have he : (o.obs = true ∧ o.unix = 0) ↔ (.obs ∈ ss ∧ (timesOf ss).getLast?.getD 0 = 0) := by rw [hc.obs, hc.unix]
  exact ⟨fun h => if_pos (he.2 h), fun h => ⟨o, if_neg fun h' => h (he.1 h'), hc⟩⟩

/-- **C77 (no start).**  An impossible week or a text that is no time makes the program stop with an error, wherever it stands after proper
options. -/
theorem C77_bad_time (w : World) {ss : List Setting} {args : List (List Char)} (h : Line w ss args) (hr : ∀ pre post, args ≠ pre ++ ['-', '-'] :: post)
    (t : List Char) (he : t.head? ≠ some '=') (more : List (List Char))
    (hb : w.week t = none ∨ ∃ wn tow, w.week t = some (wn, tow) ∧ w.valid ⟨wn, tow⟩ = false) :
    commandLine w (args ++ ['-', 'w'] :: t :: more) = .wrong := by
  have key : ∀ o, ∃ o', options w o (getopt none (args ++ ['-', 'w'] :: t :: more)) = options w o' (getopt none (['-', 'w'] :: t :: more)) := by
    induction h with
    | nil => intro o; exact ⟨o, rfl⟩
    | rest args => exact absurd rfl (hr [] args)
    | word a ss args ha _ ih =>
      intro o
      rw [List.cons_append]
      unfold getopt
      split
      · rename_i c s; exact absurd rfl (ha c s)
      · exact ih (fun pre post h => hr (a :: pre) post (by rw [h]; rfl)) o
    | flags cs fs ss args hc hf _ ih =>
      intro o
      obtain ⟨h1, h2⟩ := cluster_flags hf
      have ih := ih (fun pre post h => hr (('-' :: cs) :: pre) post (by rw [h]; rfl))
      cases hf with
      | nil => exact absurd rfl hc
      | @cons c s cs fs hcs hf =>
        rw [List.cons_append]
        conv => enter [1, o']; lhs; unfold getopt
        simp only
        rw [if_neg (fun h => (option_flag hcs o).2.2 h.1), options_append (h2 o), h1]
        exact ih _
    | next c s t ss args ht he _ ih =>
      intro o
      obtain ⟨h1, h2, h3⟩ := option_takes ht o (noEq_id he)
      have ih := ih (fun pre post h => hr (_ :: _ :: pre) post (by rw [h]; rfl))
      rw [List.cons_append, List.cons_append]
      conv => enter [1, o']; lhs; unfold getopt
      simp only
      rw [if_neg (fun h => h3 h.1)]
      conv => enter [1, o']; lhs; unfold cluster
      rw [h2]
      simp only [if_true, List.nil_append, getopt, options, h1]
      exact ih _
    | joined c s t ss args ht hn he _ ih =>
      intro o
      obtain ⟨h1, h2, h3⟩ := option_takes ht o (noEq_id he)
      have ih := ih (fun pre post h => hr (_ :: pre) post (by rw [h]; rfl))
      rw [List.cons_append]
      conv => enter [1, o']; lhs; unfold getopt
      simp only
      rw [if_neg (fun h => h3 h.1)]
      conv => enter [1, o']; lhs; unfold cluster
      rw [h2]
      simp only [if_neg hn, List.cons_append, List.nil_append, options, h1]
      exact ih _
    | equals c s t ss args ht _ ih =>
      intro o
      obtain ⟨h1, h2, h3⟩ := option_takes ht o (a := '=' :: t) rfl
      have ih := ih (fun pre post h => hr (_ :: pre) post (by rw [h]; rfl))
      rw [List.cons_append]
      conv => enter [1, o']; lhs; unfold getopt
      simp only
      rw [if_neg (fun h => h3 h.1)]
      conv => enter [1, o']; lhs; unfold cluster
      rw [h2]
      simp only [if_neg (List.cons_ne_nil _ _), List.cons_append, List.nil_append, options, h1]
      exact ih _
  obtain ⟨o, hk⟩ := key {}
  unfold commandLine
  rw [hk]
  have h1 : getopt none (['-', 'w'] :: t :: more) = ('w', some t) :: getopt none more := rfl
  rw [h1]
  simp only [options]
  have h2 : option w o 'w' (some t) = .wrong := by
    simp only [option, Option.getD_some, noEq_id he]
    rcases hb with h | ⟨wn, tow, h, hv⟩
    · rw [h]; rfl
    · rw [h]; simp only [hv]; rfl
  rw [h2]

/-! ### what the options do -/

/-- the codes of the signals of a message belong to its constellation -/
theorem cons_code (c : Cons) (i : Nat) : Msm.codeOf c i = .invalid ∨ consOf (Msm.codeOf c i) = some c := by
  have h : i < 33 ∨ Msm.codeOf c i = .invalid := by
    by_cases h : i < 33
    · exact .inl h
    · right
      obtain ⟨k, rfl⟩ : ∃ k, i = k + 33 := ⟨i - 33, by omega⟩
      cases c <;> rfl
  rcases h with h | h
  · cases c <;> revert i <;> decide
  · exact .inl h

/-- **C77 (disabled constellations).**  Whatever arrives, no observation of a disabled constellation is sent, as long as it arrives in MSM
messages.  Missing: the legacy messages, see `C77_legacy_bug`. -/
theorem C77_disabled_partial (w : World) (o : Opts) (env : Env) (is : List Input)
    (hl : ∀ i ∈ is, RtcmSbp.messageType i.payload ∉ [1002, 1004, 1010, 1012]) :
    ∀ m ∈ obsOut (RtcmSbp.run (envOf w o env) .init is).2, ∀ x ∈ m.obs, ∀ c, consOf x.code = some c → o.masked c = false := by
  intro m hm x hx c hc
  have hsub := RtcmSbp.C21_no_fabrication (envOf w o env) is
  have hin : (⟨m.t.tow, m.sender, x⟩ : RtcmSbp.Spec.Tagged) ∈ RtcmSbp.Spec.offeredRun (envOf w o env) .init is := by
    refine hsub.subset (List.mem_append_left _ ?_)
    unfold RtcmSbp.Spec.tagsOf
    exact List.mem_flatMap.2 ⟨m, hm, List.mem_map.2 ⟨x, hx, rfl⟩⟩
  generalize State.init = s at hin
  clear hsub hm
  induction is generalizing s with
  | nil => cases hin
  | cons i is ih =>
    unfold RtcmSbp.Spec.offeredRun at hin
    rcases List.mem_append.1 hin with hin | hin
    · have hn := hl i (by simp)
      simp only [List.mem_cons, List.not_mem_nil, or_false, not_or] at hn
      unfold RtcmSbp.Spec.offered at hin
      simp only [if_neg hn.1, if_neg hn.2.1, if_neg hn.2.2.1, if_neg hn.2.2.2] at hin
      split at hin
      · rename_i ty cons _
        split at hin
        · obtain ⟨y, hy, he⟩ := List.mem_map.1 hin
          unfold RtcmSbp.Spec.msmObs at hy
          obtain ⟨cell, _, hy⟩ := List.mem_filterMap.1 hy
          simp only at hy
          split at hy
          · rename_i hcond
            have e1 := Option.some.inj hy
            have e2 : y = x := by injection he
            rw [← e2, ← e1] at hc
            simp only [RtcmSbp.packMsm] at hc
            obtain ⟨h1, -, h2, -⟩ := hcond
            cases hs : Msm.signalToCode (RtcmSbp.hdrOf cons _) cell.2.1 with
            | none => rw [hs] at h1; exact absurd rfl h1
            | some code =>
              rw [hs] at hc h1
              unfold Msm.signalToCode at hs
              rw [Option.map_eq_some_iff] at hs
              obtain ⟨k, -, rfl⟩ := hs
              rcases cons_code cons (k + 1) with hq | hq
              · exact absurd hq h1
              · rw [Option.getD_some] at hc
                rw [show (RtcmSbp.hdrOf cons _).cons = cons from rfl, hq] at hc
                rw [← Option.some.inj hc]
                exact h2
          · cases hy
        · cases hin
      · cases hin
    · exact ih (fun i hi => hl i (List.mem_cons_of_mem _ hi)) _ hin

/-- what the converter uses is what the settings ask for -/
theorem env_eq {w : World} {ss : List Setting} {o : Opts} (h : Configured w ss o) (env : Env) : envOf w o env = settingsEnv w ss env := by
  have h1 : (fun c => o.sigBias (w.codeNum c)) = fun c => lastFor (w.codeNum c) (biasesOf ss) := funext fun c => h.bias _
  have h2 : o.masked = fun c => ss.any fun s => match s with | .disable k => decide (k = c) | _ => false := by
    funext c
    rw [Bool.eq_iff_iff, h.masked c, List.any_eq_true]
    constructor
    · intro hm
      exact ⟨_, hm, by simp⟩
    · rintro ⟨s, hs, hk⟩
      cases s with
      | disable k => simp only [decide_eq_true_eq] at hk; rw [← hk]; exact hs
      | _ => simp at hk
  have h3 : fcnBias o = fun c (n : Nat) => if 255 ≤ n then (0, 0) else
      (Fp.f64 (((n : ℚ) - 7) * slope w (gloCodesOf ss) c), Fp.f64 (((n : ℚ) - 7) * slope w (gloPhasesOf ss) c)) := by
    funext c n
    unfold fcnBias
    rw [h.gloCode, h.gloPhase]
    by_cases hn : 255 ≤ n
    · cases c <;> simp [hn]
    · have z : Fp.f64 0 = 0 := rfl
      cases c <;> simp [hn, slope, z]
  unfold envOf settingsEnv
  rw [h1, h2, h3]
  rfl

/-- **C77 (values).**  Whatever the command line asks for, each message offers for sending the measurements in it with the biases asked for,
and without the disabled constellations (`measured`, see C51; for legacy messages see `C77_legacy_bug`); the biases must be below 1000 km and a million cycles. -/
theorem C77_values (w : World) (hw : w.codeNum .glo_l1of ≠ w.codeNum .glo_l2of) {ss : List Setting} {args : List (List Char)} (h : Line w ss args)
    {o : Opts} (ho : commandLine w args = .go o) (env : Env) (hp : env.prn.WF)
    (hb : RtcmSbp.Spec.SmallBias (settingsEnv w ss env)) (s : State) (i : Input)
    (hr : ∀ x ∈ RtcmSbp.Spec.measured (settingsEnv w ss env) s.fcn i.payload, RtcmSbp.Spec.InRange x) :
    List.Forall₂ RtcmSbp.Spec.Carries (RtcmSbp.Spec.measured (settingsEnv w ss env) s.fcn i.payload)
      ((RtcmSbp.Spec.offered (envOf w o env) s i).map (·.obs)) := by
  have hc : Configured w ss o := by
    have := C77_command_line_partial w hw h
    by_cases hb : .obs ∈ ss ∧ (timesOf ss).getLast?.getD 0 = 0
    · rw [this.1 hb] at ho; cases ho
    · obtain ⟨o', h1, h2⟩ := this.2 hb
      rw [h1] at ho
      cases ho
      exact h2
  rw [env_eq hc]
  exact RtcmSbp.C51_values (settingsEnv w ss env) hp hb s i hr

/-! ### examples -/

/-- numbers of one digit -/
def digit : Char → Option Nat
  | '0' => some 0 | '1' => some 1 | '2' => some 2 | '3' => some 3 | '4' => some 4 | '5' => some 5
  | _ => none
/-- a world in which texts like "3:5" and "-1:2" are understood, and a week has 5 seconds -/
def exWorld : World where
  bias := fun t => match t with
    | [a, ':', b] => (digit a).bind fun x => (digit b).map fun y => ((x : Int), (y : ℚ))
    | ['-', a, ':', b] => (digit a).bind fun x => (digit b).map fun y => (-(x : Int), (y : ℚ))
    | _ => none
  week := fun t => match t with
    | [a, ':', b] => (digit a).bind fun x => (digit b).map fun y => ((x : Int), (y : ℚ))
    | _ => none
  date := fun _ => none
  valid := fun t => decide (t.tow < 5)
  gps2time := fun t => 315964800 + t.wn
  date2gps := fun _ => ⟨0, 0⟩
  now := 1600000000
  codeCount := 58
  codeNum := fun c => match c with | .glo_l1of => 3 | .glo_l2of => 4 | .gps_l1ca => 0 | _ => 57

/-- rtcm3tosbp -RE input -b 0:1,3:2 -c=3:5 -b0:4 -w 2:1 -o -- -G -/
example : ∃ o, commandLine exWorld [['-', 'R', 'E'], ['x'], ['-', 'b'], ['0', ':', '1', ',', '3', ':', '2'], ['-', 'c', '=', '3', ':', '5'],
      ['-', 'b', '0', ':', '4'], ['-', 'w'], ['2', ':', '1'], ['-', 'o'], ['-', '-'], ['-', 'G']] = .go o ∧
    Configured exWorld [.disable .glo, .disable .gal, .biases [(0, 1), (3, 2)], .gloCode [(3, 5)], .biases [(0, 4)], .time (315964800 + 2), .obs] o := by
  refine (C77_command_line_partial exWorld (by decide) ?_).2 (by simp [timesOf])
  refine .flags ['R', 'E'] [.disable .glo, .disable .gal] _ _ (by simp) (.cons .glo (.cons .gal .nil)) ?_
  refine .word _ _ _ (by simp) ?_
  refine .next _ _ _ _ _ (.biases _ _ ⟨[['0', ':', '1'], ['3', ':', '2']], by decide, by simp, ?_⟩ (by decide)) (by decide) ?_
  · exact .cons ⟨by decide, by decide, by decide⟩ (.cons ⟨by decide, by decide, by decide⟩ .nil)
  refine .equals _ _ _ _ _ (.gloCode _ _ ⟨[['3', ':', '5']], by decide, by simp, .cons ⟨by decide, by decide, by decide⟩ .nil⟩) ?_
  refine .joined _ _ _ _ _ (.biases _ _ ⟨[['0', ':', '4']], by decide, by simp, .cons ⟨by decide, by decide, by decide⟩ .nil⟩ (by decide))
    (by decide) (by decide) ?_
  refine .next _ _ _ _ _ (.week 2 1 _ (by decide) (by decide)) (by decide) ?_
  exact .flags ['o'] [.obs] _ _ (by simp) (.cons .obs .nil) (.rest _)

/-- biases of up to 1000 km, and up to 1000 m or cycles per GLONASS channel, are small -/
theorem small_bias {w : World} {ss : List Setting} {env : Env} (h1 : ∀ c, |lastFor (w.codeNum c) (biasesOf ss)| ≤ 10 ^ 6)
    (h2 : ∀ c, |slope w (gloCodesOf ss) c| ≤ 1000 ∧ |slope w (gloPhasesOf ss) c| ≤ 1000) : RtcmSbp.Spec.SmallBias (settingsEnv w ss env) := by
  refine ⟨h1, fun c n => ?_⟩
  by_cases hn : 255 ≤ n
  · simp [settingsEnv, hn]
  · have key : ∀ s : ℚ, |s| ≤ 1000 → |Fp.f64 (((n : ℚ) - 7) * s)| ≤ 10 ^ 6 := by
      intro s hs
      have hk : |(n : ℚ) - 7| ≤ 255 := by
        have : (n : ℚ) ≤ ((255 : Nat) : ℚ) := by exact_mod_cast (by omega : n ≤ 255)
        have h0 : (0 : ℚ) ≤ n := by positivity
        push_cast at this
        rw [abs_le]; constructor <;> linarith
      have hm : |((n : ℚ) - 7) * s| ≤ 255 * 1000 := by
        rw [abs_mul]; exact mul_le_mul hk hs (abs_nonneg _) (by norm_num)
      have := RtcmSbp.abs_of_near (RtcmSbp.f64_abs hm) hm
      exact le_trans this (by norm_num)
    have e : (settingsEnv w ss env).gloBias c n =
        (Fp.f64 (((n : ℚ) - 7) * slope w (gloCodesOf ss) c), Fp.f64 (((n : ℚ) - 7) * slope w (gloPhasesOf ss) c)) := by
      simp [settingsEnv, hn]
    rw [e]
    exact ⟨key _ (h2 c).1, key _ (h2 c).2⟩
example : RtcmSbp.Spec.SmallBias (settingsEnv exWorld [.biases [(0, 1)], .biases [(0, 4)], .gloCode [(3, 5)]] RtcmSbp.exEnv) := by
  apply small_bias
  · intro c; cases c <;> decide +kernel
  · intro c; cases c <;> decide +kernel

/-- -b 0:1 -b 0:4: 4 m are added to the pseudorange; -R: nothing of it is left out; GLONASS channel -2 with -c=3:5 -/
example : (RtcmSbp.Spec.measured (settingsEnv exWorld [.biases [(0, 1)], .biases [(0, 4)], .disable .glo] RtcmSbp.exEnv) [] RtcmSbp.exGps10.payload).map
    (fun m => (m.sat, m.code, m.pr)) = [(5, .gps_l1ca, 24 + 70 * 299792.458 - 9 / 6710886400)] := by decide +kernel
example : (settingsEnv exWorld [.gloCode [(3, 5)]] RtcmSbp.exEnv).gloBias .glo_l1of 5 = (-10, 0) := by decide +kernel

/-! ### defects -/

def maskOf : Res → Option (Bool × Bool)
  | .go o => some (o.masked .sbas, o.masked .gps)
  | _ => none

/-- **C77 (bug).**  The option -S takes the next argument away: `-S -G` does not disable GPS; and as the last argument it does nothing, the
SBAS satellites stay. -/
theorem C77_sbas_bug (w : World) : maskOf (commandLine w [['-', 'S'], ['-', 'G']]) = some (true, false) ∧
    maskOf (commandLine w [['-', 'G'], ['-', 'S']]) = some (false, true) := ⟨rfl, rfl⟩

/-- **C77 (bug).**  A negative code number writes outside of the table of biases. -/
theorem C77_negative_code_bug : (match commandLine exWorld [['-', 'b'], ['-', '1', ':', '2']] with | .undef => True | _ => False) := by
  show True; trivial

/-- **C77 (bug).**  An impossible date is ignored without a word: the program starts without a time. -/
theorem C77_date_bug (w : World) (d) (t : List Char) (h : w.date t = some d) (he : t.head? ≠ some '=') (hv : w.valid (w.date2gps d) = false) :
    ∃ o, commandLine w [['-', 'd'], t] = .go o ∧ o.unix = 0 := by
  have h1 : option w {} 'd' (some t) = .go {} := by
    simp only [option, Option.getD_some, noEq_id he, h, hv]
    rfl
  refine ⟨{}, ?_, rfl⟩
  unfold commandLine
  rw [show getopt none [['-', 'd'], t] = [('d', some t)] from rfl]
  simp only [options, h1]
  rfl

/-- **C77 (bug).**  The observations of a disabled constellation are sent when they arrive in legacy messages: GPS with -G. -/
theorem C77_legacy_bug : ∃ m ∈ obsOut (RtcmSbp.run (envOf exWorld { masked := fun c => decide (c = .gps) } RtcmSbp.exEnv) .init [RtcmSbp.exGps10]).2,
    ∃ x ∈ m.obs, consOf x.code = some .gps := by
  have h : (obsOut (RtcmSbp.run (envOf exWorld { masked := fun c => decide (c = .gps) } RtcmSbp.exEnv) .init [RtcmSbp.exGps10]).2).any
      (fun m => m.obs.any fun x => decide (consOf x.code = some .gps)) = true := by decide +kernel
  obtain ⟨m, hm, h⟩ := List.any_eq_true.1 h
  obtain ⟨x, hx, h⟩ := List.any_eq_true.1 h
  exact ⟨m, hm, x, hx, by simpa using h⟩

end Verif.Options
