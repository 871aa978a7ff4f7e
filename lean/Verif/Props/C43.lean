import Verif.Lemmas.UbxImu
import Verif.Lemmas.UbxEx
import Verif.Props.C41_C42
/-! C43: IMU samples of a u-blox receiver. -/
namespace Verif.Ubx
open Verif.Fp Verif.Ubx.Spec Verif.Time

variable {E : Type}

/-! ### cadence -/

/-- position in the cycle of 21 messages -/
def CadInv (n : Nat) (s : EsfSt) : Prop :=
  (n = 0 ∧ s.rawSent = 0) ∨ (n % 21 = 0 ∧ s.rawSent = 20) ∨ (2 ≤ n % 21 ∧ s.rawSent + 1 = n % 21)

def Cad (n : Nat) (q : List (Out E)) : Prop := ∀ (k : Nat) (x : Out E), q[k]? = some x → (isAux x = true ↔ (n + k) % 21 = 0)

theorem cad_nil (n : Nat) : Cad (E := E) n [] := by intro k x h; simp at h

theorem cad_cons {n : Nat} {x : Out E} {q : List (Out E)} (h1 : isAux x = true ↔ n % 21 = 0) (h2 : Cad (n + 1) q) : Cad n (x :: q) := by
  intro k y hy
  cases k with
  | zero => simp at hy; subst hy; simpa using h1
  | succ k => rw [List.getElem?_cons_succ] at hy; have := h2 k y hy; rwa [show n + (k + 1) = n + 1 + k by omega]

theorem cad_append {n : Nat} {p q : List (Out E)} (h1 : Cad n p) (h2 : Cad (n + p.length) q) : Cad n (p ++ q) := by
  induction p generalizing n with
  | nil => simpa using h2
  | cons x p ih =>
    refine cad_cons (by simpa using h1 0 x (by simp)) (ih ?_ ?_)
    · intro k y hy
      have := h1 (k + 1) y (by rwa [List.getElem?_cons_succ])
      rwa [show n + (k + 1) = n + 1 + k by omega] at this
    · rwa [List.length_cons, show n + (p.length + 1) = n + 1 + p.length by omega] at h2

theorem rawLoop_cad (L : SbpLib E) (msss first : Nat) (ds : List EsfRawData) : ∀ (a : RawAcc) (s s' : EsfSt) (os : List (Out E)) (n : Nat),
    rawLoop L msss first ds a s = some (s', os) → CadInv n s →
    Cad n os ∧ CadInv (n + os.length) s' ∧ ∀ o ∈ os, isImuMsg o = true := by
  induction ds with
  | nil =>
    intro a s s' os n h hi
    unfold rawLoop at h
    obtain ⟨rfl, rfl⟩ := Prod.mk.inj (Option.some.inj h)
    exact ⟨cad_nil n, hi, by simp⟩
  | cons d ds ih =>
    intro a s s' os n h hi
    rcases rawLoop_cons L msss first d ds a s s' os h with ⟨_, h⟩ | ⟨_, _, h⟩
    · refine ih _ _ _ _ n h ?_
      unfold tempUpd
      split <;> exact hi
    · rcases h with ⟨_, rfl, rfl⟩ | ⟨_, h⟩
      · exact ⟨cad_nil n, hi, by simp⟩
      · rcases h with ⟨_, rfl, rfl⟩ | ⟨r, _, h⟩
        · exact ⟨cad_nil n, hi, by simp⟩
        · rcases h with ⟨_, rfl, rfl⟩ | ⟨_, _, os', h5, rfl⟩ | ⟨_, _, h⟩
          · exact ⟨cad_nil n, hi, by simp⟩
          · by_cases h20 : s.rawSent % 20 = 0
            · rw [if_pos h20] at h5 ⊢
              have hn : n % 21 = 0 := by
                rcases hi with ⟨h1, h2⟩ | ⟨h1, h2⟩ | ⟨h1, h2⟩ <;> omega
              obtain ⟨g1, g2, g3⟩ := ih _ _ _ _ (n + 2) h5 (by right; right; simp only; omega)
              refine ⟨?_, ?_, ?_⟩
              · refine cad_cons (by simp [isAux, imuAux, hn]) (cad_cons ?_ g1)
                simp only [isAux]
                constructor
                · intro hc; cases hc
                · intro hc; omega
              · simp only [List.cons_append, List.nil_append, List.length_cons]
                rwa [show n + (os'.length + 1 + 1) = n + 2 + os'.length by omega]
              · intro o ho
                simp only [List.cons_append, List.nil_append, List.mem_cons] at ho
                rcases ho with rfl | rfl | ho
                · rfl
                · rfl
                · exact g3 o ho
            · rw [if_neg h20] at h5 ⊢
              have hn : 2 ≤ n % 21 ∧ s.rawSent + 1 = n % 21 := by
                rcases hi with ⟨h1, h2⟩ | ⟨h1, h2⟩ | ⟨h1, h2⟩ <;> omega
              obtain ⟨g1, g2, g3⟩ := ih _ _ _ _ (n + 1) h5 (by
                unfold CadInv; simp only
                by_cases h19 : n % 21 = 20
                · right; left; omega
                · right; right; omega)
              refine ⟨?_, ?_, ?_⟩
              · refine cad_cons ?_ g1
                simp only [isAux]
                constructor
                · intro hc; cases hc
                · intro hc; omega
              · simp only [List.nil_append, List.length_cons]
                rwa [show n + (os'.length + 1) = n + 1 + os'.length by omega]
              · intro o ho
                simp only [List.nil_append, List.mem_cons] at ho
                rcases ho with rfl | ho
                · rfl
                · exact g3 o ho
          · exact ih _ _ _ _ n h hi

theorem handleAll_cad (L : SbpLib E) (frames : List Buf) : ∀ (st st' : CSt) (outs : List (Out E)) (n : Nat),
    handleAll L st frames = some (st', outs) → CadInv n st.esf →
    Cad n (outs.filter isImuMsg) ∧ CadInv (n + (outs.filter isImuMsg).length) st'.esf := by
  induction frames with
  | nil =>
    intro st st' outs n h hi
    unfold handleAll at h
    obtain ⟨rfl, rfl⟩ := Prod.mk.inj (Option.some.inj h)
    exact ⟨cad_nil n, by simpa using hi⟩
  | cons f fs ih =>
    intro st st' outs n h hi
    unfold handleAll at h
    simp only [Option.bind_eq_bind, Option.bind_eq_some_iff] at h
    obtain ⟨⟨st1, o1⟩, h1, ⟨st2, o2⟩, h2, h⟩ := h
    obtain ⟨rfl, rfl⟩ := Prod.mk.inj (Option.some.inj h)
    have key : Cad n (o1.filter isImuMsg) ∧ CadInv (n + (o1.filter isImuMsg).length) st1.esf := by
      have other : (∀ o ∈ o1, isImuMsg o = false) → st1.esf.rawSent = st.esf.rawSent →
          Cad n (o1.filter isImuMsg) ∧ CadInv (n + (o1.filter isImuMsg).length) st1.esf := by
        intro ho hs
        have : o1.filter isImuMsg = [] := List.filter_eq_nil_iff.mpr fun o h => by simp [ho o h]
        rw [this]
        refine ⟨cad_nil n, ?_⟩
        unfold CadInv at hi ⊢
        rw [hs]; simpa using hi
      rcases handle_cases L st f with ⟨m, _, hm⟩ | ⟨m, _, hm⟩ | ho
      · rw [hm] at h1
        unfold rawStep at h1
        rw [Option.map_eq_some_iff] at h1
        obtain ⟨⟨s', os⟩, hr, h1⟩ := h1
        obtain ⟨rfl, rfl⟩ := Prod.mk.inj h1
        obtain ⟨g1, g2, g3⟩ := rawLoop_cad L _ _ _ _ _ _ _ n hr hi
        have e : os.filter isImuMsg = os := List.filter_eq_self.mpr g3
        simp only
        rw [e]
        exact ⟨g1, g2⟩
      · rw [hm] at h1
        exact other (measStep_out L st st1 m o1 h1).1 (measStep_out L st st1 m o1 h1).2.1
      · obtain ⟨⟨o, w, he⟩, hs⟩ := ho st1 o1 h1
        refine other (fun x hx => ?_) (by rw [he])
        have := hs x hx
        cases x <;> first | rfl | cases this
    obtain ⟨k1, k2⟩ := ih _ _ _ _ h2 key.2
    rw [List.filter_append, List.length_append, ← Nat.add_assoc]
    exact ⟨cad_append key.1 k1, k2⟩

/-- **C43 (cadence).**  Over any history of frames, the IMU messages sent are one auxiliary message, 20 samples, one auxiliary message, 20
samples, and so on; an auxiliary message is never the last. -/
theorem C43_cadence (L : SbpLib E) (frames : List Buf) {st : CSt} {outs : List (Out E)}
    (h : handleAll L CSt.init frames = some (st, outs)) :
    (∀ (k : Nat) (x : Out E), (outs.filter isImuMsg)[k]? = some x → (isAux x = true ↔ k % 21 = 0)) ∧
    (outs.filter isImuMsg).length % 21 ≠ 1 := by
  obtain ⟨h1, h2⟩ := handleAll_cad L frames CSt.init st outs 0 h (Or.inl ⟨rfl, rfl⟩)
  refine ⟨fun k x hx => by simpa using h1 k x hx, ?_⟩
  rw [Nat.zero_add] at h2
  rcases h2 with ⟨h, _⟩ | ⟨h, _⟩ | ⟨h, _⟩ <;> omega

/-! ### samples -/

/-- the value written for a datum -/
def axisOut (t : Nat) (v : Int) : Int :=
  if t = 14 ∨ t = 13 ∨ t = 5 then clampS16 (f32 (f32 (f32 (1 / 4096) * f32 v) / f32 (f64 (125 / 32768))))
  else clampS16 (f32 (f32 (f32 (1 / 1024) * f32 v) / f32 (f64 (f64 (4 * f64 (980665 / 100000)) / 32768))))

theorem mem_axes {t : Nat} : t ∈ axisTypes ↔ t = 14 ∨ t = 13 ∨ t = 5 ∨ t = 16 ∨ t = 17 ∨ t = 18 := by simp [axisTypes]

theorem parse_field {t type data : Nat} (ht : t ∈ axisTypes) (m : ImuRaw) :
    axisField t (parseImu data type m) = if type = t then axisOut t (convert24b data) else axisField t m := by
  rw [mem_axes] at ht
  unfold parseImu axisField axisOut
  rcases ht with rfl | rfl | rfl | rfl | rfl | rfl <;> simp only [reduceIte, Nat.reduceEqDiff, or_true, true_or, or_false]
  all_goals
    by_cases h1 : type = 14 <;> by_cases h2 : type = 13 <;> by_cases h3 : type = 5 <;> by_cases h4 : type = 16 <;>
      by_cases h5 : type = 17 <;> by_cases h6 : type = 18 <;> simp [*]

theorem parse_time (data type : Nat) (m : ImuRaw) : (parseImu data type m).tow = m.tow ∧ (parseImu data type m).towF = m.towF := by
  unfold parseImu
  simp only
  split_ifs <;> exact ⟨rfl, rfl⟩

theorem imuData_length (l : List EsfRawData) : (imuData l).length = (ofType 14 l).length + (ofType 13 l).length + (ofType 5 l).length +
    (ofType 16 l).length + (ofType 17 l).length + (ofType 18 l).length := by
  induction l with
  | nil => rfl
  | cons d l ih =>
    unfold imuData ofType at *
    simp only [List.filter_cons, mem_axes] at *
    by_cases h : rawType d = 14 ∨ rawType d = 13 ∨ rawType d = 5 ∨ rawType d = 16 ∨ rawType d = 17 ∨ rawType d = 18
    · rw [if_pos (by simpa using h), List.length_cons, ih]
      rcases h with h | h | h | h | h | h <;> rw [h] <;> simp <;> omega
    · rw [if_neg (by simpa using h), ih]
      push Not at h
      rw [if_neg (by simp [h]), if_neg (by simp [h]), if_neg (by simp [h]), if_neg (by simp [h]), if_neg (by simp [h]), if_neg (by simp [h])]

structure RawInv (pre : List EsfRawData) (a : RawAcc) : Prop where
  cnt : ∀ t ∈ axisTypes, a.recv t = (ofType t pre).length
  lo : ∀ t ∈ axisTypes, a.cur ≤ a.recv t
  hi : ∀ t ∈ axisTypes, a.recv t ≤ a.cur + 1
  val : ∀ t ∈ axisTypes, a.recv t = a.cur + 1 → ∃ d, (ofType t pre)[a.cur]? = some d ∧ axisField t a.msg = axisOut t (rawVal d)

theorem ofType_snoc (t : Nat) (pre : List EsfRawData) (d : EsfRawData) :
    ofType t (pre ++ [d]) = if rawType d = t then ofType t pre ++ [d] else ofType t pre := by
  unfold ofType
  rw [List.filter_append, List.filter_singleton]
  by_cases h : rawType d = t <;> simp [h]

theorem ofType_mono {t k : Nat} {pre post : List EsfRawData} {d : EsfRawData} (h : (ofType t pre)[k]? = some d) :
    (ofType t (pre ++ post))[k]? = some d := by
  unfold ofType at *
  rw [List.filter_append, List.getElem?_append_left (by
    rcases List.getElem?_eq_some_iff.mp h with ⟨h, _⟩; exact h)]
  exact h

theorem msgUpd_field (d : EsfRawData) (r : GpsTime × Nat × Nat) (a : RawAcc) {t : Nat} (ht : t ∈ axisTypes) :
    axisField t (msgUpd d r a) = if rawType d = t then axisOut t (rawVal d) else axisField t a.msg := by
  unfold msgUpd
  rw [parse_field ht, convert24b_eq]
  rfl

theorem inv_step {pre : List EsfRawData} {a : RawAcc} (hI : RawInv pre a) (d : EsfRawData) (hd : rawType d ∈ axisTypes)
    (r : GpsTime × Nat × Nat) (hr : recvUpd d a (rawType d) = a.cur + 1) :
    RawInv (pre ++ [d]) { a with recv := recvUpd d a, msg := msgUpd d r a } := by
  have hrec : recvUpd d a (rawType d) = a.recv (rawType d) + 1 := if_pos rfl
  have hne : ∀ t, t ≠ rawType d → recvUpd d a t = a.recv t := fun t h => if_neg h
  refine ⟨?_, ?_, ?_, ?_⟩
  · intro t ht
    rw [ofType_snoc]
    by_cases h : rawType d = t
    · subst h
      simp only
      rw [hrec, hI.cnt _ ht, if_pos trivial, List.length_append]; rfl
    · simp only
      rw [hne t (Ne.symm h), if_neg h]; exact hI.cnt t ht
  · intro t ht
    simp only
    by_cases h : rawType d = t
    · subst h; omega
    · rw [hne t (Ne.symm h)]; exact hI.lo t ht
  · intro t ht
    simp only
    by_cases h : rawType d = t
    · subst h; omega
    · rw [hne t (Ne.symm h)]; exact hI.hi t ht
  · intro t ht h1
    simp only at h1 ⊢
    rw [msgUpd_field d r a ht, ofType_snoc]
    by_cases h : rawType d = t
    · subst h
      rw [if_pos rfl, if_pos rfl]
      refine ⟨d, ?_, rfl⟩
      have : (ofType (rawType d) pre).length = a.cur := by rw [← hI.cnt _ ht]; omega
      rw [List.getElem?_append_right (by omega), this]
      simp
    · rw [if_neg h, if_neg h]
      rw [hne t (Ne.symm h)] at h1
      exact hI.val t ht h1

/-- what the samples of a list of data must be -/
def SampleOk (L : SbpLib E) (first : Nat) (run : Int) (l : List EsfRawData) (j : Nat) (r : ImuRaw) : Prop :=
  (∀ t ∈ axisTypes, ∃ d, (ofType t l)[j]? = some d ∧ axisField t r = axisOut t (rawVal d)) ∧
  ∃ d τ, (imuData l)[6 * j + 5]? = some d ∧ imuRawTime L d.sensor_time_tag.toNat first run = some (some (τ, r.tow, r.towF))

theorem rawMsgs_append (p q : List (Out E)) : rawMsgs (p ++ q) = rawMsgs p ++ rawMsgs q := by
  unfold rawMsgs; rw [List.filterMap_append]

theorem rawMsgs_aux (s : EsfSt) (p : Prop) [Decidable p] : rawMsgs (E := E) (if p then [imuAux s] else []) = [] := by
  split <;> rfl

theorem unwrap_self {run : Int} {last msss : Nat} (h : -1 ≤ run) :
    unwrap (unwrap run last msss) msss msss = unwrap run last msss := by
  unfold unwrap
  split_ifs <;> first | rfl | (simp at *) <;> omega

theorem rawLoop_samples (L : SbpLib E) (msss first : Nat) (ds : List EsfRawData) : ∀ (pre : List EsfRawData) (a : RawAcc)
    (s s' : EsfSt) (os : List (Out E)), rawLoop L msss first ds a s = some (s', os) → RawInv pre a → -1 ≤ s.runImu →
    ∀ (j : Nat) (r : ImuRaw), (rawMsgs os)[j]? = some r →
      SampleOk L first (unwrap s.runImu s.lastImuMsss msss) (pre ++ ds) (a.cur + j) r := by
  induction ds with
  | nil =>
    intro pre a s s' os h _ _ j r hr
    unfold rawLoop at h
    obtain ⟨rfl, rfl⟩ := Prod.mk.inj (Option.some.inj h)
    simp [rawMsgs] at hr
  | cons d ds ih =>
    intro pre a s s' os h hI hrun j r hr
    have happ : pre ++ d :: ds = (pre ++ [d]) ++ ds := by simp
    have hrun1 : -1 ≤ unwrap s.runImu s.lastImuMsss msss := by unfold unwrap; split_ifs <;> omega
    rcases rawLoop_cons L msss first d ds a s s' os h with ⟨hn, h1⟩ | ⟨hm, _, h1⟩
    · have hI' : RawInv (pre ++ [d]) a := by
        have e : ∀ t ∈ axisTypes, ofType t (pre ++ [d]) = ofType t pre := by
          intro t ht
          rw [ofType_snoc, if_neg (fun hc : rawType d = t => hn (hc ▸ ht))]
        exact ⟨fun t ht => by rw [e t ht]; exact hI.cnt t ht, hI.lo, hI.hi, fun t ht h => by rw [e t ht]; exact hI.val t ht h⟩
      have e : (tempUpd d s).runImu = s.runImu ∧ (tempUpd d s).lastImuMsss = s.lastImuMsss := by
        unfold tempUpd; split <;> exact ⟨rfl, rfl⟩
      rw [happ, ← e.1, ← e.2]
      exact ih _ a _ s' os h1 hI' (by rw [e.1]; exact hrun) j r hr
    · have none_out : os = [] → SampleOk L first (unwrap s.runImu s.lastImuMsss msss) (pre ++ d :: ds) (a.cur + j) r := by
        rintro rfl; simp [rawMsgs] at hr
      rcases h1 with ⟨_, _, h2⟩ | ⟨_, h1⟩
      · exact none_out h2
      · rcases h1 with ⟨_, _, h2⟩ | ⟨q, hq, h1⟩
        · exact none_out h2
        · rcases h1 with ⟨_, _, h2⟩ | ⟨hr1, hc, os', h5, rfl⟩ | ⟨hr1, hc, h5⟩
          · exact none_out h2
          · have hS := inv_step hI d hm q hr1
            unfold allRecv at hc
            rw [List.all_eq_true] at hc
            rw [rawMsgs_append, rawMsgs_aux, List.nil_append] at hr
            change (msgUpd d q a :: rawMsgs os')[j]? = some r at hr
            rw [happ]
            cases j with
            | zero =>
              obtain rfl : msgUpd d q a = r := by simpa using hr
              refine ⟨?_, d, q.1, ?_, ?_⟩
              · intro t ht
                obtain ⟨x, hx, hv⟩ := hS.val t ht (by simpa using hc t ht)
                exact ⟨x, ofType_mono hx, hv⟩
              · have hlen : (imuData pre).length = 6 * a.cur + 5 := by
                  have e : (imuData (pre ++ [d])).length = (imuData pre).length + 1 := by
                    unfold imuData
                    rw [List.filter_append, List.length_append]
                    simp [hm]
                  have hcnt : ∀ t ∈ axisTypes, (ofType t (pre ++ [d])).length = a.cur + 1 := by
                    intro t ht
                    rw [← hS.cnt t ht]
                    simpa using hc t ht
                  have := imuData_length (pre ++ [d])
                  rw [hcnt 14 (by simp [axisTypes]), hcnt 13 (by simp [axisTypes]), hcnt 5 (by simp [axisTypes]),
                    hcnt 16 (by simp [axisTypes]), hcnt 17 (by simp [axisTypes]), hcnt 18 (by simp [axisTypes])] at this
                  omega
                unfold imuData at hlen ⊢
                rw [List.append_assoc, List.filter_append, List.getElem?_append_right (by omega), hlen]
                simp [hm]
              · have e := parse_time (d.data.toNat % 2 ^ 24) (rawType d) { a.msg with tow := q.2.1, towF := q.2.2 }
                unfold msgUpd
                rw [e.1, e.2]
                exact hq
            | succ j =>
              rw [List.getElem?_cons_succ] at hr
              have hI' : RawInv (pre ++ [d]) { recv := recvUpd d a, cur := a.cur + 1, msg := msgUpd d q a } := by
                refine ⟨hS.cnt, ?_, ?_, ?_⟩
                · intro t ht; have := hc t ht; simp at this; simp only; omega
                · intro t ht; have := hc t ht; simp at this; simp only; omega
                · intro t ht h; have := hc t ht; simp at this; simp only at h; omega
              have := ih _ _ _ s' os' h5 hI' hrun1 j r hr
              simp only [runUpd] at this
              rw [unwrap_self hrun] at this
              rwa [show a.cur + (j + 1) = a.cur + 1 + j by omega]
          · have hS := inv_step hI d hm q hr1
            rw [happ]
            have := ih _ _ _ s' os h5 hS hrun1 j r hr
            simp only [runUpd] at this
            rwa [unwrap_self hrun] at this

/-! ### values -/

def clamp16 (x : ℚ) : ℚ := max (-32768) (min 32767 x)

theorem clamp_near (x : ℚ) : |(clampS16 x : ℚ) - clamp16 x| ≤ 1 / 2 := by
  unfold clampS16 clamp16
  by_cases h1 : x < -32768
  · rw [if_pos h1, max_eq_left (by rw [min_eq_right (by linarith)]; linarith)]; norm_num
  · rw [if_neg h1]
    by_cases h2 : 32767 < x
    · rw [if_pos h2, min_eq_left (by linarith)]; norm_num
    · rw [if_neg h2]
      push Not at h1 h2
      rw [min_eq_right (by linarith), max_eq_right (by linarith)]
      have k1 : (-32768 : Int) ≤ cround x := le_cround (by exact_mod_cast h1)
      have k2 : cround x ≤ (32767 : Int) := cround_le (by exact_mod_cast h2)
      have : toS16 (cround x) = cround x := by unfold toS16; omega
      rw [this]
      exact cround_abs x

theorem clamp_close {x y : ℚ} (h : |x - y| ≤ |y| / 8000000) : |clamp16 x - clamp16 y| ≤ 1 / 128 := by
  unfold clamp16
  rw [abs_le] at h
  by_cases h1 : |y| ≤ 32780
  · have : |max (-32768) (min 32767 x) - max (-32768) (min 32767 y)| ≤ |x - y| := by
      rcases le_total x 32767 with a | a <;> rcases le_total y 32767 with b | b <;>
        rcases le_total x (-32768) with c | c <;> rcases le_total y (-32768) with d | d <;>
        simp only [min_eq_left, min_eq_right, a, b] <;>
        (try (rw [max_eq_left (by linarith)])) <;> (try (rw [max_eq_right (by linarith)])) <;>
        (try (rw [max_eq_left (by linarith)])) <;> (try (rw [max_eq_right (by linarith)])) <;>
        rw [abs_le] <;> constructor <;> linarith [le_abs_self (x - y), neg_abs_le (x - y)]
    refine this.trans ?_
    rw [abs_le]
    constructor <;> linarith [h.1, h.2]
  · push Not at h1
    rcases le_total 0 y with hy | hy
    · rw [abs_of_nonneg hy] at h h1
      rw [min_eq_left (by linarith [h.1]), min_eq_left (by linarith)]; norm_num
    · rw [abs_of_nonpos hy] at h h1
      rw [max_eq_left (by rw [min_eq_right (by linarith [h.2])]; linarith [h.2]), max_eq_left (by rw [min_eq_right (by linarith)]; linarith)]
      norm_num

theorem f32_zero : f32 0 = 0 := by unfold f32 fl; rw [if_pos rfl]

theorem f32_val (v : Int) (h : |v| ≤ 8388608) (k : Nat) (hk : k ≤ 20) : f32 (f32 (1 / 2 ^ k) * f32 v) = (v : ℚ) / 2 ^ k := by
  have e1 : f32 (1 / 2 ^ k) = 1 / 2 ^ k := by
    have := f32_exact (m := 1) (k := -(k : Int)) (by norm_num) (by omega)
    rw [zpow_neg, zpow_natCast] at this
    simpa [one_div] using this
  have e2 : f32 v = v := by
    have := f32_exact (m := v) (k := 0) (h.trans (by norm_num)) (by norm_num)
    simpa using this
  rw [e1, e2]
  have := f32_exact (m := v) (k := -(k : Int)) (h.trans (by norm_num)) (by omega)
  rw [zpow_neg, zpow_natCast] at this
  rw [show (1 : ℚ) / 2 ^ k * v = v * (2 ^ k)⁻¹ by rw [one_div, mul_comm], this, div_eq_mul_inv]

theorem div_close {v : Int} {s c c0 : ℚ} (hs : 0 < s) (hs1 : s ≤ 4096) (hc : 0 < c) (hc1 : c ≤ 1) (hc0 : 0 < c0)
    (hcc : |c0 / c - 1| ≤ 1 / 16000000) :
    |f32 ((v : ℚ) / s / c) - (v : ℚ) / s / c0| ≤ |(v : ℚ) / s / c0| / 8000000 := by
  by_cases hv : v = 0
  · subst hv; simp [f32_zero]
  · have hv1 : (1 : ℚ) ≤ |(v : ℚ)| := by
      have : 1 ≤ |v| := Int.one_le_abs hv
      exact_mod_cast this
    have e := f32_err ((v : ℚ) / s / c)
    have hy : (v : ℚ) / s / c = (v : ℚ) / s / c0 * (c0 / c) := by
      field_simp
    have hb : (1 : ℚ) / 2 ^ 150 ≤ |(v : ℚ) / s / c0| / 1000000000 := by
      have hc01 : c0 ≤ 2 := by
        rw [abs_le] at hcc
        have : c0 / c ≤ 2 := by linarith [hcc.2]
        rw [div_le_iff₀ hc] at this
        linarith
      rw [abs_div, abs_div, abs_of_pos hs, abs_of_pos hc0]
      have h1 : (1 : ℚ) / 4096 / 2 ≤ |(v : ℚ)| / s / c0 := by
        gcongr
      refine le_trans ?_ (div_le_div_of_nonneg_right h1 (by norm_num))
      norm_num
    rw [hy] at e ⊢
    generalize (v : ℚ) / s / c0 = y at *
    generalize c0 / c = q at *
    have hq := hcc
    rw [abs_le] at hq
    rw [abs_mul, abs_of_pos (by linarith [hq.1] : 0 < q)] at e
    have h2 : |y * q - y| ≤ |y| / 16000000 := by
      rw [show y * q - y = y * (q - 1) by ring, abs_mul]
      calc |y| * |q - 1| ≤ |y| * (1 / 16000000) := by gcongr
        _ = |y| / 16000000 := by ring
    have h3 : |y| * q ≤ |y| * (1 + 1 / 16000000) := by
      gcongr; linarith [hq.2]
    have hy0 := abs_nonneg y
    calc |f32 (y * q) - y| ≤ |f32 (y * q) - y * q| + |y * q - y| := abs_sub_le _ _ _
      _ ≤ |y| / 8000000 := by linarith

theorem accScale : f32 (f64 (f64 (4 * f64 (980665 / 100000)) / 32768)) = 10283018 / 2 ^ 33 := by
  decide +kernel

theorem axis_says {t : Nat} (ht : t ∈ axisTypes) (v : Int) (hv : |v| ≤ 8388608) : Says16 (axisOut t v) (axisUnits t v) := by
  have key : ∀ (k : Nat) (c c0 : ℚ), k ≤ 12 → 0 < c → c ≤ 1 → 0 < c0 → |c0 / c - 1| ≤ 1 / 16000000 →
      Says16 (clampS16 (f32 (f32 (f32 (1 / 2 ^ k) * f32 v) / c))) ((v : ℚ) / 2 ^ k / c0) := by
    intro k c c0 hk h1 h2 h3 h4
    rw [f32_val v hv k (by omega)]
    have hs : (2 : ℚ) ^ k ≤ 4096 := by
      have : (2 : ℚ) ^ k ≤ 2 ^ 12 := pow_le_pow_right₀ (by norm_num) hk
      norm_num at this ⊢; exact this
    have a1 := clamp_close (div_close (v := v) (s := 2 ^ k) (by positivity) hs h1 h2 h3 h4)
    have a2 := clamp_near (f32 ((v : ℚ) / 2 ^ k / c))
    unfold Says16
    change |_ - clamp16 _| ≤ _
    exact (abs_sub_le _ (clamp16 (f32 ((v : ℚ) / 2 ^ k / c))) _).trans (by linarith)
  unfold axisOut axisUnits
  split
  · have := key 12 (f32 (f64 (125 / 32768))) (125 / 32768) (by omega)
    have e : f32 (f64 (125 / 32768)) = 125 / 32768 := by decide +kernel
    rw [e] at this ⊢
    have := this (by norm_num) (by norm_num) (by norm_num) (by norm_num)
    norm_num at this ⊢
    exact this
  · have := key 10 (10283018 / 2 ^ 33) (4 * (980665 / 100000) / 32768) (by omega) (by norm_num) (by norm_num) (by norm_num) (by
      rw [abs_le]; norm_num)
    rw [accScale]
    norm_num at this ⊢
    exact this

theorem rawVal_range (d : EsfRawData) : |rawVal d| ≤ 8388608 := by
  unfold rawVal
  have h1 := BitVec.le_toInt (d.data.extractLsb' 0 24)
  have h2 := BitVec.toInt_lt (x := d.data.extractLsb' 0 24)
  rw [abs_le]
  norm_num at h1 h2 ⊢
  omega

/-! ### times -/

theorem f64_frac {x : ℚ} (h : 0 ≤ f64 x) : f64 (f64 x - ⌊f64 x⌋) = f64 x - ⌊f64 x⌋ := by
  obtain ⟨m, k, e, hm, hk⟩ := f64_grid x
  rcases le_or_gt 0 k with h0 | h0
  · have : f64 x = ((m * 2 ^ k.toNat : Int) : ℚ) := by
      rw [e]; push_cast
      conv_lhs => rw [← Int.toNat_of_nonneg h0, zpow_natCast]
    rw [this, Int.floor_intCast, sub_self]
    have := f64_int 0 (by norm_num)
    simpa using this
  · have hp : (2 : ℚ) ^ k * ((2 ^ (-k).toNat : Int) : ℚ) = 1 := by
      push_cast
      rw [← zpow_natCast, Int.toNat_of_nonneg (by omega), ← zpow_add₀ (by norm_num)]; simp
    have hf0 : 0 ≤ ⌊f64 x⌋ := Int.floor_nonneg.mpr h
    have e2 : f64 x - ⌊f64 x⌋ = ((m - ⌊f64 x⌋ * 2 ^ (-k).toNat : Int) : ℚ) * 2 ^ k := by
      push_cast
      push_cast at hp
      rw [sub_mul, ← e, mul_assoc, mul_comm _ ((2 : ℚ) ^ k), hp, mul_one]
    rw [e2]
    refine f64_exact ?_ hk
    have hq : (0 : Int) < 2 ^ (-k).toNat := by positivity
    have g1 : 0 ≤ m - ⌊f64 x⌋ * 2 ^ (-k).toNat := by
      have : (0 : ℚ) ≤ ((m - ⌊f64 x⌋ * 2 ^ (-k).toNat : Int) : ℚ) * 2 ^ k := by
        rw [← e2]; linarith [Int.floor_le (f64 x)]
      have := nonneg_of_mul_nonneg_left this (two_pos k)
      exact_mod_cast this
    have g2 : 0 ≤ ⌊f64 x⌋ * 2 ^ (-k).toNat := mul_nonneg hf0 (le_of_lt hq)
    rw [abs_le] at hm ⊢
    omega

theorem castU32_of {x : ℚ} (h0 : 0 ≤ x) (h1 : x < 4294967296) : castU32 x = some ⌊x⌋.toNat := by
  have k1 : 0 ≤ ⌊x⌋ := Int.floor_nonneg.mpr h0
  have k2 : ⌊x⌋ < 4294967296 := Int.floor_lt.mpr (by exact_mod_cast h1)
  unfold castU32 castTo
  rw [ctrunc_of_nonneg h0, if_pos (by omega)]; rfl

theorem imuTime_ok {y : ℚ} (h0 : 0 ≤ y) (h1 : y < 604800) : ∃ t f, imuTime y = some (t, f) ∧ t ≤ 604800000 ∧ f ≤ 255 ∧
    -(1 / 1000000) ≤ y * 1000 - ((t : ℚ) + f / 256) ∧ y * 1000 - ((t : ℚ) + f / 256) ≤ 1 / 256 + 1 / 1000000 := by
  have hy : 0 ≤ y * 1000 := by linarith
  have e := f64_err (y * 1000)
  rw [abs_of_nonneg hy] at e
  have e1 : |f64 (y * 1000) - y * 1000| ≤ 1 / 1000000 := by
    refine e.trans ?_
    have : y * 1000 / 9007199254740992 ≤ 604800 * 1000 / 9007199254740992 := by gcongr
    refine le_trans (add_le_add this le_rfl) (by norm_num)
  rw [abs_le] at e1
  have hm0 := f64_nonneg hy
  have hg := f64_frac hm0
  have hs : f64 (f64 (f64 (y * 1000) - ⌊f64 (y * 1000)⌋) * 256) = (f64 (y * 1000) - ⌊f64 (y * 1000)⌋) * 256 := by
    have := f64_scale (f64 (y * 1000) - ⌊f64 (y * 1000)⌋) 8
    rw [hg] at this ⊢
    norm_num at this ⊢
    exact this
  unfold imuTime
  simp only
  generalize f64 (y * 1000) = ms at *
  have g1 := Int.floor_le ms
  have g2 := Int.lt_floor_add_one ms
  have g3 : 0 ≤ ⌊ms⌋ := Int.floor_nonneg.mpr hm0
  have g4 : ⌊ms⌋ < 604800001 := Int.floor_lt.mpr (by push_cast; linarith [e1.2])
  rw [castU32_of hm0 (by linarith [e1.2])]
  have hc : ((⌊ms⌋.toNat : Nat) : ℚ) = ((⌊ms⌋ : Int) : ℚ) := by exact_mod_cast Int.toNat_of_nonneg g3
  simp only [Option.bind_eq_bind, Option.bind_some, hc, hs]
  have k1 := Int.floor_le ((ms - ⌊ms⌋) * 256)
  have k2 := Int.lt_floor_add_one ((ms - ⌊ms⌋) * 256)
  have k3 : 0 ≤ ⌊(ms - ⌊ms⌋) * 256⌋ := Int.floor_nonneg.mpr (by linarith)
  have k4 : ⌊(ms - ⌊ms⌋) * 256⌋ < 256 := Int.floor_lt.mpr (by push_cast; linarith)
  rw [castU32_of (by linarith) (by linarith)]
  refine ⟨_, _, rfl, by omega, by omega, ?_⟩
  rw [Nat.mod_eq_of_lt (by omega), hc]
  have hc2 : ((⌊(ms - ⌊ms⌋) * 256⌋.toNat : Nat) : ℚ) = ((⌊(ms - ⌊ms⌋) * 256⌋ : Int) : ℚ) := by exact_mod_cast Int.toNat_of_nonneg k3
  rw [hc2]
  constructor <;> linarith [e1.1, e1.2]

theorem sensorDiff_eq {this first : Nat} (h1 : this < 2 ^ 24) (h2 : first < 2 ^ 24) :
    sensorDiff this first = ((this : Int) - first) % 2 ^ 24 := by
  unfold sensorDiff
  simp only
  split <;> omega

/-- double evaluation of the time of a sample -/
theorem sample_double {run d : Int} (h1 : 51 ≤ run) (h2 : run ≤ 4294000000) (hd0 : 0 ≤ d) (hd1 : d < 2 ^ 24) :
    |f64 (f64 (f64 (f64 (390625 / 10000000000) * d) + f64 (f64 (1 / 1000) * f64 run)) - f64 (5 / 100)) -
      ((run : ℚ) / 1000 + d / 25600 - 5 / 100)| ≤ 1 / 200000000 := by
  have hr : f64 run = run := f64_int run (by rw [abs_le]; omega)
  have er1 : (51 : ℚ) ≤ run := by exact_mod_cast h1
  have er2 : (run : ℚ) ≤ 4294000000 := by exact_mod_cast h2
  have ed1 : (0 : ℚ) ≤ d := by exact_mod_cast hd0
  have ed2 : (d : ℚ) ≤ 16777216 := by exact_mod_cast (by omega : d ≤ 16777216)
  rw [hr]
  have c1 : |f64 (1 / 1000) - 1 / 1000| ≤ 1 / 8000000000000000000 := by
    refine (f64_err _).trans ?_
    rw [abs_of_pos (by norm_num)]; norm_num
  have c2 : |f64 (390625 / 10000000000) - 390625 / 10000000000| ≤ 1 / 10000000000000000000 := by
    refine (f64_err _).trans ?_
    rw [abs_of_pos (by norm_num)]; norm_num
  have c3 : |f64 (5 / 100) - 5 / 100| ≤ 1 / 10000000000000000 := by
    refine (f64_err _).trans ?_
    rw [abs_of_pos (by norm_num)]; norm_num
  generalize f64 (1 / 1000) = a at *
  generalize f64 (390625 / 10000000000) = b at *
  generalize f64 (5 / 100) = c at *
  rw [abs_le] at c1 c2 c3
  have p1 : |a * run - (run : ℚ) / 1000| ≤ 1 / 100000000 / 10 := by
    rw [show a * run - (run : ℚ) / 1000 = (a - 1 / 1000) * run by ring, abs_mul, abs_of_nonneg (by linarith : (0 : ℚ) ≤ run)]
    calc |a - 1 / 1000| * run ≤ 1 / 8000000000000000000 * 4294000000 := by
            gcongr; rw [abs_le]; exact c1
      _ ≤ _ := by norm_num
  have p2 : |b * d - (d : ℚ) / 25600| ≤ 1 / 100000000000 := by
    rw [show b * d - (d : ℚ) / 25600 = (b - 390625 / 10000000000) * d by ring, abs_mul, abs_of_nonneg ed1]
    calc |b - 390625 / 10000000000| * d ≤ 1 / 10000000000000000000 * 16777216 := by
            gcongr; rw [abs_le]; exact c2
      _ ≤ _ := by norm_num
  have gen : ∀ x : ℚ, 0 ≤ x → x ≤ 5000000 → |f64 x - x| ≤ 1 / 1700000000 := by
    intro x h0 h1
    refine (f64_err x).trans ?_
    rw [abs_of_nonneg h0]
    have : x / 9007199254740992 ≤ 5000000 / 9007199254740992 := by gcongr
    refine le_trans (add_le_add this le_rfl) (by norm_num)
  rw [abs_le] at p1 p2
  have q1 := gen (a * run) (by linarith [p1.1]) (by linarith [p1.2])
  have q2 : |f64 (b * d) - b * d| ≤ 1 / 1000000000000 := by
    refine (f64_err _).trans ?_
    have hx : |b * d| ≤ 700 := by rw [abs_le]; constructor <;> linarith [p2.1, p2.2]
    have : |b * d| / 9007199254740992 ≤ 700 / 9007199254740992 := by gcongr
    refine le_trans (add_le_add this le_rfl) (by norm_num)
  rw [abs_le] at q1 q2
  generalize f64 (a * run) = A at *
  generalize f64 (b * d) = B at *
  have q3 := gen (B + A) (by linarith [p1.1, p2.1, q1.1, q2.1]) (by linarith [p1.2, p2.2, q1.2, q2.2])
  rw [abs_le] at q3
  generalize f64 (B + A) = S at *
  have q4 := gen (S - c) (by linarith [p1.1, p2.1, q1.1, q2.1, q3.1, c3.2]) (by linarith [p1.2, p2.2, q1.2, q2.2, q3.2, c3.1])
  rw [abs_le] at q4 ⊢
  constructor <;> linarith [p1.1, p2.1, q1.1, q2.1, q3.1, c3.1, q4.1, p1.2, p2.2, q1.2, q2.2, q3.2, c3.2, q4.2]

theorem week_part {t : ℚ} (h : 0 ≤ t) : 0 ≤ ⌊t / 604800⌋ ∧ 0 ≤ t - 604800 * ⌊t / 604800⌋ ∧ t - 604800 * ⌊t / 604800⌋ < 604800 := by
  have h1 := Int.floor_le (t / 604800)
  have h2 := Int.lt_floor_add_one (t / 604800)
  rw [le_div_iff₀ (by norm_num)] at h1
  rw [div_lt_iff₀ (by norm_num)] at h2
  exact ⟨Int.floor_nonneg.mpr (by positivity), by linarith, by linarith⟩

/-- from 51 ms after start-up, for 49 days, a sample always gets its time -/
theorem imuRawTime_ok {L : SbpLib E} (hL : SaneTime L) {this first : Nat} {run : Int} (h1 : 51 ≤ run) (h2 : run ≤ 4294000000)
    (g1 : this < 2 ^ 24) (g2 : first < 2 ^ 24) :
    ∃ τ tow f, imuRawTime L this first run = some (some (τ, tow, f)) ∧
      (τ.valid ∧ |604800 * (τ.wn : ℚ) + τ.tow - sampleTime run first this| ≤ 1 / 200000000) ∧
      ∀ m : ImuRaw, m.tow = tow → m.towF = f → SaysImuTime (sampleTime run first this) m := by
  have hd : 0 ≤ sensorDiff this first ∧ sensorDiff this first < 2 ^ 24 := by rw [sensorDiff_eq g1 g2]; omega
  have hx := sample_double h1 h2 hd.1 hd.2
  have er1 : (51 : ℚ) ≤ run := by exact_mod_cast h1
  have er2 : (run : ℚ) ≤ 4294000000 := by exact_mod_cast h2
  have ed1 : (0 : ℚ) ≤ sensorDiff this first := by exact_mod_cast hd.1
  have ed2 : (sensorDiff this first : ℚ) ≤ 16777216 := by exact_mod_cast (by omega : sensorDiff this first ≤ 16777216)
  have hr : f64 run = run := f64_int run (by rw [abs_le]; omega)
  unfold imuRawTime
  simp only
  have hf0 : 0 ≤ f64 (f64 (1 / 1000) * f64 run) :=
    f64_nonneg (mul_nonneg (f64_nonneg (by norm_num)) (by rw [hr]; linarith))
  have hf1 : f64 (f64 (1 / 1000) * f64 run) < 4294968 := by
    rw [hr]
    have c1 : |f64 (1 / 1000) - 1 / 1000| ≤ 1 / 1000000000000000000 := by
      refine (f64_err _).trans ?_
      rw [abs_of_pos (by norm_num)]; norm_num
    have hn := f64_nonneg (x := 1 / 1000) (by norm_num)
    generalize f64 (1 / 1000) = a at *
    rw [abs_le] at c1
    have : a * run ≤ (1 / 1000 + 1 / 1000000000000000000) * 4294000000 := by
      gcongr; linarith [c1.2]
    have e := f64_err (a * run)
    rw [abs_of_nonneg (mul_nonneg hn (by linarith)), abs_le] at e
    have h5 : a * run / 9007199254740992 ≤ 1 := by rw [div_le_one (by norm_num)]; norm_num at this ⊢; linarith
    norm_num at this e
    linarith [e.2]
  rw [hL.norm _ hf0 hf1 (f64_idem _)]
  simp only
  have hi := f64_idem (f64 (f64 (f64 (390625 / 10000000000) * (sensorDiff this first : ℚ)) + f64 (f64 (1 / 1000) * f64 run)) - f64 (5 / 100))
  generalize f64 (f64 (f64 (f64 (390625 / 10000000000) * (sensorDiff this first : ℚ)) + f64 (f64 (1 / 1000) * f64 run)) - f64 (5 / 100)) = T at *
  rw [abs_le] at hx
  have hT0 : 0 ≤ T := by linarith [hx.1]
  rw [hL.norm T hT0 (by linarith [hx.2]) hi]
  simp only
  obtain ⟨w1, w2, w3⟩ := week_part hT0
  obtain ⟨v1, v2, v3⟩ := week_part hf0
  have wb : ⌊T / 604800⌋ ≤ 32767 := by
    have : T / 604800 < 32768 := by rw [div_lt_iff₀ (by norm_num)]; linarith [hx.2]
    have := Int.floor_lt.2 (show T / 604800 < ((32768 : Int) : ℚ) by exact_mod_cast this)
    omega
  have hF : |f64 (f64 (1 / 1000) * f64 run) - (run : ℚ) / 1000| ≤ 1 := by
    rw [hr]
    have c1 : |f64 (1 / 1000) - 1 / 1000| ≤ 1 / 1000000000000000000 := by
      refine (f64_err _).trans ?_
      rw [abs_of_pos (by norm_num)]; norm_num
    have hn := f64_nonneg (x := 1 / 1000) (by norm_num)
    generalize f64 (1 / 1000) = a at *
    rw [abs_le] at c1
    have u1 : a * run ≤ (1 / 1000 + 1 / 1000000000000000000) * run := by
      gcongr; linarith [c1.2]
    have u2 : (1 / 1000 - 1 / 1000000000000000000) * run ≤ a * run := by
      gcongr; linarith [c1.1]
    have e := f64_err (a * run)
    rw [abs_of_nonneg (mul_nonneg hn (by linarith)), abs_le] at e
    have h5 : a * run / 9007199254740992 ≤ 1 / 2 := by rw [div_le_iff₀ (by norm_num)]; norm_num at u1 ⊢; linarith
    norm_num at u1 u2 e h5
    rw [abs_le]
    constructor <;> linarith [e.1, e.2]
  have ht' := hL.found ⟨⌊T / 604800⌋, T - 604800 * ⌊T / 604800⌋⟩
    ⟨⌊f64 (f64 (1 / 1000) * f64 run) / 604800⌋, f64 (f64 (1 / 1000) * f64 run) - 604800 * ⌊f64 (f64 (1 / 1000) * f64 run) / 604800⌋⟩
    ⌊T / 604800⌋ w1 w2 w3 v1 v2 v3 w1 wb (by
      simp only
      rw [abs_lt]
      rw [abs_le] at hF
      constructor <;> linarith [hx.1, hx.2, hF.1, hF.2])
  rw [ht']
  simp only
  obtain ⟨ms, f, h3, h4, h5, h6, h7⟩ := imuTime_ok w2 w3
  rw [h3]
  refine ⟨_, ms ||| 2 ^ 30, f, rfl, ⟨⟨w1, wb, w2, by unfold weekSecs; exact w3⟩, ?_⟩, ?_⟩
  · simp only
    unfold sampleTime
    rw [← sensorDiff_eq g1 g2, abs_le]
    constructor <;> linarith [hx.1, hx.2]
  intro m hm1 hm2
  refine ⟨ms, ⌊T / 604800⌋, ?_, h4, by omega, ?_⟩
  · have := Nat.two_pow_add_eq_or_of_lt (i := 30) (b := ms) (by omega) 1
    rw [mul_one] at this
    rw [hm1, Nat.or_comm, this]
  · rw [hm2]
    unfold sampleTime
    rw [← sensorDiff_eq g1 g2]
    constructor <;> linarith [hx.1, hx.2]

/-! ### the clock -/

/-- the converter's counters are the clock -/
def ClockIs (s : EsfSt) (c : Option (Int × Nat)) : Prop :=
  match c with
  | none => s.runImu = -1
  | some (now, last) => s.runImu = now ∧ s.lastImuMsss = last ∧ 0 ≤ now ∧ now % 2 ^ 32 = last

theorem clock_lo {s : EsfSt} {c : Option (Int × Nat)} (h : ClockIs s c) : -1 ≤ s.runImu := by
  unfold ClockIs at h
  split at h <;> omega

theorem clock_step {s : EsfSt} {c : Option (Int × Nat)} (h : ClockIs s c) {msss : Nat} (hm : msss < 2 ^ 32) :
    (gap msss s → imuClock c msss = none) ∧
    (¬ gap msss s → imuClock c msss = some (unwrap s.runImu s.lastImuMsss msss, msss) ∧
      0 ≤ unwrap s.runImu s.lastImuMsss msss ∧ unwrap s.runImu s.lastImuMsss msss % 2 ^ 32 = msss) := by
  unfold ClockIs at h
  unfold gap imuClock unwrap
  split at h
  · rw [h]
    refine ⟨fun hc => absurd rfl hc.1, fun _ => ⟨by simp, by simp, ?_⟩⟩
    simp; omega
  · rename_i now last
    obtain ⟨h1, h2, h3, h4⟩ := h
    rw [h1, h2]
    simp only
    refine ⟨fun hc => if_pos hc.2, fun hc => ?_⟩
    have : now ≠ -1 := by omega
    rw [if_neg this, if_neg (fun hg => hc ⟨this, hg⟩)]
    exact ⟨rfl, by omega, by omega⟩

theorem runUpd_idem {s : EsfSt} {msss : Nat} (h : -1 ≤ s.runImu) (s2 : EsfSt)
    (h2 : s2.runImu = unwrap s.runImu s.lastImuMsss msss ∧ s2.lastImuMsss = msss) :
    ¬ gap msss s2 ∧ unwrap s2.runImu s2.lastImuMsss msss = s2.runImu ∧ -1 ≤ s2.runImu := by
  rw [h2.1, h2.2]
  refine ⟨?_, unwrap_self h, ?_⟩
  · unfold gap; rw [h2.2]; simp
  · unfold unwrap; split_ifs <;> omega

/-- counters after the loop -/
theorem rawLoop_clock (L : SbpLib E) (msss first : Nat) (ds : List EsfRawData) : ∀ (a : RawAcc) (s s' : EsfSt) (os : List (Out E)),
    rawLoop L msss first ds a s = some (s', os) → -1 ≤ s.runImu →
    if imuData ds = [] then s'.runImu = s.runImu ∧ s'.lastImuMsss = s.lastImuMsss
    else (gap msss s → s'.runImu = -1) ∧
      (¬ gap msss s → s'.runImu = unwrap s.runImu s.lastImuMsss msss ∧ s'.lastImuMsss = msss) := by
  induction ds with
  | nil =>
    intro a s s' os h _
    unfold rawLoop at h
    obtain ⟨rfl, rfl⟩ := Prod.mk.inj (Option.some.inj h)
    rw [if_pos (show imuData [] = [] from rfl)]; exact ⟨rfl, rfl⟩
  | cons d ds ih =>
    intro a s s' os h hrun
    have later : ∀ a2 s2 os2, rawLoop L msss first ds a2 s2 = some (s', os2) →
        s2.runImu = unwrap s.runImu s.lastImuMsss msss → s2.lastImuMsss = msss →
        s'.runImu = unwrap s.runImu s.lastImuMsss msss ∧ s'.lastImuMsss = msss := by
      intro a2 s2 os2 h2 e1 e2
      obtain ⟨q1, q2, q3⟩ := runUpd_idem hrun s2 ⟨e1, e2⟩
      have := ih a2 s2 s' os2 h2 q3
      split at this
      · exact ⟨this.1.trans e1, this.2.trans e2⟩
      · have := this.2 q1
        rw [q2, e1] at this
        exact this
    rcases rawLoop_cons L msss first d ds a s s' os h with ⟨hn, h1⟩ | ⟨hm, _, h1⟩
    · have e : imuData (d :: ds) = imuData ds := by unfold imuData; rw [List.filter_cons, if_neg (by simpa using hn)]
      have e2 : (tempUpd d s).runImu = s.runImu ∧ (tempUpd d s).lastImuMsss = s.lastImuMsss := by
        unfold tempUpd; split <;> exact ⟨rfl, rfl⟩
      have := ih _ _ s' os h1 (by rw [e2.1]; exact hrun)
      rw [e]
      unfold gap at this ⊢
      rw [e2.1, e2.2] at this
      exact this
    · have e : imuData (d :: ds) ≠ [] := by unfold imuData; rw [List.filter_cons, if_pos (by simpa using hm)]; simp
      rw [if_neg e]
      rcases h1 with ⟨hg, rfl, _⟩ | ⟨hg, h1⟩
      · exact ⟨fun _ => rfl, fun hc => absurd hg hc⟩
      · refine ⟨fun hc => absurd hc hg, fun _ => ?_⟩
        rcases h1 with ⟨_, rfl, _⟩ | ⟨q, hq, h1⟩
        · exact ⟨rfl, rfl⟩
        · rcases h1 with ⟨_, rfl, _⟩ | ⟨_, _, os', h5, _⟩ | ⟨_, _, h5⟩
          · exact ⟨rfl, rfl⟩
          · exact later _ _ _ h5 rfl rfl
          · exact later _ _ _ h5 rfl rfl

theorem rawLoop_gap (L : SbpLib E) (msss first : Nat) (ds : List EsfRawData) : ∀ (a : RawAcc) (s s' : EsfSt) (os : List (Out E)),
    rawLoop L msss first ds a s = some (s', os) → imuData ds ≠ [] → gap msss s → os = [] := by
  induction ds with
  | nil => intro a s s' os _ hn; exact absurd rfl hn
  | cons d ds ih =>
    intro a s s' os h hn hg
    rcases rawLoop_cons L msss first d ds a s s' os h with ⟨hk, h1⟩ | ⟨hk, _, h1⟩
    · refine ih _ _ s' os h1 ?_ ?_
      · unfold imuData at hn ⊢; rwa [List.filter_cons, if_neg (by simpa using hk)] at hn
      · unfold gap tempUpd at *; split <;> exact hg
    · rcases h1 with ⟨_, _, h2⟩ | ⟨h2, _⟩
      · exact h2
      · exact absurd hg h2

theorem firstTag_eq (l : List EsfRawData) : ((l.head?.map fun d => d.sensor_time_tag.toNat).getD 0) = firstTag l := by
  cases l <;> rfl

theorem clock_snoc (frames : List Buf) (f : Buf) : clock (frames ++ [f]) =
    match decEsfRaw f with
    | .ok (m, _) => if imuData m.data = [] then clock frames else imuClock (clock frames) m.msss.toNat
    | .error _ => clock frames := by
  unfold clock
  rw [List.foldl_append]; rfl

theorem handle_raw (L : SbpLib E) (st : CSt) {frame : Buf} {m : EsfRaw} (h : Holds decEsfRaw frame m) :
    handleFrame L st frame = rawStep L st m := by
  obtain ⟨rest, h⟩ := h
  obtain ⟨_, ⟨used, hu, hl⟩, h1, h2, _⟩ := flEsfRaw frame m rest h
  have e1 := leAt_head frame 0 0x10#8 h1
  have e2 := leAt_head frame 1 0x03#8 h2
  have hlen : ¬ frame.length < 2 := by rw [hu, List.length_append, hl]; omega
  unfold handleFrame
  rw [if_neg hlen, e1, e2]
  simp only [reduceIte, withMsg, h]

theorem handle_clock (L : SbpLib E) {frames : List Buf} {f : Buf} {st st' : CSt} {outs : List (Out E)}
    (h : handleFrame L st f = some (st', outs)) (hc : ClockIs st.esf (clock frames)) : ClockIs st'.esf (clock (frames ++ [f])) := by
  rw [clock_snoc]
  have keep : st'.esf.runImu = st.esf.runImu → st'.esf.lastImuMsss = st.esf.lastImuMsss → ClockIs st'.esf (clock frames) := by
    intro h1 h2
    unfold ClockIs at hc ⊢
    rw [h1, h2]; exact hc
  cases hd : decEsfRaw f with
  | error e =>
    simp only
    rcases handle_cases L st f with ⟨m, ⟨rest, hm⟩, _⟩ | ⟨m, _, hm⟩ | ho
    · rw [hd] at hm; cases hm
    · rw [hm] at h
      have := measStep_out L st st' m outs h
      exact keep this.2.2.1 this.2.2.2.1
    · obtain ⟨⟨o, w, he⟩, hs⟩ := ho st' outs h
      exact keep (by rw [he]) (by rw [he])
  | ok r =>
    obtain ⟨m, rest⟩ := r
    simp only
    rw [handle_raw L st ⟨rest, hd⟩] at h
    unfold rawStep at h
    rw [Option.map_eq_some_iff] at h
    obtain ⟨⟨s', os⟩, hr, h⟩ := h
    obtain ⟨rfl, rfl⟩ := Prod.mk.inj h
    have := rawLoop_clock L _ _ _ _ _ _ _ hr (clock_lo hc)
    obtain ⟨c1, c2⟩ := clock_step hc (msss := m.msss.toNat) m.msss.isLt
    by_cases hi : imuData m.data = []
    · rw [if_pos hi] at this ⊢
      exact keep this.1 this.2
    · rw [if_neg hi] at this ⊢
      by_cases hg : gap m.msss.toNat st.esf
      · rw [c1 hg]; exact this.1 hg
      · obtain ⟨e1, e2, e3⟩ := c2 hg
        rw [e1]
        obtain ⟨k1, k2⟩ := this.2 hg
        exact ⟨k1, k2, e2, e3⟩

theorem reach_clock (L : SbpLib E) (frames : List Buf) : ∀ (pre : List Buf) (st st' : CSt) (outs : List (Out E)),
    handleAll L st frames = some (st', outs) → ClockIs st.esf (clock pre) → ClockIs st'.esf (clock (pre ++ frames)) := by
  induction frames with
  | nil =>
    intro pre st st' outs h hc
    unfold handleAll at h
    obtain ⟨rfl, rfl⟩ := Prod.mk.inj (Option.some.inj h)
    simpa using hc
  | cons f fs ih =>
    intro pre st st' outs h hc
    unfold handleAll at h
    simp only [Option.bind_eq_bind, Option.bind_eq_some_iff] at h
    obtain ⟨⟨st1, o1⟩, h1, ⟨st2, o2⟩, h2, h⟩ := h
    obtain ⟨rfl, rfl⟩ := Prod.mk.inj (Option.some.inj h)
    have := ih (pre ++ [f]) _ _ _ h2 (handle_clock L h1 hc)
    simpa using this

/-- **C43 (samples).**  After any history, the `j`-th sample sent for an ESF-RAW message has in each axis the `j`-th datum of that axis, in
the units of SBP, saturated; and its time is that of the datum that completes it, by the unwrapped clock. -/
theorem C43_samples (L : SbpLib E) (frames : List Buf) {st st' : CSt} {outs0 outs : List (Out E)} {frame : Buf} {m : EsfRaw}
    (h0 : handleAll L CSt.init frames = some (st, outs0)) (hm : Holds decEsfRaw frame m) (h : handleFrame L st frame = some (st', outs))
    (j : Nat) (r : ImuRaw) (hr : (rawMsgs outs)[j]? = some r) :
    (∀ t ∈ axisTypes, ∃ d, (ofType t m.data)[j]? = some d ∧ Says16 (axisField t r) (axisUnits t (rawVal d))) ∧
    ∃ now, clock (frames ++ [frame]) = some (now, m.msss.toNat) ∧ now % 2 ^ 32 = m.msss.toNat ∧
      (SaneTime L → Tags24 m.data → 51 ≤ now → now ≤ 4294000000 →
        ∃ d, (imuData m.data)[6 * j + 5]? = some d ∧ SaysImuTime (sampleTime now (firstTag m.data) d.sensor_time_tag.toNat) r) := by
  have hc : ClockIs st.esf (clock frames) := by
    have := reach_clock L frames [] CSt.init st outs0 h0 rfl
    simpa using this
  rw [handle_raw L st hm] at h
  unfold rawStep at h
  rw [Option.map_eq_some_iff] at h
  obtain ⟨⟨s', os⟩, hl, h⟩ := h
  obtain ⟨rfl, rfl⟩ := Prod.mk.inj h
  simp only at hr
  have hI : RawInv [] ({} : RawAcc) := by
    refine ⟨fun t _ => rfl, fun t _ => le_rfl, fun t _ => by simp, fun t _ h => by simp at h⟩
  obtain ⟨k1, d, τ, k2, k3⟩ := rawLoop_samples L _ _ _ [] _ _ _ _ hl hI (clock_lo hc) j r hr
  simp only [List.nil_append, Nat.zero_add] at k1 k2
  have hne : imuData m.data ≠ [] := by intro hn; rw [hn] at k2; simp at k2
  have hcl := rawLoop_clock L _ _ _ _ _ _ _ hl (clock_lo hc)
  rw [if_neg hne] at hcl
  have hng : ¬ gap m.msss.toNat st.esf := by
    intro hg
    have := rawLoop_gap L _ _ _ _ _ _ _ hl hne hg
    rw [this] at hr; simp [rawMsgs] at hr
  obtain ⟨e1, e2, e3⟩ := (clock_step hc (msss := m.msss.toNat) m.msss.isLt).2 hng
  refine ⟨fun t ht => ?_, _, ?_, e3, ?_⟩
  · obtain ⟨d, h1, h2⟩ := k1 t ht
    exact ⟨d, h1, by rw [h2]; exact axis_says ht _ (rawVal_range d)⟩
  · obtain ⟨rest, hd⟩ := hm
    rw [clock_snoc, hd]
    simp only
    rw [if_neg hne]; exact e1
  · intro hL ht h1 h2
    refine ⟨d, k2, ?_⟩
    have hdm : d ∈ m.data := List.mem_of_mem_filter (List.mem_of_getElem? k2)
    have hft : firstTag m.data < 2 ^ 24 := by
      unfold firstTag
      split
      · norm_num
      · rename_i x l hx; exact ht x (by rw [hx]; simp)
    obtain ⟨τ', tow, f, q1, _, q2⟩ := imuRawTime_ok hL h1 h2 (ht d hdm) hft
    rw [firstTag_eq, q1] at k3
    simp only [Option.some.injEq, Prod.mk.injEq] at k3
    exact q2 r k3.2.1.symm k3.2.2.symm

/-! ### completeness -/

theorem bind_ok2 {x : Option (EsfSt × List (Out E))} {f : EsfSt × List (Out E) → Option (EsfSt × List (Out E))}
    (hf : ∀ p, ∃ s o, f p = some (s, o)) (hx : ∃ s o, x = some (s, o)) : ∃ s o, x.bind f = some (s, o) := by
  obtain ⟨s, o, rfl⟩ := hx
  exact hf _

theorem rawLoop_defined (L : SbpLib E) (msss first : Nat) (ds : List EsfRawData) : ∀ (a : RawAcc) (s : EsfSt), -1 ≤ s.runImu →
    (¬ gap msss s → ∀ d ∈ imuData ds, (imuRawTime L d.sensor_time_tag.toNat first (unwrap s.runImu s.lastImuMsss msss)).isSome) →
    ∃ s' os, rawLoop L msss first ds a s = some (s', os) := by
  induction ds with
  | nil => intro a s _ _; exact ⟨_, _, rfl⟩
  | cons d ds ih =>
    intro a s hrun ht
    have hI : isImu (rawType d) = decide (rawType d ∈ axisTypes) := by
      simp [isImu, axisTypes, Bool.or_assoc]
    have later : ¬ gap msss s → ∀ a2 s2, s2.runImu = unwrap s.runImu s.lastImuMsss msss → s2.lastImuMsss = msss →
        rawType d ∈ axisTypes → ∃ s' os, rawLoop L msss first ds a2 s2 = some (s', os) := by
      intro hg a2 s2 e1 e2 hm
      obtain ⟨q1, q2, q3⟩ := runUpd_idem hrun s2 ⟨e1, e2⟩
      refine ih a2 s2 q3 fun _ x hx => ?_
      rw [q2, e1]
      refine ht hg x ?_
      unfold imuData at hx ⊢
      rw [List.filter_cons, if_pos (by simpa using hm)]
      exact List.mem_cons_of_mem _ hx
    unfold rawLoop
    simp only [rawType_eq, if_true]
    rw [hI]
    by_cases hi : rawType d ∈ axisTypes
    · have h12 : rawType d ≠ 12 := by rintro hc; rw [hc] at hi; simp [axisTypes] at hi
      rw [if_neg (by simp [hi]), if_neg h12]
      by_cases hg : gap msss s
      · unfold gap at hg
        rw [if_pos hg]; exact ⟨_, _, rfl⟩
      · have hg' := hg
        unfold gap at hg
        rw [if_neg hg]
        have hd := ht hg' d (by unfold imuData; rw [List.filter_cons, if_pos (by simpa using hi)]; exact List.mem_cons_self ..)
        obtain ⟨t, hd⟩ := Option.isSome_iff_exists.mp hd
        unfold unwrap at hd
        rw [hd]
        simp only [Option.bind_eq_bind, Option.bind_some]
        rcases t with _ | ⟨t, tow, towF⟩
        · exact ⟨_, _, rfl⟩
        · simp only
          split
          · exact ⟨_, _, rfl⟩
          · split
            · refine bind_ok2 (fun p => ⟨_, _, rfl⟩) ?_
              exact later hg' _ _ rfl rfl hi
            · exact later hg' _ _ rfl rfl hi
    · rw [if_pos (by simp [hi])]
      have e : imuData (d :: ds) = imuData ds := by unfold imuData; rw [List.filter_cons, if_neg (by simpa using hi)]
      rw [e] at ht
      refine ih _ _ ?_ ?_
      · split <;> exact hrun
      · intro hg x hx
        have := ht (by unfold gap at hg ⊢; split at hg <;> exact hg) x hx
        split <;> exact this

theorem rawLoop_noimu (L : SbpLib E) (msss first : Nat) (ds : List EsfRawData) : ∀ (a : RawAcc) (s s' : EsfSt) (os : List (Out E)),
    rawLoop L msss first ds a s = some (s', os) → imuData ds = [] → os = [] := by
  induction ds with
  | nil =>
    intro a s s' os h _
    unfold rawLoop at h
    exact (Prod.mk.inj (Option.some.inj h)).2.symm
  | cons d ds ih =>
    intro a s s' os h hn
    unfold imuData at hn
    rw [List.filter_cons] at hn
    split at hn
    · cases hn
    · rename_i hk
      rcases rawLoop_cons L msss first d ds a s s' os h with ⟨_, h1⟩ | ⟨hk2, _⟩
      · exact ih _ _ _ _ h1 hn
      · exact absurd hk2 (by simpa using hk)

theorem rawLoop_groups (L : SbpLib E) (msss first : Nat) (ds : List EsfRawData) : ∀ (g : List EsfRawData) (gs : List (List EsfRawData))
    (a : RawAcc) (s s' : EsfSt) (os : List (Out E)), rawLoop L msss first ds a s = some (s', os) → -1 ≤ s.runImu → ¬ gap msss s →
    (∀ d ∈ imuData ds, ∃ r, imuRawTime L d.sensor_time_tag.toNat first (unwrap s.runImu s.lastImuMsss msss) = some (some r)) →
    g ≠ [] → (g.map rawType).Nodup → (∀ t ∈ axisTypes, a.recv t = a.cur + if t ∈ g.map rawType then 0 else 1) →
    imuData ds = g ++ gs.flatten → (∀ g ∈ gs, (g.map rawType).Perm axisTypes) →
    (rawMsgs os).length = gs.length + 1 := by
  induction ds with
  | nil =>
    intro g gs a s s' os _ _ _ _ hg _ _ he _
    cases g with
    | nil => exact absurd rfl hg
    | cons x g => simp [imuData] at he
  | cons d ds ih =>
    intro g gs a s s' os h hrun hgap ht hg hnd hrec he hgs
    rcases rawLoop_cons L msss first d ds a s s' os h with ⟨hn, h1⟩ | ⟨hm, _, h1⟩
    · have e : imuData (d :: ds) = imuData ds := by unfold imuData; rw [List.filter_cons, if_neg (by simpa using hn)]
      rw [e] at ht he
      have e2 : (tempUpd d s).runImu = s.runImu ∧ (tempUpd d s).lastImuMsss = s.lastImuMsss := by
        unfold tempUpd; split <;> exact ⟨rfl, rfl⟩
      refine ih g gs a _ s' os h1 (by rw [e2.1]; exact hrun) ?_ (by rw [e2.1, e2.2]; exact ht) hg hnd hrec he hgs
      unfold gap at hgap ⊢
      rw [e2.1, e2.2]; exact hgap
    · have e : imuData (d :: ds) = d :: imuData ds := by unfold imuData; rw [List.filter_cons, if_pos (by simpa using hm)]
      rw [e] at he ht
      cases g with
      | nil => exact absurd rfl hg
      | cons x g' =>
        rw [List.cons_append] at he
        obtain ⟨rfl, he2⟩ := List.cons.inj he
        rw [List.map_cons, List.nodup_cons] at hnd
        have hr1 : recvUpd d a (rawType d) = a.cur + 1 := by
          have := hrec _ hm
          rw [if_pos (by simp)] at this
          unfold recvUpd; rw [if_pos rfl, this]
        have hrec' : ∀ t ∈ axisTypes, recvUpd d a t = a.cur + if t ∈ g'.map rawType then 0 else 1 := by
          intro t htm
          by_cases hc : t = rawType d
          · subst hc; rw [if_neg hnd.1]; exact hr1
          · have e1 : recvUpd d a t = a.recv t := if_neg hc
            rw [e1, hrec t htm]
            simp [List.map_cons, List.mem_cons, hc]
        obtain ⟨r, hr⟩ := ht d (List.mem_cons_self ..)
        have later : ∀ s2 : EsfSt, s2.runImu = unwrap s.runImu s.lastImuMsss msss → s2.lastImuMsss = msss →
            -1 ≤ s2.runImu ∧ ¬ gap msss s2 ∧ ∀ d ∈ imuData ds, ∃ r,
              imuRawTime L d.sensor_time_tag.toNat first (unwrap s2.runImu s2.lastImuMsss msss) = some (some r) := by
          intro s2 e1 e2
          obtain ⟨q1, q2, q3⟩ := runUpd_idem hrun s2 ⟨e1, e2⟩
          refine ⟨q3, q1, fun y hy => ?_⟩
          rw [q2, e1]
          exact ht y (List.mem_cons_of_mem _ hy)
        rcases h1 with ⟨hc, _⟩ | ⟨_, h1⟩
        · exact absurd hc hgap
        · rcases h1 with ⟨hc, _⟩ | ⟨q, hq, h1⟩
          · rw [show (runUpd msss s).runImu = unwrap s.runImu s.lastImuMsss msss from rfl, hr] at hc; cases hc
          · rcases h1 with ⟨hc, _⟩ | ⟨_, hcomp, os', h5, rfl⟩ | ⟨_, hcomp, h5⟩
            · exact absurd hr1 hc
            · have hg' : g' = [] := by
                cases g' with
                | nil => rfl
                | cons y g'' =>
                  exfalso
                  unfold allRecv at hcomp
                  rw [List.all_eq_true] at hcomp
                  have hy : y ∈ imuData ds := by rw [he2]; simp
                  have hym : rawType y ∈ axisTypes := by
                    have := List.of_mem_filter hy
                    simpa using this
                  have h6 := hcomp _ hym
                  have h7 := hrec' _ hym
                  rw [if_pos (by simp)] at h7
                  simp at h6
                  omega
              subst hg'
              rw [rawMsgs_append, rawMsgs_aux, List.nil_append]
              change (msgUpd d q a :: rawMsgs os').length = _
              rw [List.length_cons]
              obtain ⟨l1, l2, l3⟩ := later { runUpd msss s with lastImu := q.1, rawSent := ((if s.rawSent % 20 = 0 then 0 else s.rawSent) + 1) % 2 ^ 32 } rfl rfl
              cases gs with
              | nil =>
                have := rawLoop_noimu L _ _ _ _ _ _ _ h5 (by simpa using he2)
                rw [this]; rfl
              | cons h gs =>
                have hp := hgs h (List.mem_cons_self ..)
                have := ih h gs _ _ s' os' h5 l1 l2 l3 ?_ ?_ ?_ (by simpa using he2) (fun g hg => hgs g (List.mem_cons_of_mem _ hg))
                · rw [this]; rfl
                · rintro rfl; have := hp.length_eq; simp [axisTypes] at this
                · exact (hp.nodup_iff).mpr (by decide)
                · intro t htm
                  simp only
                  rw [if_pos (hp.mem_iff.mpr htm), hrec' t htm]
                  simp
            · obtain ⟨l1, l2, l3⟩ := later { runUpd msss s with lastImu := q.1 } rfl rfl
              refine ih g' gs _ _ s' os h5 l1 l2 l3 ?_ hnd.2 hrec' he2 hgs
              rintro rfl
              have : allRecv a (recvUpd d a) = true := by
                unfold allRecv
                rw [List.all_eq_true]
                intro t htm
                simp [hrec' t htm]
              rw [this] at hcomp; cases hcomp

/-- **C43 (complete).**  After any history, a well-ordered ESF-RAW message that continues the clock (or starts it) is always converted,
without undefined behaviour, to exactly one sample per group. -/
theorem C43_complete (L : SbpLib E) (hL : SaneTime L) (frames : List Buf) {st : CSt} {outs0 : List (Out E)} {frame : Buf} {m : EsfRaw}
    (h0 : handleAll L CSt.init frames = some (st, outs0)) (hm : Holds decEsfRaw frame m) (groups : List (List EsfRawData))
    (hg : Grouped groups m.data) (ht : Tags24 m.data) {now : Int} {last : Nat} (hc : clock (frames ++ [frame]) = some (now, last))
    (h1 : 51 ≤ now) (h2 : now ≤ 4294000000) :
    ∃ st' outs, handleFrame L st frame = some (st', outs) ∧ (rawMsgs outs).length = groups.length := by
  have hcl : ClockIs st.esf (clock frames) := by
    have := reach_clock L frames [] CSt.init st outs0 h0 rfl
    simpa using this
  rw [handle_raw L st hm]
  unfold rawStep
  rw [firstTag_eq]
  cases groups with
  | nil =>
    have hi : imuData m.data = [] := by simpa using hg.1
    obtain ⟨s', os, h⟩ := rawLoop_defined L m.msss.toNat (firstTag m.data) m.data {} st.esf (clock_lo hcl) (by rw [hi]; simp)
    refine ⟨_, _, by rw [h]; rfl, ?_⟩
    have := rawLoop_noimu L _ _ _ _ _ _ _ h hi
    simp [this, rawMsgs]
  | cons g gs =>
    have hp := hg.2 g (List.mem_cons_self ..)
    have hgne : g ≠ [] := by rintro rfl; have := hp.length_eq; simp [axisTypes] at this
    have hne : imuData m.data ≠ [] := by
      rw [hg.1]
      cases g with
      | nil => exact absurd rfl hgne
      | cons x g => simp
    obtain ⟨rest, hd⟩ := id hm
    rw [clock_snoc, hd] at hc
    simp only at hc
    rw [if_neg hne] at hc
    obtain ⟨c1, c2⟩ := clock_step hcl (msss := m.msss.toNat) m.msss.isLt
    have hng : ¬ gap m.msss.toNat st.esf := by
      intro hgp; rw [c1 hgp] at hc; cases hc
    obtain ⟨e1, _, _⟩ := c2 hng
    rw [e1] at hc
    have hnow : unwrap st.esf.runImu st.esf.lastImuMsss m.msss.toNat = now := (Prod.mk.inj (Option.some.inj hc)).1
    have hft : firstTag m.data < 2 ^ 24 := by
      unfold firstTag
      split
      · norm_num
      · rename_i x l hx; exact ht x (by rw [hx]; simp)
    have htime : ∀ d ∈ imuData m.data, ∃ r, imuRawTime L d.sensor_time_tag.toNat (firstTag m.data)
        (unwrap st.esf.runImu st.esf.lastImuMsss m.msss.toNat) = some (some r) := by
      intro d hd
      obtain ⟨τ', tow, f, q1, _⟩ := imuRawTime_ok hL h1 h2 (ht d (List.mem_of_mem_filter hd)) hft
      exact ⟨_, by rw [hnow]; exact q1⟩
    obtain ⟨s', os, h⟩ := rawLoop_defined L m.msss.toNat (firstTag m.data) m.data {} st.esf (clock_lo hcl)
      (fun _ d hd => by obtain ⟨r, hr⟩ := htime d hd; rw [hr]; rfl)
    refine ⟨_, _, by rw [h]; rfl, ?_⟩
    exact rawLoop_groups L _ _ _ g gs _ _ _ _ h (clock_lo hcl) hng htime hgne ((hp.nodup_iff).mpr (by decide))
      (fun t htm => by rw [if_pos (hp.mem_iff.mpr htm)]) (by simpa using hg.1) (fun g hg2 => hg.2 g (List.mem_cons_of_mem _ hg2))

/-- **C43 (gap).**  After a gap of more than a second (or a restart of the counter) the message is dropped, and the clock starts anew. -/
theorem C43_gap (L : SbpLib E) (frames : List Buf) {st st' : CSt} {outs0 outs : List (Out E)} {frame : Buf} {m : EsfRaw}
    (h0 : handleAll L CSt.init frames = some (st, outs0)) (hm : Holds decEsfRaw frame m) (hi : imuData m.data ≠ [])
    (hc : clock (frames ++ [frame]) = none) (h : handleFrame L st frame = some (st', outs)) : outs = [] := by
  have hcl : ClockIs st.esf (clock frames) := by
    have := reach_clock L frames [] CSt.init st outs0 h0 rfl
    simpa using this
  rw [handle_raw L st hm] at h
  unfold rawStep at h
  rw [Option.map_eq_some_iff] at h
  obtain ⟨⟨s', os⟩, hl, h⟩ := h
  obtain ⟨rfl, rfl⟩ := Prod.mk.inj h
  obtain ⟨rest, hd⟩ := id hm
  rw [clock_snoc, hd] at hc
  simp only at hc
  rw [if_neg hi] at hc
  by_cases hg : gap m.msss.toNat st.esf
  · exact rawLoop_gap L _ _ _ _ _ _ _ hl hi hg
  · rw [((clock_step hcl (msss := m.msss.toNat) m.msss.isLt).2 hg).1] at hc; cases hc

/-! ### temperature -/

theorem ctrunc_neg (x : ℚ) : x ≤ 0 → x ≤ ctrunc x := by
  intro h
  unfold ctrunc
  split
  · rename_i h0
    have : x = 0 := le_antisymm h h0
    subst this; simp
  · push_cast
    linarith [Int.floor_le (-x)]

theorem bmi160_says (v : Int) (hv : |v| ≤ 8388608) : SaysTemp (bmi160 (f64 (f64 (1 / 100) * v))) ((v : ℚ) / 100) := by
  have hvq : |(v : ℚ)| ≤ 8388608 := by exact_mod_cast hv
  have c1 : |f64 (1 / 100) - 1 / 100| ≤ 1 / 500000000000000000 := by
    refine (f64_err _).trans ?_
    rw [abs_of_pos (by norm_num)]; norm_num
  generalize f64 (1 / 100) = a at *
  have p1 : |a * v - (v : ℚ) / 100| ≤ 1 / 50000000000 := by
    rw [show a * v - (v : ℚ) / 100 = (a - 1 / 100) * v by ring, abs_mul]
    calc |a - 1 / 100| * |(v : ℚ)| ≤ 1 / 500000000000000000 * 8388608 := by gcongr
      _ ≤ _ := by norm_num
  have p2 : |f64 (a * v) - a * v| ≤ 1 / 50000000000 := by
    refine (f64_err _).trans ?_
    have hx : |a * v| ≤ 100000 := by
      rw [abs_le] at p1 hvq ⊢; constructor <;> linarith [p1.1, p1.2, hvq.1, hvq.2]
    have : |a * v| / 9007199254740992 ≤ 100000 / 9007199254740992 := by gcongr
    refine le_trans (add_le_add this le_rfl) (by norm_num)
  have p3 : |f64 (a * v) - (v : ℚ) / 100| ≤ 1 / 20000000000 := by
    refine (abs_sub_le _ (a * v) _).trans (by linarith)
  generalize f64 (a * v) = T at *
  generalize (v : ℚ) / 100 = t at *
  clear p1 p2 hvq hv c1
  rw [abs_le] at p3
  unfold SaysTemp bmi160
  by_cases h1 : 87 - 1 / 512 ≤ T
  · rw [if_pos h1]
    refine ⟨by norm_num, by norm_num, ?_⟩
    rcases le_total 32767 ((t - 23) * 512) with h | h
    · rw [min_eq_left h]; norm_num
    · rw [min_eq_right h, max_eq_right (by linarith), abs_le]; push_cast; constructor <;> linarith [p3.2]
  · rw [if_neg h1]
    by_cases h2 : T ≤ -41 + 1 / 512
    · rw [if_pos h2]
      refine ⟨by norm_num, by norm_num, ?_⟩
      rw [min_eq_right (by linarith [p3.1])]
      rcases le_total ((t - 23) * 512) (-32767) with h | h
      · rw [max_eq_left h]; norm_num
      · rw [max_eq_right h, abs_le]; push_cast; constructor <;> linarith [p3.1]
    · rw [if_neg h2]
      push Not at h1 h2
      have hs : f64 (f64 (T - 23) * 512) = f64 (T - 23) * 512 := by
        have := f64_scale (T - 23) 9
        norm_num at this ⊢; exact this
      have e := f64_err (T - 23)
      have hx : |T - 23| ≤ 64 := by rw [abs_le]; constructor <;> linarith
      have e2 : |f64 (T - 23) - (T - 23)| ≤ 1 / 20000000000 := by
        refine e.trans ?_
        have : |T - 23| / 9007199254740992 ≤ 64 / 9007199254740992 := by gcongr
        refine le_trans (add_le_add this le_rfl) (by norm_num)
      rw [hs]
      rw [abs_le] at e2
      generalize f64 (T - 23) = y at *
      obtain ⟨c1, c2, c3⟩ := ctrunc_bounds (y * 512)
      rw [abs_lt] at c1
      have b1 : ctrunc (y * 512) < 32768 := by
        by_contra hc
        push Not at hc
        have hcq : (32768 : ℚ) ≤ ctrunc (y * 512) := by exact_mod_cast hc
        have hy : 0 ≤ y * 512 := by linarith [c1.2]
        linarith [c2 hy, e2.2]
      have b2 : -32768 < ctrunc (y * 512) := by
        have c4 := ctrunc_neg (y * 512)
        by_contra hc
        push Not at hc
        have hcq : (ctrunc (y * 512) : ℚ) ≤ -32768 := by exact_mod_cast hc
        have hy : y * 512 ≤ 0 := by linarith [c1.1]
        linarith [c4 hy, e2.1]
      refine ⟨by omega, by omega, ?_⟩
      have b3 : ((ctrunc (y * 512) : Int) : ℚ) ≤ 32767 := by exact_mod_cast (by omega : ctrunc (y * 512) ≤ 32767)
      have b4 : (-32767 : ℚ) ≤ ((ctrunc (y * 512) : Int) : ℚ) := by exact_mod_cast (by omega : -32767 ≤ ctrunc (y * 512))
      generalize ((ctrunc (y * 512) : Int) : ℚ) = z at *
      rcases le_total 32767 ((t - 23) * 512) with h | h
      · rw [min_eq_left h, max_eq_right (by norm_num), abs_le]
        constructor <;> linarith [c1.1, c1.2, e2.1, e2.2, p3.1, p3.2]
      · rw [min_eq_right h]
        rcases le_total ((t - 23) * 512) (-32767) with h3 | h3
        · rw [max_eq_left h3, abs_le]
          constructor <;> linarith [c1.1, c1.2, e2.1, e2.2, p3.1, p3.2]
        · rw [max_eq_right h3, abs_le]
          constructor <;> linarith [c1.1, c1.2, e2.1, e2.2, p3.1, p3.2]

/-- a temperature datum of one of the frames -/
def TempFrom (frames : List Buf) (x : ℚ) : Prop :=
  ∃ f ∈ frames, ∃ m, Holds decEsfRaw f m ∧ ∃ d ∈ m.data, rawType d = 12 ∧ x = f64 (f64 (1 / 100) * rawVal d)

def TempInv (P : ℚ → Prop) (s : EsfSt) : Prop := s.tempSet = true → P s.temp

theorem rawLoop_temp (L : SbpLib E) (P : ℚ → Prop) (msss first : Nat) (ds : List EsfRawData) : ∀ (a : RawAcc) (s s' : EsfSt)
    (os : List (Out E)), rawLoop L msss first ds a s = some (s', os) → TempInv P s →
    (∀ d ∈ ds, rawType d = 12 → P (f64 (f64 (1 / 100) * rawVal d))) →
    TempInv P s' ∧ ∀ o ∈ os, ∀ ty temp conf, o = .imuAux ty temp conf → ty = 0 ∧ conf = 0x41 ∧ (temp = -32768 ∨ ∃ x, P x ∧ temp = bmi160 x) := by
  induction ds with
  | nil =>
    intro a s s' os h hi _
    unfold rawLoop at h
    obtain ⟨rfl, rfl⟩ := Prod.mk.inj (Option.some.inj h)
    exact ⟨hi, by simp⟩
  | cons d ds ih =>
    intro a s s' os h hi hd
    have hd' : ∀ x ∈ ds, rawType x = 12 → P (f64 (f64 (1 / 100) * rawVal x)) := fun x hx => hd x (List.mem_cons_of_mem _ hx)
    rcases rawLoop_cons L msss first d ds a s s' os h with ⟨_, h1⟩ | ⟨_, _, h1⟩
    · refine ih _ _ _ _ h1 ?_ hd'
      unfold tempUpd
      split
      · rename_i h12; intro _; exact hd d (List.mem_cons_self ..) h12
      · exact hi
    · rcases h1 with ⟨_, rfl, rfl⟩ | ⟨_, h1⟩
      · exact ⟨hi, by simp⟩
      · rcases h1 with ⟨_, rfl, rfl⟩ | ⟨r, _, h1⟩
        · exact ⟨hi, by simp⟩
        · rcases h1 with ⟨_, rfl, rfl⟩ | ⟨_, _, os', h5, rfl⟩ | ⟨_, _, h5⟩
          · exact ⟨hi, by simp⟩
          · obtain ⟨g1, g2⟩ := ih _ _ _ _ h5 hi hd'
            refine ⟨g1, ?_⟩
            intro o ho ty temp conf e
            rw [List.mem_append, List.mem_cons] at ho
            rcases ho with ho | rfl | ho
            · split at ho
              · rw [List.mem_singleton] at ho
                rw [ho] at e
                unfold imuAux at e
                simp only [Out.imuAux.injEq] at e
                obtain ⟨rfl, rfl, rfl⟩ := e
                refine ⟨rfl, rfl, ?_⟩
                split
                · rename_i ht; exact Or.inr ⟨_, hi ht, rfl⟩
                · exact Or.inl rfl
              · simp at ho
            · cases e
            · exact g2 o ho ty temp conf e
          · exact ih _ _ _ _ h5 hi hd'

/-- **C43 (auxiliary message).**  Every IMU_AUX message describes a BMI160 with ranges 125 deg/s and 4 g, and its temperature is unknown or
that of a temperature datum received before it, within 1/512 degree. -/
theorem C43_aux (L : SbpLib E) (frames : List Buf) {st : CSt} {outs : List (Out E)} (h : handleAll L CSt.init frames = some (st, outs))
    {ty conf : Nat} {temp : Int} (ho : Out.imuAux ty temp conf ∈ outs) :
    ty = 0 ∧ conf = 0x41 ∧ (temp = -32768 ∨
      ∃ f ∈ frames, ∃ m, Holds decEsfRaw f m ∧ ∃ d ∈ m.data, rawType d = 12 ∧ SaysTemp temp ((rawVal d : ℚ) / 100)) := by
  have key : ∀ (fs : List Buf) (st st' : CSt) (outs : List (Out E)), (∀ f ∈ fs, f ∈ frames) → handleAll L st fs = some (st', outs) →
      TempInv (TempFrom frames) st.esf → ∀ o ∈ outs, ∀ ty temp conf, o = .imuAux ty temp conf →
        ty = 0 ∧ conf = 0x41 ∧ (temp = -32768 ∨ ∃ x, TempFrom frames x ∧ temp = bmi160 x) := by
    intro fs
    induction fs with
    | nil =>
      intro st st' outs _ h _ o ho
      unfold handleAll at h
      obtain ⟨rfl, rfl⟩ := Prod.mk.inj (Option.some.inj h)
      simp at ho
    | cons f fs ih =>
      intro st st' outs hf h hi o ho
      unfold handleAll at h
      simp only [Option.bind_eq_bind, Option.bind_eq_some_iff] at h
      obtain ⟨⟨st1, o1⟩, h1, ⟨st2, o2⟩, h2, h⟩ := h
      obtain ⟨rfl, rfl⟩ := Prod.mk.inj (Option.some.inj h)
      have step : TempInv (TempFrom frames) st1.esf ∧ ∀ o ∈ o1, ∀ ty temp conf, o = .imuAux ty temp conf →
          ty = 0 ∧ conf = 0x41 ∧ (temp = -32768 ∨ ∃ x, TempFrom frames x ∧ temp = bmi160 x) := by
        rcases handle_cases L st f with ⟨m, hm, hh⟩ | ⟨m, _, hm⟩ | hh
        · rw [hh] at h1
          unfold rawStep at h1
          rw [Option.map_eq_some_iff] at h1
          obtain ⟨⟨s', os⟩, hr, h1⟩ := h1
          obtain ⟨rfl, rfl⟩ := Prod.mk.inj h1
          exact rawLoop_temp L _ _ _ _ _ _ _ _ hr hi fun d hd h12 => ⟨f, hf f (List.mem_cons_self ..), m, hm, d, hd, h12, rfl⟩
        · rw [hm] at h1
          obtain ⟨k1, _, _, _, k2, k3⟩ := measStep_out L st st1 m o1 h1
          refine ⟨?_, ?_⟩
          · unfold TempInv; rw [k2, k3]; exact hi
          · intro o ho ty temp conf e
            have := k1 o ho
            rw [e] at this; cases this
        · obtain ⟨⟨o, w, he⟩, hs⟩ := hh st1 o1 h1
          refine ⟨?_, ?_⟩
          · unfold TempInv; rw [he]; exact hi
          · intro o ho ty temp conf e
            have := hs o ho
            rw [e] at this; cases this
      rcases List.mem_append.mp ho with ho | ho
      · exact step.2 o ho
      · exact ih _ _ _ (fun g hg => hf g (List.mem_cons_of_mem _ hg)) h2 step.1 o ho
  obtain ⟨k1, k2, k3⟩ := key frames CSt.init st outs (fun _ h => h) h (by intro hc; cases hc) _ ho ty temp conf rfl
  refine ⟨k1, k2, ?_⟩
  rcases k3 with k3 | ⟨x, ⟨f, hf, m, hm, d, hd, h12, rfl⟩, rfl⟩
  · exact Or.inl k3
  · exact Or.inr ⟨f, hf, m, hm, d, hd, h12, bmi160_says _ (rawVal_range d)⟩

theorem exSane : SaneTime exLib := by
  refine ⟨fun _ _ _ _ => rfl, fun t r t' h => by obtain rfl := Option.some.inj h; rfl, ?_, ?_⟩
  · intro t r t' h1 h2 h3 h4 h
    obtain rfl := Option.some.inj h
    simp only
    rw [abs_le]
    split_ifs <;> push_cast <;> constructor <;> linarith
  · intro t r w _ h1 h2 _ h3 h4 _ _ h
    unfold exLib
    simp only
    have e : r.wn + (if t.tow - r.tow < -302400 then 1 else if 302400 < t.tow - r.tow then -1 else 0) = w := by
      rw [abs_lt] at h
      have key : ∀ k : Int, |604800 * ((k : ℚ) - r.wn) + (t.tow - r.tow)| ≤ 302400 → k = w := by
        intro k hk
        rw [abs_le] at hk
        have b1 : (k : ℚ) - w < 1 := by linarith [hk.2, h.1]
        have b2 : (-1 : ℚ) < (k : ℚ) - w := by linarith [hk.1, h.2]
        have b1 : k - w < 1 := by exact_mod_cast b1
        have b2 : -1 < k - w := by exact_mod_cast b2
        omega
      apply key
      rw [abs_le]
      split_ifs <;> push_cast <;> constructor <;> linarith
    rw [e]

/-! two messages of two groups each, 30 ms apart, across the wrap of the 32-bit counter -/

example : SaneTime exLib :=
  exSane

def exRaw1 : EsfRaw := exRaw 4294967290 (exGroup 0xFFFFF0 1000 ++ exGroup 0x000010 (-1000))
def exRaw2 : EsfRaw := exRaw 24 (exGroup 0x000400 1000000 ++ exGroup 0x000420 (-1000000))
def exFrame1 : Buf := (encEsfRaw exRaw1).getD []
def exFrame2 : Buf := (encEsfRaw exRaw2).getD []

example : (handleAll exLib CSt.init [exFrame1, exFrame2]).map (·.2) = some [
    .imuAux 0 1024 0x41,
    .imuRaw ⟨1073741824 + 61367240, 0, 818, 819, 820, 64, 64, 64⟩,
    .imuRaw ⟨1073741824 + 61367241, 63, -813, -813, -812, -64, -64, -64⟩,
    .imuRaw ⟨1073741824 + 61367270, 0, 32767, 32767, 32767, 32767, 32767, 32767⟩,
    .imuRaw ⟨1073741824 + 61367271, 64, -32768, -32768, -32768, -32768, -32768, -32768⟩] := by
  decide +kernel

example : clock [exFrame1, exFrame2] = some (4294967296 + 24, 24) := by decide +kernel

example : ∃ groups, Holds decEsfRaw exFrame2 exRaw2 ∧ Grouped groups exRaw2.data ∧ Tags24 exRaw2.data ∧ groups.length = 2 := by
  refine ⟨[imuData (exGroup 0x000400 1000000), imuData (exGroup 0x000420 (-1000000))], ⟨[], ?_⟩, ⟨?_, ?_⟩, ?_, rfl⟩
  · have := rtEsfRaw exRaw2 [] (by unfold wfEsfRaw; decide +kernel)
    rwa [List.append_nil] at this
  · decide +kernel
  · decide +kernel
  · unfold Tags24; decide +kernel

end Verif.Ubx
