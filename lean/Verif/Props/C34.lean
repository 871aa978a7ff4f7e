import Verif.Lemmas.NmeaSats
import Verif.Props.C31
import Verif.Lemmas.NmeaCog
/-
C34: the satellite lists of GSA and GSV sentences.
-/
namespace Verif.Nmea
open Verif.Nmea.Spec Verif.Fp

/-- the talker of an index -/
def tk : Fin 4 → Talker
  | 0 => .gp | 1 => .gl | 2 => .ga | 3 => .gb

theorem fin4 : ∀ t : Fin 4, t = 0 ∨ t = 1 ∨ t = 2 ∨ t = 3 := by decide
theorem mem_talkers : ∀ t : Fin 4, t ∈ talkers := by decide

theorem tk_str : ∀ t, (tk t).name = talkerStr t := by decide
theorem tk_all : Talker.all = talkers.map tk := rfl
theorem tk_surj : ∀ t : Talker, ∃ i, tk i = t := by
  intro t; cases t
  · exact ⟨0, rfl⟩
  · exact ⟨1, rfl⟩
  · exact ⟨2, rfl⟩
  · exact ⟨3, rfl⟩

theorem talkerOf_for (L : Lib) (s : Sid) (t : Fin 4) : talkerOf L s = some t ↔ talkerFor (L.con s.code) = some (tk t) := by
  unfold talkerOf talkerFor
  generalize L.con s.code = c
  cases c <;> revert t <;> decide

theorem talkerOf_none (L : Lib) (s : Sid) : talkerOf L s = none ↔ talkerFor (L.con s.code) = none := by
  unfold talkerOf talkerFor
  generalize L.con s.code = c
  cases c <;> decide

theorem number_spec {L : Lib} {s : Sid} (h : NumberedSid L s) (hq : L.con s.code ≠ .qzs) (hs : talkerOf L s ≠ none) :
    nmeaSvId L s = svNumber (L.con s.code) s.sat := by
  obtain ⟨h1, h2⟩ := h
  unfold nmeaSvId svNumber talkerOf at *
  cases hc : L.con s.code <;> simp only [hc] at * <;> first | omega | (simp_all; done) | (simp_all; omega)

/-! ### GSV -/

theorem blocks_flatten {α : Type} : ∀ (k : Nat) (l : List α), l.length ≤ 4 * k →
    ((List.range k).flatMap fun i => (l.drop (4 * i)).take 4) = l := by
  intro k
  induction k with
  | zero => intro l h; simp at h; simp [h]
  | succ k ih =>
    intro l h
    rw [List.range_succ_eq_map, List.flatMap_cons, List.flatMap_map]
    have : (fun i => ((l.drop (4 * (i + 1))).take 4)) = fun i => ((l.drop 4).drop (4 * i)).take 4 := by
      funext i; rw [List.drop_drop]; congr 2; omega
    simp only [Nat.mul_zero, List.drop_zero, this]
    rw [ih (l.drop 4) (by simp; omega), List.take_append_drop]

/-- what is shown of an element -/
def viewOf (L : Lib) (e : GsvElem) : SatView := ⟨nmeaSvId L e.sid, e.el, e.az, e.snr⟩

def elemFields (L : Lib) (e : GsvElem) : List Str :=
  [fmtU 2 (nmeaSvId L e.sid), fmtD 2 e.el, fmtU 3 e.az, match e.snr with | some s => fmtU 2 s | none => []]

theorem elemText_eq (L : Lib) (e : GsvElem) : gsvElemText L e = ((elemFields L e).map fun f => ',' :: f).flatten := by
  have l1 : lit "," = [','] := rfl
  unfold gsvElemText elemFields
  cases e.snr <;> simp [l1]

theorem readSats_fields (L : Lib) (es : List GsvElem) : readSats (es.flatMap (elemFields L)) = some (es.map (viewOf L)) := by
  induction es with
  | nil => rfl
  | cons e es ih =>
    simp only [List.flatMap_cons, elemFields, List.cons_append, List.nil_append, readSats, ih, readNat_fmtU, readInt_fmtD,
      List.map_cons, viewOf]
    cases hs : e.snr with
    | none => simp
    | some s => simp [fmtU_ne_nil, readNat_fmtU]

theorem elemFields_nocomma (L : Lib) (es : List GsvElem) : ∀ f ∈ es.flatMap (elemFields L), f.count ',' = 0 := by
  intro f hf
  obtain ⟨e, -, hf⟩ := List.mem_flatMap.1 hf
  simp only [elemFields, List.mem_cons, List.not_mem_nil, or_false] at hf
  rcases hf with rfl | rfl | rfl | rfl
  · exact cU' _ _
  · exact cD' _ _
  · exact cU' _ _
  · cases e.snr with
    | none => rfl
    | some s => exact cU' _ _

/-- the sentences of one talker, as read -/
def gsvList (L : Lib) (talker : Str) (es : List GsvElem) : List Gsv :=
  (List.range ((es.length + 3) / 4)).map fun i =>
    ⟨talker, (es.length + 3) / 4, i + 1, es.length, ((es.drop (4 * i)).take 4).map (viewOf L)⟩

theorem gsvPrint_read (L : Lib) (t : Fin 4) (es : List GsvElem) (h : es.length < 256) :
    (gsvPrint L (talkerStr t) es).map (fun s => readGsv s.texts.flatten) = (gsvList L (talkerStr t) es).map some := by
  simp only [gsvPrint, gsvList]
  rw [Nat.mod_eq_of_lt h, Nat.mod_eq_of_lt (show (es.length + 3) / 4 < 256 by omega), List.map_map, List.map_map]
  apply List.map_congr_left
  intro i _
  simp only [Function.comp_apply]
  generalize (es.drop (4 * i)).take 4 = b
  have l1 : ∀ s : String, lit s = s.toList := fun _ => rfl
  have htext : ([lit "$" ++ talkerStr t ++ lit "GSV," ++ fmtU 1 ((es.length + 3) / 4) ++ lit "," ++ fmtU 1 (i + 1) ++ lit "," ++ fmtU 2 es.length] ++
      b.map (gsvElemText L)).flatten = ('$' :: talkerStr t ++ ['G', 'S', 'V']) ++ ((([fmtU 1 ((es.length + 3) / 4), fmtU 1 (i + 1), fmtU 2 es.length] ++ b.flatMap (elemFields L)).map fun f => ',' :: f).flatten) := by
    have hb : (b.map (gsvElemText L)).flatten = ((b.flatMap (elemFields L)).map fun f => ',' :: f).flatten := by
      rw [List.map_flatMap, ← List.flatMap_def]
      clear * -
      induction b with
      | nil => rfl
      | cons e b ih => simp only [List.flatMap_cons, List.flatten_append, ih, elemText_eq]
    rw [List.flatten_append, hb, List.map_append, List.flatten_append]
    have l2 : lit "$" = ['$'] := rfl
    have l3 : lit "GSV," = ['G', 'S', 'V', ','] := rfl
    have l4 : lit "," = [','] := rfl
    simp [l2, l3, l4]
  unfold readGsv
  rw [htext, fields_tail]
  · have hr := readSats_fields L b
    have e1 := readNat_fmtU 1 ((es.length + 3) / 4)
    have e2 := readNat_fmtU 1 (i + 1)
    have e3 := readNat_fmtU 2 es.length
    rcases fin4 t with rfl | rfl | rfl | rfl <;>
      simp [talkerStr, lit, e1, e2, e3, hr]
  · rcases fin4 t with rfl | rfl | rfl | rfl <;> decide
  · intro f hf
    simp only [List.cons_append, List.nil_append, List.mem_cons] at hf
    rcases hf with rfl | rfl | rfl | hf
    · exact cU' _ _
    · exact cU' _ _
    · exact cU' _ _
    · exact elemFields_nocomma L b f hf

theorem snr_spec (L : Lib) (meas : List MeasState) (a : AzEl) (hm : ∀ m ∈ meas, m.cn0 < 256) : ShowsSnr L meas a (gsvElem L meas a).snr := by
  unfold ShowsSnr gsvElem
  simp only
  cases hf : meas.find? fun m => m.mesid.sat = a.sid.sat ∧ L.con m.mesid.code = L.con a.sid.code with
  | none => simp
  | some m =>
    have hc := hm m (List.mem_of_find?_eq_some hf)
    simp only [Option.map_some, Option.some.injEq, exists_eq_left']
    have key : ∀ c : Fin 256, |4 * (((cround (f64 ((c.val : ℚ) / 4))).toNat % 256 : Nat) : Int) - c.val| ≤ 2 := by
      decide +kernel
    exact key ⟨m.cn0, hc⟩

/-- the elements of one talker -/
def gsvGroup (L : Lib) (st : St) (t : Fin 4) : List GsvElem :=
  (st.store.azel.filter fun a => talkerOf L a.sid = some t).map (gsvElem L st.store.meas)

theorem sendGsv_eq (L : Lib) (st : St) (hsome : ∃ t, gsvGroup L st t ≠ []) :
    sendGsv L st = talkers.flatMap fun t => gsvPrint L (talkerStr t) (gsvGroup L st t) := by
  have hne : ¬ (talkers.filter fun t => !(gsvGroup L st t).isEmpty).isEmpty = true := by
    obtain ⟨t, ht⟩ := hsome
    rw [List.isEmpty_iff, List.filter_eq_nil_iff]
    intro h
    exact h t (mem_talkers t) (by simpa using ht)
  have : sendGsv L st = if (talkers.filter fun t => !(gsvGroup L st t).isEmpty).isEmpty then [{ maxLen := 120, texts := [lit "$GPGSV,1,1,0"] }]
      else (talkers.filter fun t => !(gsvGroup L st t).isEmpty).flatMap fun t => gsvPrint L (talkerStr t) (gsvGroup L st t) := rfl
  rw [this, if_neg hne]
  generalize talkers = ts
  induction ts with
  | nil => rfl
  | cons t ts ih =>
    rw [List.filter_cons]
    by_cases h : gsvGroup L st t = []
    · rw [if_neg (by simp [h]), ih, List.flatMap_cons, h]
      rfl
    · rw [if_pos (by simpa using h), List.flatMap_cons, List.flatMap_cons, ih]

theorem gsvList_talker (L : Lib) (n : Str) (es : List GsvElem) : ∀ g ∈ gsvList L n es, g.talker = n := by
  intro g hg
  obtain ⟨i, -, rfl⟩ := List.mem_map.1 hg
  rfl

theorem filter_flatMap_talker (L : Lib) (G : Fin 4 → List GsvElem) (t : Fin 4) :
    ((talkers.flatMap fun u => gsvList L (talkerStr u) (G u)).filter fun g => g.talker = talkerStr t) = gsvList L (talkerStr t) (G t) := by
  have h1 : ∀ u, ((gsvList L (talkerStr u) (G u)).filter fun g => g.talker = talkerStr t) = if u = t then gsvList L (talkerStr t) (G t) else [] := by
    intro u
    split
    · rename_i h; subst h
      rw [List.filter_eq_self]
      intro g hg; simp [gsvList_talker L _ _ g hg]
    · rename_i h
      rw [List.filter_eq_nil_iff]
      intro g hg
      rw [gsvList_talker L _ _ g hg]
      have : ∀ a b : Fin 4, a ≠ b → ¬ (decide (talkerStr a = talkerStr b) = true) := by decide
      exact this u t h
  simp only [talkers, List.flatMap_cons, List.flatMap_nil, List.filter_append, h1, List.filter_nil]
  rcases fin4 t with rfl | rfl | rfl | rfl <;> simp

/-- **C34 (GSV)** For every list of satellites in view that fits an SBP message, the GSV sentences read back as follows. They come
talker by talker; the sentences of a talker are numbered 1, 2, ... up to the announced total, announce the number of its
satellites, hold one to four satellites each, and together show each satellite of the list exactly once, in order, with its
elevation, azimuth and signal strength, and its NMEA number (except for QZSS, see C34_qzss_number_bug). -/
theorem C34_gsv_partial (L : Lib) (st : St) (hlen : st.store.azel.length ≤ 63) (hnum : ∀ a ∈ st.store.azel, NumberedSid L a.sid)
    (hmeas : ∀ m ∈ st.store.meas, m.cn0 < 256) (hsome : ∃ a ∈ st.store.azel, talkerFor (L.con a.sid.code) ≠ none) :
    ∃ gs : List Gsv, (sendGsv L st).map (fun s => readGsv s.texts.flatten) = gs.map some ∧
      gs = Talker.all.flatMap (fun t => gs.filter fun g => g.talker = t.name) ∧
      (∀ g ∈ gs, 1 ≤ g.sats.length ∧ g.sats.length ≤ 4) ∧
      ∀ t : Talker,
        let mine := gs.filter fun g => g.talker = t.name
        let sats := st.store.azel.filter fun a => talkerFor (L.con a.sid.code) = some t
        List.Forall₂ (fun a v => (L.con a.sid.code ≠ .qzs → v.number = svNumber (L.con a.sid.code) a.sid.sat) ∧ v.elevation = a.el ∧
          v.azimuth = 2 * a.az ∧ ShowsSnr L st.store.meas a v.snr) sats (mine.flatMap Gsv.sats) ∧
        mine.map Gsv.index = (List.range mine.length).map (· + 1) ∧ mine.length = (sats.length + 3) / 4 ∧
        ∀ g ∈ mine, g.total = mine.length ∧ g.inView = sats.length := by
  have hg : ∀ t, (gsvGroup L st t).length ≤ 63 := fun t => by
    unfold gsvGroup; rw [List.length_map]; exact (List.length_filter_le _ _).trans hlen
  have hsome' : ∃ t, gsvGroup L st t ≠ [] := by
    obtain ⟨a, ha, hne⟩ := hsome
    cases ht : talkerOf L a.sid with
    | none => exact absurd ((talkerOf_none L a.sid).1 ht) hne
    | some t =>
      refine ⟨t, ?_⟩
      unfold gsvGroup
      rw [Ne, List.map_eq_nil_iff, List.filter_eq_nil_iff]
      intro h; exact h a ha (by simp [ht])
  refine ⟨talkers.flatMap fun u => gsvList L (talkerStr u) (gsvGroup L st u), ?_, ?_, ?_, ?_⟩
  · rw [sendGsv_eq L st hsome', List.map_flatMap, List.map_flatMap]
    congr 1
    funext t
    exact gsvPrint_read L t _ (by have := hg t; omega)
  · rw [tk_all, List.flatMap_map]
    congr 1
    funext t
    rw [tk_str, filter_flatMap_talker]
  · intro g hgm
    obtain ⟨t, -, hgm⟩ := List.mem_flatMap.1 hgm
    obtain ⟨i, hi, rfl⟩ := List.mem_map.1 hgm
    simp only [List.length_map, List.length_take, List.length_drop, List.mem_range] at hi ⊢
    omega
  · intro t'
    obtain ⟨t, rfl⟩ := tk_surj t'
    simp only [tk_str, filter_flatMap_talker]
    have hsats : (st.store.azel.filter fun a => talkerFor (L.con a.sid.code) = some (tk t)) = st.store.azel.filter fun a => talkerOf L a.sid = some t := by
      congr 1; funext a; rw [decide_eq_decide]; exact (talkerOf_for L a.sid t).symm
    have hlen : (gsvGroup L st t).length = (st.store.azel.filter fun a => talkerOf L a.sid = some t).length := by
      unfold gsvGroup; rw [List.length_map]
    rw [hsats]
    refine ⟨?_, ?_, ?_, ?_⟩
    · have hv : (gsvList L (talkerStr t) (gsvGroup L st t)).flatMap Gsv.sats = (gsvGroup L st t).map (viewOf L) := by
        unfold gsvList
        rw [List.flatMap_map]
        conv_rhs => rw [← blocks_flatten (((gsvGroup L st t).length + 3) / 4) (gsvGroup L st t) (by omega), List.map_flatMap]
      rw [hv]
      unfold gsvGroup
      rw [List.map_map, List.forall₂_map_right_iff, List.forall₂_same]
      intro a ha
      obtain ⟨ha, hat⟩ := List.mem_filter.1 ha
      have hat' : talkerOf L a.sid = some t := by simpa using hat
      refine ⟨fun hq => ?_, rfl, rfl, snr_spec L _ a hmeas⟩
      exact number_spec (s := a.sid) (hnum a ha) hq (by rw [hat']; simp)
    · unfold gsvList; simp [List.map_map, Function.comp_def]
    · unfold gsvList; simp [hlen]
    · intro g hgm
      have : (gsvList L (talkerStr t) (gsvGroup L st t)).length = ((gsvGroup L st t).length + 3) / 4 := by simp [gsvList]
      obtain ⟨i, -, rfl⟩ := List.mem_map.1 hgm
      exact ⟨this.symm, hlen⟩

/-- **C34 (GSV)** Nothing in view (or only satellites no talker reports): one sentence that says so. -/
theorem C34_gsv_empty (L : Lib) (st : St) (h : ∀ a ∈ st.store.azel, talkerFor (L.con a.sid.code) = none) :
    (sendGsv L st).map (fun s => s.texts.flatten) = ["$GPGSV,1,1,0".toList] := by
  have hg : ∀ t, gsvGroup L st t = [] := by
    intro t
    unfold gsvGroup
    rw [List.map_eq_nil_iff, List.filter_eq_nil_iff]
    intro a ha
    simp [(talkerOf_none L a.sid).2 (h a ha)]
  have : sendGsv L st = if (talkers.filter fun t => !(gsvGroup L st t).isEmpty).isEmpty then [{ maxLen := 120, texts := [lit "$GPGSV,1,1,0"] }]
      else (talkers.filter fun t => !(gsvGroup L st t).isEmpty).flatMap fun t => gsvPrint L (talkerStr t) (gsvGroup L st t) := rfl
  rw [this, if_pos (by simp [hg])]
  rfl

/-! ### GSA -/

/-- the numbers of a talker among the observations -/
def numbersOf (L : Lib) (t : Fin 4) (l : List Sid) : Finset Nat :=
  ((l.filter fun s => talkerOf L s = some t).map (nmeaSvId L)).toFinset

theorem numbersOf_snoc (L : Lib) (t : Fin 4) (l : List Sid) (s : Sid) :
    numbersOf L t (l ++ [s]) = if talkerOf L s = some t then insert (nmeaSvId L s) (numbersOf L t l) else numbersOf L t l := by
  unfold numbersOf
  rw [List.filter_append]
  by_cases h : talkerOf L s = some t
  · rw [if_pos h]
    ext p
    simp [h]
  · rw [if_neg h]
    simp [h]

/-- the collected numbers: no duplicates, at most twelve, all observed, and as many as there are up to twelve -/
structure GsaOk (L : Lib) (l : List Sid) (t : Fin 4) (acc : List Nat) : Prop where
  nodup : acc.Nodup
  sub : acc.toFinset ⊆ numbersOf L t l
  len : acc.length = min 12 (numbersOf L t l).card

theorem gsa_fold (L : Lib) (l : List Sid) : ∀ t, GsaOk L l t (l.foldl (gsaAdd L) (fun _ => []) t) := by
  have g12 : gsaMaxSv = 12 := rfl
  induction l using List.reverseRecOn with
  | nil => intro t; exact ⟨List.nodup_nil, by simp, by simp [numbersOf]⟩
  | append_singleton l s ih =>
    intro t
    obtain ⟨h1, h2, h3⟩ := ih t
    rw [List.foldl_append, List.foldl_cons, List.foldl_nil]
    generalize l.foldl (gsaAdd L) (fun _ => []) = acc at *
    rcases gsaAdd_cases L acc s with ⟨e, hc⟩ | ⟨u, hu, hl, hn, e⟩
    · rw [e]
      by_cases ht : talkerOf L s = some t
      · rcases hc with hc | ⟨u, hu, hc⟩
        · rw [hc] at ht; simp at ht
        · rw [hu] at ht
          obtain rfl := Option.some.inj ht
          have hx : numbersOf L u l ⊆ insert (nmeaSvId L s) (numbersOf L u l) := Finset.subset_insert _ _
          refine ⟨h1, ?_, ?_⟩
          · rw [numbersOf_snoc, if_pos hu]; exact h2.trans hx
          · rw [numbersOf_snoc, if_pos hu]
            rcases hc with hc | hc
            · have := Finset.card_le_card hx
              omega
            · rw [Finset.insert_eq_of_mem (h2 (by simpa using hc))]; exact h3
      · refine ⟨h1, ?_, ?_⟩
        · rw [numbersOf_snoc, if_neg ht]; exact h2
        · rw [numbersOf_snoc, if_neg ht]; exact h3
    · rw [e]
      simp only
      by_cases htu : t = u
      · subst htu
        rw [if_pos rfl]
        have hcard : (acc t).toFinset.card = (acc t).length := List.toFinset_card_of_nodup h1
        have heq : (acc t).toFinset = numbersOf L t l := Finset.eq_of_subset_of_card_le h2 (by omega)
        have hnot : nmeaSvId L s ∉ numbersOf L t l := by rw [← heq]; simpa using hn
        refine ⟨?_, ?_, ?_⟩
        · exact List.Nodup.append h1 (List.nodup_singleton _) (by simpa using hn)
        · rw [numbersOf_snoc, if_pos hu, List.toFinset_append, heq]
          intro p hp
          simp only [Finset.mem_union, List.mem_toFinset, List.mem_singleton, Finset.mem_insert] at hp ⊢
          tauto
        · rw [numbersOf_snoc, if_pos hu, Finset.card_insert_of_notMem hnot, List.length_append, List.length_singleton]
          omega
      · rw [if_neg htu]
        have ht : ¬ talkerOf L s = some t := by rw [hu]; intro h; exact htu (Option.some.inj h).symm
        refine ⟨h1, ?_, ?_⟩
        · rw [numbersOf_snoc, if_neg ht]; exact h2
        · rw [numbersOf_snoc, if_neg ht]; exact h3

/-- the dilution fields of a GSA sentence -/
def dopFields (d : Dops) : List Str :=
  if posMode d.flags ≠ 0 then [fmtF 0 1 (dop1 d.pdop), fmtF 0 1 (dop1 d.hdop), fmtF 0 1 (dop1 d.vdop)] else [[], [], []]

theorem readNumbers_cells : ∀ (n : Nat) (l : List Nat), l.length ≤ n →
    readNumbers ((List.range n).map fun i => match l[i]? with | some p => fmtU 2 p | none => []) = some l := by
  intro n
  induction n with
  | zero => intro l h; simp at h; subst h; rfl
  | succ n ih =>
    intro l h
    rw [List.range_succ_eq_map, List.map_cons, List.map_map]
    cases l with
    | nil => simp [readNumbers]
    | cons p l =>
      have : ((fun i => match (p :: l)[i]? with | some p => fmtU 2 p | none => []) ∘ Nat.succ) = fun i => match l[i]? with | some p => fmtU 2 p | none => [] := by
        funext i; simp
      rw [this]
      simp only [List.getElem?_cons_zero, readNumbers, fmtU_ne_nil, if_false, readNat_fmtU, ih l (by simpa using h)]
      rfl

/-- the twelve satellite cells -/
def gsaCells (sorted : List Nat) : List Str := (List.range 12).map fun i => match sorted[i]? with | some p => fmtU 2 p | none => []

def gsaTail (d : Dops) : Str :=
  if posMode d.flags ≠ 0 then fmtF 0 1 (dop1 d.pdop) ++ lit "," ++ fmtF 0 1 (dop1 d.hdop) ++ lit "," ++ fmtF 0 1 (dop1 d.vdop) else lit ",,"

theorem gsaPrint_texts (prns : List Nat) (d : Dops) (t : Str) : (gsaPrint prns d t).texts =
    [lit "$" ++ t ++ lit "GSA,A," ++ [if posMode d.flags ≠ 0 then '3' else '1'] ++ lit ","] ++
      (gsaCells (prns.insertionSort (· ≤ ·))).map (fun f => f ++ [',']) ++ [gsaTail d] := by
  unfold gsaCells
  rw [List.map_map]
  have : ∀ (n : Nat) (f g : Nat → Str) (a b : List Str), (∀ i, f i = g i) → a ++ (List.range n).map f ++ b = a ++ (List.range n).map g ++ b := by
    intro n f g a b h; rw [funext h]
  exact this _ _ _ _ _ fun i => by
    simp only [Function.comp_apply]
    cases (prns.insertionSort (· ≤ ·))[i]? <;> rfl

theorem gsaTail_fields (d : Dops) : fields (gsaTail d) = dopFields d := by
  unfold gsaTail dopFields
  have l4 : lit "," = [','] := rfl
  split
  · rw [l4, List.append_assoc, List.append_assoc, List.append_assoc, List.singleton_append, List.singleton_append, fields_split, fields_split, fields_one (cF' _ _ _), fields_one (cF' _ _ _), fields_one (cF' _ _ _)]
    rfl
  · rfl

theorem gsaCells_read (l : List Nat) (h : l.length ≤ 12) : readNumbers (gsaCells l) = some l := readNumbers_cells 12 l h

theorem gsaCells_nocomma (l : List Nat) : ∀ f ∈ gsaCells l, f.count ',' = 0 := by
  intro f hf
  obtain ⟨i, -, rfl⟩ := List.mem_map.1 hf
  cases l[i]? with
  | none => rfl
  | some p => exact cU' _ _

theorem readGsa_fields (a b fx : Char) (cells tail : List Str) (l : List Nat) (hc : cells.length = 12) (ht : tail.length = 3) (hl : readNumbers cells = some l)
    (text : Str) (hf : fields text = ['$', a, b, 'G', 'S', 'A'] :: ['A'] :: [fx] :: (cells ++ tail)) :
    readGsa text = some ⟨[a, b], [fx], l, tail⟩ := by
  unfold readGsa
  rw [hf]
  have h15 : (cells ++ tail).length = 15 := by rw [List.length_append, hc, ht]
  simp only
  rw [if_pos h15, List.take_left' hc, List.drop_left' hc, hl]
  rfl

theorem gsaPrint_read (prns : List Nat) (d : Dops) (a b : Char) (ha : a ≠ ',') (hb : b ≠ ',') (h : prns.length ≤ 12) :
    readGsa (gsaPrint prns d [a, b]).texts.flatten =
      some ⟨[a, b], [if posMode d.flags ≠ 0 then '3' else '1'], prns.insertionSort (· ≤ ·), dopFields d⟩ := by
  have hl : (prns.insertionSort (· ≤ ·)).length ≤ 12 := by rw [List.length_insertionSort]; exact h
  refine readGsa_fields a b _ (gsaCells (prns.insertionSort (· ≤ ·))) _ _ (by simp [gsaCells]) (by unfold dopFields; split <;> rfl) (gsaCells_read _ hl) _ ?_
  have hx : (if posMode d.flags ≠ 0 then '3' else '1') ≠ ',' := by split <;> decide
  rw [gsaPrint_texts]
  generalize prns.insertionSort (· ≤ ·) = sorted
  have hn := gsaCells_nocomma sorted
  generalize gsaCells sorted = cells at *
  have ht := gsaTail_fields d
  generalize gsaTail d = tail at *
  generalize (if posMode d.flags ≠ 0 then '3' else '1') = fx at *
  have htext : ([lit "$" ++ [a, b] ++ lit "GSA,A," ++ [fx] ++ lit ","] ++ cells.map (fun f => f ++ [',']) ++ [tail]).flatten =
      ((['$', a, b, 'G', 'S', 'A'] :: ['A'] :: [fx] :: cells).map fun f => f ++ [',']).flatten ++ tail := by
    have l2 : lit "$" = ['$'] := rfl
    have l3 : lit "GSA,A," = ['G', 'S', 'A', ',', 'A', ','] := rfl
    have l4 : lit "," = [','] := rfl
    simp [l2, l3, l4]
  rw [htext, fields_cells _ _ ?_, ht]
  · rfl
  · intro f hf
    simp only [List.mem_cons] at hf
    rcases hf with rfl | rfl | rfl | hf
    · simp [ha, hb]
    · rfl
    · simp [hx]
    · exact hn f hf

/-- the numbers of a talker, as the standard numbers them -/
def stdNumbers (L : Lib) (t : Talker) (obs : List Sid) : Finset Nat :=
  ((under L t obs).map fun s => svNumber (L.con s.code) s.sat).toFinset

theorem under_eq (L : Lib) (t : Fin 4) (obs : List Sid) : under L (tk t) obs = obs.filter fun s => talkerOf L s = some t := by
  unfold under
  congr 1; funext a; rw [decide_eq_decide]; exact (talkerOf_for L a t).symm

theorem stdNumbers_eq (L : Lib) (t : Fin 4) (obs : List Sid) (hnum : ∀ s ∈ obs, NumberedSid L s ∧ L.con s.code ≠ .qzs) :
    stdNumbers L (tk t) obs = numbersOf L t obs := by
  unfold stdNumbers numbersOf
  rw [under_eq]
  congr 1
  apply List.map_congr_left
  intro s hs
  obtain ⟨h1, h2⟩ := List.mem_filter.1 hs
  refine (number_spec (hnum s h1).1 (hnum s h1).2 ?_).symm
  have : talkerOf L s = some t := by simpa using h2
  rw [this]; simp

/-- **C34 (GSA)** The GSA sentences of a solution: one per talker present among the observed satellites, in the order GP, GL, GA, GB,
with talker GN when there are several; the satellites of each are in strictly increasing order, hence listed once, all are
observed, and they are all the observed ones of the talker as long as there are no more than twelve (beyond that, twelve). -/
theorem C34_gsa_partial (L : Lib) (st : St) (hnum : ∀ s ∈ st.navSids.take st.numObs, NumberedSid L s ∧ L.con s.code ≠ .qzs) :
    let obs := st.navSids.take st.numObs
    let present := Talker.all.filter fun t => under L t obs ≠ []
    (present = [] → ∃ d, (sendGsa L st).map (fun s => readGsa s.texts.flatten) = [some ⟨['G', 'P'], d, [], dopFields st.store.dops⟩]) ∧
    (present ≠ [] → ∃ gs : List Gsa, (sendGsa L st).map (fun s => readGsa s.texts.flatten) = gs.map some ∧
      List.Forall₂ (fun t g => g.talker = (if present.length > 1 then ['G', 'N'] else t.name) ∧
        g.fix = [if st.store.dops.flags % 8 ≠ 0 then '3' else '1'] ∧ g.dops = dopFields st.store.dops ∧
        g.sats.Pairwise (· < ·) ∧ (∀ n ∈ g.sats, n ∈ stdNumbers L t obs) ∧
        ((stdNumbers L t obs).card ≤ 12 → ∀ n ∈ stdNumbers L t obs, n ∈ g.sats) ∧
        g.sats.length = min 12 (stdNumbers L t obs).card) present gs) := by
  intro obs present
  set prns := obs.foldl (gsaAdd L) (fun _ => []) with hprns
  have hok : ∀ t, GsaOk L obs t (prns t) := gsa_fold L obs
  have hlen : ∀ t, (prns t).length ≤ 12 := fun t => by rw [(hok t).len]; omega
  have hemp : ∀ t, prns t = [] ↔ under L (tk t) obs = [] := by
    intro t
    rw [← List.length_eq_zero_iff, (hok t).len, under_eq]
    constructor
    · intro h
      have hc : (numbersOf L t obs).card = 0 := by omega
      rw [Finset.card_eq_zero] at hc
      unfold numbersOf at hc
      rw [List.toFinset_eq_empty_iff, List.map_eq_nil_iff] at hc
      exact hc
    · intro h
      unfold numbersOf
      rw [h]; rfl
  have hpres : present = (talkers.filter fun t => !(prns t).isEmpty).map tk := by
    show Talker.all.filter _ = _
    rw [tk_all, List.filter_map]
    congr 1
    apply List.filter_congr
    intro t _
    simp only [Function.comp_apply]
    by_cases h : prns t = []
    · simp [h, (hemp t).1 h]
    · have h' : ¬ under L (tk t) obs = [] := fun hh => h ((hemp t).2 hh)
      simp [h, h']
  have hsend : sendGsa L st = if (talkers.filter fun t => !(prns t).isEmpty).length = 0 then [gsaPrint (prns 0) st.store.dops (lit "GP")]
    else (talkers.filter fun t => !(prns t).isEmpty).map fun t =>
      gsaPrint (prns t) st.store.dops (if (talkers.filter fun t => !(prns t).isEmpty).length > 1 then lit "GN" else talkerStr t) := rfl
  constructor
  · intro hp
    rw [hpres, List.map_eq_nil_iff] at hp
    have h0 : prns 0 = [] := by
      rw [List.filter_eq_nil_iff] at hp
      simpa using hp 0 (mem_talkers 0)
    rw [hsend, hp, h0]
    refine ⟨[if posMode st.store.dops.flags ≠ 0 then '3' else '1'], ?_⟩
    rw [List.length_nil, if_pos rfl, List.map_cons, List.map_nil]
    have := gsaPrint_read [] st.store.dops 'G' 'P' (by decide) (by decide) (by simp)
    rw [show lit "GP" = ['G', 'P'] from rfl, this]
    rfl
  · intro hp
    set used := talkers.filter fun t => !(prns t).isEmpty with hused
    have hn0 : ¬ used.length = 0 := by
      intro h
      rw [List.length_eq_zero_iff] at h
      exact hp (by rw [hpres, h]; rfl)
    rw [hsend, if_neg hn0]
    have hpl : present.length = used.length := by rw [hpres, List.length_map]
    refine ⟨used.map fun t => ⟨if used.length > 1 then lit "GN" else talkerStr t,
      [if posMode st.store.dops.flags ≠ 0 then '3' else '1'], (prns t).insertionSort (· ≤ ·), dopFields st.store.dops⟩, ?_, ?_⟩
    · rw [List.map_map, List.map_map]
      apply List.map_congr_left
      intro t _
      simp only [Function.comp_apply]
      by_cases h1 : used.length > 1
      · rw [if_pos h1, show lit "GN" = ['G', 'N'] from rfl, gsaPrint_read _ _ _ _ (by decide) (by decide) (hlen t)]
      · rw [if_neg h1]
        rcases fin4 t with rfl | rfl | rfl | rfl
        · exact gsaPrint_read _ _ 'G' 'P' (by decide) (by decide) (hlen _)
        · exact gsaPrint_read _ _ 'G' 'L' (by decide) (by decide) (hlen _)
        · exact gsaPrint_read _ _ 'G' 'A' (by decide) (by decide) (hlen _)
        · exact gsaPrint_read _ _ 'G' 'B' (by decide) (by decide) (hlen _)
    · rw [hpl, hpres, List.forall₂_map_left_iff, List.forall₂_map_right_iff, List.forall₂_same]
      intro t _
      have hnd : ((prns t).insertionSort (· ≤ ·)).Nodup := (List.perm_insertionSort _ _).nodup_iff.2 (hok t).nodup
      have hmem : ∀ n, n ∈ (prns t).insertionSort (· ≤ ·) ↔ n ∈ prns t := fun n => (List.perm_insertionSort _ _).mem_iff
      rw [stdNumbers_eq L t obs hnum]
      refine ⟨by rw [tk_str]; rfl, rfl, rfl, ?_, ?_, ?_, ?_⟩
      · have h1 := List.pairwise_insertionSort (· ≤ ·) (prns t)
        exact (h1.and hnd).imp fun h => lt_of_le_of_ne h.1 h.2
      · intro n hn
        exact (hok t).sub (by simpa using (hmem n).1 hn)
      · intro hc n hn
        have heq : (prns t).toFinset = numbersOf L t obs := by
          refine Finset.eq_of_subset_of_card_le (hok t).sub ?_
          rw [List.toFinset_card_of_nodup (hok t).nodup, (hok t).len]; omega
        rw [← heq] at hn
        exact (hmem n).2 (by simpa using hn)
      · rw [List.length_insertionSort]; exact (hok t).len

theorem dop1_field (x : Nat) (hx : x < 65536) : ∃ k : Nat, DecField 1 (fmtF 0 1 (dop1 x)) k ∧ |10 * (k : Int) - x| ≤ 5 := by
  have hq : (x : ℚ) ≤ 65535 := by exact_mod_cast (by omega : x ≤ 65535)
  have h0 : (0 : ℚ) ≤ x := Nat.cast_nonneg _
  unfold dop1
  have e1 := (f64_near (x := (1 : ℚ) / 10) (b := 1) (by norm_num)).trans (by norm_num : (1 : ℚ) / 9007199254740992 + 1 / 10 ^ 60 ≤ 1 / 10 ^ 15)
  have hp : 0 ≤ f64 (1 / 10) := f64_nonneg (by norm_num)
  rw [abs_le] at e1
  generalize f64 (1 / 10) = t at *
  have hxt : (x : ℚ) * t ≤ 6554 := by nlinarith
  have hxt0 : 0 ≤ (x : ℚ) * t := by positivity
  have hd : |(x : ℚ) * t - x / 10| ≤ 1 / 10 ^ 10 := by
    rw [abs_le]; constructor <;> nlinarith
  have e2 := (f64_near (x := (x : ℚ) * t) (b := 6554) (by rw [abs_of_nonneg hxt0]; exact hxt)).trans (by norm_num : (6554 : ℚ) / 9007199254740992 + 1 / 10 ^ 60 ≤ 1 / 10 ^ 10)
  have hn := cround_nonneg (f64_nonneg hxt0)
  have hb := cround_bounds (f64 (x * t))
  obtain ⟨k, hk⟩ := Int.eq_ofNat_of_zero_le hn
  rw [hk] at hb ⊢
  rw [abs_le] at hd e2
  simp only [Int.cast_natCast] at hb ⊢
  have hk1 : (k : ℚ) ≤ 6555 := by linarith
  have e3 := (f64_near (x := (k : ℚ) / 10) (b := 656) (by rw [abs_of_nonneg (by positivity)]; linarith)).trans (by norm_num : (656 : ℚ) / 9007199254740992 + 1 / 10 ^ 60 ≤ 1 / 10 ^ 10)
  rw [abs_le] at e3
  refine ⟨k, fmtF_near (by omega) (f64_nonneg (by positivity)) ?_, ?_⟩
  · rw [abs_lt]; constructor <;> (norm_num; linarith)
  · have h1 : (10 : ℚ) * k - x < 6 := by linarith
    have h2 : (-6 : ℚ) < 10 * k - x := by linarith
    have h1' : (10 : Int) * k - x < 6 := by exact_mod_cast h1
    have h2' : (-6 : Int) < 10 * k - x := by exact_mod_cast h2
    rw [abs_le]; constructor <;> omega

/-- **C34 (GSA)** The dilutions of precision, received in hundredths, are shown in tenths, within half a tenth. -/
theorem C34_gsa_dops (d : Dops) (hf : d.flags % 8 ≠ 0) (hp : d.pdop < 65536) (hh : d.hdop < 65536) (hv : d.vdop < 65536) :
    ∃ p h v : Nat, List.Forall₂ (DecField 1) (dopFields d) [p, h, v] ∧
      |10 * (p : Int) - d.pdop| ≤ 5 ∧ |10 * (h : Int) - d.hdop| ≤ 5 ∧ |10 * (v : Int) - d.vdop| ≤ 5 := by
  obtain ⟨p, p1, p2⟩ := dop1_field d.pdop hp
  obtain ⟨h, h1, h2⟩ := dop1_field d.hdop hh
  obtain ⟨v, v1, v2⟩ := dop1_field d.vdop hv
  refine ⟨p, h, v, ?_, p2, h2, v2⟩
  unfold dopFields
  rw [if_pos (show posMode d.flags ≠ 0 from hf)]
  exact List.Forall₂.cons p1 (List.Forall₂.cons h1 (List.Forall₂.cons v1 List.Forall₂.nil))

/-- thirteen GPS satellites in use and a Galileo one, the last GPS one observed is left out -/
def exMany : St := { init .gnss 1 with
    navSids := (List.range 13).map (fun i => ⟨i + 1, 0⟩) ++ [⟨5, 14⟩]
    numObs := 14
    store := { dops := { flags := 1, pdop := 184, hdop := 95, vdop := 158 } } }

/-- **C34, negative** A solution that uses thirteen GPS satellites reports twelve: there is one GSA sentence per talker, and the
satellites that do not fit are not reported anywhere. -/
theorem C34_gsa_thirteenth_bug : (sendGsa exLib exMany).map (fun s => s.texts.flatten) =
    ["$GNGSA,A,3,01,02,03,04,05,06,07,08,09,10,11,12,1.8,1.0,1.6".toList, "$GNGSA,A,3,305,,,,,,,,,,,,1.8,1.0,1.6".toList] := by
  decide +kernel
example : ∀ s ∈ exMany.navSids.take exMany.numObs, NumberedSid exLib s ∧ exLib.con s.code ≠ .qzs := by
  have : ∀ s ∈ exMany.navSids.take exMany.numObs, (s.sat < 256 ∧ (exLib.con s.code = .sbas → 120 ≤ s.sat)) ∧ exLib.con s.code ≠ .qzs := by decide
  exact this

/-- six satellites of two constellations in view, one of unknown constellation, two of them tracked -/
def exView : St := { init .gnss 1 with store :=
  { azel := (List.range 5).map (fun i => ⟨⟨i + 7, 0⟩, 90, 45 - (i : Int) * 12⟩) ++ [⟨⟨3, 14⟩, 179, 90⟩, ⟨⟨1, 99⟩, 0, 0⟩]
    meas := [⟨⟨8, 0⟩, 163⟩, ⟨⟨3, 14⟩, 255⟩, ⟨⟨3, 14⟩, 100⟩] } }
/-- hypotheses of C34_gsv_partial -/
example : exView.store.azel.length ≤ 63 ∧ (∀ m ∈ exView.store.meas, m.cn0 < 256) ∧
    (sendGsv exLib exView).map (fun s => s.texts.flatten) =
      ["$GPGSV,2,1,05,07,45,180,,08,33,180,41,09,21,180,,10,09,180,".toList, "$GPGSV,2,2,05,11,-3,180,".toList,
       "$GAGSV,1,1,01,303,90,358,64".toList] := by decide +kernel
example : ∀ a ∈ exView.store.azel, NumberedSid exLib a.sid := by
  have : ∀ a ∈ exView.store.azel, a.sid.sat < 256 ∧ (exLib.con a.sid.code = .sbas → 120 ≤ a.sid.sat) := by decide
  exact this
example : ∃ a ∈ exView.store.azel, talkerFor (exLib.con a.sid.code) ≠ none := by decide

/-- **C34, negative** QZSS satellites carry their PRN (193..202) in SBP messages, and NMEA numbers them by that PRN (the comment at
nmea.c:49 says so), but the code adds 192: the first QZSS satellite, 193, is shown as 385. -/
theorem C34_qzss_number_bug (L : Lib) (s : Sid) (h : L.con s.code = .qzs) (hs : s.sat = 193) :
    nmeaSvId L s = 385 ∧ svNumber (L.con s.code) s.sat = 193 := by
  unfold nmeaSvId
  rw [h, hs]
  decide

end Verif.Nmea
