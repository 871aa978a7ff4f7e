import Verif.Model.MsmUtils
import Verif.Spec.MsmUtils
import Verif.Lemmas.MsmUtils
/-! C17 message numbers, C18 signal/satellite numbering, C19 MSM masks. -/
namespace Verif.Msm
open Spec

/-! ### C17 -/

/-- **C17** the number built from a constellation and an MSM type is classified back to them. -/
theorem C17_number_classified (c : Cons) (t : MsmType) (ht : t ≠ .unknown) :
    toConstellation (toMsmMsgNum (some c) t) = some c ∧ toMsmType (toMsmMsgNum (some c) t) = t := by
  cases c <;> cases t <;> first | contradiction | decide

/-- **C17** every number classified as an MSM message of some type and constellation is the number built from them. -/
theorem C17_classified_number (n : Nat) (c : Cons) (h1 : toConstellation n = some c) (h2 : toMsmType n ≠ .unknown) :
    n = toMsmMsgNum (some c) (toMsmType n) := by
  unfold toMsmType at h2 ⊢
  split at h2
  · contradiction
  · rename_i hr
    rw [if_neg hr]
    have hd : n = 10 * (n / 10) + n % 10 := by omega
    have hq : n / 10 = 107 ∨ n / 10 = 108 ∨ n / 10 = 109 ∨ n / 10 = 110 ∨ n / 10 = 111 ∨ n / 10 = 112 := by omega
    have hm : n % 10 < 10 := Nat.mod_lt _ (by omega)
    generalize n / 10 = q at *
    generalize n % 10 = m at *
    subst hd
    have : m = 0 ∨ m = 1 ∨ m = 2 ∨ m = 3 ∨ m = 4 ∨ m = 5 ∨ m = 6 ∨ m = 7 ∨ m = 8 ∨ m = 9 := by omega
    rcases hq with rfl | rfl | rfl | rfl | rfl | rfl <;>
      rcases this with rfl | rfl | rfl | rfl | rfl | rfl | rfl | rfl | rfl | rfl <;>
      first
        | (exfalso; exact h2 rfl)
        | (revert h1; cases c <;> decide)

/-- **C17** a number outside the 42 MSM numbers 10x1..10x7 has no MSM type. -/
theorem C17_other_unknown (n : Nat) (h : ¬ ∃ c t, t ≠ MsmType.unknown ∧ n = toMsmMsgNum (some c) t) : toMsmType n = .unknown := by
  by_cases hu : toMsmType n = .unknown
  · exact hu
  · exfalso
    apply h
    have hc : ∃ c, toConstellation n = some c := by
      unfold toMsmType at hu
      split at hu
      · contradiction
      · rename_i hr
        have hm : n % 10 ≠ 0 ∧ n % 10 < 8 := by
          constructor
          · intro h0; rw [h0] at hu; exact hu rfl
          · refine Nat.lt_of_not_le fun hc => ?_
            have : n % 10 = 8 ∨ n % 10 = 9 := by omega
            rcases this with h0 | h0 <;> (rw [h0] at hu; exact hu rfl)
        unfold toConstellation
        repeat' split
        all_goals first | exact ⟨_, rfl⟩ | omega
    obtain ⟨c, hc⟩ := hc
    exact ⟨c, toMsmType n, hu, C17_classified_number n c hc hu⟩

/-- the numbers built are pairwise distinct -/
theorem C17_number_injective (c d : Cons) (t u : MsmType) (ht : t ≠ .unknown) (hu : u ≠ .unknown)
    (h : toMsmMsgNum (some c) t = toMsmMsgNum (some d) u) : c = d ∧ t = u := by
  have h1 := C17_number_classified c t ht
  have h2 := C17_number_classified d u hu
  rw [h] at h1
  exact ⟨Option.some.inj (h1.1.symm.trans h2.1), h1.2.symm.trans h2.2⟩

example : toMsmMsgNum (some .gal) .msm5 = 1095 ∧ toConstellation 1095 = some .gal ∧ toMsmType 1095 = .msm5 := by decide

/-! ### C18 -/

theorem codeOf_ge (c : Cons) (id : Nat) (h : 32 < id ∨ id = 0) : codeOf c id = .invalid := by
  cases c <;> simp only [codeOf]
  all_goals
    first
      | (unfold gpsCode; split <;> first | rfl | omega)
      | (unfold sbasCode; split <;> first | rfl | omega)
      | (unfold gloCode; split <;> first | rfl | omega)
      | (unfold bdsCode; split <;> first | rfl | omega)
      | (unfold qzsCode; split <;> first | rfl | omega)
      | (unfold galCode; split <;> first | rfl | omega)

theorem codeOf_valid {c : Cons} {id : Nat} (h : codeOf c id ≠ .invalid) : 1 ≤ id ∧ id ≤ 32 := by
  refine ⟨Nat.pos_of_ne_zero fun h0 => h (codeOf_ge c id (Or.inr h0)), Nat.le_of_not_lt fun hc => h (codeOf_ge c id (Or.inl hc))⟩

theorem codeToSignalId_some {code : Code} {c : Cons} (h : Supported c code) :
    codeToSignalId code c < 32 ∧ codeOf c (codeToSignalId code c + 1) = code := by
  obtain ⟨_, id, h1, h2, h3⟩ := h
  unfold codeToSignalId
  cases hf : (List.range sigMaskSize).find? fun i => codeOf c (i + 1) = code with
  | none =>
    have := List.find?_eq_none.mp hf (id - 1) (by simp [sigMaskSize]; omega)
    rw [show id - 1 + 1 = id by omega] at this
    simp [h3] at this
  | some k =>
    have hp := List.find?_some hf
    have hm := List.mem_of_find?_eq_some hf
    simp [sigMaskSize] at hm hp
    exact ⟨hm, hp⟩

/-- **C18** code → signal id → code is the identity on the codes that have an MSM signal. -/
theorem C18_code_roundtrip (c : Cons) (code : Code) (h : Supported c code) :
    codeToSignalId code c < 32 ∧ codeOf c (codeToSignalId code c + 1) = code := codeToSignalId_some h

/-- **C18** two signal ids give the same code only for GPS P/W (1P,1W and 2P,2W are both delivered as the P code). -/
theorem C18_ids_injective (c : Cons) (i j : Nat) (h : codeOf c i = codeOf c j) (hv : codeOf c i ≠ .invalid) (hij : i < j) :
    c = .gps ∧ ((i = 3 ∧ j = 4) ∨ (i = 9 ∧ j = 10)) := by
  have hi := codeOf_valid hv
  have hj := codeOf_valid (h ▸ hv)
  have key : ∀ c : Cons, ∀ i : Fin 33, ∀ j : Fin 33, codeOf c i = codeOf c j → codeOf c i ≠ .invalid → i < j →
    c = .gps ∧ ((i = 3 ∧ j = 4) ∨ (i = 9 ∧ j = 10)) := by
    intro c; cases c <;> decide
  have := key c ⟨i, by omega⟩ ⟨j, by omega⟩ h hv (by simpa using hij)
  refine ⟨this.1, ?_⟩
  rcases this.2 with ⟨a, b⟩ | ⟨a, b⟩
  · exact Or.inl ⟨congrArg Fin.val a, congrArg Fin.val b⟩
  · exact Or.inr ⟨congrArg Fin.val a, congrArg Fin.val b⟩

/-- **C18** signal id → code → signal id is the identity, except that GPS 1W and 2W come back as 1P and 2P. -/
theorem C18_id_roundtrip (c : Cons) (id : Nat) (hv : codeOf c id ≠ .invalid) (hw : ¬ (c = .gps ∧ (id = 4 ∨ id = 10))) :
    codeToSignalId (codeOf c id) c + 1 = id := by
  have hr := codeOf_valid hv
  obtain ⟨h1, h2⟩ := codeToSignalId_some (c := c) (code := codeOf c id) ⟨hv, id, hr.1, hr.2, rfl⟩
  generalize hk : codeToSignalId (codeOf c id) c = k at *
  rcases Nat.lt_trichotomy (k + 1) id with hlt | he | hlt
  · obtain ⟨hc, hk'⟩ := C18_ids_injective c (k + 1) id h2 (h2 ▸ hv) hlt
    exact absurd ⟨hc, by omega⟩ hw
  · exact he
  · exfalso
    -- the first match cannot be after `id`
    unfold codeToSignalId at hk
    cases hf : (List.range sigMaskSize).find? fun i => codeOf c (i + 1) = codeOf c id with
    | none =>
      have := List.find?_eq_none.mp hf (id - 1) (by simp [sigMaskSize]; omega)
      rw [show id - 1 + 1 = id by omega] at this
      simp at this
    | some x =>
      rw [hf] at hk; simp at hk; subst hk
      rw [List.find?_range_eq_some] at hf
      have := hf.2.2 (id - 1) (by omega)
      rw [show id - 1 + 1 = id by omega] at this
      simp at this

/-- **C18** a code belongs to one constellation only. -/
theorem C18_constellations_disjoint (c d : Cons) (i j : Nat) (h : codeOf c i = codeOf d j) (hv : codeOf c i ≠ .invalid) : c = d := by
  have hi := codeOf_valid hv
  have hj := codeOf_valid (h ▸ hv)
  have key : ∀ c d : Cons, ∀ i : Fin 33, ∀ j : Fin 33, codeOf c i = codeOf d j → codeOf c i ≠ .invalid → c = d := by
    intro c d; cases c <;> cases d <;> decide
  exact key c d ⟨i, by omega⟩ ⟨j, by omega⟩ h hv

/-- **C18** PRN → MSM satellite id → PRN is the identity on legal PRNs, and ids of legal PRNs are mask positions. -/
theorem C18_prn_roundtrip (t : PrnTable) (ht : t.WF) (c : Cons) (prn : Nat) (h : prnValid t c prn) :
    prnToSatId t prn c < 64 ∧ t.first c + prnToSatId t prn c = prn := by
  have := ht.fits c
  unfold prnValid at h; unfold prnToSatId
  simp [satMaskSize] at this
  omega
theorem C18_prn_injective (t : PrnTable) (c : Cons) (p q : Nat) (hp : prnValid t c p) (hq : prnValid t c q)
    (h : prnToSatId t p c = prnToSatId t q c) : p = q := by
  unfold prnValid at hp hq; unfold prnToSatId at h; omega

/-- **C18** the satellite of row `i` of an MSM message is delivered only if it is a legal satellite of the constellation,
and is then the one whose mask bit is set with exactly `i` set bits before it. -/
theorem C18_row_prn (t : PrnTable) (ht : t.WF) (h : Hdr) (i prn : Nat) (hp : satToPrn t h i = some prn) (h0 : prn ≠ 0) :
    prnValid t h.cons prn ∧ h.sat[prn - t.first h.cons]? = some true ∧ (h.sat.take (prn - t.first h.cons)).count true = i := by
  unfold satToPrn at hp
  cases hf : findNth satMaskSize h.sat (i + 1) with
  | none => rw [hf] at hp; simp at hp
  | some k =>
    rw [hf] at hp
    simp only [Option.map_some, Option.some.injEq] at hp
    split at hp
    · rename_i hv
      obtain ⟨k1, k2, k3⟩ := findNth_spec hf
      have u := ht.u8 h.cons
      have hk : prn = t.first h.cons + k := by
        by_cases hlt : t.first h.cons + k < 256
        · rw [Nat.mod_eq_of_lt hlt] at hp; exact hp.symm
        · exfalso
          unfold prnValid at hv
          simp only [satMaskSize] at k1
          omega
      subst hp
      refine ⟨hv, ?_, ?_⟩
      · rw [hk]; simpa using k2
      · rw [hk]; simp only [Nat.add_sub_cancel_left]; unfold countMask at k3; omega
    · exact absurd hp.symm h0

/-- A code without MSM signal in the constellation gives the one-past-the-end id 32. -/
theorem C18_unsupported_code (c : Cons) (code : Code) (hc : code ≠ .invalid) (h : ¬ Supported c code) : codeToSignalId code c = 32 := by
  unfold codeToSignalId
  cases hf : (List.range sigMaskSize).find? fun i => codeOf c (i + 1) = code with
  | none => rfl
  | some k =>
    have hp := List.find?_some hf
    have hm := List.mem_of_find?_eq_some hf
    simp [sigMaskSize] at hm hp
    exact absurd ⟨hc, k + 1, by omega, by omega, hp⟩ h

example : Supported .gal .gal_e5x := ⟨by decide, 24, by decide⟩
example : ∃ t : PrnTable, t.WF ∧ prnValid t .qzs 193 :=
  ⟨⟨fun c => match c with | .sbas => 120 | .qzs => 193 | _ => 1, fun c => match c with | .bds => 63 | _ => 10⟩,
   ⟨by intro c; cases c <;> decide, by intro c; cases c <;> decide, by intro c; cases c <;> decide⟩, by decide⟩

/-! ### C19 -/

/-- **C19** the position of the n-th set bit has n-1 set bits before it, for every mask and n ... -/
theorem C19_nth_then_count (size : Nat) (mask : List Bool) (n : Nat) (h1 : 1 ≤ n) (h2 : n ≤ countMask size mask) :
    ∃ p, findNth size mask n = some p ∧ p < size ∧ mask[p]? = some true ∧ countMask p mask + 1 = n := by
  obtain ⟨p, hp⟩ := findNth_exists h1 h2
  obtain ⟨a, b, c⟩ := findNth_spec hp
  exact ⟨p, hp, a, b, c.symm⟩
/-- **C19** ... and conversely a set position is found again from the number of set bits before it. -/
theorem C19_count_then_nth (size : Nat) (mask : List Bool) (p : Nat) (hp : p < size) (h : mask[p]? = some true) :
    findNth size mask (countMask p mask + 1) = some p := findNth_of hp h

/-- Invariant of a header under construction. -/
structure Inv (h : Hdr) : Prop where
  sat : h.sat.length = 64
  sig : h.sig.length = 32
  cell : h.cell.length = 64
  prod : numSats h * numSigs h ≤ 64

theorem Inv.empty (c : Cons) : Inv (Hdr.empty c) := ⟨by simp [Hdr.empty, satMaskSize], by simp [Hdr.empty, sigMaskSize], by simp [Hdr.empty, maxCells], by cases c <;> decide⟩

theorem numCells_empty {h : Hdr} (hc : h.cell = List.replicate maxCells false) : numCells h = 0 := by
  unfold numCells countMask; rw [hc, List.take_replicate, List.count_replicate]; simp

/-- `b` implies `c` positionwise -/
def MaskLe (a b : List Bool) : Prop := ∀ i : Nat, a[i]? = some true → b[i]? = some true
theorem MaskLe.refl (a : List Bool) : MaskLe a a := fun _ h => h
theorem MaskLe.set {a : List Bool} {i : Nat} : MaskLe a (a.set i true) := by
  intro j hj
  rw [List.getElem?_set]
  split
  · rename_i e; subst e
    have : i < a.length := by
      refine Nat.lt_of_not_le fun hc => ?_
      rw [List.getElem?_eq_none hc] at hj; simp at hj
    simp [this]
  · exact hj
theorem MaskLe.trans {a b c : List Bool} (h1 : MaskLe a b) (h2 : MaskLe b c) : MaskLe a c := fun i h => h2 i (h1 i h)

theorem mask_set_get {l : List Bool} {i : Nat} (h : i < l.length) : (l.set i true)[i]? = some true := by
  rw [List.getElem?_set]; simp [h]

theorem add_spec (t : PrnTable) (ht : t.WF) (h : Hdr) (hi : Inv h) (hc : h.cell = List.replicate maxCells false)
    (code : Code) (prn : Nat) (hs : code = .invalid ∨ Supported h.cons code) :
    ∃ h' ok, addToHeader t h code prn = some (h', ok) ∧ Inv h' ∧ h'.cell = h.cell ∧ h'.cons = h.cons
      ∧ MaskLe h.sat h'.sat ∧ MaskLe h.sig h'.sig
      ∧ (ok = true → code ≠ .invalid ∧ prnValid t h.cons prn ∧ h'.sat[prnToSatId t prn h.cons]? = some true
          ∧ h'.sig[codeToSignalId code h.cons]? = some true) := by
  unfold addToHeader
  rw [if_neg (by rw [numCells_empty hc]; simp)]
  by_cases hinv : code = .invalid
  · rw [if_pos hinv]
    exact ⟨h, false, rfl, hi, rfl, rfl, .refl _, .refl _, by simp⟩
  rw [if_neg hinv]
  have hsup : Supported h.cons code := hs.resolve_left hinv
  by_cases hp : ¬ prnValid t h.cons prn
  · rw [if_pos hp]
    exact ⟨h, false, rfl, hi, rfl, rfl, .refl _, .refl _, by simp⟩
  rw [if_neg hp]
  have hp : prnValid t h.cons prn := Decidable.not_not.mp hp
  have hsat := (C18_prn_roundtrip t ht h.cons prn hp).1
  have hsig := (codeToSignalId_some hsup).1
  generalize prnToSatId t prn h.cons = sat at *
  generalize codeToSignalId code h.cons = sig at *
  simp only
  have hl1 := hi.sat
  have hl2 := hi.sig
  have key : ∀ (h1 : Hdr), h1.sat.length = 64 → h1.sig = h.sig → h1.cell = h.cell → h1.cons = h.cons →
      MaskLe h.sat h1.sat → h1.sat[sat]? = some true → numSats h1 * numSigs h1 ≤ 64 →
      ∃ h' ok, (match h1.sig[sig]? with
      | none => none
      | some true => some (h1, true)
      | some false =>
        if numSats h1 * (numSigs h + 1) ≤ maxCells then some ({ h1 with sig := h1.sig.set sig true }, true) else some (h1, false)) = some (h', ok)
      ∧ Inv h' ∧ h'.cell = h.cell ∧ h'.cons = h.cons ∧ MaskLe h.sat h'.sat ∧ MaskLe h.sig h'.sig
      ∧ (ok = true → code ≠ .invalid ∧ prnValid t h.cons prn ∧ h'.sat[sat]? = some true ∧ h'.sig[sig]? = some true) := by
    intro h1 e1 e2 e3 e4 e5 e6 e7
    have hlt : sig < h1.sig.length := by rw [e2]; omega
    have hlen : h1.sig.length = 32 := by rw [e2]; exact hl2
    have hcell : h1.cell.length = 64 := by rw [e3]; exact hi.cell
    cases hv : h1.sig[sig]? with
    | none => rw [List.getElem?_eq_none_iff] at hv; omega
    | some b =>
      cases b with
      | true => exact ⟨h1, true, rfl, ⟨e1, hlen, hcell, e7⟩, e3, e4, e5, by rw [e2]; exact .refl _, fun _ => ⟨hinv, hp, e6, hv⟩⟩
      | false =>
        simp only
        by_cases hb : numSats h1 * (numSigs h + 1) ≤ maxCells
        · rw [if_pos hb]
          refine ⟨_, true, rfl, ⟨e1, by simp [hlen], hcell, ?_⟩, e3, e4, e5, by rw [← e2]; exact .set, fun _ => ⟨hinv, hp, e6, mask_set_get hlt⟩⟩
          have en : numSigs { h1 with sig := h1.sig.set sig true } = numSigs h + 1 := by
            unfold numSigs
            rw [countMask_full (by simp [hlen]), count_set hv, countMask_full hl2, e2]
          rw [en]
          exact hb
        · rw [if_neg hb]
          exact ⟨h1, false, rfl, ⟨e1, hlen, hcell, e7⟩, e3, e4, e5, by rw [e2]; exact .refl _, by simp⟩
  cases hv : h.sat[sat]? with
  | none => rw [List.getElem?_eq_none_iff] at hv; omega
  | some b =>
    cases b with
    | true => exact key h hl1 rfl rfl rfl (.refl _) hv hi.prod
    | false =>
      simp only
      by_cases hb : (numSats h + 1) * numSigs h ≤ maxCells
      · rw [if_pos hb]
        have en : numSats { h with sat := h.sat.set sat true } = numSats h + 1 := by
          unfold numSats
          rw [countMask_full (by simp [hl1]), count_set hv, countMask_full hl1]
        have := key { h with sat := h.sat.set sat true } (by simp [hl1]) rfl rfl rfl .set (mask_set_get (by omega))
          (by rw [en]; exact hb)
        rw [en] at this
        exact this
      · rw [if_neg hb]
        exact ⟨h, false, rfl, hi, rfl, rfl, .refl _, .refl _, by simp⟩

theorem addAll_spec (t : PrnTable) (ht : t.WF) (ps : List (Code × Nat)) (h : Hdr) (hi : Inv h)
    (hc : h.cell = List.replicate maxCells false) (hs : ∀ p ∈ ps, p.1 = .invalid ∨ Supported h.cons p.1) :
    ∃ h' oks, addAll t h ps = some (h', oks) ∧ oks.length = ps.length ∧ Inv h' ∧ h'.cell = h.cell ∧ h'.cons = h.cons
      ∧ MaskLe h.sat h'.sat ∧ MaskLe h.sig h'.sig
      ∧ ∀ p ok, (p, ok) ∈ ps.zip oks → ok = true →
          p.1 ≠ .invalid ∧ prnValid t h.cons p.2 ∧ h'.sat[prnToSatId t p.2 h.cons]? = some true
          ∧ h'.sig[codeToSignalId p.1 h.cons]? = some true := by
  induction ps generalizing h with
  | nil => exact ⟨h, [], rfl, rfl, hi, rfl, rfl, .refl _, .refl _, by simp⟩
  | cons p ps ih =>
    obtain ⟨h1, ok, e, i1, c1, d1, s1, g1, r1⟩ := add_spec t ht h hi hc p.1 p.2 (hs p (by simp))
    obtain ⟨h2, oks, e2, l2, i2, c2, d2, s2, g2, r2⟩ := ih h1 i1 (by rw [c1, hc]) (by rw [d1]; exact fun q hq => hs q (by simp [hq]))
    refine ⟨h2, ok :: oks, ?_, by simp [l2], i2, c2.trans c1, d2.trans d1, s1.trans s2, g1.trans g2, ?_⟩
    · simp [addAll, e, e2]
    · intro q okq hq ht'
      simp only [List.zip_cons_cons, List.mem_cons] at hq
      rcases hq with hq | hq
      · simp at hq
        obtain ⟨rfl, rfl⟩ := hq
        obtain ⟨a, b, c, d⟩ := r1 ht'
        exact ⟨a, b, s2 _ c, g2 _ d⟩
      · have := r2 q okq hq ht'
        rw [d1] at this
        exact this

/-- **C19** For every constellation and every history of additions of pairs with supported (or invalid) codes, starting
from an empty header: the additions never hit an assertion or leave the masks, the satellite x signal product always
fits the 64-cell mask, and every pair reported as added is (still) addressable at the end: its satellite and its
signal are found again at the index computed for them. -/
theorem C19_additions (t : PrnTable) (ht : t.WF) (c : Cons) (ps : List (Code × Nat))
    (hs : ∀ p ∈ ps, p.1 = .invalid ∨ Supported c p.1) :
    ∃ h oks, addAll t (Hdr.empty c) ps = some (h, oks) ∧ oks.length = ps.length ∧ numSats h * numSigs h ≤ 64
      ∧ ∀ p ok, (p, ok) ∈ ps.zip oks → ok = true →
          satToPrn t h (prnToSatIndex t h p.2) = some p.2 ∧ signalToCode h (codeToSignalIndex h p.1) = some p.1
          ∧ prnToSatIndex t h p.2 < numSats h ∧ codeToSignalIndex h p.1 < numSigs h := by
  obtain ⟨h, oks, e, l, i, _, d, _, _, r⟩ := addAll_spec t ht ps (Hdr.empty c) (Inv.empty c) rfl hs
  refine ⟨h, oks, e, l, i.prod, ?_⟩
  intro p ok hp hok
  obtain ⟨hv, hprn, hsat, hsig⟩ := r p ok hp hok
  have hsup : Supported c p.1 := (hs p (List.of_mem_zip hp).1).resolve_left hv
  have dc : h.cons = c := d
  have e0 : (Hdr.empty c).cons = c := rfl
  rw [e0] at hprn hsat hsig
  have h64 := C18_prn_roundtrip t ht c p.2 hprn
  have h32 := codeToSignalId_some hsup
  refine ⟨?_, ?_, ?_, ?_⟩
  · unfold satToPrn prnToSatIndex
    rw [dc, findNth_of h64.1 hsat]
    have := ht.u8 c
    have hlt : p.2 < 256 := by unfold prnValid at hprn; omega
    simp only [Option.map_some, h64.2, Nat.mod_eq_of_lt hlt, if_pos hprn]
  · unfold signalToCode codeToSignalIndex
    rw [dc, findNth_of h32.1 hsig]
    simp [h32.2]
  · unfold prnToSatIndex numSats; rw [dc]; exact countMask_lt h64.1 hsat
  · unfold codeToSignalIndex numSigs; rw [dc]; exact countMask_lt h32.1 hsig

/-- cell number of a pair -/
def cellId (t : PrnTable) (h : Hdr) (p : Code × Nat) : Nat := prnToSatIndex t h p.2 * numSigs h + codeToSignalIndex h p.1

/-- the pair is in the masks -/
def InMasks (t : PrnTable) (h : Hdr) (p : Code × Nat) : Prop :=
  Supported h.cons p.1 ∧ prnValid t h.cons p.2 ∧ h.sat[prnToSatId t p.2 h.cons]? = some true ∧ h.sig[codeToSignalId p.1 h.cons]? = some true

theorem row_bound {a b s g : Nat} (ha : a < s) (hb : b < g) : a * g + b < s * g := by
  have : (a + 1) * g ≤ s * g := Nat.mul_le_mul_right _ ha
  rw [Nat.add_mul] at this; omega

theorem cellId_lt (t : PrnTable) (ht : t.WF) (h : Hdr) (p) (hp : InMasks t h p) : cellId t h p < numSats h * numSigs h := by
  obtain ⟨a, b, c, d⟩ := hp
  have h64 := C18_prn_roundtrip t ht h.cons p.2 b
  have h32 := codeToSignalId_some a
  exact row_bound (countMask_lt h64.1 c) (countMask_lt h32.1 d)

theorem sigIdx_lt (t : PrnTable) (h : Hdr) (p) (hp : InMasks t h p) : codeToSignalIndex h p.1 < numSigs h :=
  countMask_lt (codeToSignalId_some hp.1).1 hp.2.2.2

theorem cellId_inj (t : PrnTable) (h : Hdr) (p q) (hp : InMasks t h p) (hq : InMasks t h q)
    (he : cellId t h p = cellId t h q) : p = q := by
  have l1 := sigIdx_lt t h p hp
  have l2 := sigIdx_lt t h q hq
  unfold cellId at he
  have e1 : codeToSignalIndex h p.1 = codeToSignalIndex h q.1 := by
    have := congrArg (· % numSigs h) he
    simpa [Nat.mul_add_mod', Nat.mod_eq_of_lt l1, Nat.mod_eq_of_lt l2] using this
  have e2 : prnToSatIndex t h p.2 = prnToSatIndex t h q.2 := by
    rw [e1] at he
    have : prnToSatIndex t h p.2 * numSigs h = prnToSatIndex t h q.2 * numSigs h := by omega
    exact Nat.eq_of_mul_eq_mul_right (by omega) this
  have f1 := countMask_inj hp.2.2.2 hq.2.2.2 e1
  have f2 := countMask_inj hp.2.2.1 hq.2.2.1 e2
  have g1 : p.1 = q.1 := by
    rw [← (codeToSignalId_some hp.1).2, ← (codeToSignalId_some hq.1).2, f1]
  exact Prod.ext g1 (C18_prn_injective t h.cons _ _ hp.2.1 hq.2.1 f2)

theorem pairOfCell_cellId (t : PrnTable) (ht : t.WF) (h : Hdr) (p) (hp : InMasks t h p) : pairOfCell t h (cellId t h p) = some p := by
  have l1 := sigIdx_lt t h p hp
  have h64 := C18_prn_roundtrip t ht h.cons p.2 hp.2.1
  have h32 := codeToSignalId_some hp.1
  have em : cellId t h p % numSigs h = codeToSignalIndex h p.1 := by
    unfold cellId; rw [Nat.mul_comm, Nat.mul_add_mod]; exact Nat.mod_eq_of_lt l1
  have ed : cellId t h p / numSigs h = prnToSatIndex t h p.2 := by
    unfold cellId
    rw [Nat.mul_comm, Nat.mul_add_div (by omega), Nat.div_eq_of_lt l1]; simp
  unfold pairOfCell
  rw [em, ed]
  have e1 : signalToCode h (codeToSignalIndex h p.1) = some p.1 := by
    unfold signalToCode codeToSignalIndex
    rw [findNth_of h32.1 hp.2.2.2]
    simp [h32.2]
  have e2 : satToPrn t h (prnToSatIndex t h p.2) = some p.2 := by
    unfold satToPrn prnToSatIndex
    rw [findNth_of h64.1 hp.2.2.1]
    have := ht.u8 h.cons
    have hlt : p.2 < 256 := by have := hp.2.1; unfold prnValid at this; omega
    simp only [Option.map_some, h64.2, Nat.mod_eq_of_lt hlt, if_pos hp.2.1]
  rw [e1, e2]
  rfl

theorem cellAll_spec (t : PrnTable) (ht : t.WF) (ps : List (Code × Nat)) (h : Hdr) (hi : Inv h)
    (hp : ∀ p ∈ ps, InMasks t h p) (hnd : ps.Nodup) (hfree : ∀ p ∈ ps, h.cell[cellId t h p]? = some false) :
    ∃ h', cellAll t h ps = some (h', ps.map fun _ => true) ∧ h'.sat = h.sat ∧ h'.sig = h.sig ∧ h'.cons = h.cons
      ∧ h'.cell.length = 64
      ∧ ∀ k : Nat, h'.cell[k]? = some true ↔ (h.cell[k]? = some true ∨ ∃ p ∈ ps, cellId t h p = k) := by
  induction ps generalizing h with
  | nil => exact ⟨h, rfl, rfl, rfl, rfl, hi.cell, by simp⟩
  | cons p ps ih =>
    have hpm := hp p (by simp)
    have hlt := cellId_lt t ht h p hpm
    have hle := hi.prod
    have hgt := sigIdx_lt t h p hpm
    have hstep : addToCellMask t h p.1 p.2 = some ({ h with cell := h.cell.set (cellId t h p) true }, true) := by
      unfold addToCellMask
      rw [if_neg (by omega), if_neg hpm.1.1, if_neg (by simpa using hpm.2.1), hpm.2.2.1, hpm.2.2.2]
      simp only
      have : (prnToSatIndex t h p.2 * numSigs h + codeToSignalIndex h p.1) % 256 = cellId t h p := by
        unfold cellId at hlt ⊢; omega
      rw [this, hfree p (by simp)]
    have hcell := hi.cell
    obtain ⟨h2, e2, s2, g2, c2, l2, m2⟩ := ih { h with cell := h.cell.set (cellId t h p) true }
      ⟨hi.sat, hi.sig, by simp [hi.cell], hi.prod⟩ (fun q hq => hp q (by simp [hq])) (List.nodup_cons.mp hnd).2 (by
        intro q hq
        have hne : cellId t h p ≠ cellId t h q := fun he => by
          have := cellId_inj t h p q hpm (hp q (by simp [hq])) he
          subst this
          exact (List.nodup_cons.mp hnd).1 hq
        show (h.cell.set (cellId t h p) true)[cellId t h q]? = some false
        rw [List.getElem?_set, if_neg hne]
        exact hfree q (by simp [hq]))
    refine ⟨h2, ?_, s2, g2, c2, l2, ?_⟩
    · simp [cellAll, hstep, e2]
    · intro k
      rw [m2 k]
      have ec : ∀ q, cellId t { h with cell := h.cell.set (cellId t h p) true } q = cellId t h q := fun _ => rfl
      simp only [ec, List.mem_cons, exists_eq_or_imp]
      have : (h.cell.set (cellId t h p) true)[k]? = some true ↔ (h.cell[k]? = some true ∨ cellId t h p = k) := by
        rw [List.getElem?_set]
        split
        · rename_i e; subst e
          have : cellId t h p < h.cell.length := by omega
          simp [this]
        · rename_i e; simp [e]
      rw [this, or_assoc]

/-- **C19** Building a whole message header (both passes): for distinct pairs all of which were accepted by the first
pass, allocating the cells succeeds for every pair, and then the set cells are exactly the cells of the listed pairs:
reading cell number `k` back gives a listed pair iff the cell is set. -/
theorem C19_cells (t : PrnTable) (ht : t.WF) (c : Cons) (ps : List (Code × Nat)) (hnd : ps.Nodup)
    (hs : ∀ p ∈ ps, Supported c p.1) (h : Hdr) (hadd : addAll t (Hdr.empty c) ps = some (h, ps.map fun _ => true)) :
    ∃ h', cellAll t h ps = some (h', ps.map fun _ => true) ∧ h'.sat = h.sat ∧ h'.sig = h.sig
      ∧ (∀ k : Nat, h'.cell[k]? = some true → ∃ p ∈ ps, pairOfCell t h' k = some p)
      ∧ (∀ p ∈ ps, ∃ k, k < numSats h' * numSigs h' ∧ h'.cell[k]? = some true ∧ pairOfCell t h' k = some p) := by
  obtain ⟨h0, oks, e, l, i, ec, d, _, _, r⟩ := addAll_spec t ht ps (Hdr.empty c) (Inv.empty c) rfl (fun p hp => Or.inr (hs p hp))
  rw [hadd] at e
  simp at e
  obtain ⟨rfl, rfl⟩ := e
  have hin : ∀ p ∈ ps, InMasks t h p := by
    intro p hp
    have hz : (p, true) ∈ ps.zip (ps.map fun _ => true) := by
      rw [List.mem_iff_getElem] at hp ⊢
      obtain ⟨k, hk, rfl⟩ := hp
      exact ⟨k, by simpa using hk, by simp⟩
    obtain ⟨a, b, x, y⟩ := r p true hz rfl
    have e0 : h.cons = c := d
    unfold InMasks
    rw [e0]
    exact ⟨hs p hp, b, x, y⟩
  have hcell : ∀ k : Nat, h.cell[k]? ≠ some true := by
    intro k; rw [ec]; simp [Hdr.empty, List.getElem?_replicate]
  obtain ⟨h', e', s', g', c', l', m'⟩ := cellAll_spec t ht ps h i hin hnd (by
    intro p hp
    have := cellId_lt t ht h p (hin p hp)
    have := i.prod
    rw [ec]
    show (List.replicate maxCells false)[cellId t h p]? = some false
    rw [List.getElem?_replicate, if_pos (by simp only [maxCells]; omega)])
  have n1 : numSats h' = numSats h := by unfold numSats; rw [s']
  have n2 : numSigs h' = numSigs h := by unfold numSigs; rw [g']
  have hpc : ∀ k, pairOfCell t h' k = pairOfCell t h k := by
    intro k; unfold pairOfCell signalToCode satToPrn; rw [n2, s', g', c']
  refine ⟨h', e', s', g', ?_, ?_⟩
  · intro k hk
    rcases (m' k).mp hk with hk | ⟨p, hp, rfl⟩
    · exact absurd hk (hcell k)
    · exact ⟨p, hp, by rw [hpc]; exact pairOfCell_cellId t ht h p (hin p hp)⟩
  · intro p hp
    refine ⟨cellId t h p, by rw [n1, n2]; exact cellId_lt t ht h p (hin p hp), (m' _).mpr (Or.inr ⟨p, hp, rfl⟩), ?_⟩
    rw [hpc]; exact pairOfCell_cellId t ht h p (hin p hp)

/-- Defect: a signal code that is legal in SBP but has no MSM slot (BeiDou B2b-Q) makes the first pass read and write the
signal mask one past its end. -/
theorem C19_unsupported_code_bug (t : PrnTable) (h : Hdr) (hi : Inv h) (hc : h.cell = List.replicate maxCells false)
    (hcons : h.cons = .bds) (prn : Nat) (hp : prnValid t .bds prn) (hsat : h.sat[prnToSatId t prn .bds]? = some true) :
    addToHeader t h .bds3_b7q prn = none := by
  unfold addToHeader
  rw [if_neg (by rw [numCells_empty hc]; simp), if_neg (by decide), hcons, if_neg (by simpa using hp)]
  simp only [hsat]
  have : codeToSignalId .bds3_b7q .bds = 32 := by decide
  rw [this, List.getElem?_eq_none (by rw [hi.sig]; exact Nat.le_refl _)]

/-- a concrete header built by the two passes (GPS PRN 1..) -/
example : ∃ h h' : Hdr,
    let t : PrnTable := ⟨fun c => match c with | .sbas => 120 | .qzs => 193 | _ => 1, fun c => match c with | .bds => 63 | _ => 32⟩
    let ps := [(Code.gps_l1ca, 5), (Code.gps_l2cl, 5), (Code.gps_l1ca, 31)]
    addAll t (Hdr.empty .gps) ps = some (h, [true, true, true]) ∧ cellAll t h ps = some (h', [true, true, true]) := by
  refine ⟨_, _, rfl, rfl⟩

end Verif.Msm
