import Verif.Lemmas.UbxEphComplete
/-
C40: broadcast ephemerides assembled from UBX subframes.
-/
set_option linter.unusedSimpArgs false
set_option linter.unusedVariables false
namespace Verif.Ubx
open Verif.Ubx.Spec

variable {E : Type}

/-- **C40** Whatever the history of messages: an ephemeris emitted at message `n` for a satellite is the decoding of exactly one
message of each part number of that satellite, message `n` being one of them; each is the latest of its number, nothing was emitted
for the satellite since it arrived (so no part is used twice), and they all belong to one issue of data. -/
theorem C40_sound {L : EphLib E} {is : List EphIn} {st : EphSt} {os : List (Option E)} (h : ephRun L .init is = some (st, os))
    {n g prn f : Nat} {ws : List (BitVec 32)} {c : Con} {e : E} (hi : is[n]? = some (.sfrbx g prn f ws)) (hc : conOf g = some c)
    (ho : os[n]? = some (some e)) :
    ∃ (idx : Nat → Nat) (w : Nat → List (BitVec 32)), (∃ k, 1 ≤ k ∧ k ≤ partCount c ∧ idx k = n) ∧
      (∀ k, 1 ≤ k → k ≤ partCount c → idx k ≤ n ∧ (∃ i, is[idx k]? = some i ∧ Carries L i c prn k (w k)) ∧
        (∀ m i ws', idx k < m → m ≤ n → is[m]? = some i → ¬ Carries L i c prn k ws') ∧
        ∀ m, idx k ≤ m → m < n → SilentAt is os c prn m) ∧
      SameIssue c w ∧ IsEphemeris L (leapInfo (is.take n)) c prn f w e := by
  have hn : n < is.length := by
    rcases Nat.lt_or_ge n is.length with h | h
    · exact h
    · rw [List.getElem?_eq_none h] at hi; cases hi
  have hsplit : is = is.take n ++ ([.sfrbx g prn f ws] ++ is.drop (n + 1)) := by
    rw [List.getElem?_eq_getElem hn] at hi
    simp only [Option.some.injEq] at hi
    rw [← hi, List.cons_append, List.nil_append, ← List.drop_eq_getElem_cons hn, List.take_append_drop]
  have htl : (is.take n).length = n := by rw [List.length_take]; omega
  rw [hsplit] at h
  obtain ⟨r1, r2, h1, h2, he⟩ := ephRun_append h
  obtain ⟨r3, r4, h3, h4, he2⟩ := ephRun_append h2
  obtain ⟨st3, o3, h5, he3⟩ := ephRun_one h3
  have inv := (HistInv.init L).run h1
  simp only [List.nil_append] at inv
  have hos : os = r1.2 ++ (o3 :: r4.2) := by
    simp only [Prod.mk.injEq] at he
    rw [he.2, he2, he3]
    rfl
  have hl1 : r1.2.length = n := by rw [inv.len, htl]
  have ho3 : o3 = some e := by
    rw [hos, List.getElem?_append_right (by omega), hl1] at ho
    simpa using ho
  subst ho3
  obtain ⟨idx, w, hex, hall, hsame, heph⟩ := emission inv hc h5
  rw [htl] at hex hall
  have pos : ∀ m i, m ≤ n → (is[m]? = some i ↔ (is.take n ++ [.sfrbx g prn f ws])[m]? = some i) := by
    intro m i hm
    have e := congrArg (fun l : List EphIn => l[m]?) hsplit
    rw [← List.append_assoc, List.getElem?_append_left (by simp; omega)] at e
    rw [e]
  refine ⟨idx, w, hex, ?_, hsame, heph⟩
  intro k hk1 hk2
  obtain ⟨a, ⟨i, b1, b2⟩, d, e'⟩ := hall k hk1 hk2
  refine ⟨a, ⟨i, (pos _ _ a).mpr b1, b2⟩, fun m i ws' h1 h2 h3 => d m i ws' h1 ((pos _ _ h2).mp h3), ?_⟩
  intro m h1 h2
  have := e' m h1 h2
  intro g' f' ws' hi' hc'
  have hi2 : (is.take n)[m]? = some (.sfrbx g' prn f' ws') := by
    rw [List.getElem?_take_of_lt h2]; exact hi'
  have := this g' f' ws' hi2 hc'
  rw [hos, List.getElem?_append_left (by omega)]
  exact this

/-- **C40** No message contributes to two ephemerides: when a satellite has ephemerides emitted at messages `n < n'`, every part used
at `n'` arrived after `n`. -/
theorem C40_no_reuse {L : EphLib E} {is : List EphIn} {st : EphSt} {os : List (Option E)} (h : ephRun L .init is = some (st, os))
    {n n' g g' prn f f' : Nat} {ws ws' : List (BitVec 32)} {c : Con} {e e' : E} (hnn : n < n')
    (hi : is[n]? = some (.sfrbx g prn f ws)) (hc : conOf g = some c) (ho : os[n]? = some (some e))
    (hi' : is[n']? = some (.sfrbx g' prn f' ws')) (hc' : conOf g' = some c) (ho' : os[n']? = some (some e')) :
    ∃ (idx : Nat → Nat) (w : Nat → List (BitVec 32)), (∀ k, 1 ≤ k → k ≤ partCount c → n < idx k ∧ idx k ≤ n' ∧ ∃ i, is[idx k]? = some i ∧ Carries L i c prn k (w k)) ∧
      IsEphemeris L (leapInfo (is.take n')) c prn f' w e' := by
  obtain ⟨idx, w, -, hall, -, heph⟩ := C40_sound h hi' hc' ho'
  refine ⟨idx, w, ?_, heph⟩
  intro k h1 h2
  obtain ⟨a, b, -, d⟩ := hall k h1 h2
  refine ⟨?_, a, b⟩
  rcases Nat.lt_or_ge n (idx k) with h | h
  · exact h
  · have := d n h hnn g f ws hi hc
    rw [ho] at this
    cases this

theorem reachable_ok {L : EphLib E} {pre : List EphIn} {st0 : EphSt} {os0 : List (Option E)} (h0 : ephRun L .init pre = some (st0, os0)) :
    (∀ c p, SatOk c (st0.sat c p)) ∧ st0.utc = leapInfo pre := by
  have inv := (HistInv.init L).run h0
  exact ⟨inv.ok, by have := inv.utc; simpa using this⟩

/-- **C40** Completeness for Galileo, BeiDou and GLONASS: after any history, a stretch of messages that contains every part of a
satellite, all of one issue and decodable, makes an ephemeris of the satellite be emitted within the stretch, whatever the order of
the parts and whatever else comes between; for GLONASS the leap second has to be known throughout. -/
theorem C40_complete {L : EphLib E} {pre A : List EphIn} {st0 st : EphSt} {os0 os : List (Option E)}
    (h0 : ephRun L .init pre = some (st0, os0)) (h : ephRun L st0 A = some (st, os)) {c : Con} {prn : Nat} (hc : c ≠ .gps)
    (hall : AllParts L A c prn) (hcons : Consistent L A c prn)
    (hleap : c = .glo → (leapInfo pre).isSome ∧ ∀ s l w, EphIn.rawx s l w ∈ A → s % 2 = 1) : EmittedFor A os c prn := by
  obtain ⟨hok, hu⟩ := reachable_ok h0
  have hG : ∀ i ∈ A, ∀ k ws, Carries L i c prn (k + 1) ws → From L A c prn k (keep c ws) := fun i hi k ws hcar => ⟨i, hi, ws, hcar, rfl⟩
  cases c with
  | gps => exact absurd rfl hc
  | bds => exact complete (bds_retains hcons hall) hok trivial trivial (fun _ _ _ _ _ _ => trivial) hG hall h
  | gal => exact complete (gal_retains hcons hall) hok trivial trivial (fun _ _ _ _ _ _ => trivial) hG hall h
  | glo =>
    refine complete (glo_retains hcons hall) hok trivial (by rw [hu]; exact (hleap rfl).1) ?_ hG hall h
    rintro i hi s l w rfl
    rw [if_pos ((hleap rfl).2 s l w hi)]
    rfl

/-- **C40** Completeness for GPS: two stretches that each contain the three subframes of a satellite, all of one issue and decodable,
make an ephemeris be emitted. -/
theorem C40_gps_complete {L : EphLib E} {pre A B : List EphIn} {st0 st : EphSt} {os0 os : List (Option E)}
    (h0 : ephRun L .init pre = some (st0, os0)) (h : ephRun L st0 (A ++ B) = some (st, os)) {prn : Nat}
    (hA : AllParts L A .gps prn) (hB : AllParts L B .gps prn) (hcons : Consistent L (A ++ B) .gps prn) : EmittedFor (A ++ B) os .gps prn := by
  obtain ⟨hok, hu⟩ := reachable_ok h0
  have hG : ∀ i ∈ A ++ B, ∀ k ws, Carries L i .gps prn (k + 1) ws → From L (A ++ B) .gps prn k (keep .gps ws) :=
    fun i hi k ws hcar => ⟨i, hi, ws, hcar, rfl⟩
  obtain ⟨r1, r2, h1, h2, he⟩ := ephRun_append h
  obtain ⟨hok1, hrep⟩ := parts_replaced (c := .gps) (p := prn) hok (fun i hi => hG i (List.mem_append_left _ hi)) h1
  have hJ : ∀ i, i < 3 → From L (A ++ B) .gps prn i ((r1.1.sat .gps prn).parts i) := by
    intro i hi
    obtain ⟨x, hx, ws, hcar⟩ := hA (i + 1) (by omega) (by show i + 1 ≤ 3; omega)
    exact hrep i (Or.inr ⟨x, hx, ws, hcar⟩)
  obtain ⟨n, g, f, ws, e, a, b, d⟩ := complete (gps_retains hcons) hok1 hJ trivial (fun _ _ _ _ _ _ => trivial)
    (fun i hi => hG i (List.mem_append_right _ hi)) hB h2
  simp only [Prod.mk.injEq] at he
  have hl : r1.2.length = A.length := ephRun_length h1
  refine ⟨A.length + n, g, f, ws, e, ?_, b, ?_⟩
  · rw [List.getElem?_append_right (by omega), Nat.add_sub_cancel_left]; exact a
  · rw [he.2, List.getElem?_append_right (by omega), hl, Nat.add_sub_cancel_left]; exact d

theorem defined_from (L : EphLib E) (is : List EphIn) (st : EphSt) (hok : ∀ c p, SatOk c (st.sat c p))
    (hz : ∀ g p f ws, EphIn.sfrbx g p f ws ∈ is → conOf g = some .glo → claimedNo .glo ws ≠ some 0) : ∃ r, ephRun L st is = some r := by
  induction is generalizing st with
  | nil => exact ⟨_, rfl⟩
  | cons i is ih =>
    have hs : ∃ st' o, ephStep L st i = some (st', o) := by
      cases i with
      | rawx s l w => exact ⟨_, _, rfl⟩
      | navTow t => exact ⟨_, _, rfl⟩
      | sfrbx g p f ws =>
        simp only [ephStep]
        cases hc : conOf g with
        | none => simp only; split; split; exact ⟨_, _, rfl⟩; exact ⟨_, _, rfl⟩; exact ⟨_, _, rfl⟩
        | some c =>
          simp only
          have : ∃ r, satStep L st.utc c p f ws (st.sat c p) = some r := by
            unfold satStep
            split
            · exact ⟨_, rfl⟩
            · cases c
              · exact ⟨_, rfl⟩
              · exact ⟨_, rfl⟩
              · exact ⟨_, rfl⟩
              · simp only
                by_cases hk : ∃ k, claimedNo .glo ws = some (k + 1) ∧ k < 5
                · obtain ⟨k, h1, h2⟩ := hk
                  exact ⟨_, gloStep_core L p f st.utc ws _ k h1 h2⟩
                · rw [gloStep_skip L p f st.utc ws _ hk, if_neg (hz g p f ws (by simp) hc)]
                  exact ⟨_, rfl⟩
          obtain ⟨r, hr⟩ := this
          rw [hr]
          exact ⟨_, _, rfl⟩
    obtain ⟨st', o, hs⟩ := hs
    have hok1 := (parts_replaced (L := L) (c := .gps) (p := 0) (Good := fun _ _ => True) (A := [i]) (r := (st', [o])) hok (fun _ _ _ _ _ => trivial)
      (by simp [ephRun, hs])).1
    obtain ⟨r, hr⟩ := ih st' hok1 (fun g p f ws hm => hz g p f ws (by simp [hm]))
    exact ⟨(r.1, o :: r.2), by simp [ephRun, hs, hr]⟩

/-- **C40** The only message with undefined behaviour is a GLONASS string that claims to be number 0: histories without one always
go through. -/
theorem C40_defined (L : EphLib E) (is : List EphIn)
    (hz : ∀ g p f ws, EphIn.sfrbx g p f ws ∈ is → conOf g = some .glo → claimedNo .glo ws ≠ some 0) : ∃ r, ephRun L .init is = some r :=
  defined_from L is .init ((HistInv.init L).ok) hz

/-- **C40, negative** A GLONASS string with number 0, which the code does not exclude, is undefined behaviour (a shift by 255 and a
write in front of the array), whatever the state. -/
theorem C40_glo_string_zero_bug (L : EphLib E) (st : EphSt) (prn f : Nat) (ws : List (BitVec 32)) (hp : 1 ≤ prn ∧ prn ≤ L.numSats .glo)
    (h : claimedNo .glo ws = some 0) : ephStep L st (.sfrbx 6 prn f ws) = none := by
  have hk : ¬ ∃ k, claimedNo .glo ws = some (k + 1) ∧ k < 5 := by rw [h]; rintro ⟨k, h, -⟩; cases h
  have hc : conOf 6 = some .glo := rfl
  simp only [ephStep, hc]
  unfold satStep
  rw [if_neg (by omega)]
  simp only
  rw [gloStep_skip L prn f st.utc ws _ hk, if_pos h]
  rfl
example : claimedNo .glo [0, 0, 0, 0] = some 0 := by decide +kernel

/-- **C40, negative** The documented size of a Galileo page is at least 8 words, but pages of exactly 8 words are ignored. -/
theorem C40_gal_eight_words_bug (L : EphLib E) (st : EphSt) (prn f : Nat) (ws : List (BitVec 32)) (h : ws.length = 8) :
    ∃ st', ephStep L st (.sfrbx 2 prn f ws) = some (st', none) ∧ ∀ c p, st'.sat c p = st.sat c p := by
  have hc : conOf 2 = some .gal := rfl
  have hs : satStep L st.utc .gal prn f ws (st.sat .gal prn) = some (st.sat .gal prn, none) := by
    unfold satStep
    split
    · rfl
    · simp only [galStep, if_pos (show ws.length ≤ 8 by omega)]
  simp only [ephStep, hc, hs]
  refine ⟨_, rfl, ?_⟩
  intro c p
  simp only
  split
  · rename_i e; rw [e.1, e.2]
  · rfl

/-! ### Concrete messages -/

/-- GPS subframe `id` with issue `iod` and time of week count `tow` -/
def gpsW (id iod tow : Nat) : List (BitVec 32) :=
  [BitVec.ofNat 32 (0x8b * 2 ^ 22), BitVec.ofNat 32 (tow * 2 ^ 13 + id * 2 ^ 8), BitVec.ofNat 32 (if id = 2 then iod * 2 ^ 22 else 0), 0, 0, 0, 0,
   BitVec.ofNat 32 (if id = 1 then iod * 2 ^ 22 else 0), 0, BitVec.ofNat 32 (if id = 3 then iod * 2 ^ 22 else 0)]
/-- BeiDou subframe `id` sent at second of week `sow` -/
def bdsW (id sow : Nat) : List (BitVec 32) :=
  [BitVec.ofNat 32 (id * 2 ^ 12 + sow / 4096 * 2 ^ 4), BitVec.ofNat 32 (sow % 4096 * 2 ^ 18), 0, 0, 0, 0, 0, 0, 0, 0]
/-- Galileo word type `id` with IODnav `iod` -/
def galW (id iod : Nat) : List (BitVec 32) :=
  [BitVec.ofNat 32 (id * 2 ^ 24 + iod * 2 ^ 14), 0, 0, 0, BitVec.ofNat 32 (2 ^ 31), 0, 0, 0, 0]
/-- GLONASS string `id` of a superframe -/
def gloW (id sup : Nat) : List (BitVec 32) := [BitVec.ofNat 32 (id * 2 ^ 27), 0, 0, BitVec.ofNat 32 (sup * 2 ^ 16)]

/-- a library for the examples: the emitted message is the time, or the number of parts -/
def exEph : EphLib Nat where
  numSats := fun _ => 24
  geo := fun p => p ≤ 5
  gps := fun _ _ t => some t
  gal := fun ps => some ps.length
  glo := fun ps _ _ f => ps.length + 100 * f
  bds := fun ps _ => ps.length
  sbasFirst := 120
  sbasCount := 39
  crcBits := fun _ => 0
  sbas := fun p t _ _ => p + 1000 * t

example : (ephRun exEph .init [.sfrbx 0 7 0 (gpsW 1 5 100), .sfrbx 0 7 0 (gpsW 2 5 101), .sfrbx 0 9 0 (gpsW 3 5 102), .sfrbx 0 7 0 (gpsW 4 0 103),
    .sfrbx 0 7 0 (gpsW 3 5 102)]).map Prod.snd = some [none, none, none, none, some 594] := by decide +kernel
example : (ephRun exEph .init [.sfrbx 3 7 0 (bdsW 1 604782), .sfrbx 3 7 0 (bdsW 2 604788), .sfrbx 3 7 0 (bdsW 3 604794)]).map Prod.snd =
    some [none, none, some 3] := by decide +kernel
example : (ephRun exEph .init [.sfrbx 2 7 0 (galW 5 0), .sfrbx 2 7 0 (galW 1 9), .sfrbx 2 7 0 (galW 2 9), .sfrbx 2 7 0 (galW 3 9),
    .sfrbx 2 7 0 (galW 4 9)]).map Prod.snd = some [none, none, none, none, some 5] := by decide +kernel
example : (ephRun exEph .init [.rawx 1 18 2100, .sfrbx 6 7 8 (gloW 5 3), .sfrbx 6 7 8 (gloW 1 3), .sfrbx 6 7 8 (gloW 2 3), .sfrbx 6 7 8 (gloW 3 3),
    .sfrbx 6 7 8 (gloW 4 3)]).map Prod.snd = some [none, none, none, none, none, some 905] := by decide +kernel

/-- **C40** One round of GPS subframes is not enough after a change of issue (the reason for the two rounds of C40_gps_complete):
subframe 3 of the old issue, still stored, makes the new subframe 1 be thrown away. -/
theorem C40_gps_one_round_not_enough :
    (ephRun exEph .init [.sfrbx 0 7 0 (gpsW 3 4 97), .sfrbx 0 7 0 (gpsW 1 5 100), .sfrbx 0 7 0 (gpsW 2 5 101), .sfrbx 0 7 0 (gpsW 3 5 102),
      .sfrbx 0 7 0 (gpsW 1 5 105)]).map Prod.snd = some [none, none, none, none, some 624] := by decide +kernel

/-- the parts that occur in a list of messages of one satellite, given by number and words -/
theorem parts_of {L : EphLib E} {g prn : Nat} {c : Con} (hc : conOf g = some c) {l : List (Nat × List (BitVec 32))}
    (hl : ∀ x ∈ l, claimedNo c x.2 = some x.1) {A : List EphIn} (hA : ∀ i ∈ A, (∃ t, i = .navTow t) ∨ ∃ x ∈ l, i = .sfrbx g prn 0 x.2) {k : Nat} {w : List (BitVec 32)}
    (h : ∃ i, i ∈ A ∧ Carries L i c prn k w) : (k, w) ∈ l := by
  obtain ⟨i, hi, ⟨g', f', rfl, hc'⟩, -, -, -, hk, -⟩ := h
  rcases hA _ hi with ⟨t, ht⟩ | ⟨x, hx, he⟩
  · cases ht
  · cases he
    rw [hl x hx] at hk
    cases hk
    exact hx

/-- the hypotheses of `C40_complete` and of `C40_gps_complete` are met -/
example : AllParts exEph [.sfrbx 3 7 0 (bdsW 2 6), .navTow 5, .sfrbx 3 7 0 (bdsW 3 12), .sfrbx 3 7 0 (bdsW 1 0)] .bds 7 ∧
    Consistent exEph [.sfrbx 3 7 0 (bdsW 2 6), .navTow 5, .sfrbx 3 7 0 (bdsW 3 12), .sfrbx 3 7 0 (bdsW 1 0)] .bds 7 := by
  constructor
  · intro k h1 h2
    have h2 : k ≤ 3 := h2
    rcases (by omega : k = 1 ∨ k = 2 ∨ k = 3) with rfl | rfl | rfl
    · exact ⟨.sfrbx 3 7 0 (bdsW 1 0), by simp, bdsW 1 0, ⟨3, 0, rfl, rfl⟩, by decide, by decide, fun _ => rfl, by decide +kernel, by decide, by decide⟩
    · exact ⟨.sfrbx 3 7 0 (bdsW 2 6), by simp, bdsW 2 6, ⟨3, 0, rfl, rfl⟩, by decide, by decide, fun _ => rfl, by decide +kernel, by decide, by decide⟩
    · exact ⟨.sfrbx 3 7 0 (bdsW 3 12), by simp, bdsW 3 12, ⟨3, 0, rfl, rfl⟩, by decide, by decide, fun _ => rfl, by decide +kernel, by decide, by decide⟩
  · intro w hw
    have key := fun k h1 h2 => parts_of (L := exEph) (g := 3) (c := .bds) rfl (l := [(1, bdsW 1 0), (2, bdsW 2 6), (3, bdsW 3 12)]) (by decide +kernel) (by simp) (hw k h1 h2)
    have w1 : w 1 = bdsW 1 0 := by simpa using key 1 (by decide) (by decide)
    have w2 : w 2 = bdsW 2 6 := by simpa using key 2 (by decide) (by decide)
    have w3 : w 3 = bdsW 3 12 := by simpa using key 3 (by decide) (by decide)
    refine ⟨?_, nofun, nofun⟩
    simp only [SameIssue, w1, w2, w3]
    decide +kernel

example : AllParts exEph [.sfrbx 0 7 0 (gpsW 1 5 0), .sfrbx 0 7 0 (gpsW 2 5 1), .sfrbx 0 7 0 (gpsW 3 5 2)] .gps 7 ∧
    Consistent exEph ([.sfrbx 0 7 0 (gpsW 1 5 0), .sfrbx 0 7 0 (gpsW 2 5 1), .sfrbx 0 7 0 (gpsW 3 5 2)] ++
      [.sfrbx 0 7 0 (gpsW 1 5 0), .sfrbx 0 7 0 (gpsW 2 5 1), .sfrbx 0 7 0 (gpsW 3 5 2)]) .gps 7 := by
  constructor
  · intro k h1 h2
    have h2 : k ≤ 3 := h2
    have car : ∀ k w, claimedNo .gps w = some k → 1 ≤ k → k ≤ 3 → Carries exEph (.sfrbx 0 7 0 w) .gps 7 k w := fun k w h h1 h5 =>
      ⟨⟨0, 0, rfl, rfl⟩, by decide, by decide, nofun, h, h1, h5⟩
    rcases (by omega : k = 1 ∨ k = 2 ∨ k = 3) with rfl | rfl | rfl
    · exact ⟨_, List.mem_cons_self, _, car 1 (gpsW 1 5 0) (by decide +kernel) h1 h2⟩
    · exact ⟨.sfrbx 0 7 0 (gpsW 2 5 1), by simp, _, car 2 (gpsW 2 5 1) (by decide +kernel) h1 h2⟩
    · exact ⟨.sfrbx 0 7 0 (gpsW 3 5 2), by simp, _, car 3 (gpsW 3 5 2) (by decide +kernel) h1 h2⟩
  · intro w hw
    have key := fun k h1 h2 => parts_of (L := exEph) (g := 0) (c := .gps) rfl (l := [(1, gpsW 1 5 0), (2, gpsW 2 5 1), (3, gpsW 3 5 2)]) (by decide +kernel) (by simp) (hw k h1 h2)
    have w1 : w 1 = gpsW 1 5 0 := by simpa using key 1 (by decide) (by decide)
    have w2 : w 2 = gpsW 2 5 1 := by simpa using key 2 (by decide) (by decide)
    have w3 : w 3 = gpsW 3 5 2 := by simpa using key 3 (by decide) (by decide)
    refine ⟨?_, fun _ _ => rfl, nofun⟩
    simp only [SameIssue, w1, w2, w3]
    decide +kernel

/-- **C40, negative** Galileo word type 5, which carries the week number and no issue of data, may be arbitrarily older than the other
words used with it: for every `n`, a word type 5 followed by `n` other messages and then by word types 1 to 4 yields an ephemeris. -/
theorem C40_gal_stale_bug (n : Nat) : ∃ (os : List (Option Nat)) (st : EphSt),
    ephRun exEph .init (.sfrbx 2 7 0 (galW 5 0) :: (List.replicate n (.navTow 0) ++
      [.sfrbx 2 7 0 (galW 1 9), .sfrbx 2 7 0 (galW 2 9), .sfrbx 2 7 0 (galW 3 9), .sfrbx 2 7 0 (galW 4 9)])) = some (st, os) ∧
    EmittedFor (.sfrbx 2 7 0 (galW 5 0) :: (List.replicate n (.navTow 0) ++
      [.sfrbx 2 7 0 (galW 1 9), .sfrbx 2 7 0 (galW 2 9), .sfrbx 2 7 0 (galW 3 9), .sfrbx 2 7 0 (galW 4 9)])) os .gal 7 := by
  generalize hA : (EphIn.sfrbx 2 7 0 (galW 5 0) :: (List.replicate n (.navTow 0) ++
      [.sfrbx 2 7 0 (galW 1 9), .sfrbx 2 7 0 (galW 2 9), .sfrbx 2 7 0 (galW 3 9), .sfrbx 2 7 0 (galW 4 9)])) = A
  have hmem : ∀ i ∈ A, (∃ t, i = .navTow t) ∨ ∃ x ∈ [(1, galW 1 9), (2, galW 2 9), (3, galW 3 9), (4, galW 4 9), (5, galW 5 0)], i = .sfrbx 2 7 0 x.2 := by
    intro i hi
    rw [← hA] at hi
    simp only [List.mem_cons, List.mem_append, List.mem_replicate, List.not_mem_nil, or_false] at hi
    rcases hi with rfl | ⟨-, rfl⟩ | rfl | rfl | rfl | rfl
    · exact Or.inr ⟨(5, galW 5 0), by simp, rfl⟩
    · exact Or.inl ⟨0, rfl⟩
    · exact Or.inr ⟨(1, galW 1 9), by simp, rfl⟩
    · exact Or.inr ⟨(2, galW 2 9), by simp, rfl⟩
    · exact Or.inr ⟨(3, galW 3 9), by simp, rfl⟩
    · exact Or.inr ⟨(4, galW 4 9), by simp, rfl⟩
  have hl : ∀ x ∈ [(1, galW 1 9), (2, galW 2 9), (3, galW 3 9), (4, galW 4 9), (5, galW 5 0)], claimedNo .gal x.2 = some x.1 := by decide +kernel
  obtain ⟨r, hr⟩ := C40_defined exEph A (by
    intro g p f ws hi hc
    rcases hmem _ hi with ⟨t, ht⟩ | ⟨x, hx, he⟩
    · cases ht
    · cases he; cases hc)
  refine ⟨r.2, r.1, hr, ?_⟩
  have hall : AllParts exEph A .gal 7 := by
    intro k h1 h2
    have h2 : k ≤ 5 := h2
    have car : ∀ k w, claimedNo .gal w = some k → 1 ≤ k → k ≤ 5 → Carries exEph (.sfrbx 2 7 0 w) .gal 7 k w := fun k w h h1 h5 =>
      ⟨⟨2, 0, rfl, rfl⟩, by decide, by decide, nofun, h, h1, h5⟩
    rcases (by omega : k = 1 ∨ k = 2 ∨ k = 3 ∨ k = 4 ∨ k = 5) with rfl | rfl | rfl | rfl | rfl
    · exact ⟨.sfrbx 2 7 0 (galW 1 9), by rw [← hA]; simp, galW 1 9, car 1 _ (by decide +kernel) h1 h2⟩
    · exact ⟨.sfrbx 2 7 0 (galW 2 9), by rw [← hA]; simp, galW 2 9, car 2 _ (by decide +kernel) h1 h2⟩
    · exact ⟨.sfrbx 2 7 0 (galW 3 9), by rw [← hA]; simp, galW 3 9, car 3 _ (by decide +kernel) h1 h2⟩
    · exact ⟨.sfrbx 2 7 0 (galW 4 9), by rw [← hA]; simp, galW 4 9, car 4 _ (by decide +kernel) h1 h2⟩
    · exact ⟨.sfrbx 2 7 0 (galW 5 0), by rw [← hA]; simp, galW 5 0, car 5 _ (by decide +kernel) h1 h2⟩
  refine C40_complete (pre := []) rfl hr (by decide) hall ?_ nofun
  intro w hw
  have key := fun k h1 h2 => parts_of (L := exEph) (g := 2) (c := .gal) rfl hl hmem (hw k h1 h2)
  have w1 : w 1 = galW 1 9 := by simpa using key 1 (by decide) (by decide)
  have w2 : w 2 = galW 2 9 := by simpa using key 2 (by decide) (by decide)
  have w3 : w 3 = galW 3 9 := by simpa using key 3 (by decide) (by decide)
  have w4 : w 4 = galW 4 9 := by simpa using key 4 (by decide) (by decide)
  refine ⟨?_, nofun, fun _ => rfl⟩
  simp only [SameIssue, w1, w2, w3, w4]
  decide +kernel

/-! ### SBAS -/

/-- **C40** An SBAS message is passed on exactly when its satellite number, size, preamble and checksum are right and the time of the
last solution is known; its 212 data bits are those after preamble and message type, and its time is that of the solution less
1.12 s, provided that the week has lasted that long. -/
theorem C40_sbas_partial (L : EphLib E) (st : EphSt) (prn f : Nat) (ws : List (BitVec 32)) (hw : 1120 ≤ st.tow) :
    let bits := bitsOf (word ws 1) ++ bitsOf (word ws 2) ++ bitsOf (word ws 3) ++ bitsOf (word ws 4) ++ bitsOf (word ws 5) ++
      bitsOf (word ws 6) ++ bitsOf (word ws 7) ++ bitsOf (word ws 8)
    ephStep L st (.sfrbx 1 prn f ws) = some (st,
      if (L.sbasFirst ≤ prn ∧ prn < L.sbasFirst + L.sbasCount) ∧ (ws.length = 8 ∨ ws.length = 9) ∧ st.tow ≤ 604800000 ∧
          bits32 (word ws 1) 1 8 ∈ [0x53, 0x9a, 0xc6] ∧ ((bits.drop 226).take 24).foldl (fun a b => 2 * a + b.toNat) 0 = L.crcBits (bits.take 226) then
        some (L.sbas prn (st.tow - 1120) (bits32 (word ws 1) 9 14) ((bits.drop 14).take 212))
      else none) := by
  intro bits
  have hc : conOf 1 = none := rfl
  simp only [ephStep, hc, if_true]
  have hb : ((List.range 8).flatMap fun i => wordBits (wd ws i)) = bits := by
    simp [List.range_succ, wordBits_eq, wd_word, bits]
  have e1 : fld (wd ws 0) 24 8 = bits32 (word ws 1) 1 8 := by rw [wd_word]; rfl
  have e2 : fld (wd ws 0) 18 6 = bits32 (word ws 1) 9 14 := by rw [wd_word]; rfl
  by_cases ht : 604800000 < st.tow
  · rw [if_pos ht, if_neg (by omega)]
  rw [if_neg ht]
  have et : (st.tow + 2 ^ 32 - 1120) % 2 ^ 32 = st.tow - 1120 := by omega
  rw [et]
  refine congrArg (fun x => some (st, x)) ?_
  unfold sbasMsg
  by_cases h1 : prn < L.sbasFirst ∨ L.sbasFirst + L.sbasCount ≤ prn ∨ (ws.length ≠ 8 ∧ ws.length ≠ 9)
  · rw [if_pos h1, if_neg (by omega)]
  rw [if_neg h1]
  simp only [hb, e1, e2]
  by_cases h2 : bits32 (word ws 1) 1 8 ≠ 0x53 ∧ bits32 (word ws 1) 1 8 ≠ 0x9a ∧ bits32 (word ws 1) 1 8 ≠ 0xc6
  · rw [if_pos h2, if_neg (by simp [h2])]
  rw [if_neg h2]
  by_cases h3 : ((bits.drop 226).take 24).foldl (fun a b => 2 * a + b.toNat) 0 = L.crcBits (bits.take 226)
  · rw [if_neg (not_not_intro h3), if_pos ⟨by omega, by omega, by omega, by simp; omega, h3⟩]
  · rw [if_pos h3, if_neg (fun h => h3 h.2.2.2.2)]

/-- **C40, negative** In the first 1.12 s of a week the time of an SBAS message wraps around 2^32 ms instead of the week: the comparison
with 0 that should correct it is made on an unsigned number. -/
theorem C40_sbas_week_start_bug (L : EphLib E) (prn : Nat) (ws : List (BitVec 32)) (f : Nat) (st : EphSt) (h : st.tow < 1120) :
    ephStep L st (.sfrbx 1 prn f ws) = some (st, sbasMsg L (2 ^ 32 + st.tow - 1120) prn ws) ∧ 604800000 < 2 ^ 32 + st.tow - 1120 := by
  have hc : conOf 1 = none := rfl
  simp only [ephStep, hc, if_true]
  rw [if_neg (by omega)]
  rw [show (st.tow + 2 ^ 32 - 1120) % 2 ^ 32 = 2 ^ 32 + st.tow - 1120 by omega]
  exact ⟨rfl, by omega⟩
example : sbasMsg exEph 5 120 [0x53000000, 0, 0, 0, 0, 0, 0, 0] = some 5120 := by decide +kernel

end Verif.Ubx
