import Verif.Lemmas.UbxCodec

set_option linter.unusedSimpArgs false
/-! The codecs of the UBX messages with repeated blocks. -/
namespace Verif.Ubx
open Verif.Ubx.Spec

attribute [local irreducible] get repeatD reject invalid put putN

/-- repeated blocks, written as the encoders do -/
def blks {α : Type} (e : α → Buf) (k : Nat) (l : List α) (x : α) : Buf := (List.range k).flatMap fun i => e (l.getD i x)

theorem blks_eq {α : Type} (e : α → Buf) (k : Nat) (l : List α) (x : α) (h : l.length = k) : blks e k l x = l.flatMap e :=
  range_flatMap l x e k h.symm

theorem blk_bind {α β : Type} {d : Dec α} {e : α → Buf} (p : Pair d e) {k : Nat} (l : List α) (x : α) (hl : l.length = k) (r : Buf)
    (f : List α → Dec β) : (repeatD k d >>= f) (blks e k l x ++ r) = f l r := by
  rw [blks_eq e k l x hl, ← hl]
  exact bind_ok (repeatD_rt p l r)

theorem blk_bind_inv {α β : Type} {d : Dec α} {e : α → Buf} (p : Pair d e) (x : α) {k : Nat} {b r : Buf} {f : List α → Dec β} {y : β}
    (h : (repeatD k d >>= f) b = .ok (y, r)) : ∃ l b', l.length = k ∧ b = blks e k l x ++ b' ∧ f l b' = .ok (y, r) := by
  obtain ⟨l, b', h1, h2⟩ := bind_inv h
  obtain ⟨e1, e2⟩ := repeatD_inv p k h1
  exact ⟨l, b', e1, by rw [blks_eq e k l x e1]; exact e2, h2⟩

theorem leAt_blocks {α : Type} (pre : Buf) (l : List α) (e : α → Buf) (s start : Nat) (rest : Buf) (hs : ∀ x, (e x).length = s)
    (hp : pre.length = 4 + start) (f : α → List (Nat × Nat × Nat))
    (hf : ∀ x, ∀ z ∈ f x, z.1 + z.2.1 ≤ s ∧ leAt (e x ++ []) z.1 z.2.1 = z.2.2) :
    ∀ z ∈ blocks start s f l, leAt (pre ++ (l.flatMap e ++ rest)) (4 + z.1) z.2.1 = z.2.2 := by
  intro z hz
  unfold blocks at hz
  obtain ⟨⟨x, i⟩, h1, h2⟩ := List.mem_flatMap.1 hz
  obtain ⟨y, hy, rfl⟩ := List.mem_map.1 h2
  have hi : l[i]? = some x := List.mem_zipIdx_iff_getElem?.1 h1
  obtain ⟨k1, k2⟩ := hf x y hy
  rw [List.append_nil] at k2
  show leAt _ (4 + (start + s * i + y.1)) y.2.1 = y.2.2
  rw [leAt_append _ _ _ _ _ hp (by omega), ← k2, ← leAt_block l e s hs rest i x hi y.1 y.2.1 k1]
  congr 1
  omega

theorem pair_of {α : Type} {d : Dec α} {e : α → Buf} (rt : ∀ x r, d (e x ++ r) = .ok (x, r))
    (inv : ∀ b x r, d b = .ok (x, r) → b = e x ++ r) (err : Short d) : Pair d e := ⟨rt, inv, err⟩

set_option hygiene false in
macro "undoBlk" : tactic => `(tactic| (
  repeat undoGet
  obtain ⟨rfl, rfl⟩ := pure_inv h))

/-! ### the blocks -/

theorem asRawxMeas (m : RawxMeas) (rest : Buf) : encRawxMeas m ++ rest =
    put 8 m.pseudorange_m ++ (put 8 m.carrier_phase_cycles ++ (put 4 m.doppler_hz ++ (put 1 m.gnss_id ++ (put 1
    m.sat_id ++ (put 1 m.sig_id ++ (put 1 m.freq_id ++ (put 2 m.lock_time ++ (put 1 m.cno_dbhz ++ (put 1 m.pr_std_m
    ++ (put 1 m.cp_std_cycles ++ (put 1 m.doppler_std_hz ++ (put 1 m.track_state ++ (put 1 m.reserved2 ++
    rest))))))))))))) := by
  unfold encRawxMeas
  simp only [List.append_assoc]

theorem pairRawx : Pair decRawxMeas encRawxMeas := by
  apply pair_of
  · intro m r
    rw [asRawxMeas]
    unfold decRawxMeas
    repeat rw [get_bind (by decide)]
    rfl
  · intro b m r h
    unfold decRawxMeas at h
    undoBlk
    rw [asRawxMeas]
  · unfold decRawxMeas
    shorts

theorem lenRawxMeas (m : RawxMeas) : (encRawxMeas m).length = 32 := by
  unfold encRawxMeas
  simp only [List.length_append, length_put]

theorem tabRawxMeas (x : RawxMeas) : ∀ z ∈ rxmRawxBlock x, z.1 + z.2.1 ≤ 32 ∧ leAt (encRawxMeas x ++ []) z.1 z.2.1 = z.2.2 := by
  rw [asRawxMeas]
  simp (config := {decide := true}) only [rxmRawxBlock, List.forall_mem_cons, leAt_here, leAt_skip, Nat.reduceSub, Nat.reduceMul, Nat.reduceAdd, Nat.reduceLeDiff, true_and, and_true,
      List.not_mem_nil, false_imp_iff, implies_true]

theorem asNavSatData (m : NavSatData) (rest : Buf) : encNavSatData m ++ rest =
    put 1 m.gnss_id ++ (put 1 m.sv_id ++ (put 1 m.cno ++ (put 1 m.elev ++ (put 2 m.azim ++ (put 2 m.pr_res ++ (put 4
    m.flags ++ rest)))))) := by
  unfold encNavSatData
  simp only [List.append_assoc]

theorem pairNavSat : Pair decNavSatData encNavSatData := by
  apply pair_of
  · intro m r
    rw [asNavSatData]
    unfold decNavSatData
    repeat rw [get_bind (by decide)]
    rfl
  · intro b m r h
    unfold decNavSatData at h
    undoBlk
    rw [asNavSatData]
  · unfold decNavSatData
    shorts

theorem lenNavSatData (m : NavSatData) : (encNavSatData m).length = 12 := by
  unfold encNavSatData
  simp only [List.length_append, length_put]

theorem tabNavSatData (x : NavSatData) : ∀ z ∈ navSatBlock x, z.1 + z.2.1 ≤ 12 ∧ leAt (encNavSatData x ++ []) z.1 z.2.1 = z.2.2 := by
  rw [asNavSatData]
  simp (config := {decide := true}) only [navSatBlock, List.forall_mem_cons, leAt_here, leAt_skip, Nat.reduceSub, Nat.reduceMul, Nat.reduceAdd, Nat.reduceLeDiff, true_and, and_true,
      List.not_mem_nil, false_imp_iff, implies_true]

def encEsfRawData (m : EsfRawData) : Buf := put 4 m.data ++ put 4 m.sensor_time_tag

theorem asEsfRawData (m : EsfRawData) (rest : Buf) : encEsfRawData m ++ rest =
    put 4 m.data ++ (put 4 m.sensor_time_tag ++ rest) := by
  unfold encEsfRawData
  simp only [List.append_assoc]

theorem pairEsfRaw : Pair decEsfRawData encEsfRawData := by
  apply pair_of
  · intro m r
    rw [asEsfRawData]
    unfold decEsfRawData
    repeat rw [get_bind (by decide)]
    rfl
  · intro b m r h
    unfold decEsfRawData at h
    undoBlk
    rw [asEsfRawData]
  · unfold decEsfRawData
    shorts

theorem lenEsfRawData (m : EsfRawData) : (encEsfRawData m).length = 8 := by
  unfold encEsfRawData
  simp only [List.length_append, length_put]

theorem tabEsfRawData (x : EsfRawData) : ∀ z ∈ esfRawBlock x, z.1 + z.2.1 ≤ 8 ∧ leAt (encEsfRawData x ++ []) z.1 z.2.1 = z.2.2 := by
  rw [asEsfRawData]
  simp (config := {decide := true}) only [esfRawBlock, List.forall_mem_cons, leAt_here, leAt_skip, Nat.reduceSub, Nat.reduceMul, Nat.reduceAdd, Nat.reduceLeDiff, true_and, and_true,
      List.not_mem_nil, false_imp_iff, implies_true]

theorem tabWord (x : BitVec 32) : ∀ z ∈ rxmSfrbxBlock x, z.1 + z.2.1 ≤ 4 ∧ leAt (put 4 x ++ []) z.1 z.2.1 = z.2.2 := by
  simp (config := {decide := true}) only [rxmSfrbxBlock, List.forall_mem_cons, leAt_here, Nat.reduceSub, Nat.reduceMul, Nat.reduceAdd, Nat.reduceLeDiff, true_and, and_true,
      List.not_mem_nil, false_imp_iff, implies_true]

theorem tabDatum (x : BitVec 32) : ∀ z ∈ esfMeasBlock x, z.1 + z.2.1 ≤ 4 ∧ leAt (put 4 x ++ []) z.1 z.2.1 = z.2.2 := by
  simp (config := {decide := true}) only [esfMeasBlock, List.forall_mem_cons, leAt_here, Nat.reduceSub, Nat.reduceMul, Nat.reduceAdd, Nat.reduceLeDiff, true_and, and_true,
      List.not_mem_nil, false_imp_iff, implies_true]

/-! ### RXM-RAWX -/

def preRxmRawx (m : RxmRawx) : Buf :=
  put 1 m.class_id ++ put 1 m.msg_id ++ put 2 m.length ++ put 8 m.rcv_tow ++ put 2 m.rcv_wn ++ put 1 m.leap_second ++
  put 1 m.num_meas ++ put 1 m.rec_status ++ put 1 m.version ++ putN 2 1 m.reserved1

theorem asRxmRawx (m : RxmRawx) (rest : Buf) : encRxmRawx m ++ rest =
    preRxmRawx m ++ (blks encRawxMeas m.num_meas.toNat m.meas default ++ rest) := by
  unfold encRxmRawx blks preRxmRawx
  simp only [List.append_assoc]

theorem rtRxmRawx : RoundTrip decRxmRawx encRxmRawx wfRxmRawx := by
  intro m rest h
  obtain ⟨h1, h2, h3, h4⟩ := h
  rw [asRxmRawx]
  unfold decRxmRawx preRxmRawx
  rtrip h1 h2
  rw [blk_bind pairRawx _ _ h4, ← h1, ← h2]; rfl

theorem invRxmRawx (b : Buf) (m : RxmRawx) (rest : Buf) (h : decRxmRawx b = .ok (m, rest)) :
    wfRxmRawx m ∧ b = encRxmRawx m ++ rest := by
  unfold decRxmRawx at h
  undoHead
  repeat undoGet
  obtain ⟨_, _, hl, e, h'⟩ := rep_bind_inv (by decide) h; rw [e]; clear e h
  obtain ⟨_, _, hl2, e, h⟩ := blk_bind_inv pairRawx default h'; rw [e]; clear e h'
  obtain ⟨rfl, rfl⟩ := pure_inv h
  refine ⟨⟨h1, h2, hl, hl2⟩, ?_⟩
  rw [asRxmRawx]
  unfold preRxmRawx
  simp only [List.append_assoc]

theorem flRxmRawx : Follows decRxmRawx 0x02 0x15 (·.length) wfRxmRawx (fun m => rxmRawx m ++ blocks 16 32 rxmRawxBlock m.meas)
    (fun m => 16 + 32 * m.num_meas.toNat) := by
  intro b m rest h
  obtain ⟨hw, e⟩ := invRxmRawx _ _ _ h
  have hp : (preRxmRawx m).length = 20 := by
    unfold preRxmRawx
    simp only [List.length_append, length_put, length_putN]
  rw [e]
  refine ⟨hw, ⟨encRxmRawx m, rfl, ?_⟩, ?_⟩
  · have := asRxmRawx m []
    rw [List.append_nil, List.append_nil] at this
    rw [this, blks_eq _ _ _ _ hw.2.2.2, List.length_append, length_flatMap_const _ _ 32 lenRawxMeas, hw.2.2.2, hp]
    show 20 + 32 * _ = 4 + (16 + 32 * _)
    omega
  · rw [asRxmRawx, blks_eq _ _ _ _ hw.2.2.2]
    have hb := leAt_blocks (preRxmRawx m) m.meas encRawxMeas 32 16 rest lenRawxMeas hp rxmRawxBlock tabRawxMeas
    simp only [List.mem_append, or_imp, forall_and]
    refine and_assoc.1 (and_assoc.1 (and_assoc.1 ⟨?_, hb⟩))
    unfold preRxmRawx
    simp (config := {decide := true}) only [rxmRawx, List.append_assoc, List.forall_mem_cons, leAt_here, leAt_skip, hw.1, hw.2.1, Nat.reduceSub, Nat.reduceMul, Nat.reduceAdd, Nat.reduceLeDiff, true_and, and_true,
      List.not_mem_nil, false_imp_iff, implies_true]

theorem errRxmRawx (b e) (h : decRxmRawx b = .error e) : e = -2 ∨ ∃ x y r, b = x :: y :: r ∧ (x ≠ 0x02#8 ∨ y ≠ 0x15#8) := by
  refine header_err 0x02#8 0x15#8 _ ?_ b e h
  intro c i
  repeat' first | exact short_rep _ pairRawx.err | shorts1

theorem rejRxmRawx : Rejects decRxmRawx 0x02#8 0x15#8 := header_rejects _ _ _

/-! ### NAV-SAT -/

def preNavSat (m : NavSat) : Buf :=
  put 1 m.class_id ++ put 1 m.msg_id ++ put 2 m.length ++ put 4 m.i_tow ++ put 1 m.version ++ put 1 m.num_svs ++ put 2 m.reserved1

theorem asNavSat (m : NavSat) (rest : Buf) : encNavSat m ++ rest =
    preNavSat m ++ (blks encNavSatData (min m.num_svs.toNat 100) m.data default ++ rest) := by
  unfold encNavSat blks preNavSat
  simp only [List.append_assoc]

theorem rtNavSat : RoundTrip decNavSat encNavSat wfNavSat := by
  intro m rest h
  obtain ⟨h1, h2, h4⟩ := h
  rw [asNavSat]
  unfold decNavSat preNavSat
  rtrip h1 h2
  rw [blk_bind pairNavSat _ _ h4, ← h1, ← h2]; rfl

theorem invNavSat (b : Buf) (m : NavSat) (rest : Buf) (h : decNavSat b = .ok (m, rest)) :
    wfNavSat m ∧ b = encNavSat m ++ rest := by
  unfold decNavSat at h
  undoHead
  repeat undoGet
  obtain ⟨_, _, hl2, e, h'⟩ := blk_bind_inv pairNavSat default h; rw [e]; clear e h
  obtain ⟨rfl, rfl⟩ := pure_inv h'
  refine ⟨⟨h1, h2, hl2⟩, ?_⟩
  rw [asNavSat]
  unfold preNavSat
  simp only [List.append_assoc]

theorem flNavSat : Follows decNavSat 0x01 0x35 (·.length) wfNavSat (fun m => navSat m ++ blocks 8 12 navSatBlock m.data)
    (fun m => 8 + 12 * min m.num_svs.toNat 100) := by
  intro b m rest h
  obtain ⟨hw, e⟩ := invNavSat _ _ _ h
  have hp : (preNavSat m).length = 12 := by
    unfold preNavSat
    simp only [List.length_append, length_put, length_putN]
  rw [e]
  refine ⟨hw, ⟨encNavSat m, rfl, ?_⟩, ?_⟩
  · have := asNavSat m []
    rw [List.append_nil, List.append_nil] at this
    rw [this, blks_eq _ _ _ _ hw.2.2, List.length_append, length_flatMap_const _ _ 12 lenNavSatData, hw.2.2, hp]
    show 12 + 12 * _ = 4 + (8 + 12 * _)
    omega
  · rw [asNavSat, blks_eq _ _ _ _ hw.2.2]
    have hb := leAt_blocks (preNavSat m) m.data encNavSatData 12 8 rest lenNavSatData hp navSatBlock tabNavSatData
    simp only [List.mem_append, or_imp, forall_and]
    refine and_assoc.1 (and_assoc.1 (and_assoc.1 ⟨?_, hb⟩))
    unfold preNavSat
    simp (config := {decide := true}) only [navSat, List.append_assoc, List.forall_mem_cons, leAt_here, leAt_skip, hw.1, hw.2.1, Nat.reduceSub, Nat.reduceMul, Nat.reduceAdd, Nat.reduceLeDiff, true_and, and_true,
      List.not_mem_nil, false_imp_iff, implies_true]

theorem errNavSat (b e) (h : decNavSat b = .error e) : e = -2 ∨ ∃ x y r, b = x :: y :: r ∧ (x ≠ 0x01#8 ∨ y ≠ 0x35#8) := by
  refine header_err 0x01#8 0x35#8 _ ?_ b e h
  intro c i
  repeat' first | exact short_rep _ pairNavSat.err | shorts1

theorem rejNavSat : Rejects decNavSat 0x01#8 0x35#8 := header_rejects _ _ _

/-! ### RXM-SFRBX -/

def preRxmSfrbx (m : RxmSfrbx) : Buf :=
  put 1 m.class_id ++ put 1 m.msg_id ++ put 2 m.length ++ put 1 m.gnss_id ++ put 1 m.sat_id ++ put 1 m.reserved1 ++
  put 1 m.freq_id ++ put 1 m.num_words ++ put 1 m.channel ++ put 1 m.version ++ put 1 m.reserved2

theorem asRxmSfrbx (m : RxmSfrbx) (h : m.num_words.toNat ≤ 10) (rest : Buf) : (encRxmSfrbx m).getD [] ++ rest =
    preRxmSfrbx m ++ (putN m.num_words.toNat 4 m.data_words ++ rest) := by
  unfold encRxmSfrbx preRxmSfrbx
  rw [if_neg (by omega)]
  simp only [List.append_assoc, Option.getD_some]

theorem rtRxmSfrbx : RoundTrip decRxmSfrbx (fun m => (encRxmSfrbx m).getD []) wfRxmSfrbx := by
  intro m rest h
  obtain ⟨h1, h2, h4, h5⟩ := h
  beta_reduce
  rw [asRxmSfrbx _ h5]
  unfold decRxmSfrbx preRxmSfrbx
  rtrip h1 h2
  rw [invalid_bind (by omega), rep_bind (by decide) _ h4, ← h1, ← h2]; rfl

theorem invRxmSfrbx (b : Buf) (m : RxmSfrbx) (rest : Buf) (h : decRxmSfrbx b = .ok (m, rest)) :
    wfRxmSfrbx m ∧ b = (encRxmSfrbx m).getD [] ++ rest := by
  unfold decRxmSfrbx at h
  undoHead
  repeat undoGet
  obtain ⟨h5, h'⟩ := invalid_bind_inv h; clear h
  obtain ⟨_, _, hl, e, h⟩ := rep_bind_inv (by decide) h'; rw [e]; clear e h'
  obtain ⟨rfl, rfl⟩ := pure_inv h
  refine ⟨⟨h1, h2, hl, Nat.le_of_not_lt h5⟩, ?_⟩
  rw [asRxmSfrbx _ (Nat.le_of_not_lt h5)]
  unfold preRxmSfrbx
  simp only [List.append_assoc]

theorem flRxmSfrbx : Follows decRxmSfrbx 0x02 0x13 (·.length) wfRxmSfrbx (fun m => rxmSfrbx m ++ blocks 8 4 rxmSfrbxBlock m.data_words)
    (fun m => 8 + 4 * m.num_words.toNat) := by
  intro b m rest h
  obtain ⟨hw, e⟩ := invRxmSfrbx _ _ _ h
  have hp : (preRxmSfrbx m).length = 12 := by
    unfold preRxmSfrbx
    simp only [List.length_append, length_put, length_putN]
  rw [e]
  refine ⟨hw, ⟨(encRxmSfrbx m).getD [], rfl, ?_⟩, ?_⟩
  · have := asRxmSfrbx m hw.2.2.2 []
    rw [List.append_nil, List.append_nil] at this
    rw [this, List.length_append, length_putN, hp]
    show 12 + 4 * _ = 4 + (8 + 4 * _)
    omega
  · rw [asRxmSfrbx _ hw.2.2.2, putN_eq _ _ _ hw.2.2.1.symm]
    have hb := leAt_blocks (preRxmSfrbx m) m.data_words (put 4) 4 8 rest (fun _ => length_put _) hp rxmSfrbxBlock tabWord
    simp only [List.mem_append, or_imp, forall_and]
    refine and_assoc.1 (and_assoc.1 (and_assoc.1 ⟨?_, hb⟩))
    unfold preRxmSfrbx
    simp (config := {decide := true}) only [rxmSfrbx, List.append_assoc, List.forall_mem_cons, leAt_here, leAt_skip, hw.1, hw.2.1, Nat.reduceSub, Nat.reduceMul, Nat.reduceAdd, Nat.reduceLeDiff, true_and, and_true,
      List.not_mem_nil, false_imp_iff, implies_true]

theorem errRxmSfrbx (b e) (h : decRxmSfrbx b = .error e) : e = -2 ∨ ∃ x y r, b = x :: y :: r ∧ (x ≠ 0x02#8 ∨ y ≠ 0x13#8) := by
  refine header_err 0x02#8 0x13#8 _ ?_ b e h
  intro c i
  shorts

theorem rejRxmSfrbx : Rejects decRxmSfrbx 0x02#8 0x13#8 := header_rejects _ _ _

/-! ### ESF-RAW -/

theorem esfRawCount_eq (x : BitVec 16) : esfRawCount x = ((x.toNat - 4) / 8 : Nat) := by
  unfold esfRawCount
  by_cases h : 4 ≤ x.toNat
  · rw [Int.tdiv_eq_ediv_of_nonneg (by omega)]
    omega
  · have : x.toNat < 4 := by omega
    rcases (by omega : x.toNat = 0 ∨ x.toNat = 1 ∨ x.toNat = 2 ∨ x.toNat = 3) with h | h | h | h <;> rw [h] <;> decide

def preEsfRaw (m : EsfRaw) : Buf := put 1 m.class_id ++ put 1 m.msg_id ++ put 2 m.length ++ put 4 m.msss

theorem asEsfRaw (m : EsfRaw) (h : (m.length.toNat - 4) / 8 ≤ 128) (rest : Buf) : (encEsfRaw m).getD [] ++ rest =
    preEsfRaw m ++ (blks encEsfRawData ((m.length.toNat - 4) / 8) m.data default ++ rest) := by
  unfold encEsfRaw preEsfRaw blks encEsfRawData
  rw [if_neg (by rw [esfRawCount_eq]; omega), esfRawCount_eq, Int.toNat_natCast]
  simp only [List.append_assoc, Option.getD_some]

theorem rtEsfRaw : RoundTrip decEsfRaw (fun m => (encEsfRaw m).getD []) wfEsfRaw := by
  intro m rest h
  obtain ⟨h1, h2, h4, h5⟩ := h
  beta_reduce
  rw [asEsfRaw _ (by omega)]
  unfold decEsfRaw preEsfRaw
  rtrip h1 h2
  simp only [esfRawCount_eq, Int.toNat_natCast]
  rw [invalid_bind (by rw [esfRawCount_eq]; omega), get_bind (by decide), blk_bind pairEsfRaw _ _ h4, ← h1, ← h2]; rfl

theorem invEsfRaw (b : Buf) (m : EsfRaw) (rest : Buf) (h : decEsfRaw b = .ok (m, rest)) :
    wfEsfRaw m ∧ b = (encEsfRaw m).getD [] ++ rest := by
  unfold decEsfRaw at h
  simp only [esfRawCount_eq, Int.toNat_natCast] at h
  undoHead
  repeat undoGet
  obtain ⟨h5, h'⟩ := invalid_bind_inv h; clear h; rename' h' => h
  rw [esfRawCount_eq] at h5
  undoGet
  obtain ⟨_, _, hl, e, h'⟩ := blk_bind_inv pairEsfRaw default h; rw [e]; clear e h
  obtain ⟨rfl, rfl⟩ := pure_inv h'
  refine ⟨⟨h1, h2, hl, ?_⟩, ?_⟩
  · dsimp only; omega
  · rw [asEsfRaw _ (by dsimp only; omega)]
    unfold preEsfRaw
    simp only [List.append_assoc]

theorem flEsfRaw : Follows decEsfRaw 0x10 0x03 (·.length) wfEsfRaw (fun m => esfRaw m ++ blocks 4 8 esfRawBlock m.data)
    (fun m => 4 + 8 * m.data.length) := by
  intro b m rest h
  obtain ⟨hw, e⟩ := invEsfRaw _ _ _ h
  have hc : (m.length.toNat - 4) / 8 ≤ 128 := by rw [← hw.2.2.1]; exact hw.2.2.2
  have hp : (preEsfRaw m).length = 8 := by
    unfold preEsfRaw
    simp only [List.length_append, length_put, length_putN]
  rw [e]
  refine ⟨hw, ⟨(encEsfRaw m).getD [], rfl, ?_⟩, ?_⟩
  · have := asEsfRaw m hc []
    rw [List.append_nil, List.append_nil] at this
    rw [this, blks_eq _ _ _ _ hw.2.2.1, List.length_append, length_flatMap_const _ _ 8 lenEsfRawData, hp]
    show 8 + 8 * _ = 4 + (4 + 8 * _)
    omega
  · rw [asEsfRaw _ hc, blks_eq _ _ _ _ hw.2.2.1]
    have hb := leAt_blocks (preEsfRaw m) m.data encEsfRawData 8 4 rest lenEsfRawData hp esfRawBlock tabEsfRawData
    simp only [List.mem_append, or_imp, forall_and]
    refine and_assoc.1 (and_assoc.1 (and_assoc.1 ⟨?_, hb⟩))
    unfold preEsfRaw
    simp (config := {decide := true}) only [esfRaw, List.append_assoc, List.forall_mem_cons, leAt_here, leAt_skip, hw.1, hw.2.1, Nat.reduceSub, Nat.reduceMul, Nat.reduceAdd, Nat.reduceLeDiff, true_and, and_true,
      List.not_mem_nil, false_imp_iff, implies_true]

theorem errEsfRaw (b e) (h : decEsfRaw b = .error e) : e = -2 ∨ ∃ x y r, b = x :: y :: r ∧ (x ≠ 0x10#8 ∨ y ≠ 0x03#8) := by
  refine header_err 0x10#8 0x03#8 _ ?_ b e h
  intro c i
  repeat' first | exact short_rep _ pairEsfRaw.err | shorts1

theorem rejEsfRaw : Rejects decEsfRaw 0x10#8 0x03#8 := header_rejects _ _ _

/-! ### ESF-MEAS -/

theorem numMeas_eq (x : BitVec 16) : ((x >>> 11) &&& 0x1F).toNat = x.toNat / 2 ^ 11 := by
  have h := x.isLt
  rw [BitVec.toNat_and, BitVec.toNat_ushiftRight, Nat.shiftRight_eq_div_pow]
  show x.toNat / 2 ^ 11 &&& (2 ^ 5 - 1) = _
  rw [Nat.and_two_pow_sub_one_eq_mod]
  apply Nat.mod_eq_of_lt
  omega

theorem hasCalib_eq (x : BitVec 16) : (x &&& 0x8 != 0) = x.getLsbD 3 := by
  have h : x &&& 0x8#16 = if x.getLsbD 3 then 0x8#16 else 0#16 := by
    apply BitVec.eq_of_getLsbD_eq
    intro i hi
    rw [BitVec.getLsbD_and]
    have h8 : ∀ i : Nat, i < 16 → (0x8#16).getLsbD i = decide (i = 3) := by decide
    rw [h8 i hi]
    by_cases h3 : i = 3
    · subst h3
      cases x.getLsbD 3 <;> decide
    · split
      · rw [h8 i hi]; simp [h3]
      · simp [h3]
  show (x &&& 0x8#16 != 0#16) = _
  rw [h]
  cases x.getLsbD 3 <;> decide

def preEsfMeas (m : EsfMeas) : Buf :=
  put 1 m.class_id ++ put 1 m.msg_id ++ put 2 m.length ++ put 4 m.time_tag ++ put 2 m.flags ++ put 2 m.id

def calib (c : Bool) (t : Option (BitVec 32)) : Buf := if c then put 4 (t.getD 0) else []

theorem asEsfMeas (m : EsfMeas) (rest : Buf) : encEsfMeas m ++ rest =
    preEsfMeas m ++ (putN (m.flags.toNat / 2 ^ 11) 4 m.data ++ (calib (m.flags.getLsbD 3) m.calib_tag ++ rest)) := by
  unfold encEsfMeas preEsfMeas calib
  rw [numMeas_eq, hasCalib_eq]
  simp only [List.append_assoc]

theorem calib_rt (c : Bool) (t : Option (BitVec 32)) (h : t.isSome = c) (r : Buf) : decCalib c (calib c t ++ r) = .ok (t, r) := by
  unfold decCalib calib
  cases t with
  | none => simp at h; subst h; rfl
  | some t =>
    simp at h; subst h
    exact bind_ok (get_put (by decide) t r)

theorem calib_inv (c : Bool) (t : Option (BitVec 32)) (b r : Buf) (h : decCalib c b = .ok (t, r)) :
    t.isSome = c ∧ b = calib c t ++ r := by
  unfold decCalib at h
  cases c with
  | false =>
    obtain ⟨rfl, rfl⟩ := pure_inv h
    exact ⟨rfl, rfl⟩
  | true =>
    obtain ⟨x, b', e, h'⟩ := get_bind_inv (by decide) h
    obtain ⟨rfl, rfl⟩ := pure_inv h'
    exact ⟨rfl, e⟩

theorem short_calib (c : Bool) : Short (decCalib c) := by
  unfold decCalib
  cases c
  · exact short_pure _
  · exact short_bind (short_get _ _) fun _ => short_pure _

theorem rtEsfMeas : RoundTrip decEsfMeas encEsfMeas wfEsfMeas := by
  intro m rest h
  obtain ⟨h1, h2, h4, h5⟩ := h
  rw [asEsfMeas]
  unfold decEsfMeas preEsfMeas
  simp only [numMeas_eq, hasCalib_eq]
  rtrip h1 h2
  rw [bind_ok (calib_rt _ _ h5 _), ← h1, ← h2]; rfl

theorem invEsfMeas (b : Buf) (m : EsfMeas) (rest : Buf) (h : decEsfMeas b = .ok (m, rest)) :
    wfEsfMeas m ∧ b = encEsfMeas m ++ rest := by
  unfold decEsfMeas at h
  simp only [numMeas_eq, hasCalib_eq] at h
  undoHead
  repeat undoGet
  obtain ⟨_, _, hl, e, h'⟩ := rep_bind_inv (by decide) h; rw [e]; clear e h; rename' h' => h
  obtain ⟨t, b', h3, h'⟩ := bind_inv h; clear h
  obtain ⟨e1, e2⟩ := calib_inv _ _ _ _ h3
  obtain ⟨rfl, rfl⟩ := pure_inv h'
  refine ⟨⟨h1, h2, hl, e1⟩, ?_⟩
  rw [asEsfMeas, e2]
  unfold preEsfMeas
  simp only [List.append_assoc]

theorem flEsfMeas : Follows decEsfMeas 0x10 0x02 (·.length) wfEsfMeas (fun m => esfMeas m ++ blocks 8 4 esfMeasBlock m.data)
    (fun m => 8 + 4 * m.data.length + if m.calib_tag.isSome then 4 else 0) := by
  intro b m rest h
  obtain ⟨hw, e⟩ := invEsfMeas _ _ _ h
  have hp : (preEsfMeas m).length = 12 := by
    unfold preEsfMeas
    simp only [List.length_append, length_put, length_putN]
  rw [e]
  refine ⟨hw, ⟨encEsfMeas m, rfl, ?_⟩, ?_⟩
  · have := asEsfMeas m []
    rw [List.append_nil, List.append_nil] at this
    rw [this, List.length_append, List.length_append, length_putN, hp, ← hw.2.2.1, ← hw.2.2.2]
    show _ = 4 + (8 + 4 * _ + if _ then 4 else 0)
    unfold calib
    split
    · rw [length_put]; omega
    · rw [List.length_nil]; omega
  · rw [asEsfMeas, putN_eq _ _ _ hw.2.2.1.symm]
    have hb := leAt_blocks (preEsfMeas m) m.data (put 4) 4 8 (calib (m.flags.getLsbD 3) m.calib_tag ++ rest) (fun _ => length_put _) hp esfMeasBlock tabDatum
    have hc : ∀ t, m.calib_tag = some t →
        leAt (preEsfMeas m ++ (m.data.flatMap (put 4) ++ (calib (m.flags.getLsbD 3) m.calib_tag ++ rest))) (4 + (8 + 4 * m.data.length)) 4 = t.toNat := by
      intro t ht
      rw [leAt_append _ _ _ _ _ hp (by omega), leAt_append _ _ _ _ _ (length_flatMap_const _ _ 4 fun _ => length_put _) (by omega),
        show 4 + (8 + 4 * m.data.length) - 12 - 4 * m.data.length = 0 by omega, ← hw.2.2.2, ht]
      exact leAt_here (by decide) t rest
    simp only [esfMeas, List.mem_append, or_imp, forall_and]
    refine and_assoc.1 (and_assoc.1 (and_assoc.1 ⟨?_, hb⟩))
    refine ⟨?_, ?_, ?_⟩
    · unfold preEsfMeas
      simp (config := {decide := true}) only [List.append_assoc, leAt_here, leAt_skip, hw.1, hw.2.1, Nat.reduceSub, and_self]
    · unfold preEsfMeas
      simp (config := {decide := true}) only [List.append_assoc, List.forall_mem_cons, and_self, leAt_here, leAt_skip, hw.1, hw.2.1, Nat.reduceSub, Nat.reduceMul, Nat.reduceAdd, Nat.reduceLeDiff, true_and, and_true,
        List.not_mem_nil, false_imp_iff, implies_true]
    · cases ht : m.calib_tag with
      | none => simp
      | some t =>
        rw [← ht]
        intro f hf
        simp only [ht] at hf
        rw [List.mem_singleton.1 hf]
        exact hc t ht

theorem errEsfMeas (b e) (h : decEsfMeas b = .error e) : e = -2 ∨ ∃ x y r, b = x :: y :: r ∧ (x ≠ 0x10#8 ∨ y ≠ 0x02#8) := by
  refine header_err 0x10#8 0x02#8 _ ?_ b e h
  intro c i
  repeat' first | exact short_calib _ | shorts1

theorem rejEsfMeas : Rejects decEsfMeas 0x10#8 0x02#8 := header_rejects _ _ _

end Verif.Ubx
