import Verif.Lemmas.ObsCells
/-
C72: one MSM message from the sender's buffer to the receiver's observations.
-/
namespace Verif.ObsStream
open Verif.ObsStream.Spec Verif.SbpRtcm.Spec Verif.Msm.Spec
open Verif.Msm hiding Inv
open Verif.SbpRtcm
open Verif.Misc (blank)
open Verif.RtcmSbp (SbpTime SbpObs crint msmCells hdrOf sidFromMsm packMsm gloFcn)
open Verif.RtcmSbp.Spec (positions)

section
variable {env : Env} {e : Epoch} {c : Cons} {h1 h2 : Hdr} {b : Build} {mult : Nat}

theorem good_build (hok : ConsOk env e.cfg c e.obs h1 h2 b) (hobs : ∀ o ∈ obsFor env c e.obs, ObsOk (freqOf env e.cfg c o) o) :
    (∀ s ∈ b.sats, GoodSat s) ∧ ∀ s ∈ b.sigs, WFSig s := by
  refine fillAll_good _ _ _ hok.inMasks hobs ?_ ?_ hok.fill
  · intro s hs; rw [List.eq_of_mem_replicate hs]; exact zero_good
  · intro s hs; rw [List.eq_of_mem_replicate hs]; exact zero_sig

theorem nSats_eq (hok : ConsOk env e.cfg c e.obs h1 h2 b) : nSats (finish e c mult b).header = numSats h2 := by
  show b.hdr.sat.count true = _
  rw [hok.hdr]
  exact (countMask_full hok.inv.sat).symm
theorem nSigs_eq (hok : ConsOk env e.cfg c e.obs h1 h2 b) : nSigs (finish e c mult b).header = numSigs h2 := by
  show b.hdr.sig.count true = _
  rw [hok.hdr]
  exact (countMask_full hok.inv.sig).symm

theorem msg_wf (hok : ConsOk env e.cfg c e.obs h1 h2 b) (hty : e.cfg.msmType = .msm4 ∨ e.cfg.msmType = .msm5)
    (hobs : ∀ o ∈ obsFor env c e.obs, ObsOk (freqOf env e.cfg c o) o) (htow : msmTow e.cfg c e.t.tow < 604800000) (hm : mult < 2) :
    WFMsg e.cfg.msmType c (finish e c mult b) := by
  obtain ⟨g1, g2⟩ := good_build hok hobs
  have n1 := nSats_eq (mult := mult) hok
  have n2 := nSigs_eq (mult := mult) hok
  have hprod := hok.inv.prod
  have hcl := C17_number_classified c e.cfg.msmType (by rcases hty with h | h <;> rw [h] <;> decide)
  have hcm : (finish e c mult b).header.cellMask.length = numSats h2 * numSigs h2 := by
    show (b.hdr.cell.take _).length = _
    rw [hok.hdr, List.length_take, hok.inv.cell]; omega
  refine ⟨hty, ⟨?_, hcl.2, hcl.1, Nat.mod_lt _ (by norm_num), ?_, hm, ?_, ?_, ?_, ?_, ?_, ?_, ?_, ?_, ?_, ?_, ?_⟩, ?_, ?_, ?_, ?_⟩
  · show toMsmMsgNum (some c) e.cfg.msmType < 2 ^ 12
    rcases hty with h | h <;> rw [h] <;> cases c <;> decide
  · show msmTow e.cfg c e.t.tow ≤ 604799999
    omega
  · show 0 < 2 ^ 3; norm_num
  · show 0 < 2 ^ 7; norm_num
  · show 1 < 2 ^ 2; norm_num
  · show 0 < 2 ^ 2; norm_num
  · show 0 < 2; norm_num
  · show 0 < 2 ^ 3; norm_num
  · show b.hdr.sat.length = 64; rw [hok.hdr]; exact hok.inv.sat
  · show b.hdr.sig.length = 32; rw [hok.hdr]; exact hok.inv.sig
  · rw [hcm, n1, n2]
  · rw [n1]; exact hok.numSats
  · rw [n1, n2]; exact hprod
  · rw [n1]
    show (b.sats.take (numSats b.hdr)).length = _
    rw [hok.hdr, List.length_take, hok.nsats]; have := hok.numSats; omega
  · show (b.sigs.take _).length = (finish e c mult b).header.cellMask.count true
    have := List.count_le_length (a := true) (l := (finish e c mult b).header.cellMask)
    rw [List.length_take, hok.nsigs]
    show min ((finish e c mult b).header.cellMask.count true) 64 = _
    rw [hcm] at this
    omega
  · intro s hs; exact (g1 s (List.mem_of_mem_take hs)).wf
  · intro s hs; exact g2 s (List.mem_of_mem_take hs)

/-- what a message says about observation `o` -/
structure CellOk (env : Env) (e : Epoch) (c : Cons) (m : Msg) (k : Nat) (o : SbpObs) : Prop where
  inMask : m.header.cellMask[k]? = some true
  pair : signalToCode (hdrOf c m.header) (k % nSigs m.header) = some o.code ∧ satToPrn env.prn (hdrOf c m.header) (k / nSigs m.header) = some o.sat
  row : k / nSigs m.header < nSats m.header
  sig : SigOf (freqFor env e.cfg c o) o (m.sig ((m.header.cellMask.take k).count true))
  fcn : (m.sat (k / nSigs m.header)).gloFcn = channel e.cfg c o.sat
  good : GoodSat (m.sat (k / nSigs m.header))
  range : ∃ o' ∈ obsFor env c e.obs, o'.sat = o.sat ∧ |(m.sat (k / nSigs m.header)).roughRangeMs - range o' * 1000 / 299792458| ≤ 1 / 2048 + 1 / 2 ^ 40
  rate : ∀ hz, HasRate env e.cfg c o hz → ∃ o' ∈ obsFor env c e.obs, o'.sat = o.sat ∧ ∃ hz', HasRate env e.cfg c o' hz' ∧
    |(m.sat (k / nSigs m.header)).roughRate - rate hz' o'| ≤ 1 / 2 + 1 / 2 ^ 36

theorem cell_ok (ht : env.prn.WF) (hok : ConsOk env e.cfg c e.obs h1 h2 b)
    (hobs : ∀ o ∈ obsFor env c e.obs, ObsOk (freqOf env e.cfg c o) o) (o : SbpObs) (ho : o ∈ obsFor env c e.obs) :
    CellOk env e c (finish e c mult b) (cellId env.prn h2 (o.code, o.sat)) o := by
  have hh := hok.hdr
  have n2 := nSigs_eq (mult := mult) hok
  have n1 := nSats_eq (mult := mult) hok
  have hin := hok.inMasks o ho
  have hlt : cellId env.prn h2 (o.code, o.sat) < numSats h2 * numSigs h2 := cellId_lt env.prn ht h2 _ hin
  have hcell : h2.cell[cellId env.prn h2 (o.code, o.sat)]? = some true := (hok.cells _).mpr ⟨_, List.mem_map.mpr ⟨o, ho, rfl⟩, rfl⟩
  obtain ⟨s, hs⟩ := hok.sigs o ho
  obtain ⟨o', ho', esat, s', hs'⟩ := hok.sats o ho
  have l1 := sigIdx_lt env.prn h2 _ hin
  have hrow := row_lt ht hin
  simp only at hrow
  have ed : cellId env.prn h2 (o.code, o.sat) / numSigs h2 = prnToSatIndex env.prn h2 o.sat := by
    unfold cellId
    rw [Nat.mul_comm, Nat.mul_add_div (by omega), Nat.div_eq_of_lt l1]; simp
  have em : cellId env.prn h2 (o.code, o.sat) % numSigs h2 = codeToSignalIndex h2 o.code := by
    unfold cellId
    rw [Nat.mul_comm, Nat.mul_add_mod]; exact Nat.mod_eq_of_lt l1
  have hsatGet : b.sats[prnToSatIndex env.prn h2 o.sat]? = some (satData c e.cfg (freqOf env e.cfg c o') o' s') := hs'
  have esatm : (finish e c mult b).sat (prnToSatIndex env.prn h2 o.sat) = satData c e.cfg (freqOf env e.cfg c o') o' s' := by
    unfold Msg.sat
    rw [List.getD_eq_getElem?_getD]
    show ((b.sats.take (numSats b.hdr))[prnToSatIndex env.prn h2 o.sat]?).getD _ = _
    rw [hh, List.getElem?_take, if_pos hrow, hs']; rfl
  have hv' := (hobs o' ho').codeValid
  refine ⟨?_, ?_, ?_, ?_, ?_, ?_, ?_, ?_⟩
  · show (b.hdr.cell.take _)[_]? = _
    rw [hh, List.getElem?_take, if_pos hlt]; exact hcell
  · rw [n2, ed, em]
    have e1 : signalToCode (hdrOf c (finish e c mult b).header) = signalToCode h2 := by
      funext i
      unfold signalToCode
      simp only [hdrOf, finish, hh, hok.cons]
    have e2 : satToPrn env.prn (hdrOf c (finish e c mult b).header) = satToPrn env.prn h2 := by
      funext i
      unfold satToPrn
      simp only [hdrOf, finish, hh, hok.cons]
    rw [e1, e2]
    refine ⟨signalToCode_in hin, ?_⟩
    have := pairOfCell_cellId env.prn ht h2 _ hin
    unfold pairOfCell at this
    rw [ed, em, signalToCode_in hin] at this
    simp only [Option.bind_eq_bind, Option.bind_some] at this
    obtain ⟨p, hp, hpp⟩ := Option.bind_eq_some_iff.1 this
    simp only [Option.pure_def, Option.some.injEq, Prod.mk.injEq, true_and] at hpp
    rw [hp, hpp]
  · rw [n2, ed, n1]; exact hrow
  · have : (finish e c mult b).sig (((finish e c mult b).header.cellMask.take (cellId env.prn h2 (o.code, o.sat))).count true) =
        sigData (freqOf env e.cfg c o) o s := by
      unfold Msg.sig
      rw [List.getD_eq_getElem?_getD]
      simp only [finish, hh]
      rw [List.take_take, Nat.min_eq_left (by omega)]
      have hr : (h2.cell.take (cellId env.prn h2 (o.code, o.sat))).count true = rank env h2 o := rfl
      rw [hr, List.getElem?_take, if_pos]
      · rw [hs]; rfl
      · exact countMask_lt hlt hcell
    rw [this]
    exact sigOf_sigData _ o s
  · rw [n2, ed, esatm]
    simp only [satData, channel, esat]
  · rw [n2, ed, esatm]
    exact (good_build hok hobs).1 _ (List.mem_of_getElem? hsatGet)
  · rw [n2, ed, esatm]
    refine ⟨o', ho', esat, ?_⟩
    simp only [satData, hv', if_true]
    have := crint_near (prMs o' * 1024)
    have hms := prMs_ms (hobs o' ho')
    rw [abs_le] at this hms ⊢
    constructor <;> linarith [this.1, this.2, hms.1, hms.2]
  · intro hz hr
    rw [n2, ed, esatm]
    have hprod := hok.inv.prod
    have := fillAll_rate hok.cons (obsFor env c e.obs) [] _ b rfl (fun o1 ho1 => by
      have hin1 := hok.inMasks o1 ho1
      have := cellId_lt env.prn ht h2 _ hin1
      exact ⟨hin1, (hok.cells _).mpr ⟨_, List.mem_map.mpr ⟨o1, ho1, rfl⟩, rfl⟩, by omega⟩) (by intro o h; simp at h) hok.fill
    obtain ⟨o1, ho1, hz', a2, a3, a4⟩ := this o (by simpa using ho) hz hr _ hsatGet
    rw [List.nil_append] at ho1
    have hin1 := hok.inMasks o1 ho1
    have x1 := countMask_inj hin1.2.2.1 hin.2.2.1 a3
    have x2 : o1.sat = o.sat := C18_prn_injective env.prn h2.cons _ _ hin1.2.1 hin.2.1 x1
    refine ⟨o1, ho1, x2, hz', a2, ?_⟩
    rw [a4]
    have y1 := crint_near (rateMs hz' o1)
    have y2 := rateMs_rate (hobs o1 ho1) a2.1 a2.2
    rw [abs_le] at y1 y2 ⊢
    constructor <;> linarith [y1.1, y1.2, y2.1, y2.2]

end

/-- what the receiver makes of the cell `cell` holding observation `o` -/
def CellBack (env' : RtcmSbp.Env) (ty : MsmType) (known : Bool) (c : Cons) (m' : Msg) (table : List Nat) (o : SbpObs) (cell : Nat × Nat × Nat) : Prop :=
  (signalToCode (hdrOf c m'.header) cell.2.1 = some o.code ∧ satToPrn env'.prn (hdrOf c m'.header) cell.1 = some o.sat) ∧
  o.code ≠ .invalid ∧ o.sat ≠ 0 ∧ (m'.sig cell.2.2).vPr = true ∧
  ∀ s : RtcmSbp.State, s.fcn = table → Back ty known o (packMsm env' o.sat o.code (gloFcn c o.sat (m'.sat cell.1).gloFcn s) (m'.sig cell.2.2))

theorem received (env : Env) (env' : RtcmSbp.Env) (ht : env.prn.WF) (hm : Match env env') (table : List Nat) (e : Epoch)
    (he : EpochOk env table e) {c : Cons} {h1 h2 : Hdr} {b : Build} {mult : Nat} (hok : ConsOk env e.cfg c e.obs h1 h2 b)
    (htow : msmTow e.cfg c e.t.tow < 604800000) (hmu : mult < 2) :
    ∃ m', (decodeMsm e.cfg.msmType).run (payloadOf (encodeMsm e.cfg.msmType (finish e c mult b) blank)) = .ok m' ∧
      m'.header = sameHeader c (finish e c mult b).header ∧
      ∃ L : List SbpObs, L.Perm (obsFor env c e.obs) ∧
        List.Forall₂ (fun o cell => CellBack env' e.cfg.msmType (known env e o) c m' table o cell) L (msmCells m'.header) := by
  have hmem : ∀ o ∈ obsFor env c e.obs, o ∈ e.obs ∧ env.consOf o.code = some c := by
    intro o ho; simpa [obsFor] using ho
  have hobs : ∀ o ∈ obsFor env c e.obs, ObsOk (freqOf env e.cfg c o) o := fun o ho => he.obs o (hmem o ho).1 c (hmem o ho).2
  have hwf := msg_wf (mult := mult) hok he.type hobs htow hmu
  have hb : 678 ≤ blank.length := by unfold blank; rw [List.length_replicate]; norm_num
  refine ⟨image e.cfg.msmType c (finish e c mult b), run_msm hwf.type hwf.header blank hb, rfl, ?_⟩
  obtain ⟨m', r1, -, -, r2, r3, r4⟩ := C13_contents_roundtrip e.cfg.msmType c _ hwf blank hb
  rw [run_msm hwf.type hwf.header blank hb] at r1
  obtain rfl : image e.cfg.msmType c (finish e c mult b) = m' := by injection r1
  have hnd : (obsFor env c e.obs).Nodup := List.Nodup.of_map _ ((List.Sublist.map _ List.filter_sublist).nodup he.clean.distinct)
  have hpd : ((obsFor env c e.obs).map fun o => (o.code, o.sat)).Nodup := (List.Sublist.map _ List.filter_sublist).nodup he.clean.distinct
  have hin : ∀ o ∈ obsFor env c e.obs, ∀ o' ∈ obsFor env c e.obs,
      cellId env.prn h2 (o.code, o.sat) = cellId env.prn h2 (o'.code, o'.sat) → o = o' := by
    intro o ho o' ho' h
    exact List.inj_on_of_nodup_map hpd ho ho' (cellId_inj env.prn h2 _ _ (hok.inMasks o ho) (hok.inMasks o' ho') h)
  have hcells : ∀ k : Nat, (finish e c mult b).header.cellMask[k]? = some true ↔
      ∃ o ∈ obsFor env c e.obs, cellId env.prn h2 (o.code, o.sat) = k := by
    intro k
    constructor
    · intro h
      have : b.hdr.cell[k]? = some true := by
        have h' : (b.hdr.cell.take (numSats b.hdr * numSigs b.hdr))[k]? = some true := h
        rw [List.getElem?_take] at h'
        split at h'
        · exact h'
        · cases h'
      rw [hok.hdr] at this
      obtain ⟨p, hp, h'⟩ := (hok.cells k).1 this
      obtain ⟨o, ho, rfl⟩ := List.mem_map.1 hp
      exact ⟨o, ho, h'⟩
    · rintro ⟨o, ho, rfl⟩
      exact (cell_ok ht hok hobs o ho).inMask
  obtain ⟨ob, p1, p2⟩ := perm_cells (id := fun o => cellId env.prn h2 (o.code, o.sat)) hnd hin hcells
  refine ⟨_, p1, ?_⟩
  have hlen : (sameHeader c (finish e c mult b).header).cellMask.length = nSats (finish e c mult b).header * nSigs (finish e c mult b).header :=
    hwf.header.cellMask
  rw [show (image e.cfg.msmType c (finish e c mult b)).header = sameHeader c (finish e c mult b).header from rfl, msmCells_eq hlen]
  show List.Forall₂ _ ((positions (finish e c mult b).header.cellMask).map ob) ((positions (finish e c mult b).header.cellMask).zipIdx.map _)
  apply forall₂_zipIdx
  intro i k hk
  obtain ⟨k1, k2⟩ := positions_get _ _ _ hk
  obtain ⟨hob, hid⟩ := p2 k k1
  have ck := cell_ok (mult := mult) ht hok hobs (ob k) hob
  rw [hid] at ck
  obtain ⟨om, oc⟩ := hmem _ hob
  have ho := hobs _ hob
  have hrow := ck.row
  have so := r3 _ hrow
  have sg := r4 k k1
  have hcm : (image e.cfg.msmType c (finish e c mult b)).header.cellMask = (finish e c mult b).header.cellMask := r2
  rw [hcm, k2] at sg
  have ckc := ck.sig
  rw [k2] at ckc
  -- rough range and rate come back unchanged
  obtain ⟨kr, hkr⟩ := ck.good.grid
  obtain ⟨kr', hkr'⟩ := so.grid
  have er : ((image e.cfg.msmType c (finish e c mult b)).sat (k / nSigs (finish e c mult b).header)).roughRangeMs =
      ((finish e c mult b).sat (k / nSigs (finish e c mult b).header)).roughRangeMs := grid_eq hkr' hkr so.range
  obtain ⟨o', ho', es, hr⟩ := ck.range
  obtain ⟨om', oc'⟩ := hmem _ ho'
  obtain ⟨cc, hcc, -, hsup, hprn⟩ := he.clean.known _ om
  rw [oc] at hcc
  obtain rfl := Option.some.inj hcc
  -- the channel
  have hfreq : ∀ s : RtcmSbp.State, s.fcn = table →
      env'.freq (ob k).code (gloFcn c (ob k).sat ((image e.cfg.msmType c (finish e c mult b)).sat (k / nSigs (finish e c mult b).header)).gloFcn s) =
        freqFor env e.cfg c (ob k) := by
    intro s hs
    rw [hm.freq, so.fcn, ck.fcn]
    unfold gloFcn
    by_cases hg : c = .glo
    · subst hg
      rw [if_neg (by simp), hs]
      have := he.channels _ om oc
      unfold chanBack at this
      rcases he.type with h | h
      · rw [h] at this ⊢
        have h45 : ¬ (MsmType.msm4 = MsmType.msm5) := by decide
        simp only [if_neg h45, if_true] at this ⊢
        exact this
      · rw [h] at this ⊢
        simp only [if_true] at this ⊢
        rw [if_neg (by have := Nat.mod_lt (channel e.cfg .glo (ob k).sat) (by norm_num : 16 > 0); simp only [RtcmSbp.fcnUnknown]; omega)]
        exact this
    · rw [if_pos hg]
      unfold freqFor channel
      rw [if_neg hg]
  have hback := fun s hs => obs_back he.type ho ckc sg (by
      rw [er]
      have := he.ranges _ om _ om' es.symm (by rw [oc, oc'])
      rw [abs_le] at this hr ⊢
      have q1 : (range (ob k) - range o') * 1000 / 299792458 ≤ 140 * 1000 / 299792458 := by
        apply div_le_div_of_nonneg_right _ (by norm_num); linarith [this.2]
      have q2 : -(140 * 1000 / 299792458) ≤ (range (ob k) - range o') * 1000 / 299792458 := by
        rw [← neg_div]; apply div_le_div_of_nonneg_right _ (by norm_num); linarith [this.1]
      constructor <;> linarith [hr.1, hr.2]) (by
      intro h5 hz hf h3
      obtain ⟨k5, hk5⟩ := ck.good.whole
      rw [so.rateExact h5 k5 hk5, ← hk5]
      obtain ⟨o1, ho1, es1, hz', hr1, hd⟩ := ck.rate hz ⟨hf, h3⟩
      obtain ⟨om1, oc1⟩ := hmem _ ho1
      have := he.rates _ om _ om1 es1.symm c oc oc1 hz hf hz' hr1.1 h3 hr1.2
      rw [abs_le] at this hd ⊢
      constructor <;> linarith [this.1, this.2, hd.1, hd.2]) env' hm.sigBias hm.gloBias _ (hfreq s hs)
  refine ⟨?_, hsup.1, ?_, ?_, ?_⟩
  · rw [hm.prn]; exact ck.pair
  · have := ht.pos c; have := hprn.1; omega
  · exact (hback { RtcmSbp.State.init with fcn := table } rfl).1
  · intro s hs
    have := (hback s hs).2
    have e5 : known env e (ob k) = (freqFor env e.cfg c (ob k)).isSome := by unfold known; rw [oc]
    rw [e5]
    exact this

end Verif.ObsStream
