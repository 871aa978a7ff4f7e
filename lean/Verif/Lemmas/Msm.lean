import Verif.Model.Msm
import Verif.Lemmas.Codec
import Verif.Lemmas.MsmUtils
namespace Verif.Msm
open Dec

/-! ### cell order -/

theorem range_filter_getElem? (f : Nat → Bool) {p n : Nat} (hp : p < n) (hf : f p = true) :
    ((List.range n).filter f)[((List.range p).filter f).length]? = some p := by
  obtain ⟨b, rfl⟩ : ∃ b, n = p + (1 + b) := ⟨n - p - 1, by omega⟩
  rw [List.range_add, List.filter_append, List.getElem?_append_right (Nat.le_refl _), Nat.sub_self,
    List.range_add, List.map_append, List.filter_append]
  simp [List.range_succ, hf]

theorem row_inner (ns ng : Nat) (g : Nat → Bool) (l : List Nat) (h : ∀ x ∈ l, x < ng) :
    (l.flatMap fun sig => if g (ns * ng + sig) then [ns] else []) = ((l.map (ns * ng + ·)).filter g).map (· / ng) := by
  induction l with
  | nil => rfl
  | cons x l ih =>
    have hx := h x (by simp)
    have e : (ns * ng + x) / ng = ns := by
      rw [Nat.mul_comm, Nat.mul_add_div (by omega), Nat.div_eq_of_lt hx, Nat.add_zero]
    rw [List.flatMap_cons, ih fun y hy => h y (by simp [hy]), List.map_cons, List.filter_cons]
    split <;> simp [e]

theorem cellRows_eq (ns ng : Nat) (mask : List Bool) :
    cellRows ns ng mask = ((List.range (ns * ng)).filter (mask.getD · false)).map (· / ng) := by
  induction ns with
  | zero => simp [cellRows]
  | succ ns ih =>
    have e : cellRows (ns + 1) ng mask = cellRows ns ng mask ++
        (List.range ng).flatMap (fun sig => if mask.getD (ns * ng + sig) false then [ns] else []) := by
      simp only [cellRows, List.range_succ, List.flatMap_append, List.flatMap_cons, List.flatMap_nil, List.append_nil]
    rw [e, ih, row_inner ns ng (mask.getD · false) _ (by simp), Nat.succ_mul, List.range_add, List.filter_append, List.map_append]

theorem count_take_eq (mask : List Bool) (p : Nat) (hp : p ≤ mask.length) :
    (mask.take p).count true = ((List.range p).filter (mask.getD · false)).length := by
  induction p with
  | zero => simp
  | succ p ih =>
    rw [take_count_succ (by omega), ih (by omega), List.range_succ, List.filter_append, List.length_append]
    have : mask.getD p false = mask[p] := by
      rw [List.getD_eq_getElem?_getD, List.getElem?_eq_getElem (by omega)]; rfl
    simp only [List.filter_cons, this]
    cases mask[p] <;> simp

/-- the row of the cell at position `p` of the mask is `p / ng` -/
theorem cellRows_at {ns ng : Nat} {mask : List Bool} (hl : mask.length = ns * ng) {p : Nat} (hp : mask[p]? = some true) :
    (cellRows ns ng mask).getD ((mask.take p).count true) 0 = p / ng := by
  have hlt : p < mask.length := by
    refine Nat.lt_of_not_le fun hc => ?_
    rw [List.getElem?_eq_none hc] at hp; simp at hp
  rw [cellRows_eq, count_take_eq _ _ (by omega), List.getD_eq_getElem?_getD, List.getElem?_map,
    range_filter_getElem? (mask.getD · false) (by omega) (by rw [List.getD_eq_getElem?_getD, hp]; rfl)]
  rfl

theorem cellRows_lt {ns ng : Nat} {mask : List Bool} (i : Nat) (hns : 0 < ns) : (cellRows ns ng mask).getD i 0 < ns := by
  rw [cellRows_eq, List.getD_eq_getElem?_getD]
  cases h : (((List.range (ns * ng)).filter (mask.getD · false)).map (· / ng))[i]? with
  | none => simpa using hns
  | some r =>
    have := List.mem_of_getElem? h
    simp at this
    obtain ⟨x, ⟨hx, _⟩, rfl⟩ := this
    simp
    exact Nat.div_lt_of_lt_mul (by rw [Nat.mul_comm]; exact hx)

/-! ### reading -/

theorem wbits_map {γ : Type} (l : List γ) (f : γ → Wr) : wbits (l.map f) = l.flatMap fun x => (f x).bits := by
  simp [wbits, List.flatMap_map]
theorem wlen_map {γ : Type} (l : List γ) (f : γ → Wr) (n : Nat) (h : ∀ x, (f x).len = n) : wlen (l.map f) = l.length * n := by
  induction l with
  | nil => simp
  | cons x l ih => simp [ih, h, Nat.succ_mul]; omega

/-- value read back from an `n`-bit signed field -/
def wrapS (n : Nat) (i : Int) : Int := toSigned n (u32 i % 2 ^ n)

theorem reads_listU (n k : Nat) (f : Nat → Nat) :
    Reads (many (getU n) k) (wbits ((List.range k).map fun i => Wr.u n (f i))) ((List.range k).map fun i => f i % 2 ^ n) := by
  have := Reads.many (d := getU n) (fun i => toBits n (f i)) (fun i => f i % 2 ^ n) (List.range k) (fun i _ => Reads.getU' n (f i))
  rw [List.length_range] at this
  rw [wbits_map]; exact this
theorem reads_listS (n k : Nat) (f : Nat → Int) :
    Reads (many (getS n) k) (wbits ((List.range k).map fun i => Wr.s n (f i))) ((List.range k).map fun i => wrapS n (f i)) := by
  have := Reads.many (d := getS n) (fun i => toBits n (u32 (f i))) (fun i => wrapS n (f i)) (List.range k) (fun i _ => Reads.getS rfl)
  rw [List.length_range] at this
  rw [wbits_map]; exact this
theorem reads_bool (b : Bool) : Reads getBool (toBits 1 (if b then 1 else 0)) b := by
  have := Reads.bind_nil (f := fun v : Nat => (pure (decide (v ≠ 0)) : Dec Bool)) (Reads.getU' 1 (if b then 1 else 0)) (Reads.pure _)
  cases b <;> exact this
theorem reads_listB (k : Nat) (f : Nat → Bool) :
    Reads (many getBool k) (wbits ((List.range k).map fun i => Wr.u 1 (if f i then 1 else 0))) ((List.range k).map f) := by
  have := Reads.many (d := getBool) (fun i => toBits 1 (if f i then 1 else 0)) f (List.range k) (fun i _ => reads_bool (f i))
  rw [List.length_range] at this
  rw [wbits_map]; exact this
theorem reads_mask (l : List Bool) {k : Nat} (h : l.length = k) : Reads (many getBool k) (wbits (wrMask l)) l := by
  have := Reads.many (d := getBool) (fun b => toBits 1 (if b then 1 else 0)) id l (fun i _ => reads_bool i)
  rw [h] at this
  unfold wrMask
  rw [wbits_map]; simpa using this

/-- a satellite record's raw fields after transmission -/
def rawSat (ty : MsmType) (ns : Nat) (f : Nat → Sat) : RawSat where
  ints := (List.range ns).map fun i => encInt (f i) % 2 ^ 8
  infos := if ty = .msm5 then (List.range ns).map fun i => (f i).gloFcn % 2 ^ 4 else List.replicate ns 0
  mods := (List.range ns).map fun i => encMod (f i) % 2 ^ 10
  rates := if ty = .msm5 then (List.range ns).map fun i => wrapS 14 (encRate (f i)) else List.replicate ns 0

theorem reads_satData {ty : MsmType} (ht : ty = .msm4 ∨ ty = .msm5) (ns : Nat) (f : Nat → Sat) :
    Reads (decodeSatData ty ns) (wbits (wrSatData ty ((List.range ns).map f))) (rawSat ty ns f) := by
  unfold decodeSatData wrSatData rawSat
  rcases ht with rfl | rfl
  · simp only [MsmType.hasRates, wbits_append, List.map_map, Function.comp_def, reduceCtorEq, if_false, List.append_nil]
    refine Reads.bind (reads_listU 8 ns _) ?_
    refine Reads.nil_bind (Reads.pure _) ?_
    refine Reads.bind_nil (reads_listU 10 ns _) ?_
    refine Reads.nil_bind (Reads.pure _) ?_
    exact Reads.pure _
  · simp only [MsmType.hasRates, wbits_append, List.map_map, Function.comp_def, if_true, List.append_assoc]
    refine Reads.bind (reads_listU 8 ns _) ?_
    refine Reads.bind (reads_listU 4 ns _) ?_
    refine Reads.bind (reads_listU 10 ns _) ?_
    refine Reads.bind_nil (reads_listS 14 ns _) ?_
    exact Reads.pure _

/-- signal records' raw fields after transmission -/
def rawSig (ty : MsmType) (m : Msg) : RawSig :=
  let nc := m.header.cellMask.count true
  { prs := (List.range nc).map fun i => wrapS 15 (encPr (encRange (m.sat (m.row i))) (m.sig i))
    cps := (List.range nc).map fun i => wrapS 22 (encCp (encRange (m.sat (m.row i))) (m.sig i))
    locks := (List.range nc).map fun i => encLock (m.sig i) % 2 ^ 4
    hcas := (List.range nc).map fun i => (m.sig i).hca
    cnrs := (List.range nc).map fun i => encCnr (m.sig i) % 2 ^ 6
    dops := if ty = .msm5 then (List.range nc).map fun i => wrapS 15 (encDop (encRate (m.sat (m.row i))) (m.sig i))
      else List.replicate nc 0 }

theorem reads_sigData {ty : MsmType} (ht : ty = .msm4 ∨ ty = .msm5) (m : Msg) :
    Reads (decodeSigData ty (m.header.cellMask.count true)) (wbits (wrSigData ty m)) (rawSig ty m) := by
  unfold decodeSigData wrSigData rawSig
  rcases ht with rfl | rfl
  · simp only [MsmType.hasRates, MsmType.ext, wbits_append, reduceCtorEq, if_false, List.append_nil, List.append_assoc,
      Bool.false_eq_true]
    refine Reads.bind (reads_listS 15 _ _) ?_
    refine Reads.bind (reads_listS 22 _ _) ?_
    refine Reads.bind (reads_listU 4 _ _) ?_
    refine Reads.bind (reads_listB _ _) ?_
    refine Reads.bind_nil (reads_listU 6 _ _) ?_
    refine Reads.nil_bind (Reads.pure _) ?_
    exact Reads.pure _
  · simp only [MsmType.hasRates, MsmType.ext, wbits_append, if_true, if_false, List.append_assoc, Bool.false_eq_true]
    refine Reads.bind (reads_listS 15 _ _) ?_
    refine Reads.bind (reads_listS 22 _ _) ?_
    refine Reads.bind (reads_listU 4 _ _) ?_
    refine Reads.bind (reads_listB _ _) ?_
    refine Reads.bind (reads_listU 6 _ _) ?_
    refine Reads.bind_nil (reads_listS 15 _ _) ?_
    exact Reads.pure _

end Verif.Msm
