import Verif.Model.SbpConv
import Verif.Props.C66
import Verif.Props.C67
/-!
C70: the SBP-to-RTCM library `sbp_conv`.
-/
namespace Verif.Conv
open Verif.Misc Verif.Misc.Spec
open Verif.RtcmSbp (State Env)

variable {S : Type}

/-! ### specification -/

/-- which callback is meant for which message type -/
def table (c : Cbs S) : List (Ty × Cb S) :=
  [(.basePosEcef, c.basePosEcef), (.obs, c.obs), (.osr, c.osr), (.ssrOrbitClock, c.ssrOrbitClock), (.ssrPhaseBiases, c.ssrPhaseBiases),
   (.ssrCodeBiases, c.ssrCodeBiases), (.ssrGriddedA, c.ssrGriddedA), (.ssrGridDefA, c.ssrGridDefA), (.ssrStecA, c.ssrStecA),
   (.ephGps, c.ephGps), (.ephGlo, c.ephGlo), (.ephBds, c.ephBds), (.ephGal, c.ephGal), (.log, c.log)]
/-- the frames the callback of this message writes; a type without callback writes none -/
def framesFor (c : Cbs S) (s : S) (x : Call) : S × List Buf :=
  match (table c).lookup x.ty with
  | some cb => cb x.sender (x.rbuf.take (x.rbuf.length % 256)) s
  | none => (s, [])
/-- all bytes that the callbacks write in a history -/
def sentBytes (c : Cbs S) : S → List Call → Buf
  | _, [] => []
  | s, x :: xs => (framesFor c s x).2.flatten ++ sentBytes c (framesFor c s x).1 xs
/-- all bytes returned in a history -/
def returned (c : Cbs S) (s : S) (xs : List Call) : Buf := (run c (s, []) xs).2.flatten

/-- The caller fetches the bytes in time: at no call do the bytes written so far exceed those returned before by more than 2048. -/
def InTime (c : Cbs S) (s : S) (xs : List Call) : Prop :=
  ∀ pre x, pre ++ [x] <+: xs → (sentBytes c s (pre ++ [x])).length ≤ (returned c s pre).length + 2048

/-! ### proofs -/

def stAfter (c : Cbs S) (s : S) (xs : List Call) : S := xs.foldl (fun s x => (framesFor c s x).1) s

theorem dispatch_eq (c : Cbs S) (t : Ty) : dispatch c t = (table c).lookup t := by
  cases t <;> rfl

theorem conv_eq (c : Cbs S) (s : S × Buf) (x : Call) :
    conv c s x = (((framesFor c s.1 x).1, ((framesFor c s.1 x).2.foldl fifoWrite s.2).drop x.wlen),
      ((framesFor c s.1 x).2.foldl fifoWrite s.2).take x.wlen) := by
  unfold conv framesFor
  rw [← dispatch_eq]
  cases dispatch c x.ty <;> rfl

theorem sentBytes_append (c : Cbs S) (xs : List Call) : ∀ (s : S) (ys : List Call),
    sentBytes c s (xs ++ ys) = sentBytes c s xs ++ sentBytes c (stAfter c s xs) ys := by
  induction xs with
  | nil => intro s ys; rfl
  | cons x xs ih => intro s ys; simp only [List.cons_append, sentBytes, ih, List.append_assoc]; rfl

theorem run_append (c : Cbs S) (xs : List Call) : ∀ (s : S × Buf) (ys : List Call),
    run c s (xs ++ ys) = ((run c (run c s xs).1 ys).1, (run c s xs).2 ++ (run c (run c s xs).1 ys).2) := by
  induction xs with
  | nil => intro s ys; rfl
  | cons x xs ih => intro s ys; simp only [List.cons_append, run, ih]

theorem run_state (c : Cbs S) (xs : List Call) : ∀ (s : S × Buf), (run c s xs).1.1 = stAfter c s.1 xs := by
  induction xs with
  | nil => intro s; rfl
  | cons x xs ih =>
    intro s
    simp only [run, ih, conv_eq, stAfter, List.foldl_cons]

theorem writes_eq (l : List Buf) : ∀ (f : Buf), f.length + l.flatten.length ≤ 2048 → l.foldl fifoWrite f = f ++ l.flatten := by
  induction l with
  | nil => intro f _; simp
  | cons a l ih =>
    intro f h
    rw [List.flatten_cons, List.length_append] at h
    rw [List.foldl_cons]
    have e : fifoWrite f a = f ++ a := by
      unfold fifoWrite
      rw [List.take_of_length_le (by simp only [capacity]; omega)]
    rw [e, ih _ (by rw [List.length_append]; omega), List.flatten_cons, List.append_assoc]

theorem stream (c : Cbs S) (s : S) (xs : List Call) (h : InTime c s xs) :
    returned c s xs ++ (run c (s, []) xs).1.2 = sentBytes c s xs := by
  induction xs using List.reverseRecOn with
  | nil => rfl
  | append_singleton xs x ih =>
    have hx : InTime c s xs := fun pre y hp => h pre y (hp.trans (List.prefix_append _ _))
    have h1 := ih hx
    have h2 := h xs x (List.prefix_refl _)
    have hs : (run c (s, []) xs).1.1 = stAfter c s xs := run_state c xs _
    rw [sentBytes_append] at h2 ⊢
    unfold returned at h1 h2 ⊢
    rw [run_append]
    generalize run c (s, []) xs = r at *
    simp only [run, conv_eq, hs, List.flatten_append, List.flatten_cons, List.flatten_nil, List.append_nil, sentBytes] at h2 ⊢
    rw [List.length_append, ← h1, List.length_append] at h2
    rw [writes_eq _ _ (by omega), List.append_assoc, List.take_append_drop, ← List.append_assoc, h1]

theorem run_last (c : Cbs S) (s : S) (xs : List Call) (x : Call) :
    returned c s (xs ++ [x]) = returned c s xs ++ (conv c (run c (s, []) xs).1 x).2 := by
  unfold returned
  rw [run_append]
  simp [run]

/-- **C70** (partial: `C70_overflow_bug`)  As long as the caller fetches the bytes in time, no byte is lost, repeated or reordered: what the
calls return is a prefix of what the callbacks wrote, and each call returns as many bytes as it has room for and are there. -/
theorem C70_stream_partial (c : Cbs S) (s : S) (xs : List Call) (h : InTime c s xs) :
    returned c s xs <+: sentBytes c s xs ∧
    ∀ pre x, pre ++ [x] <+: xs →
      (returned c s (pre ++ [x])).length = (returned c s pre).length + min x.wlen ((sentBytes c s (pre ++ [x])).length - (returned c s pre).length) := by
  refine ⟨⟨_, stream c s xs h⟩, ?_⟩
  intro pre x hp
  have h0 : InTime c s pre := fun q y hq => h q y (hq.trans ((List.prefix_append _ _).trans hp))
  have h1 := stream c s pre h0
  have h2 := h pre x hp
  have hs : (run c (s, []) pre).1.1 = stAfter c s pre := run_state c pre _
  rw [run_last, List.length_append, sentBytes_append] at *
  generalize returned c s pre = ret at *
  generalize run c (s, []) pre = r at *
  rw [conv_eq, hs]
  simp only [sentBytes, List.append_nil] at h2 ⊢
  rw [List.length_append, ← h1, List.length_append] at h2 ⊢
  rw [writes_eq _ _ (by omega), List.length_take, List.length_append]
  congr 2
  omega

/-- **C70** A message of a type without callback (GLONASS biases among them) writes nothing and changes no later output: the call returns
pending bytes only, and the converter goes on as if the message had not been there. -/
theorem C70_other (c : Cbs S) (s : S) (xs ys : List Call) (x : Call) (n : Nat) (hx : x.ty = .other n) :
    sentBytes c s (xs ++ x :: ys) = sentBytes c s (xs ++ ys) := by
  rw [sentBytes_append, sentBytes_append]
  simp only [sentBytes, framesFor, hx, ← dispatch_eq, dispatch, List.flatten_nil, List.nil_append]

/-- a callback that writes one frame of 1500 bytes -/
def exCb : Cb Unit := fun _ _ s => (s, [List.replicate 1500 7])
def exCbs : Cbs Unit := ⟨exCb, exCb, exCb, exCb, exCb, exCb, exCb, exCb, exCb, exCb, exCb, exCb, exCb, exCb⟩

/-- **C70** Defect: when the bytes are not fetched in time, the frame that does not fit is cut and its rest is lost without notice: two
calls without room write 3000 bytes; afterwards only 2048 bytes can be fetched. -/
theorem C70_overflow_bug :
    (sentBytes exCbs () [⟨.obs, 1, [], 0⟩, ⟨.obs, 1, [], 0⟩, ⟨.other 0, 1, [], 9999⟩]).length = 3000 ∧
    (returned exCbs () [⟨.obs, 1, [], 0⟩, ⟨.obs, 1, [], 0⟩, ⟨.other 0, 1, [], 9999⟩]).length = 2048 := by
  constructor <;> decide +kernel

/-! ### end to end -/

/-- the call of the SBP-to-RTCM converter behind a message; the payload must not exceed 255 bytes -/
def eventOf (ids : Ids) (pos : Buf → BasePos) (x : Call) : Option SbpIn :=
  match x.ty with
  | .basePosEcef => some (.basePos x.sender (pos x.rbuf))
  | .osr => some (.wrapped ids.osr x.sender x.rbuf)
  | .ssrOrbitClock => some (.wrapped ids.orbitClock x.sender x.rbuf)
  | .ssrPhaseBiases => some (.wrapped ids.phaseBiases x.sender x.rbuf)
  | .ssrCodeBiases => some (.wrapped ids.codeBiases x.sender x.rbuf)
  | .ssrGriddedA => some (.wrapped ids.gridded x.sender x.rbuf)
  | .ssrGridDefA => some (.wrapped ids.gridDef x.sender x.rbuf)
  | .ssrStecA => some (.wrapped ids.stec x.sender x.rbuf)
  | .log => some (.log x.sender x.rbuf)
  | _ => none

/-- observations and ephemerides -/
def IsNav (t : Ty) : Prop := t = .obs ∨ t = .ephGps ∨ t = .ephGlo ∨ t = .ephBds ∨ t = .ephGal

theorem frames_event (crc : Buf → BitVec 24) (ids : Ids) (pos : Buf → BasePos) (rest : Cb OutSt) (st : OutSt) (x : Call) (hn : ¬ IsNav x.ty)
    (hl : x.rbuf.length ≤ 255) :
    framesFor (cbs crc ids pos rest) st x =
      match eventOf ids pos x with
      | some e => framesOf crc e st
      | none => (st, []) := by
  obtain ⟨ty, sender, rbuf, wlen⟩ := x
  have ht : rbuf.take (rbuf.length % 256) = rbuf := by
    rw [Nat.mod_eq_of_lt (by simp only at hl; omega), List.take_length]
  cases ty <;> first
    | (simp only [framesFor, ← dispatch_eq, dispatch, cbs, eventOf, ht]; done)
    | (exfalso; apply hn; simp [IsNav]; done)
    | rfl

theorem frames_all (crc : Buf → BitVec 24) (es : List SbpIn) : ∀ (st : OutSt), StOk st → (∀ e ∈ es, Fits e) →
    outBytes crc st es = some ((outRun st es).map fun p => (Verif.RtcmFraming.encodeFrame crc 1023 p).getD []).flatten := by
  intro st hs hf
  obtain ⟨fs, h1, h2⟩ := frames_exist crc (outRun st es) (by
    intro p hp
    rw [sent_bytes] at hp
    obtain ⟨m, hm, rfl⟩ := List.mem_map.1 hp
    exact bytes_length m (sent_wf es st hs hf m hm))
  unfold outBytes
  rw [h1]
  have h2' : (outRun st es).map (Verif.RtcmFraming.encodeFrame crc 1023) = fs.map some := h2
  have : ((outRun st es).map fun p => (Verif.RtcmFraming.encodeFrame crc 1023 p).getD []) = fs := by
    have := congrArg (List.map fun o : Option Buf => o.getD []) h2'
    rw [List.map_map, List.map_map] at this
    rw [show (fun p => (Verif.RtcmFraming.encodeFrame crc 1023 p).getD []) = (fun o : Option Buf => o.getD []) ∘ Verif.RtcmFraming.encodeFrame crc 1023 from rfl, this]
    rw [show ((fun o : Option Buf => o.getD []) ∘ some) = id from rfl, List.map_id]
  rw [this]; rfl

theorem sent_event (crc : Buf → BitVec 24) (ids : Ids) (pos : Buf → BasePos) (rest : Cb OutSt) (xs : List Call)
    (hn : ∀ x ∈ xs, ¬ IsNav x.ty ∧ x.rbuf.length ≤ 255) : ∀ st,
    sentBytes (cbs crc ids pos rest) st xs =
      ((outRun st (xs.filterMap (eventOf ids pos))).map fun p => (Verif.RtcmFraming.encodeFrame crc 1023 p).getD []).flatten := by
  induction xs with
  | nil => intro st; rfl
  | cons x xs ih =>
    intro st
    obtain ⟨a1, a2⟩ := hn x List.mem_cons_self
    have ih := ih (fun y hy => hn y (List.mem_cons_of_mem _ hy))
    rw [sentBytes, frames_event crc ids pos rest st x a1 a2, List.filterMap_cons]
    cases eventOf ids pos x with
    | none => simp only [List.flatten_nil, List.nil_append]; exact ih st
    | some e =>
      simp only [framesOf, outRun, List.map_append, List.flatten_append]
      rw [ih]

/-- the messages of `xs` fit and none is an observation or an ephemeris -/
def AllFit (ids : Ids) (pos : Buf → BasePos) (xs : List Call) : Prop :=
  (∀ x ∈ xs, ¬ IsNav x.ty ∧ x.rbuf.length ≤ 255) ∧ ∀ e ∈ xs.filterMap (eventOf ids pos), Fits e

/-- **C70** (partial: observations and ephemerides are the subject of C28, C29 and C49)  From a new converter, positions, OSR and SSR messages
and texts, given to sbp_conv in any order with other messages between them, come out of the RTCM-to-SBP converter at the other end of
the byte stream as C64, C66 and C67 say, provided the bytes were fetched in time and all of them. -/
theorem C70_end_to_end_partial {W E : Type} (crc : Buf → BitVec 24) (ids : Ids) (pos : Buf → BasePos) (rest : Cb OutSt) (a : Nat) (xs : List Call)
    (hf : AllFit ids pos xs) (ht : InTime (cbs crc ids pos rest) (newState a) xs)
    (hd : (returned (cbs crc ids pos rest) (newState a) xs).length = (sentBytes (cbs crc ids pos rest) (newState a) xs).length)
    (chunks : List Buf) (hc : chunks.flatten = returned (cbs crc ids pos rest) (newState a) xs) (hl : ∀ c ∈ chunks, c.length ≤ Verif.RtcmFraming.bufferSize)
    (ys : List MInput) (hy : (Verif.RtcmFraming.run crc Verif.RtcmFraming.Reader.init chunks).2.map Verif.RtcmFraming.framePayload =
      ys.map fun y => Verif.RtcmFraming.FrameCall.payload y.inp.payload)
    (env : Env) (L : Lib W E) (s : State) :
    ∃ outs, miscRun env L s ys = some outs ∧
      List.Forall₂ PosBack ((xs.filterMap (eventOf ids pos)).filterMap sentPos) (outs.filterMap gotPos) ∧
      List.Forall₂ TextBack ((xs.filterMap (eventOf ids pos)).filterMap sentLog) (outs.filterMap gotLog) ∧
      outs.filterMap gotWrapped = ((xs.filterMap (eventOf ids pos)).filterMap sentWrapped).filterMap fun i =>
        (L.sbpDecode i.1 i.2.2).map fun w => (i.1, i.2.1, w) := by
  have he : returned (cbs crc ids pos rest) (newState a) xs = sentBytes (cbs crc ids pos rest) (newState a) xs :=
    (C70_stream_partial _ _ _ ht).1.eq_of_length hd
  generalize hes : xs.filterMap (eventOf ids pos) = es at *
  let d : SbpIn := .descriptors (asc "NULL                ") (asc "SWFT")
  have hcar : Carried crc (.init a) (d :: es) chunks ys := by
    refine ⟨?_, hl, hy⟩
    rw [hc, he, sent_event crc ids pos rest xs hf.1, hes]
    have e1 : outRun (.init a) (d :: es) = outRun (newState a) es := rfl
    unfold outBytes
    rw [e1]
    exact frames_all crc es (newState a) (stOk_step _ _ (init_ok a)) (by rw [← hes]; exact hf.2)
  have hfit : ∀ e ∈ d :: es, Fits e := by
    intro e h
    rcases List.mem_cons.1 h with h | h
    · subst h; trivial
    · exact hf.2 e (by rw [hes]; exact h)
  obtain ⟨o1, p1, q1⟩ := C64_roundtrip crc env L a (d :: es) hfit chunks ys hcar s
  obtain ⟨o2, p2, q2⟩ := C66_text_partial crc env L a (d :: es) hfit chunks ys hcar s
  obtain ⟨o3, p3, q3⟩ := C67_roundtrip crc env L a (d :: es) hfit chunks ys hcar s
  rw [p1] at p2 p3
  obtain rfl := Option.some.inj p2
  obtain rfl := Option.some.inj p3
  exact ⟨_, p1, q1, q2, q3⟩

/-! ### the hypotheses can be met -/

def exIds : Ids := ⟨1600, 1502, 1510, 1505, 1529, 1530, 1532⟩
/-- an OSR message, a message of another type, a text fetched in two pieces and a last call that fetches the rest -/
def exCalls : List Call := [⟨.osr, 0x1042, [1, 2, 3], 5⟩, ⟨.other 117, 1, [9], 2⟩, ⟨.log, 7, 6 :: asc "hello", 0⟩, ⟨.other 117, 1, [], 2000⟩]
def exConv : Cbs OutSt := cbs (fun b => BitVec.ofNat 24 b.length) exIds (fun _ => ⟨0, 0, 0⟩) (fun _ _ s => (s, []))

theorem inTime_of_checked (c : Cbs S) (s : S) (xs : List Call)
    (h : ∀ k ∈ List.range xs.length, (sentBytes c s (xs.take (k + 1))).length ≤ (returned c s (xs.take k)).length + 2048) : InTime c s xs := by
  rintro pre x ⟨t, rfl⟩
  have := h pre.length (by simp)
  rw [List.append_assoc, List.take_left, List.singleton_append,
    show pre ++ x :: t = (pre ++ [x]) ++ t by simp, show pre.length + 1 = (pre ++ [x]).length by simp, List.take_left] at this
  exact this

example : InTime exConv (newState 0) exCalls :=
  inTime_of_checked _ _ _ (by decide +kernel)
example : (returned exConv (newState 0) exCalls).length = (sentBytes exConv (newState 0) exCalls).length ∧
    0 < (sentBytes exConv (newState 0) exCalls).length := by decide +kernel
example : AllFit exIds (fun _ => ⟨0, 0, 0⟩) exCalls := by
  refine ⟨?_, ?_⟩
  · intro x hx
    simp only [exCalls, List.mem_cons, List.not_mem_nil, or_false] at hx
    rcases hx with rfl | rfl | rfl | rfl <;> exact ⟨by simp [IsNav], by decide⟩
  · intro e he
    have : exCalls.filterMap (eventOf exIds fun _ => ⟨0, 0, 0⟩) = [.wrapped 1600 0x1042 [1, 2, 3], .log 7 (6 :: asc "hello")] := rfl
    rw [this] at he
    simp only [List.mem_cons, List.not_mem_nil, or_false] at he
    rcases he with rfl | rfl
    · exact ⟨by decide, by decide, by decide⟩
    · exact ⟨by decide, by decide⟩

end Verif.Conv
