import Verif.Spec.Programs
import Verif.Lemmas.Programs
import Verif.Lemmas.ProgIxcom
import Verif.Props.C56
/-!
# C76: the programs ubx2sbp and ixcom2sbp

The whole main loop, from the reads of standard input to the messages written.  The loop ends, with the last byte that arrives; the
messages are those of the frames of the input (C37, C55 and C56; C45).
-/
namespace Verif.Loop
open Verif.Loop.Spec

/-! ### ubx2sbp -/
section ubx
open Verif.Ubx Verif.Ubx.Spec
variable {E : Type}

theorem ubx_input {src : List Rd} {cs : List Buf} (h : UbxInput src cs) :
    ∃ tl, Stops tl ∧ src = cs.map Rd.data ++ tl ∧ ∀ c ∈ cs, c ≠ [] := by
  induction h with
  | eof => exact ⟨[], fun e r h => (by cases h), rfl, by simp⟩
  | none r => exact ⟨_, by intro e r h; cases h; exact .inl rfl, rfl, by simp⟩
  | err c r hc => exact ⟨_, by intro e r h; cases h; exact .inr ⟨c, hc, rfl⟩, rfl, by simp⟩
  | data c r cs hc _ ih =>
    obtain ⟨tl, h1, h2, h3⟩ := ih
    refine ⟨tl, h1, by rw [h2]; rfl, ?_⟩
    intro x hx
    rcases List.mem_cons.1 hx with rfl | hx
    · exact hc
    · exact h3 x hx

/-- every sequence of reads is such an input -/
theorem ubx_input_total (src : List Rd) (h : ∀ c, .err c ∈ src → c < 0) : ∃ cs, UbxInput src cs := by
  induction src with
  | nil => exact ⟨[], .eof⟩
  | cons a src ih =>
    match a with
    | .err c => exact ⟨[], .err c _ (h c (by simp))⟩
    | .data [] => exact ⟨[], .none _⟩
    | .data (b :: c) =>
      obtain ⟨cs, hc⟩ := ih fun c hc => h c (List.mem_cons_of_mem _ hc)
      exact ⟨_, .data _ _ _ (by simp) hc⟩

theorem ubx_scan (L : SbpLib E) (hnr : Bool) {src : List Rd} {cs : List Buf} (h : UbxInput src cs) :
    (∀ st os, handleAll L (CSt.start hnr) (scan decision cs.flatten).1 = some (st, os) → Ubx2sbp L hnr src os) ∧
    (handleAll L (CSt.start hnr) (scan decision cs.flatten).1 = none → Ubx2sbpFails L hnr src) := by
  obtain ⟨tl, h1, rfl, h3⟩ := ubx_input h
  have hok : Ok (start (cs.map Rd.data)) := ⟨live_data h3, by simp [start]⟩
  have hrest : (start (cs.map Rd.data)).rest = cs.flatten := by simp [start, RSt.rest, dataOf_data]
  have := loop_run L h1 _ _ (CSt.start hnr) hok (Nat.lt_succ_self _)
  rw [hrest] at this
  exact this

theorem iff_of {S M C : Type} {body : S → Option (Int × S × List M)} {more : Int → Prop} {s : S} {r : Option (C × List M)}
    (h1 : ∀ st os, r = some (st, os) → Ends body more s os) (h2 : r = none → Fails body more s) :
    (∀ os, Ends body more s os ↔ ∃ st, r = some (st, os)) ∧ (Fails body more s ↔ r = none) := by
  rcases r with _ | ⟨st, os⟩
  · have hf := h2 rfl
    refine ⟨fun os => ⟨fun h => absurd hf (ends_not_fails h), ?_⟩, ⟨fun _ => rfl, fun _ => hf⟩⟩
    rintro ⟨_, h⟩; cases h
  · have he := h1 _ _ rfl
    refine ⟨fun os' => ⟨fun h => ⟨st, by rw [ends_unique h he]⟩, ?_⟩, ⟨fun h => absurd h (ends_not_fails he), fun h => by cases h⟩⟩
    rintro ⟨st', h⟩
    obtain ⟨-, rfl⟩ := Prod.mk.inj (Option.some.inj h)
    exact he

/-- **C76 (ubx2sbp).**  Whatever arrives, in pieces of whatever size, the program comes to its end, and sends the messages for the bodies of
valid frames that occur one after the other in the input -- unless one of these bodies is one whose conversion is undefined or fails an
assertion (C55, C56). -/
theorem C76_ubx (L : SbpLib E) (hnr : Bool) {src : List Rd} {cs : List (List (BitVec 8))} (h : UbxInput src cs) :
    ∃ fs bodies, List.Forall₂ IsFrame fs bodies ∧ Occur fs cs.flatten ∧
      (∀ os, Ubx2sbp L hnr src os ↔ ∃ st, handleAll L (CSt.start hnr) bodies = some (st, os)) ∧
      (Ubx2sbpFails L hnr src ↔ handleAll L (CSt.start hnr) bodies = none) := by
  obtain ⟨fs, h1, h2⟩ := scan_occur cs.flatten
  obtain ⟨h3, h4⟩ := ubx_scan L hnr h
  exact ⟨fs, _, h1, h2, iff_of h3 h4⟩

/-- **C76 (ubx2sbp, all frames).**  If the input consists of frames, with noise in between that does not contain the first sync character, all
of them are converted. -/
theorem C76_ubx_complete (L : SbpLib E) (hnr : Bool) {src : List Rd} {cs : List (List (BitVec 8))} (h : UbxInput src cs)
    {fs bodies : List (List (BitVec 8))} (hf : List.Forall₂ IsFrame fs bodies) (hs : Interleaved fs cs.flatten) :
    (∀ os, Ubx2sbp L hnr src os ↔ ∃ st, handleAll L (CSt.start hnr) bodies = some (st, os)) ∧
    (Ubx2sbpFails L hnr src ↔ handleAll L (CSt.start hnr) bodies = none) := by
  obtain ⟨h3, h4⟩ := ubx_scan L hnr h
  rw [scan_complete hs hf] at h3 h4
  exact iff_of h3 h4

/-- **C76 (ubx2sbp, division).**  The output depends on the bytes that arrive, not on the sizes of the reads, nor on how the input ends. -/
theorem C76_ubx_chunking (L : SbpLib E) (hnr : Bool) {src src' : List Rd} {cs cs' : List (List (BitVec 8))} (h : UbxInput src cs)
    (h' : UbxInput src' cs') (he : cs.flatten = cs'.flatten) (os : List (Out E)) : Ubx2sbp L hnr src os ↔ Ubx2sbp L hnr src' os := by
  obtain ⟨h3, h4⟩ := ubx_scan L hnr h
  obtain ⟨h5, h6⟩ := ubx_scan L hnr h'
  rw [he] at h3 h4
  exact ((iff_of h3 h4).1 os).trans ((iff_of h5 h6).1 os).symm

/-- **C76 (ubx2sbp, meaning).**  What is sent is, frame by frame, what the frame means; the ephemerides are those of the specification of C39 to
C44, fed with the navigation data and times of the frames. -/
theorem C76_ubx_means (L : SbpLib E) (hnr : Bool) {src : List Rd} {cs : List (List (BitVec 8))} (h : UbxInput src cs) {outs : List (Out E)}
    (ho : Ubx2sbp L hnr src outs) :
    ∃ (fs bodies : List (List (BitVec 8))) (ps : List (List (Out E) × List EphIn)) (os : List (Option E)),
      List.Forall₂ IsFrame fs bodies ∧ Occur fs cs.flatten ∧ List.Forall₂ (fun f p => Means f p.1 p.2) bodies ps ∧
      outs = ps.flatMap (·.1) ∧ (ephRun L.toEphLib .init (ps.flatMap (·.2))).map (·.2) = some os ∧ ephsOf outs = os.filterMap id := by
  obtain ⟨fs, bodies, h1, h2, h3, -⟩ := C76_ubx L hnr h
  obtain ⟨st, h4⟩ := (h3 outs).1 ho
  obtain ⟨ps, os, h5⟩ := C56_ephemerides L hnr bodies h4
  exact ⟨fs, bodies, ps, os, h1, h2, h5⟩

/-- noise, a frame in two pieces, an error, and a frame that does not arrive -/
def exUbx : List Rd := [.data [0x00], .data (exFrame.take 3), .data (exFrame.drop 3), .err (-1), .data exFrame]
theorem exUbx_in : UbxInput exUbx [[0x00], exFrame.take 3, exFrame.drop 3] :=
  .data _ _ _ (by decide) <| .data _ _ _ (by decide) <| .data _ _ _ (by decide) <| .err _ _ (by decide)
example (L : SbpLib E) (os : List (Out E)) :
    Ubx2sbp L false exUbx os ↔ ∃ st, handleAll L (CSt.start false) [exBody] = some (st, os) :=
  (C76_ubx_complete L false exUbx_in (.cons exFrame_ok .nil) (.noise _ _ _ (by decide) (.frame _ _ _ .nil))).1 os
/-- the program ends on this input -/
example : ∃ os, Ubx2sbp exLib false exUbx os := by
  have h := (C76_ubx_complete exLib false exUbx_in (.cons exFrame_ok .nil) (.noise _ _ _ (by decide) (.frame _ _ _ .nil))).1
  have : (handleAll exLib (CSt.start false) [exBody]).isSome = true := by decide +kernel
  rcases hh : handleAll exLib (CSt.start false) [exBody] with _ | ⟨st, os⟩
  · rw [hh] at this; cases this
  · exact ⟨os, (h os).2 ⟨st, hh⟩⟩

/-- **C76 (bug, ubx2sbp).**  A read that returns nothing ends the program although more arrives: the frame that follows is not converted. -/
theorem C76_ubx_pause_bug (L : SbpLib E) (f : List (BitVec 8)) : Ubx2sbp L false [.data [], .data f] [] := by
  obtain ⟨h, -⟩ := C76_ubx_complete L false (UbxInput.none [.data f]) (fs := []) .nil .nil
  exact (h []).2 ⟨CSt.start false, rfl⟩

end ubx

/-! ### ixcom2sbp -/
section ixcom
open Verif.Ixcom Verif.Ixcom.Spec

theorem ixcom_input {src : List Rd} {cs : List Buf} (h : IxcomInput src cs) :
    ∃ tl, Stops tl ∧ src = cs.map Rd.data ++ tl ∧ ∀ c ∈ cs, c ≠ [] := by
  induction h with
  | eof => exact ⟨[], fun e r h => (by cases h), rfl, by simp⟩
  | none r => exact ⟨_, by intro e r h; cases h; exact .inl rfl, rfl, by simp⟩
  | err c r => exact ⟨_, by intro e r h; cases h; exact .inr ⟨c, rfl⟩, rfl, by simp⟩
  | data c r cs hc _ ih =>
    obtain ⟨tl, h1, h2, h3⟩ := ih
    refine ⟨tl, h1, by rw [h2]; rfl, ?_⟩
    intro x hx
    rcases List.mem_cons.1 hx with rfl | hx
    · exact hc
    · exact h3 x hx

/-- every sequence of reads is such an input -/
theorem ixcom_input_total (src : List Rd) : ∃ cs, IxcomInput src cs := by
  induction src with
  | nil => exact ⟨[], .eof⟩
  | cons a src ih =>
    match a with
    | .err c => exact ⟨[], .err c _⟩
    | .data [] => exact ⟨[], .none _⟩
    | .data (b :: c) => obtain ⟨cs, hc⟩ := ih; exact ⟨_, .data _ _ _ (by simp) hc⟩

theorem ixcom_data (cs : List Buf) : dataOf (cs.map Rd.data) = cs.flatten := by
  unfold dataOf
  rw [List.flatMap_map]
  induction cs with
  | nil => rfl
  | cons c cs ih => rw [List.flatMap_cons, ih]; rfl

/-- **C76 (ixcom2sbp).**  The input, in pieces of whatever size and ending with nothing or with an error, consists of frames, noise and the
beginning of a last frame: the program comes to its end, and the messages are those of the frames, in order. -/
theorem C76_ixcom_partial {src : List Rd} {cs : List (List (BitVec 8))} (h : IxcomInput src cs) {fs : List (List (BitVec 8))} {r : List (BitVec 8)}
    (hc : Cut cs.flatten fs r) (hp : ∀ f ∈ fs, Proper f) (hs : ∀ f ∈ fs, Sane f) :
    (∃ os, Ixcom2sbp src os) ∧ ∀ os, Ixcom2sbp src os → Messages 0 fs os := by
  obtain ⟨tl, h1, rfl, h3⟩ := ixcom_input h
  obtain ⟨k1, k2⟩ := start_inv (cs.map Rd.data)
  have hl : Live (start (cs.map Rd.data)).src := by
    intro x hx
    obtain ⟨c, hc, rfl⟩ := List.mem_map.1 hx
    exact ⟨c, rfl, h3 c hc⟩
  obtain ⟨h4, -⟩ := loop_run h1 fs k1 k2 hl (r := r) (by rw [start_rest, ixcom_data]; exact hc)
  obtain ⟨os, ho, hm⟩ := convert_says fs (B := List.replicate 4096 0) (s := 0) (n := 0) List.length_replicate rfl (cut_frames hc) hp hs
  have := h4 os ho
  refine ⟨⟨os, this⟩, fun os' h' => ?_⟩
  rw [ends_unique h' this]
  exact hm

/-- noise, the two frames, and the beginning of a third, in pieces; then an error, and a frame that does not arrive -/
def exIxcom : List Rd :=
  [.data [1, 2], .data (exImu.take 7), .data (exImu.drop 7 ++ exWheel.take 20), .data (exWheel.drop 20 ++ [126, 0]), .err 3, .data exImu]
theorem exIxcom_in : IxcomInput exIxcom [[1, 2], exImu.take 7, exImu.drop 7 ++ exWheel.take 20, exWheel.drop 20 ++ [126, 0]] :=
  .data _ _ _ (by decide) <| .data _ _ _ (by decide) <| .data _ _ _ (by decide) <| .data _ _ _ (by decide) <| .err _ _
example : (∃ os, Ixcom2sbp exIxcom os) ∧ ∀ os, Ixcom2sbp exIxcom os → Messages 0 [exImu, exWheel] os :=
  C76_ixcom_partial exIxcom_in (r := [126, 0]) (.noise 1 _ _ _ (by decide) <| .noise 2 _ _ _ (by decide) <|
    .frame exImu (exWheel ++ [126, 0]) _ _ exImu_frame.1 <| .frame exWheel [126, 0] _ _ exWheel_frame.1 <|
    .rest _ ⟨rfl, fun h => absurd h (by decide)⟩) ex_proper ex_sane

def exHead : List (BitVec 8) := [126, 0, 0, 0, 16, 0, 0, 0, 0, 0, 0, 0, 0, 0, 0, 0]

def EndsAtOnce : Option (St × Int × List Ixcom.Out) → Prop
  | some (_, ret, []) => ret ≤ 0
  | _ => False
instance (x) : Decidable (EndsAtOnce x) := by unfold EndsAtOnce; split <;> infer_instance

/-- **C76 (bug, ixcom2sbp).**  A frame that is only a header ends the program: the frame that follows is not converted. -/
theorem C76_ixcom_early_bug : Ixcom2sbp [.data (exHead ++ exImu)] [] ∧ ∃ m, Ixcom2sbp [.data exImu] [.imuRaw m, .imuAux 255 0 0x41] := by
  refine ⟨?_, ?_⟩
  · have h : EndsAtOnce (process (start [.data (exHead ++ exImu)])) := by decide +kernel
    unfold EndsAtOnce at h
    split at h
    · rename_i st ret hp
      refine .stop _ ret st [] ?_ (by omega)
      unfold ixcomBody
      rw [hp]; rfl
    · exact h.elim
  · have hi : IxcomInput [.data exImu] [exImu] := .data _ _ _ (by decide) .eof
    obtain ⟨⟨os, h⟩, h'⟩ := C76_ixcom_partial hi (fs := [exImu]) (r := []) (.frame exImu [] _ _ exImu_frame.1 .nil)
      (fun f hf => ex_proper f (by simp at hf; simp [hf])) (fun f hf => ex_sane f (by simp at hf; simp [hf]))
    have := h' os h
    cases this with
    | imu n f fs m os h1 h2 h3 h4 => cases h4; exact ⟨m, h⟩
    | wheel n f fs v os h1 => exact absurd h1 (by decide)
    | other n f fs os h1 => exact absurd exImu_crc (h1 (.inl (by decide)))

end ixcom

end Verif.Loop
