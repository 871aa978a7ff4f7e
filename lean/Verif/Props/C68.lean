import Verif.Props.C65
import Verif.Props.C40
/-!
C68: navigation data frames (RTCM 4075).
-/
namespace Verif.Misc
open Verif.Misc.Spec Verif.Spec Verif.RtcmFraming Verif.Time Dec
open Verif.RtcmSbp (State Env Input no1230 messageType crint whitelist msm13)

variable {W E : Type}

theorem rawGet_at (p after : Buf) (off n : Nat) (h : off + n ≤ 8 * p.length) (hn : n ≤ 32) :
    rawGet (p ++ after) off n = some (fieldU p off n) := by
  unfold rawGet
  have hl : off + n ≤ 8 * (p ++ after).length := by rw [List.length_append]; omega
  rw [if_pos hl, getbitu_eq _ _ _ hl hn, bitsOf_append]
  unfold fieldU
  rw [List.drop_append_of_le_length (by rw [bitsOf_length]; omega),
    List.take_append_of_le_length (by rw [List.length_drop, bitsOf_length]; omega)]

/-- the words of a field of `n` bits -/
def wordsAt (p : Buf) (off n : Nat) : List (BitVec 32) :=
  (List.range ((n + 31) / 32)).map fun j => BitVec.ofNat 32 (fieldU p (off + 32 * j) (min 32 (n - 32 * j)))

theorem wordsAt_step (p : Buf) (off n : Nat) (h : n ≠ 0) :
    wordsAt p off n = BitVec.ofNat 32 (fieldU p off (min n 32)) :: wordsAt p (off + min n 32) (n - min n 32) := by
  unfold wordsAt
  have e : (n + 31) / 32 = (n - min n 32 + 31) / 32 + 1 := by omega
  rw [e, List.range_succ_eq_map, List.map_cons, List.map_map]
  refine List.cons_eq_cons.2 ⟨by rw [Nat.mul_zero, Nat.add_zero, Nat.sub_zero, Nat.min_comm], ?_⟩
  apply List.map_congr_left
  intro k hk
  rw [List.mem_range] at hk
  simp only [Function.comp_apply]
  have h32 : min n 32 = 32 := by omega
  rw [h32, show off + 32 * k.succ = off + 32 + 32 * k by omega, show n - 32 * k.succ = n - 32 - 32 * k by omega]

theorem ndfWords_at (p after : Buf) (hp : p.length ≤ 1023) : ∀ (n off : Nat), off + n ≤ 8 * p.length →
    ndfWords (p ++ after) off n = some (off + n, wordsAt p off n) := by
  intro n
  induction n using Nat.strongRecOn with
  | _ n ih =>
    intro off h
    rw [ndfWords]
    by_cases hn : n = 0
    · subst hn; rfl
    · rw [if_neg hn, rawGet_at p after off _ (by omega) (by omega)]
      simp only
      rw [Nat.mod_eq_of_lt (by omega), ih (n - min n 32) (by omega) _ (by omega), wordsAt_step p off n hn]
      simp only
      rw [show off + min n 32 + (n - min n 32) = off + n by omega]

theorem ndfFrame_at (p after : Buf) (hp : p.length ≤ 1023) (off : Nat) (h : off + 62 + frameSize p off ≤ 8 * p.length) :
    ndfFrame (p ++ after) off = some (.ok (off + 62 + frameSize p off, frameAt p off)) := by
  unfold ndfFrame
  rw [rawGet_at p after off 4 (by omega) (by omega)]
  rw [Nat.mod_eq_of_lt (by omega), rawGet_at p after _ 6 (by omega) (by omega)]
  rw [Nat.mod_eq_of_lt (by omega), rawGet_at p after _ 4 (by omega) (by omega)]
  rw [Nat.mod_eq_of_lt (by omega), rawGet_at p after _ 5 (by omega) (by omega)]
  rw [Nat.mod_eq_of_lt (by omega), rawGet_at p after _ 30 (by omega) (by omega)]
  rw [Nat.mod_eq_of_lt (by omega), rawGet_at p after _ 1 (by omega) (by omega)]
  rw [Nat.mod_eq_of_lt (by omega), rawGet_at p after _ 12 (by omega) (by omega)]
  simp only [Option.bind_eq_bind, Option.bind_some]
  have hs := fieldU_lt p (off + 50) 12
  rw [if_neg (by omega), Nat.mod_eq_of_lt (by omega)]
  rw [show fieldU p (off + 50) 12 = frameSize p off from rfl, ndfWords_at p after hp _ _ h]
  rfl

theorem frameStart_mono (p : Buf) {i j : Nat} (h : i ≤ j) : frameStart p i ≤ frameStart p j := by
  induction j with
  | zero => rw [Nat.le_zero.1 h]
  | succ j ih =>
    by_cases e : i = j + 1
    · rw [e]
    · have := ih (by omega)
      simp only [frameStart]; omega

theorem ndfFrames_at (p after : Buf) (hp : p.length ≤ 1023) : ∀ (k i : Nat), frameStart p (i + k) ≤ 8 * p.length →
    ndfFrames (p ++ after) (frameStart p i) k = some (.ok ((List.range' i k).map fun j => frameAt p (frameStart p j))) := by
  intro k
  induction k with
  | zero => intro i _; rfl
  | succ k ih =>
    intro i h
    have hm := frameStart_mono p (i := i + 1) (j := i + (k + 1)) (by omega)
    have e : frameStart p (i + 1) = frameStart p i + 62 + frameSize p (frameStart p i) := rfl
    rw [ndfFrames, ndfFrame_at p after hp _ (by omega)]
    simp only
    rw [← e, ih (i + 1) (by rw [show i + 1 + k = i + (k + 1) by omega]; exact h)]
    rfl

/-- **C68** (partial: `C68_overread_bug`)  The decoder of 4075 messages, which is not told the length of the message, gives the station and
exactly the frames in the message when the message contains all of them, whatever follows it in memory. -/
theorem C68_decode_partial (p after : Buf) (hp : p.length ≤ 1023) (h1 : fieldU p 0 12 = 4075) (h2 : fieldU p 24 2 = 0) (hw : Whole4075 p) :
    decode4075 (p ++ after) = some (.ok (fieldU p 12 12, (List.range (fieldU p 26 6)).map fun k => frameAt p (frameStart p k))) := by
  obtain ⟨h4, h5⟩ := hw
  unfold decode4075
  have hc := fieldU_lt p 26 6
  rw [rawGet_at p after 0 12 (by omega) (by omega), rawGet_at p after 12 12 (by omega) (by omega),
    rawGet_at p after 24 2 (by omega) (by omega), rawGet_at p after 26 6 (by omega) (by omega)]
  simp only [Option.bind_eq_bind, Option.bind_some]
  rw [if_neg (not_not.2 h1), if_neg (not_not.2 h2), if_neg (by omega)]
  have := ndfFrames_at p after hp (fieldU p 26 6) 0 (by rw [Nat.zero_add]; exact h5)
  rw [show frameStart p 0 = 32 from rfl] at this
  rw [this, List.range_eq_range']
  rfl

/-! ### SBAS -/

theorem wordBits_toBits (w : BitVec 32) : Ubx.wordBits w = toBits 32 w.toNat := by
  apply List.ext_getElem (by simp [Ubx.wordBits])
  intro i h1 h2
  rw [toBits_getElem]
  simp [Ubx.wordBits, BitVec.getLsbD]

theorem word_full (p : Buf) (o : Nat) (h : o + 32 ≤ 8 * p.length) :
    Ubx.wordBits (BitVec.ofNat 32 (fieldU p o 32)) = ((bitsOf p).drop o).take 32 := by
  rw [wordBits_toBits, BitVec.toNat_ofNat, Nat.mod_eq_of_lt (fieldU_lt p o 32)]
  have hl : (((bitsOf p).drop o).take 32).length = 32 := by rw [List.length_take, List.length_drop, bitsOf_length]; omega
  have := toBits_ofBits (((bitsOf p).drop o).take 32)
  rw [hl] at this
  exact this

theorem take_flat (l : List Bool) (n k : Nat) : (List.range n).flatMap (fun j => (l.drop (k * j)).take k) = l.take (k * n) := by
  induction n with
  | zero => simp
  | succ n ih =>
    rw [List.range_succ, List.flatMap_append, ih, List.flatMap_singleton, Nat.mul_succ, List.take_add]

theorem sub_field (l : List Bool) (a b n : Nat) (h : a + b ≤ n) (hl : n ≤ l.length) :
    ofBits (l.take n) / 2 ^ (n - a - b) % 2 ^ b = ofBits ((l.drop a).take b) := by
  have e : l.take n = l.take a ++ ((l.drop a).take b ++ (l.drop (a + b)).take (n - a - b)) := by
    rw [← List.drop_drop, ← List.take_add, ← List.take_add]; congr 1; omega
  have hc : ((l.drop (a + b)).take (n - a - b)).length = n - a - b := by rw [List.length_take, List.length_drop]; omega
  have hb : ((l.drop a).take b).length = b := by rw [List.length_take, List.length_drop]; omega
  rw [e, ofBits_append, List.length_append, hc, hb, ofBits_append, hc, Nat.pow_add, ← Nat.mul_assoc]
  have h1 := ofBits_lt ((l.drop (a + b)).take (n - a - b))
  rw [hc] at h1
  have h2 := ofBits_lt ((l.drop a).take b)
  rw [hb] at h2
  rw [← Nat.add_assoc, ← Nat.add_mul, Nat.add_comm, Nat.add_mul_div_right _ _ (Nat.two_pow_pos _), Nat.div_eq_of_lt h1, Nat.zero_add,
    Nat.mul_add_mod', Nat.mod_eq_of_lt h2]

theorem sbasMsg_at (L : Ubx.EphLib E) (p : Buf) (o n prn tow : Nat) (h1 : 256 ≤ n) (h2 : n ≤ 288) (hl : o + n ≤ 8 * p.length) :
    Ubx.sbasMsg L tow prn (wordsAt p o n) = sbasOf L prn tow ((bitsOf p).drop o) := by
  have hlen : (wordsAt p o n).length = (n + 31) / 32 := by unfold wordsAt; simp
  have hwd : ∀ j, j < 8 → Ubx.wd (wordsAt p o n) j = BitVec.ofNat 32 (fieldU p (o + 32 * j) 32) := by
    intro j hj
    unfold Ubx.wd wordsAt
    rw [List.getD_eq_getElem?_getD, List.getElem?_map, List.getElem?_range (by omega)]
    simp only [Option.map_some, Option.getD_some]
    rw [show min 32 (n - 32 * j) = 32 by omega]
  have hbuf : ((List.range 8).flatMap fun i => Ubx.wordBits (Ubx.wd (wordsAt p o n) i)) = ((bitsOf p).drop o).take 256 := by
    rw [← take_flat ((bitsOf p).drop o) 8 32]
    apply List.flatMap_congr
    intro j hj
    rw [List.mem_range] at hj
    rw [hwd j hj, word_full p _ (by omega), List.drop_drop]
  have hL : 256 ≤ ((bitsOf p).drop o).length := by rw [List.length_drop, bitsOf_length]; omega
  have hf : ∀ a b, a + b ≤ 32 → Ubx.fld (Ubx.wd (wordsAt p o n) 0) (32 - a - b) b = ofBits ((((bitsOf p).drop o).drop a).take b) := by
    intro a b hab
    rw [hwd 0 (by omega)]
    unfold Ubx.fld
    rw [BitVec.toNat_ofNat, Nat.mod_eq_of_lt (fieldU_lt p _ 32)]
    exact sub_field ((bitsOf p).drop (o + 32 * 0)) a b 32 hab (by rw [Nat.mul_zero, Nat.add_zero]; omega)
  have f1 := hf 0 8 (by omega)
  have f2 := hf 8 6 (by omega)
  simp only [Nat.reduceSub, List.drop_zero] at f1 f2
  unfold Ubx.sbasMsg sbasOf
  rw [hbuf, f1, f2, hlen]
  generalize (bitsOf p).drop o = l at hL
  have e1 : ((l.take 256).drop 226).take 24 = (l.drop 226).take 24 := by rw [List.drop_take, List.take_take]; rfl
  have e2 : (l.take 256).take 226 = l.take 226 := by rw [List.take_take]; rfl
  have e3 : ((l.take 256).drop 14).take 212 = (l.drop 14).take 212 := by rw [List.drop_take, List.take_take]; rfl
  have e4 : ∀ l : List Bool, l.foldl (fun a b => 2 * a + b.toNat) 0 = ofBits l := by
    intro l; unfold ofBits; congr 1; funext a b; omega
  simp only [e1, e2, e3, e4]
  by_cases g1 : prn < L.sbasFirst ∨ L.sbasFirst + L.sbasCount ≤ prn ∨ ((n + 31) / 32 ≠ 8 ∧ (n + 31) / 32 ≠ 9)
  · rw [if_pos g1, if_neg (by omega)]
  rw [if_neg g1]
  by_cases g2 : ofBits (l.take 8) ≠ 0x53 ∧ ofBits (l.take 8) ≠ 0x9a ∧ ofBits (l.take 8) ≠ 0xc6
  · rw [if_pos g2, if_neg (by simp [g2])]
  rw [if_neg g2]
  by_cases g3 : ofBits ((l.drop 226).take 24) = L.crcBits (l.take 226)
  · rw [if_neg (not_not.2 g3), if_pos ⟨by omega, by omega, by simp; omega, g3⟩]
  · rw [if_pos g3, if_neg (fun h => g3 h.2.2.2)]

theorem ndf_out (env : Env) (L : Lib W E) (s : State) (x : MInput) (h2 : 2 ≤ x.inp.payload.length) (h1 : fieldU x.inp.payload 0 12 = 4075) :
    miscOut env L s x =
      match decode4075 (x.inp.payload ++ x.after) with
      | none => none
      | some (.ok (stn, fs)) => some (handleNdf L stn fs)
      | some (.error _) => some [] := by
  unfold miscOut
  rw [if_neg (by omega)]
  have hty : messageType x.inp.payload = 4075 := by rw [type_field _ h2, h1]
  simp only [hty]
  rw [if_neg (by simp [whitelist])]
  unfold content
  simp only
  rw [if_neg (by decide), if_neg (by decide), if_neg (by decide), if_neg (by decide), if_neg (by decide), if_neg (by decide), if_pos (by trivial)]
  cases decode4075 (x.inp.payload ++ x.after) with
  | none => rfl
  | some r => cases r <;> rfl

/-- **C68** (partial: `C68_overread_bug`, `C68_250_bug`)  A 4075 message that contains its frames, none an SBAS frame of 225 to 255 bits:
the SBAS messages of its SBAS frames are handed on, in order, with the bits, satellite and time of the frame and the station's sender,
when preamble and checksum are right; nothing else comes out, whether or not the time is known.  With reserved bits set: nothing. -/
theorem C68_sbas_partial (env : Env) (L : Lib W E) (s : State) (x : MInput) (hp : x.inp.payload.length ≤ 1023)
    (h1 : fieldU x.inp.payload 0 12 = 4075) (hw : Whole4075 x.inp.payload)
    (hs : ∀ k < fieldU x.inp.payload 26 6, fieldU x.inp.payload (frameStart x.inp.payload k) 4 = 3 →
      ¬ (225 ≤ frameSize x.inp.payload (frameStart x.inp.payload k) ∧ frameSize x.inp.payload (frameStart x.inp.payload k) ≤ 255)) :
    miscOut env L s x = some (
      if fieldU x.inp.payload 24 2 = 0 then
        (List.range (fieldU x.inp.payload 26 6)).filterMap fun k => frameOut L x.inp.payload (frameStart x.inp.payload k)
      else []) := by
  rw [ndf_out env L s x (by have := hw.1; omega) h1]
  generalize x.inp.payload = p at *
  by_cases h2 : fieldU p 24 2 = 0
  · rw [C68_decode_partial p x.after hp h1 h2 hw, if_pos h2]
    simp only [handleNdf]
    refine congrArg some ?_
    rw [List.filterMap_map]
    apply List.filterMap_congr
    intro k hk
    rw [List.mem_range] at hk
    have hend : frameStart p k + 62 + frameSize p (frameStart p k) ≤ 8 * p.length := by
      have := frameStart_mono p (i := k + 1) (j := fieldU p 26 6) hk
      have e : frameStart p (k + 1) = frameStart p k + 62 + frameSize p (frameStart p k) := rfl
      have := hw.2
      omega
    have hsk := hs k hk
    simp only [Function.comp_apply]
    generalize frameStart p k = o at *
    unfold frameOut
    have esys : (frameAt p o).sys = fieldU p o 4 := rfl
    have esat : (frameAt p o).sat = fieldU p (o + 4) 6 := rfl
    have eep : (frameAt p o).epoch = fieldU p (o + 19) 30 := rfl
    have esz : (frameAt p o).size = frameSize p o := rfl
    have hdata : (frameAt p o).data = wordsAt p (o + 62) (frameSize p o) := rfl
    have hlen : (wordsAt p (o + 62) (frameSize p o)).length = (frameSize p o + 31) / 32 := by unfold wordsAt; simp
    rw [hdata, esat, eep, List.take_of_length_le (by
      rw [hlen, esz]
      by_cases hr : frameSize p o % 32 > 0
      · rw [if_pos hr]; omega
      · rw [if_neg hr]; omega)]
    by_cases h3 : fieldU p o 4 = 3
    · rw [if_pos (esys.trans h3)]
      by_cases h4 : 256 ≤ frameSize p o ∧ frameSize p o ≤ 288
      · rw [if_pos ⟨h3, h4⟩, sbasMsg_at L.eph p _ _ _ _ h4.1 h4.2 hend]
        rfl
      · rw [if_neg (fun h => h4 h.2)]
        have : Ubx.sbasMsg L.eph (fieldU p (o + 19) 30) (fieldU p (o + 4) 6 + 120) (wordsAt p (o + 62) (frameSize p o)) = none := by
          unfold Ubx.sbasMsg
          rw [if_pos (Or.inr (Or.inr (by rw [hlen]; have := hsk h3; omega)))]
        rw [this]; rfl
    · rw [if_neg (fun h => h3 (esys.symm.trans h)), if_neg (fun h => h3 h.1)]
  · rw [if_neg h2]
    have : decode4075 (p ++ x.after) = some (.error .invalid) := by
      unfold decode4075
      have := hw.1
      rw [rawGet_at p x.after 0 12 (by omega) (by omega), rawGet_at p x.after 12 12 (by omega) (by omega),
        rawGet_at p x.after 24 2 (by omega) (by omega)]
      simp only [Option.bind_eq_bind, Option.bind_some]
      rw [if_neg (not_not.2 h1), if_pos h2]
    rw [this]

/-! ### witnesses -/

def exLib : Lib Unit Nat := ⟨fun _ _ => none, Ubx.exEph⟩

/-- header: type 4075, station 5, one frame -/
def exHead : Buf := [0xFE, 0xB0, 0x05, 0x01]
/-- an SBAS frame of satellite 121, epoch 7, with 256 bits of data -/
def exFrame : Buf := [0x30, 0x40, 0x00, 0x00, 0x00, 0x03, 0x84, 0x01, 0x4C] ++ List.replicate 31 0
/-- the same with 250 bits, the last two data bits set and checksum 0 -/
def ex250 : Buf := [0x30, 0x40, 0x00, 0x00, 0x00, 0x03, 0x83, 0xE9, 0x4C] ++ List.replicate 26 0 ++ [0x03, 0, 0, 0]

/-- the hypotheses of `C68_sbas_partial` are met, and a message comes out -/
example (env : Env) (s : State) (t : GpsTime) (b : Bool) (after : Buf) :
    miscOut env exLib s ⟨{ solved := b, time := t, payload := exHead ++ exFrame }, after, []⟩ = some [(0xF085, .sbas 7121)] := by
  have e1 : (exHead ++ exFrame).length ≤ 1023 := by decide +kernel
  have e2 : fieldU (exHead ++ exFrame) 0 12 = 4075 := by decide +kernel
  have e3 : Whole4075 (exHead ++ exFrame) := by decide +kernel
  have e4 : ∀ k < fieldU (exHead ++ exFrame) 26 6, fieldU (exHead ++ exFrame) (frameStart (exHead ++ exFrame) k) 4 = 3 →
      ¬ (225 ≤ frameSize (exHead ++ exFrame) (frameStart (exHead ++ exFrame) k) ∧
        frameSize (exHead ++ exFrame) (frameStart (exHead ++ exFrame) k) ≤ 255) := by decide +kernel
  rw [C68_sbas_partial env exLib s ⟨{ solved := b, time := t, payload := exHead ++ exFrame }, after, []⟩ e1 e2 e3 e4]
  simp only
  decide +kernel

/-- **C68** Defect: a 4075 message of four bytes that announces a frame makes the decoder read what follows in memory: nothing readable
there is an out-of-bounds read (`none`), and other contents of that memory are sent as an SBAS message. -/
theorem C68_overread_bug (env : Env) (s : State) (t : GpsTime) (b : Bool) :
    miscOut env exLib s ⟨{ solved := b, time := t, payload := exHead }, [], []⟩ = none ∧
    miscOut env exLib s ⟨{ solved := b, time := t, payload := exHead }, exFrame, []⟩ = some [(0xF085, .sbas 7121)] := by
  have e1 : decode4075 (exHead ++ []) = none := by decide +kernel
  have e2 : decode4075 (exHead ++ exFrame) = some (.ok (5, [frameAt (exHead ++ exFrame) 32])) := by decide +kernel
  have e3 : 2 ≤ exHead.length := by decide +kernel
  have e4 : fieldU exHead 0 12 = 4075 := by decide +kernel
  constructor
  · rw [ndf_out env exLib s ⟨{ solved := b, time := t, payload := exHead }, [], []⟩ e3 e4]
    simp only
    rw [e1]
  · rw [ndf_out env exLib s ⟨{ solved := b, time := t, payload := exHead }, exFrame, []⟩ e3 e4]
    simp only
    rw [e2]
    decide +kernel

/-- **C68** Defect: an SBAS frame of 250 bits, the length of an SBAS message, is not handed on although it is a valid SBAS message: the 26
bits of its last word are taken as the low instead of the high bits of the word. -/
theorem C68_250_bug (env : Env) (s : State) (t : GpsTime) (b : Bool) (after : Buf) :
    Whole4075 (exHead ++ ex250) ∧ frameSize (exHead ++ ex250) 32 = 250 ∧
    sbasOf Ubx.exEph 121 7 ((bitsOf (exHead ++ ex250)).drop 94) = some 7121 ∧
    miscOut env exLib s ⟨{ solved := b, time := t, payload := exHead ++ ex250 }, after, []⟩ = some [] := by
  refine ⟨by decide +kernel, by decide +kernel, by decide +kernel, ?_⟩
  have e3 : 2 ≤ (exHead ++ ex250).length := by decide +kernel
  have e4 : fieldU (exHead ++ ex250) 0 12 = 4075 := by decide +kernel
  rw [ndf_out env exLib s ⟨{ solved := b, time := t, payload := exHead ++ ex250 }, after, []⟩ e3 e4]
  simp only
  rw [C68_decode_partial (exHead ++ ex250) after (by decide +kernel) e4 (by decide +kernel) (by decide +kernel)]
  decide +kernel

end Verif.Misc
