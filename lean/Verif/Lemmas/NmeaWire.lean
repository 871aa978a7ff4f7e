import Verif.Spec.NmeaWire
import Verif.Lemmas.NmeaRun
import Verif.Lemmas.NmeaCog
/-
Everything stored came over the wire.
-/
namespace Verif.Nmea
open Verif.Nmea.Spec Verif.Fp

/-- the stored messages are in range; `H` is a further condition on positions -/
structure WireSt (H : Pos → Prop) (st : St) : Prop where
  ext : ∀ b, H (st.store.pos b)
  utc : ∀ b, WireMsg (.utc b (st.store.utc b))
  pos : ∀ b, WireMsg (.pos b (st.store.pos b))
  vel : ∀ b, WireMsg (.vel b (st.store.vel b))
  dops : WireMsg (.dops st.store.dops)
  age : WireMsg (.age st.store.age)
  hdg : WireMsg (.hdg st.store.hdg)
  azel : WireMsg (.azel st.store.azel)
  meas : WireMsg (.meas st.store.meas)
  soln : WireMsg (.solnMeta st.store.solnMeta)
  orient : WireMsg (.orient st.store.orient)
  cog : CogOk st.lastCog
  nav : ∀ x ∈ st.navSids, x.sat < 256

theorem WireSt.init {H : Pos → Prop} (h0 : H {}) (mode : Mode) (freq : ℚ) : WireSt H (Nmea.init mode freq) where
  ext := fun _ => h0
  utc := fun _ => Or.inl rfl
  pos := fun _ => by show 0 < 256; omega
  vel := fun _ => (by decide : WireMsg (.vel true {}))
  dops := (by decide : WireMsg (.dops {}))
  age := by show 0 < 65536; omega
  hdg := by show 0 < 4294967296; omega
  azel := by intro a ha; exact absurd ha List.not_mem_nil
  meas := by intro a ha; exact absurd ha List.not_mem_nil
  soln := (by decide : WireMsg (.solnMeta {}))
  orient := (by decide : WireMsg (.orient {}))
  cog := cogOk_zero
  nav := by intro a ha; exact absurd ha List.not_mem_nil

theorem wireMsg_recode (st : St) (m : Msg) (h : WireMsg m) : WireMsg (recode st m) := by
  unfold recode
  split
  · cases m <;> exact h
  · exact h

/-- the extra condition on an input -/
def PosIn (H : Pos → Prop) : Msg → Prop
  | .pos _ p => H p
  | _ => True

theorem posIn_recode {H : Pos → Prop} (st : St) (m : Msg) (h : PosIn H m) : PosIn H (recode st m) := by
  unfold recode
  split
  · cases m <;> exact h
  · exact h

theorem WireSt.set {H : Pos → Prop} {st : St} (h : WireSt H st) {m : Msg} (hm : WireMsg m) (hH : PosIn H m) :
    WireSt H { st with store := st.store.set m } := by
  obtain ⟨h0, h1, h2, h3, h4, h5, h6, h7, h8, h9, h10, h11, h12⟩ := h
  cases m with
  | utc g t => exact ⟨h0, fun b => by by_cases hb : b = g <;> simp [Store.set, hb, WireMsg] <;> first | exact hm | exact h1 b, h2, h3, h4, h5, h6, h7, h8, h9, h10, h11, h12⟩
  | pos g t => exact ⟨fun b => by by_cases hb : b = g <;> simp [Store.set, hb] <;> first | exact hH | exact h0 b, h1, fun b => by by_cases hb : b = g <;> simp [Store.set, hb, WireMsg] <;> first | exact hm | exact h2 b, h3, h4, h5, h6, h7, h8, h9, h10, h11, h12⟩
  | vel g t =>
    refine ⟨h0, h1, h2, fun b => ?_, h4, h5, h6, h7, h8, h9, h10, h11, h12⟩
    by_cases hb : b = g
    · simp only [Store.set, hb, if_true]; exact hm
    · simp only [Store.set, hb, if_false]; exact h3 b
  | gpsTime g t => exact ⟨h0, h1, h2, h3, h4, h5, h6, h7, h8, h9, h10, h11, h12⟩
  | dops t => exact ⟨h0, h1, h2, h3, hm, h5, h6, h7, h8, h9, h10, h11, h12⟩
  | age t => exact ⟨h0, h1, h2, h3, h4, hm, h6, h7, h8, h9, h10, h11, h12⟩
  | hdg t => exact ⟨h0, h1, h2, h3, h4, h5, hm, h7, h8, h9, h10, h11, h12⟩
  | azel t => exact ⟨h0, h1, h2, h3, h4, h5, h6, hm, h8, h9, h10, h11, h12⟩
  | meas t => exact ⟨h0, h1, h2, h3, h4, h5, h6, h7, hm, h9, h10, h11, h12⟩
  | groupMeta => exact ⟨h0, h1, h2, h3, h4, h5, h6, h7, h8, h9, h10, h11, h12⟩
  | solnMeta t => exact ⟨h0, h1, h2, h3, h4, h5, h6, h7, h8, hm, h10, h11, h12⟩
  | orient t => exact ⟨h0, h1, h2, h3, h4, h5, h6, h7, h8, h9, hm, h11, h12⟩

/-- every sentence is sent from a state holding messages in range -/
theorem wire_run {L : Lib} {H : Pos → Prop} (hL : CourseBounded L) {is : List In} {st st' : St} {es : List Emit} (h0 : WireSt H st)
    (hI : ∀ i ∈ is, WireIn i) (hH : ∀ g p, In.msg (.pos g p) ∈ is → H p) (h : run L st is = some (st', es)) :
    WireSt H st' ∧ ∀ e ∈ es, SentFrom L (WireSt H) e := by
  refine run_inv (P := WireSt H) (I := fun i => WireIn i ∧ ∀ m, i = .msg m → PosIn H m) ?_ ?_ is h0
    (fun i hi => ⟨hI i hi, fun m hm => by subst hm; cases m <;> first | trivial | exact hH _ _ hi⟩) h
  · intro st i st1 b hP hi ha
    cases i with
    | msg m =>
      obtain ⟨a, w, rfl | rfl⟩ := absorb_msg ha
      · obtain ⟨h0, h1, h2, h3, h4, h5, h6, h7, h8, h9, h10, h11, h12⟩ := hP
        exact ⟨h0, h1, h2, h3, h4, h5, h6, h7, h8, h9, h10, h11, h12⟩
      · obtain ⟨h0, h1, h2, h3, h4, h5, h6, h7, h8, h9, h10, h11, h12⟩ := hP.set (wireMsg_recode st m hi.1) (posIn_recode st m (hi.2 m rfl))
        exact ⟨h0, h1, h2, h3, h4, h5, h6, h7, h8, h9, h10, h11, h12⟩
    | obs o =>
      obtain ⟨_, _, _, _, _, rfl, hx⟩ := absorb_obs ha
      obtain ⟨h0, h1, h2, h3, h4, h5, h6, h7, h8, h9, h10, h11, h12⟩ := hP
      exact ⟨h0, h1, h2, h3, h4, h5, h6, h7, h8, h9, h10, h11, fun x hm => by
        rcases hx x hm with h | h
        · exact h12 x h
        · exact hi.1 x h⟩
    | rate | baseId | cogThreshold | cogStationary =>
      simp only [absorb, Option.some.injEq, Prod.mk.injEq] at ha
      obtain ⟨rfl, -⟩ := ha
      obtain ⟨h0, h1, h2, h3, h4, h5, h6, h7, h8, h9, h10, h11, h12⟩ := hP
      exact ⟨h0, h1, h2, h3, h4, h5, h6, h7, h8, h9, h10, h11, h12⟩
  · intro st id st1 ss hP hs
    have hst := send_state hs
    have hc : CogOk st1.lastCog := by
      rcases send_cog hs with h | h
      · rw [h]; exact hP.cog
      · rw [h]; exact (calcCog_ok (hL _ _) hP.cog).1
    obtain ⟨h0, h1, h2, h3, h4, h5, h6, h7, h8, h9, h10, h11, h12⟩ := hP
    have e : (mark st st1 id).store = st.store := by rw [hst]; rfl
    have e' : (mark st st1 id).navSids = st.navSids := by rw [hst]; rfl
    exact ⟨by rw [e]; exact h0, by rw [e]; exact h1, by rw [e]; exact h2, by rw [e]; exact h3, by rw [e]; exact h4, by rw [e]; exact h5,
      by rw [e]; exact h6, by rw [e]; exact h7, by rw [e]; exact h8, by rw [e]; exact h9, by rw [e]; exact h10, hc, by rw [e']; exact h12⟩

end Verif.Nmea
