import Verif.Lemmas.UbxMsg

set_option linter.unusedSimpArgs false
/-! The codec of each UBX message: round trip, inverse, layout, errors. -/
namespace Verif.Ubx
open Verif.Ubx.Spec

attribute [local irreducible] get repeatD reject put putN

macro "rtrip" h1:ident h2:ident : tactic => `(tactic| (
  simp only [List.append_assoc]
  rw [get_bind (by decide), get_bind (by decide), $h1:ident, $h2:ident, reject_bind (by decide), reject_bind (by decide)]
  repeat (first | rw [get_bind (by decide)] | rw [rep_bind (by decide) _ (by assumption)])))

set_option hygiene false in
macro "undoGet" : tactic => `(tactic| (
  (obtain ⟨_, _, e, h'⟩ := get_bind_inv (by decide) h; rw [e]; clear e h; rename' h' => h)))

set_option hygiene false in
macro "undoHead" : tactic => `(tactic| (
  (obtain ⟨x, b1, e, h'⟩ := get_bind_inv (by decide) h; rw [e]; clear e h; rename' h' => h)
  (obtain ⟨y, b2, e, h'⟩ := get_bind_inv (by decide) h; rw [e]; clear e h; rename' h' => h)
  (obtain ⟨h1, h'⟩ := reject_bind_inv h; clear h; rename' h' => h)
  (obtain ⟨h2, h'⟩ := reject_bind_inv h; clear h; rename' h' => h)
  replace h1 := not_not.1 h1
  replace h2 := not_not.1 h2))

set_option hygiene false in
macro "undo" : tactic => `(tactic| (
  undoHead
  repeat (first
    | undoGet
    | (obtain ⟨_, _, hl, e, h'⟩ := rep_bind_inv (by decide) h; rw [e]; clear e h; rename' h' => h))
  obtain ⟨rfl, rfl⟩ := pure_inv h))

macro "shorts1" : tactic => `(tactic|
  first | exact short_get _ _ | exact short_pure _ | exact short_rep _ (short_get _ _) | exact short_invalid _ | apply short_bind | intro _)
macro "shorts" : tactic => `(tactic| repeat' shorts1)

theorem rtHnrPvt : RoundTrip decHnrPvt encHnrPvt wfHnrPvt := by
  intro m rest h
  obtain ⟨h1, h2, _, _⟩ := h
  unfold decHnrPvt encHnrPvt
  rtrip h1 h2
  rw [← h1, ← h2]; rfl

theorem asHnrPvt (m : HnrPvt) (rest : Buf) : encHnrPvt m ++ rest =
    put 1 m.class_id ++ (put 1 m.msg_id ++ (put 2 m.length ++ (put 4 m.i_tow ++ (put 2 m.year ++ (put 1 m.month ++
    (put 1 m.day ++ (put 1 m.hour ++ (put 1 m.min ++ (put 1 m.sec ++ (put 1 m.valid ++ (put 4 m.nano ++ (put 1
    m.fix_type ++ (put 1 m.flags ++ (putN 2 1 m.reserved1 ++ (put 4 m.lon ++ (put 4 m.lat ++ (put 4 m.height ++ (put
    4 m.height_mean_sea_level ++ (put 4 m.ground_speed ++ (put 4 m.speed ++ (put 4 m.heading_of_motion ++ (put 4
    m.heading_vehicle ++ (put 4 m.horizontal_accuracy ++ (put 4 m.vertical_accuracy ++ (put 4 m.speed_acc ++ (put 4
    m.heading_acc ++ (putN 4 1 m.reserved2 ++ rest))))))))))))))))))))))))))) := by
  unfold encHnrPvt
  simp only [List.append_assoc]

theorem invHnrPvt (b : Buf) (m : HnrPvt) (rest : Buf) (h : decHnrPvt b = .ok (m, rest)) : wfHnrPvt m ∧ b = encHnrPvt m ++ rest := by
  unfold decHnrPvt at h
  undo
  refine ⟨⟨h1, h2, by assumption, by assumption⟩, ?_⟩
  rw [asHnrPvt]

theorem flHnrPvt : Follows decHnrPvt 0x28 0x00 (·.length) wfHnrPvt hnrPvt (fun _ => 72) := by
  intro b m rest h
  obtain ⟨hw, e⟩ := invHnrPvt _ _ _ h
  rw [e]
  refine ⟨hw, ⟨encHnrPvt m, rfl, ?_⟩, ?_⟩
  · unfold encHnrPvt
    simp only [List.length_append, length_put, length_putN]
  · rw [asHnrPvt]
    simp (config := {decide := true}) only [hnrPvt, List.forall_mem_cons, leAt_here, leAt_skip, leAt_skipN, hw.1, hw.2.1, Nat.reduceSub,
      Nat.reduceMul, Nat.reduceAdd, Nat.reduceLeDiff, true_and, and_true, List.not_mem_nil, false_imp_iff, implies_true]

theorem errHnrPvt (b e) (h : decHnrPvt b = .error e) : e = -2 ∨ ∃ x y r, b = x :: y :: r ∧ (x ≠ 0x28#8 ∨ y ≠ 0x00#8) := by
  refine header_err 0x28#8 0x00#8 _ ?_ b e h
  intro c i
  shorts

theorem rejHnrPvt : Rejects decHnrPvt 0x28#8 0x00#8 := header_rejects _ _ _

theorem rtNavAtt : RoundTrip decNavAtt encNavAtt wfNavAtt := by
  intro m rest h
  obtain ⟨h1, h2, _⟩ := h
  unfold decNavAtt encNavAtt
  rtrip h1 h2
  rw [← h1, ← h2]; rfl

theorem asNavAtt (m : NavAtt) (rest : Buf) : encNavAtt m ++ rest =
    put 1 m.class_id ++ (put 1 m.msg_id ++ (put 2 m.length ++ (put 4 m.i_tow ++ (put 1 m.version ++ (putN 3 1
    m.reserved ++ (put 4 m.roll ++ (put 4 m.pitch ++ (put 4 m.heading ++ (put 4 m.acc_roll ++ (put 4 m.acc_pitch ++
    (put 4 m.acc_heading ++ rest))))))))))) := by
  unfold encNavAtt
  simp only [List.append_assoc]

theorem invNavAtt (b : Buf) (m : NavAtt) (rest : Buf) (h : decNavAtt b = .ok (m, rest)) : wfNavAtt m ∧ b = encNavAtt m ++ rest := by
  unfold decNavAtt at h
  undo
  refine ⟨⟨h1, h2, by assumption⟩, ?_⟩
  rw [asNavAtt]

theorem flNavAtt : Follows decNavAtt 0x01 0x05 (·.length) wfNavAtt navAtt (fun _ => 32) := by
  intro b m rest h
  obtain ⟨hw, e⟩ := invNavAtt _ _ _ h
  rw [e]
  refine ⟨hw, ⟨encNavAtt m, rfl, ?_⟩, ?_⟩
  · unfold encNavAtt
    simp only [List.length_append, length_put, length_putN]
  · rw [asNavAtt]
    simp (config := {decide := true}) only [navAtt, List.forall_mem_cons, leAt_here, leAt_skip, leAt_skipN, hw.1, hw.2.1, Nat.reduceSub,
      Nat.reduceMul, Nat.reduceAdd, Nat.reduceLeDiff, true_and, and_true, List.not_mem_nil, false_imp_iff, implies_true]

theorem errNavAtt (b e) (h : decNavAtt b = .error e) : e = -2 ∨ ∃ x y r, b = x :: y :: r ∧ (x ≠ 0x01#8 ∨ y ≠ 0x05#8) := by
  refine header_err 0x01#8 0x05#8 _ ?_ b e h
  intro c i
  shorts

theorem rejNavAtt : Rejects decNavAtt 0x01#8 0x05#8 := header_rejects _ _ _

theorem rtNavClock : RoundTrip decNavClock encNavClock wfNavClock := by
  intro m rest h
  obtain ⟨h1, h2⟩ := h
  unfold decNavClock encNavClock
  rtrip h1 h2
  rw [← h1, ← h2]; rfl

theorem asNavClock (m : NavClock) (rest : Buf) : encNavClock m ++ rest =
    put 1 m.class_id ++ (put 1 m.msg_id ++ (put 2 m.length ++ (put 4 m.i_tow ++ (put 4 m.clk_bias ++ (put 4
    m.clk_drift ++ (put 4 m.time_acc ++ (put 4 m.freq_acc ++ rest))))))) := by
  unfold encNavClock
  simp only [List.append_assoc]

theorem invNavClock (b : Buf) (m : NavClock) (rest : Buf) (h : decNavClock b = .ok (m, rest)) : wfNavClock m ∧ b = encNavClock m ++ rest := by
  unfold decNavClock at h
  undo
  refine ⟨⟨h1, h2⟩, ?_⟩
  rw [asNavClock]

theorem flNavClock : Follows decNavClock 0x01 0x22 (·.length) wfNavClock navClock (fun _ => 20) := by
  intro b m rest h
  obtain ⟨hw, e⟩ := invNavClock _ _ _ h
  rw [e]
  refine ⟨hw, ⟨encNavClock m, rfl, ?_⟩, ?_⟩
  · unfold encNavClock
    simp only [List.length_append, length_put, length_putN]
  · rw [asNavClock]
    simp (config := {decide := true}) only [navClock, List.forall_mem_cons, leAt_here, leAt_skip, leAt_skipN, hw.1, hw.2, Nat.reduceSub,
      Nat.reduceMul, Nat.reduceAdd, Nat.reduceLeDiff, true_and, and_true, List.not_mem_nil, false_imp_iff, implies_true]

theorem errNavClock (b e) (h : decNavClock b = .error e) : e = -2 ∨ ∃ x y r, b = x :: y :: r ∧ (x ≠ 0x01#8 ∨ y ≠ 0x22#8) := by
  refine header_err 0x01#8 0x22#8 _ ?_ b e h
  intro c i
  shorts

theorem rejNavClock : Rejects decNavClock 0x01#8 0x22#8 := header_rejects _ _ _

theorem rtNavPvt : RoundTrip decNavPvt encNavPvt wfNavPvt := by
  intro m rest h
  obtain ⟨h1, h2, _⟩ := h
  unfold decNavPvt encNavPvt
  rtrip h1 h2
  rw [← h1, ← h2]; rfl

theorem asNavPvt (m : NavPvt) (rest : Buf) : encNavPvt m ++ rest =
    put 1 m.class_id ++ (put 1 m.msg_id ++ (put 2 m.length ++ (put 4 m.i_tow ++ (put 2 m.year ++ (put 1 m.month ++
    (put 1 m.day ++ (put 1 m.hour ++ (put 1 m.min ++ (put 1 m.sec ++ (put 1 m.valid ++ (put 4 m.time_acc ++ (put 4
    m.nano ++ (put 1 m.fix_type ++ (put 1 m.flags ++ (put 1 m.flags2 ++ (put 1 m.num_sats ++ (put 4 m.lon ++ (put 4
    m.lat ++ (put 4 m.height ++ (put 4 m.height_mean_sea_level ++ (put 4 m.horizontal_accuracy ++ (put 4
    m.vertical_accuracy ++ (put 4 m.vel_north ++ (put 4 m.vel_east ++ (put 4 m.vel_down ++ (put 4 m.ground_speed ++
    (put 4 m.heading_of_motion ++ (put 4 m.speed_acc ++ (put 4 m.heading_acc ++ (put 2 m.PDOP ++ (put 1 m.flags3 ++
    (putN 5 1 m.reserved1 ++ (put 4 m.heading_vehicle ++ (put 2 m.magnetic_declination ++ (put 2
    m.magnetic_declination_accuracy ++ rest))))))))))))))))))))))))))))))))))) := by
  unfold encNavPvt
  simp only [List.append_assoc]

theorem invNavPvt (b : Buf) (m : NavPvt) (rest : Buf) (h : decNavPvt b = .ok (m, rest)) : wfNavPvt m ∧ b = encNavPvt m ++ rest := by
  unfold decNavPvt at h
  undo
  refine ⟨⟨h1, h2, by assumption⟩, ?_⟩
  rw [asNavPvt]

theorem flNavPvt : Follows decNavPvt 0x01 0x07 (·.length) wfNavPvt navPvt (fun _ => 92) := by
  intro b m rest h
  obtain ⟨hw, e⟩ := invNavPvt _ _ _ h
  rw [e]
  refine ⟨hw, ⟨encNavPvt m, rfl, ?_⟩, ?_⟩
  · unfold encNavPvt
    simp only [List.length_append, length_put, length_putN]
  · rw [asNavPvt]
    simp (config := {decide := true}) only [navPvt, List.forall_mem_cons, leAt_here, leAt_skip, leAt_skipN, hw.1, hw.2.1, Nat.reduceSub,
      Nat.reduceMul, Nat.reduceAdd, Nat.reduceLeDiff, true_and, and_true, List.not_mem_nil, false_imp_iff, implies_true]

theorem errNavPvt (b e) (h : decNavPvt b = .error e) : e = -2 ∨ ∃ x y r, b = x :: y :: r ∧ (x ≠ 0x01#8 ∨ y ≠ 0x07#8) := by
  refine header_err 0x01#8 0x07#8 _ ?_ b e h
  intro c i
  shorts

theorem rejNavPvt : Rejects decNavPvt 0x01#8 0x07#8 := header_rejects _ _ _

theorem rtNavVelecef : RoundTrip decNavVelecef encNavVelecef wfNavVelecef := by
  intro m rest h
  obtain ⟨h1, h2⟩ := h
  unfold decNavVelecef encNavVelecef
  rtrip h1 h2
  rw [← h1, ← h2]; rfl

theorem asNavVelecef (m : NavVelecef) (rest : Buf) : encNavVelecef m ++ rest =
    put 1 m.class_id ++ (put 1 m.msg_id ++ (put 2 m.length ++ (put 4 m.i_tow ++ (put 4 m.ecefVX ++ (put 4 m.ecefVY
    ++ (put 4 m.ecefVZ ++ (put 4 m.speed_acc ++ rest))))))) := by
  unfold encNavVelecef
  simp only [List.append_assoc]

theorem invNavVelecef (b : Buf) (m : NavVelecef) (rest : Buf) (h : decNavVelecef b = .ok (m, rest)) : wfNavVelecef m ∧ b = encNavVelecef m ++ rest := by
  unfold decNavVelecef at h
  undo
  refine ⟨⟨h1, h2⟩, ?_⟩
  rw [asNavVelecef]

theorem flNavVelecef : Follows decNavVelecef 0x01 0x11 (·.length) wfNavVelecef navVelecef (fun _ => 20) := by
  intro b m rest h
  obtain ⟨hw, e⟩ := invNavVelecef _ _ _ h
  rw [e]
  refine ⟨hw, ⟨encNavVelecef m, rfl, ?_⟩, ?_⟩
  · unfold encNavVelecef
    simp only [List.length_append, length_put, length_putN]
  · rw [asNavVelecef]
    simp (config := {decide := true}) only [navVelecef, List.forall_mem_cons, leAt_here, leAt_skip, leAt_skipN, hw.1, hw.2, Nat.reduceSub,
      Nat.reduceMul, Nat.reduceAdd, Nat.reduceLeDiff, true_and, and_true, List.not_mem_nil, false_imp_iff, implies_true]

theorem errNavVelecef (b e) (h : decNavVelecef b = .error e) : e = -2 ∨ ∃ x y r, b = x :: y :: r ∧ (x ≠ 0x01#8 ∨ y ≠ 0x11#8) := by
  refine header_err 0x01#8 0x11#8 _ ?_ b e h
  intro c i
  shorts

theorem rejNavVelecef : Rejects decNavVelecef 0x01#8 0x11#8 := header_rejects _ _ _

theorem rtNavStatus : RoundTrip decNavStatus encNavStatus wfNavStatus := by
  intro m rest h
  obtain ⟨h1, h2⟩ := h
  unfold decNavStatus encNavStatus
  rtrip h1 h2
  rw [← h1, ← h2]; rfl

theorem asNavStatus (m : NavStatus) (rest : Buf) : encNavStatus m ++ rest =
    put 1 m.class_id ++ (put 1 m.msg_id ++ (put 2 m.length ++ (put 4 m.i_tow ++ (put 1 m.fix_type ++ (put 1
    m.status_flags ++ (put 1 m.fix_status ++ (put 1 m.status_flags_ext ++ (put 4 m.ttff_ms ++ (put 4 m.msss ++
    rest))))))))) := by
  unfold encNavStatus
  simp only [List.append_assoc]

theorem invNavStatus (b : Buf) (m : NavStatus) (rest : Buf) (h : decNavStatus b = .ok (m, rest)) : wfNavStatus m ∧ b = encNavStatus m ++ rest := by
  unfold decNavStatus at h
  undo
  refine ⟨⟨h1, h2⟩, ?_⟩
  rw [asNavStatus]

theorem flNavStatus : Follows decNavStatus 0x01 0x03 (·.length) wfNavStatus navStatus (fun _ => 16) := by
  intro b m rest h
  obtain ⟨hw, e⟩ := invNavStatus _ _ _ h
  rw [e]
  refine ⟨hw, ⟨encNavStatus m, rfl, ?_⟩, ?_⟩
  · unfold encNavStatus
    simp only [List.length_append, length_put, length_putN]
  · rw [asNavStatus]
    simp (config := {decide := true}) only [navStatus, List.forall_mem_cons, leAt_here, leAt_skip, leAt_skipN, hw.1, hw.2, Nat.reduceSub,
      Nat.reduceMul, Nat.reduceAdd, Nat.reduceLeDiff, true_and, and_true, List.not_mem_nil, false_imp_iff, implies_true]

theorem errNavStatus (b e) (h : decNavStatus b = .error e) : e = -2 ∨ ∃ x y r, b = x :: y :: r ∧ (x ≠ 0x01#8 ∨ y ≠ 0x03#8) := by
  refine header_err 0x01#8 0x03#8 _ ?_ b e h
  intro c i
  shorts

theorem rejNavStatus : Rejects decNavStatus 0x01#8 0x03#8 := header_rejects _ _ _

theorem rtMgaGpsEph : RoundTrip decMgaGpsEph encMgaGpsEph wfMgaGpsEph := by
  intro m rest h
  obtain ⟨h1, h2, _⟩ := h
  unfold decMgaGpsEph encMgaGpsEph
  rtrip h1 h2
  rw [← h1, ← h2]; rfl

theorem asMgaGpsEph (m : MgaGpsEph) (rest : Buf) : encMgaGpsEph m ++ rest =
    put 1 m.class_id ++ (put 1 m.msg_id ++ (put 2 m.length ++ (put 1 m.msg_type ++ (put 1 m.version ++ (put 1
    m.sat_id ++ (put 1 m.reserved1 ++ (put 1 m.fit_interval ++ (put 1 m.ura_index ++ (put 1 m.sat_health ++ (put 1
    m.tgd ++ (put 2 m.iodc ++ (put 2 m.toc ++ (put 1 m.reserved2 ++ (put 1 m.af2 ++ (put 2 m.af1 ++ (put 4 m.af0 ++
    (put 2 m.crs ++ (put 2 m.delta_N ++ (put 4 m.m0 ++ (put 2 m.cuc ++ (put 2 m.cus ++ (put 4 m.e ++ (put 4 m.sqrt_A
    ++ (put 2 m.toe ++ (put 2 m.cic ++ (put 4 m.omega0 ++ (put 2 m.cis ++ (put 2 m.crc ++ (put 4 m.i0 ++ (put 4
    m.omega ++ (put 4 m.omega_dot ++ (put 2 m.i_dot ++ (putN 2 1 m.reserved3 ++
    rest))))))))))))))))))))))))))))))))) := by
  unfold encMgaGpsEph
  simp only [List.append_assoc]

theorem invMgaGpsEph (b : Buf) (m : MgaGpsEph) (rest : Buf) (h : decMgaGpsEph b = .ok (m, rest)) : wfMgaGpsEph m ∧ b = encMgaGpsEph m ++ rest := by
  unfold decMgaGpsEph at h
  undo
  refine ⟨⟨h1, h2, by assumption⟩, ?_⟩
  rw [asMgaGpsEph]

theorem flMgaGpsEph : Follows decMgaGpsEph 0x13 0x00 (·.length) wfMgaGpsEph mgaGpsEph (fun _ => 68) := by
  intro b m rest h
  obtain ⟨hw, e⟩ := invMgaGpsEph _ _ _ h
  rw [e]
  refine ⟨hw, ⟨encMgaGpsEph m, rfl, ?_⟩, ?_⟩
  · unfold encMgaGpsEph
    simp only [List.length_append, length_put, length_putN]
  · rw [asMgaGpsEph]
    simp (config := {decide := true}) only [mgaGpsEph, List.forall_mem_cons, leAt_here, leAt_skip, leAt_skipN, hw.1, hw.2.1, Nat.reduceSub,
      Nat.reduceMul, Nat.reduceAdd, Nat.reduceLeDiff, true_and, and_true, List.not_mem_nil, false_imp_iff, implies_true]

theorem errMgaGpsEph (b e) (h : decMgaGpsEph b = .error e) : e = -2 ∨ ∃ x y r, b = x :: y :: r ∧ (x ≠ 0x13#8 ∨ y ≠ 0x00#8) := by
  refine header_err 0x13#8 0x00#8 _ ?_ b e h
  intro c i
  shorts

theorem rejMgaGpsEph : Rejects decMgaGpsEph 0x13#8 0x00#8 := header_rejects _ _ _

theorem rtEsfIns : RoundTrip decEsfIns encEsfIns wfEsfIns := by
  intro m rest h
  obtain ⟨h1, h2, _⟩ := h
  unfold decEsfIns encEsfIns
  rtrip h1 h2
  rw [← h1, ← h2]; rfl

theorem asEsfIns (m : EsfIns) (rest : Buf) : encEsfIns m ++ rest =
    put 1 m.class_id ++ (put 1 m.msg_id ++ (put 2 m.length ++ (put 4 m.bitfield0 ++ (putN 4 1 m.reserved1 ++ (put 4
    m.i_tow ++ (put 4 m.x_ang_rate ++ (put 4 m.y_ang_rate ++ (put 4 m.z_ang_rate ++ (put 4 m.x_accel ++ (put 4
    m.y_accel ++ (put 4 m.z_accel ++ rest))))))))))) := by
  unfold encEsfIns
  simp only [List.append_assoc]

theorem invEsfIns (b : Buf) (m : EsfIns) (rest : Buf) (h : decEsfIns b = .ok (m, rest)) : wfEsfIns m ∧ b = encEsfIns m ++ rest := by
  unfold decEsfIns at h
  undo
  refine ⟨⟨h1, h2, by assumption⟩, ?_⟩
  rw [asEsfIns]

theorem flEsfIns : Follows decEsfIns 0x10 0x15 (·.length) wfEsfIns esfIns (fun _ => 36) := by
  intro b m rest h
  obtain ⟨hw, e⟩ := invEsfIns _ _ _ h
  rw [e]
  refine ⟨hw, ⟨encEsfIns m, rfl, ?_⟩, ?_⟩
  · unfold encEsfIns
    simp only [List.length_append, length_put, length_putN]
  · rw [asEsfIns]
    simp (config := {decide := true}) only [esfIns, List.forall_mem_cons, leAt_here, leAt_skip, leAt_skipN, hw.1, hw.2.1, Nat.reduceSub,
      Nat.reduceMul, Nat.reduceAdd, Nat.reduceLeDiff, true_and, and_true, List.not_mem_nil, false_imp_iff, implies_true]

theorem errEsfIns (b e) (h : decEsfIns b = .error e) : e = -2 ∨ ∃ x y r, b = x :: y :: r ∧ (x ≠ 0x10#8 ∨ y ≠ 0x15#8) := by
  refine header_err 0x10#8 0x15#8 _ ?_ b e h
  intro c i
  shorts

theorem rejEsfIns : Rejects decEsfIns 0x10#8 0x15#8 := header_rejects _ _ _

end Verif.Ubx
