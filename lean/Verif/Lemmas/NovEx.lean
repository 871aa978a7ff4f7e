import Verif.Spec.NovSbp
/-! Examples of NovAtel logs, and of the external functions, for the witnesses in Props/C59 to C63. -/
namespace Verif.Nov
open Verif.Nov.Spec
open Verif.Ubx (Fl dbl flt)

theorem exists_rat_near (x : ℝ) : ∃ c : ℚ, |(c : ℝ) - x| ≤ 1 / 10 ^ 14 := by
  obtain ⟨c, h1, h2⟩ := exists_rat_btwn (show x < x + 1 / 10 ^ 14 by linarith [show (0 : ℝ) < 1 / 10 ^ 14 by norm_num])
  refine ⟨c, ?_⟩
  rw [abs_le]
  constructor <;> linarith [show (0 : ℝ) < 1 / 10 ^ 14 by norm_num]

/-- accurate trigonometric functions -/
noncomputable def exTrig : Lib where
  geoid := fun _ _ => .fin 30
  cos := fun x => match x with | .fin x => .fin (exists_rat_near (Real.cos x)).choose | _ => .nan
  sin := fun x => match x with | .fin x => .fin (exists_rat_near (Real.sin x)).choose | _ => .nan
  sqrt := fun _ => .fin 1
  sidValid := fun _ _ => true
  encodeLock := fun _ => 15

theorem exTrig_sane : SaneTrig exTrig := fun x =>
  ⟨⟨_, rfl, (exists_rat_near (Real.cos x)).choose_spec⟩, ⟨_, rfl, (exists_rat_near (Real.sin x)).choose_spec⟩⟩

/-- functions to compute with -/
def exLib : Lib where
  geoid := fun _ _ => .fin 30
  cos := fun _ => .fin 1
  sin := fun _ => .fin 0
  sqrt := fun _ => .fin 5153
  sidValid := fun _ n => 1 ≤ n ∧ n ≤ 32
  encodeLock := fun _ => 15

def exHeader (week : BitVec 16) (ms : BitVec 32) : Header := { message_len := 0, message_id := 0, week, ms, ext := none }

/-- latitude 45.5 degrees, longitude -122.25 degrees, height 10 m; standard deviations 1, 1.5 and 2.5 m -/
def exPosBody : BestPos where
  sol_stat := 0
  pos_type := 50
  lat := 0x4046C00000000000
  lon := 0xC05E900000000000
  hgt := 0x4024000000000000
  undulation := 0
  datum_id := 61
  lat_stddev := 0x3F800000
  lon_stddev := 0x3FC00000
  hgt_stddev := 0x40200000
  stn_id := (0, 0, 0, 0)
  diff_age := 0
  sol_age := 0
  num_sv_tracked := 20
  num_sv_in_soln := 12
  num_sv_in_soln_L1 := 12
  num_sv_in_soln_multi := 12
  reserved := 0
  ext_sol_stat := 0
  galileo_beidou_mask := 0
  gps_glonass_mask := 0

def exPos : Msg := ⟨exHeader 2100 345600000, .bestpos exPosBody⟩

/-- 10 m/s on a track of 45 degrees, 0.5 m/s upward -/
def exVelBody : BestVel where
  sol_stat := 0
  vel_type := 0
  latency := 0
  diff_age := 0
  hor_speed := 0x4024000000000000
  trk_gnd := 0x4046800000000000
  vert_speed := 0x3FE0000000000000
  reserved := 0

def exVel : Msg := ⟨exHeader 2100 345600000, .bestvel exVelBody⟩

/-- roll 1.5, pitch -2.25, azimuth 90 degrees -/
def exAttBody : InsAtt where
  gnss_week := 2100
  tow := 0
  roll := 0x3FF8000000000000
  pitch := 0xC002000000000000
  azimuth := 0x4056800000000000
  status := 3

def exIns : Msg := ⟨exHeader 2100 345600000, .insatt exAttBody⟩

end Verif.Nov
