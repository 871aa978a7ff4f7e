import Verif.Model.Eph
namespace Verif.Spec

/-- 1019 field widths (RTCM 10403.3 table 3.5-21); members not transmitted are zero. -/
structure WF1019 (m : KepEph) : Prop where
  satId : m.satId < 2 ^ 6
  wn : m.wn < 2 ^ 10
  ura : m.ura < 2 ^ 4
  codeL2 : m.codeL2 < 2 ^ 2
  incDot : -(2 ^ 13) ≤ m.incDot ∧ m.incDot < 2 ^ 13
  iode : m.iode < 2 ^ 8
  toc : m.toc < 2 ^ 16
  af2 : -(2 ^ 7) ≤ m.af2 ∧ m.af2 < 2 ^ 7
  af1 : -(2 ^ 15) ≤ m.af1 ∧ m.af1 < 2 ^ 15
  af0 : -(2 ^ 21) ≤ m.af0 ∧ m.af0 < 2 ^ 21
  iodc : m.iodc < 2 ^ 10
  crs : -(2 ^ 15) ≤ m.crs ∧ m.crs < 2 ^ 15
  dn : -(2 ^ 15) ≤ m.dn ∧ m.dn < 2 ^ 15
  m0 : -(2 ^ 31) ≤ m.m0 ∧ m.m0 < 2 ^ 31
  cuc : -(2 ^ 15) ≤ m.cuc ∧ m.cuc < 2 ^ 15
  ecc : m.ecc < 2 ^ 32
  cus : -(2 ^ 15) ≤ m.cus ∧ m.cus < 2 ^ 15
  sqrta : m.sqrta < 2 ^ 32
  toe : m.toe < 2 ^ 16
  cic : -(2 ^ 15) ≤ m.cic ∧ m.cic < 2 ^ 15
  omega0 : -(2 ^ 31) ≤ m.omega0 ∧ m.omega0 < 2 ^ 31
  cis : -(2 ^ 15) ≤ m.cis ∧ m.cis < 2 ^ 15
  inc : -(2 ^ 31) ≤ m.inc ∧ m.inc < 2 ^ 31
  crc : -(2 ^ 15) ≤ m.crc ∧ m.crc < 2 ^ 15
  w : -(2 ^ 31) ≤ m.w ∧ m.w < 2 ^ 31
  omegadot : -(2 ^ 23) ≤ m.omegadot ∧ m.omegadot < 2 ^ 23
  tgd0 : -(2 ^ 7) ≤ m.tgd0 ∧ m.tgd0 < 2 ^ 7
  healthBits : m.healthBits < 2 ^ 6
  l2DataBit : m.l2DataBit < 2 ^ 1
  fitInterval : m.fitInterval < 2 ^ 1
  tgd1 : m.tgd1 = 0
/-- 1042 field widths; Beidou GEO satellites (PRN 1..5) are not supported by the code; members not transmitted are zero. -/
structure WF1042 (m : KepEph) : Prop where
  satId : m.satId < 2 ^ 6
  wn : m.wn < 2 ^ 13
  ura : m.ura < 2 ^ 4
  incDot : -(2 ^ 13) ≤ m.incDot ∧ m.incDot < 2 ^ 13
  iode : m.iode < 2 ^ 5
  toc : m.toc < 2 ^ 17
  af2 : -(2 ^ 10) ≤ m.af2 ∧ m.af2 < 2 ^ 10
  af1 : -(2 ^ 21) ≤ m.af1 ∧ m.af1 < 2 ^ 21
  af0 : -(2 ^ 23) ≤ m.af0 ∧ m.af0 < 2 ^ 23
  iodc : m.iodc < 2 ^ 5
  crs : -(2 ^ 17) ≤ m.crs ∧ m.crs < 2 ^ 17
  dn : -(2 ^ 15) ≤ m.dn ∧ m.dn < 2 ^ 15
  m0 : -(2 ^ 31) ≤ m.m0 ∧ m.m0 < 2 ^ 31
  cuc : -(2 ^ 17) ≤ m.cuc ∧ m.cuc < 2 ^ 17
  ecc : m.ecc < 2 ^ 32
  cus : -(2 ^ 17) ≤ m.cus ∧ m.cus < 2 ^ 17
  sqrta : m.sqrta < 2 ^ 32
  toe : m.toe < 2 ^ 17
  cic : -(2 ^ 17) ≤ m.cic ∧ m.cic < 2 ^ 17
  omega0 : -(2 ^ 31) ≤ m.omega0 ∧ m.omega0 < 2 ^ 31
  cis : -(2 ^ 17) ≤ m.cis ∧ m.cis < 2 ^ 17
  inc : -(2 ^ 31) ≤ m.inc ∧ m.inc < 2 ^ 31
  crc : -(2 ^ 17) ≤ m.crc ∧ m.crc < 2 ^ 17
  w : -(2 ^ 31) ≤ m.w ∧ m.w < 2 ^ 31
  omegadot : -(2 ^ 23) ≤ m.omegadot ∧ m.omegadot < 2 ^ 23
  tgd0 : -(2 ^ 9) ≤ m.tgd0 ∧ m.tgd0 < 2 ^ 9
  tgd1 : -(2 ^ 9) ≤ m.tgd1 ∧ m.tgd1 < 2 ^ 9
  healthBits : m.healthBits < 2 ^ 1
  notGeo : 5 < m.satId
  rest : m.fitInterval = 0 ∧ m.codeL2 = 0 ∧ m.l2DataBit = 0
/-- 1044 field widths; members not transmitted are zero. -/
structure WF1044 (m : KepEph) : Prop where
  satId : m.satId < 2 ^ 4
  toc : m.toc < 2 ^ 16
  af2 : -(2 ^ 7) ≤ m.af2 ∧ m.af2 < 2 ^ 7
  af1 : -(2 ^ 15) ≤ m.af1 ∧ m.af1 < 2 ^ 15
  af0 : -(2 ^ 21) ≤ m.af0 ∧ m.af0 < 2 ^ 21
  iode : m.iode < 2 ^ 8
  crs : -(2 ^ 15) ≤ m.crs ∧ m.crs < 2 ^ 15
  dn : -(2 ^ 15) ≤ m.dn ∧ m.dn < 2 ^ 15
  m0 : -(2 ^ 31) ≤ m.m0 ∧ m.m0 < 2 ^ 31
  cuc : -(2 ^ 15) ≤ m.cuc ∧ m.cuc < 2 ^ 15
  ecc : m.ecc < 2 ^ 32
  cus : -(2 ^ 15) ≤ m.cus ∧ m.cus < 2 ^ 15
  sqrta : m.sqrta < 2 ^ 32
  toe : m.toe < 2 ^ 16
  cic : -(2 ^ 15) ≤ m.cic ∧ m.cic < 2 ^ 15
  omega0 : -(2 ^ 31) ≤ m.omega0 ∧ m.omega0 < 2 ^ 31
  cis : -(2 ^ 15) ≤ m.cis ∧ m.cis < 2 ^ 15
  inc : -(2 ^ 31) ≤ m.inc ∧ m.inc < 2 ^ 31
  crc : -(2 ^ 15) ≤ m.crc ∧ m.crc < 2 ^ 15
  w : -(2 ^ 31) ≤ m.w ∧ m.w < 2 ^ 31
  omegadot : -(2 ^ 23) ≤ m.omegadot ∧ m.omegadot < 2 ^ 23
  incDot : -(2 ^ 13) ≤ m.incDot ∧ m.incDot < 2 ^ 13
  wn : m.wn < 2 ^ 10
  ura : m.ura < 2 ^ 4
  healthBits : m.healthBits < 2 ^ 6
  tgd0 : -(2 ^ 7) ≤ m.tgd0 ∧ m.tgd0 < 2 ^ 7
  iodc : m.iodc < 2 ^ 10
  fitInterval : m.fitInterval < 2 ^ 1
  rest : m.tgd1 = 0 ∧ m.codeL2 = 0 ∧ m.l2DataBit = 0
/-- The RTCM 1044 layout (RTCM 10403.3 table 3.5-28), `code` being the two L2-code bits the decoder ignores. -/
def layout1044 (m : KepEph) (code : Nat) : List Wr := .u 12 1044 ::
  [.u 4 m.satId, .u 16 m.toc, .s 8 m.af2, .s 16 m.af1, .s 22 m.af0, .u 8 m.iode, .s 16 m.crs, .s 16 m.dn,
   .s 32 m.m0, .s 16 m.cuc, .u 32 m.ecc, .s 16 m.cus, .u 32 m.sqrta, .u 16 m.toe, .s 16 m.cic, .s 32 m.omega0,
   .s 16 m.cis, .s 32 m.inc, .s 16 m.crc, .s 32 m.w, .s 24 m.omegadot, .s 14 m.incDot, .u 2 code, .u 10 m.wn,
   .u 4 m.ura, .u 6 m.healthBits, .s 8 m.tgd0, .u 10 m.iodc, .u 1 m.fitInterval]
/-- widths of the fields common to 1045 and 1046; members not transmitted are zero. -/
structure WFGal (m : KepEph) : Prop where
  satId : m.satId < 2 ^ 6
  wn : m.wn < 2 ^ 12
  iode : m.iode < 2 ^ 10
  ura : m.ura < 2 ^ 8
  incDot : -(2 ^ 13) ≤ m.incDot ∧ m.incDot < 2 ^ 13
  toc : m.toc < 2 ^ 14
  af2 : -(2 ^ 5) ≤ m.af2 ∧ m.af2 < 2 ^ 5
  af1 : -(2 ^ 20) ≤ m.af1 ∧ m.af1 < 2 ^ 20
  af0 : -(2 ^ 30) ≤ m.af0 ∧ m.af0 < 2 ^ 30
  crs : -(2 ^ 15) ≤ m.crs ∧ m.crs < 2 ^ 15
  dn : -(2 ^ 15) ≤ m.dn ∧ m.dn < 2 ^ 15
  m0 : -(2 ^ 31) ≤ m.m0 ∧ m.m0 < 2 ^ 31
  cuc : -(2 ^ 15) ≤ m.cuc ∧ m.cuc < 2 ^ 15
  ecc : m.ecc < 2 ^ 32
  cus : -(2 ^ 15) ≤ m.cus ∧ m.cus < 2 ^ 15
  sqrta : m.sqrta < 2 ^ 32
  toe : m.toe < 2 ^ 14
  cic : -(2 ^ 15) ≤ m.cic ∧ m.cic < 2 ^ 15
  omega0 : -(2 ^ 31) ≤ m.omega0 ∧ m.omega0 < 2 ^ 31
  cis : -(2 ^ 15) ≤ m.cis ∧ m.cis < 2 ^ 15
  inc : -(2 ^ 31) ≤ m.inc ∧ m.inc < 2 ^ 31
  crc : -(2 ^ 15) ≤ m.crc ∧ m.crc < 2 ^ 15
  w : -(2 ^ 31) ≤ m.w ∧ m.w < 2 ^ 31
  omegadot : -(2 ^ 23) ≤ m.omegadot ∧ m.omegadot < 2 ^ 23
  tgd0 : -(2 ^ 9) ≤ m.tgd0 ∧ m.tgd0 < 2 ^ 9
  tgd1 : -(2 ^ 9) ≤ m.tgd1 ∧ m.tgd1 < 2 ^ 9
  rest : m.fitInterval = 0 ∧ m.codeL2 = 0 ∧ m.l2DataBit = 0 ∧ m.iodc = 0
/-- widths of the 1020 fields (sign-magnitude fields exclude only the unrepresentable `-2^(n-1)`). -/
structure WF1020 (m : GloEph) : Prop where
  satId : m.satId < 2 ^ 6
  fcn : m.fcn < 2 ^ 5
  fitInterval : m.fitInterval < 2 ^ 2
  healthBits : m.healthBits < 2
  tB : m.tB < 2 ^ 7
  ura : m.ura < 2 ^ 4
  vel : (-(2 ^ 23) < m.vel0 ∧ m.vel0 < 2 ^ 23) ∧ (-(2 ^ 23) < m.vel1 ∧ m.vel1 < 2 ^ 23) ∧ (-(2 ^ 23) < m.vel2 ∧ m.vel2 < 2 ^ 23)
  pos : (-(2 ^ 26) < m.pos0 ∧ m.pos0 < 2 ^ 26) ∧ (-(2 ^ 26) < m.pos1 ∧ m.pos1 < 2 ^ 26) ∧ (-(2 ^ 26) < m.pos2 ∧ m.pos2 < 2 ^ 26)
  acc : (-(2 ^ 4) < m.acc0 ∧ m.acc0 < 2 ^ 4) ∧ (-(2 ^ 4) < m.acc1 ∧ m.acc1 < 2 ^ 4) ∧ (-(2 ^ 4) < m.acc2 ∧ m.acc2 < 2 ^ 4)
  gamma : -(2 ^ 10) < m.gamma ∧ m.gamma < 2 ^ 10
  tau : -(2 ^ 21) < m.tau ∧ m.tau < 2 ^ 21
  dTau : -(2 ^ 4) < m.dTau ∧ m.dTau < 2 ^ 4

end Verif.Spec
