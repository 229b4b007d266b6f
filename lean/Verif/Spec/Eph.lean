import Verif.Spec.Layout
import Verif.Model.EphTypes

/-!
# Specification of the RTCM ephemeris messages

For each message the list of its data fields in transmission order: field kind and width, and the resolution
by which the transmitted integer has to be multiplied. `vals…` lists the attributes of the corresponding object in
the same order.
-/

namespace Verif
namespace Spec

/-- What a user gets for a transmitted integer. -/
inductive Res where
  /-- the integer itself (identifiers, indexes, flags) -/
  | raw
  /-- seconds: integer times an integer number of seconds -/
  | sec (k : Int)
  /-- times 2^-k -/
  | p (k : Nat)
  /-- times 10^-k -/
  | d (k : Nat)
  /-- GLONASS frequency channel: minus 7 -/
  | chan
  /-- GLONASS tk: 5 bits hours, 6 bits minutes, 1 bit half minutes -/
  | tk
  deriving DecidableEq

/-- The physical value of transmitted integer `x`. -/
def Res.apply : Res → Int → PyNum
  | .raw, x => .int x
  | .sec k, x => .int (x * k)
  | .p k, x => .flt (x * (1 / 2 : Rat) ^ k)
  | .d k, x => .flt (x * (1 / 10 : Rat) ^ k)
  | .chan, x => .int (x - 7)
  | .tk, x => .int (3600 * (x / 128) + 60 * (x % 128 / 2) + 30 * (x % 2))

/-- Message 1019, GPS. -/
def T1019 : List (Field × Res) :=
  [(U 12, .raw),   -- DF002 message number
   (U 6, .raw),    -- DF009 satellite
   (U 10, .raw),   -- DF076 week
   (U 4, .raw),    -- DF077 URA
   (U 2, .raw),    -- DF078 code on L2
   (S 14, .p 43),  -- DF079 IDOT
   (U 8, .raw),    -- DF071 IODE
   (U 16, .sec 16), -- DF081 toc
   (S 8, .p 55),   -- DF082 af2
   (S 16, .p 43),  -- DF083 af1
   (S 22, .p 31),  -- DF084 af0
   (U 10, .raw),   -- DF085 IODC
   (S 16, .p 5),   -- DF086 Crs
   (S 16, .p 43),  -- DF087 delta n
   (S 32, .p 31),  -- DF088 M0
   (S 16, .p 29),  -- DF089 Cuc
   (U 32, .p 33),  -- DF090 e
   (S 16, .p 29),  -- DF091 Cus
   (U 32, .p 19),  -- DF092 sqrt A
   (U 16, .sec 16), -- DF093 toe
   (S 16, .p 29),  -- DF094 Cic
   (S 32, .p 31),  -- DF095 Omega0
   (S 16, .p 29),  -- DF096 Cis
   (S 32, .p 31),  -- DF097 i0
   (S 16, .p 5),   -- DF098 Crc
   (S 32, .p 31),  -- DF099 omega
   (S 24, .p 43),  -- DF100 Omega dot
   (S 8, .p 31),   -- DF101 TGD
   (U 6, .raw),    -- DF102 health
   (U 1, .raw),    -- DF103 L2P data flag
   (U 1, .raw)]    -- DF137 fit interval

/-- Attributes of a GPS ephemeris in the order of `T1019`. -/
def vals1019 {ν : Type} (x : EphGPS ν) : List ν :=
  [x.msgNum, x.satNum, x.weekNum, x.URA, x.L2_Codes, x.i_dot, x.IODE, x.tc, x.af2, x.af1, x.af0, x.IODC,
   x.crs, x.delta_n, x.m0, x.cuc, x.e, x.cus, x.sqrt_a, x.te, x.cic, x.omega0, x.cis, x.i0, x.crc, x.w,
   x.omega_dot, x.TGD, x.SVH, x.L2P_Data, x.Fit]

/-- Message 1020, GLONASS. -/
def T1020 : List (Field × Res) :=
  [(U 12, .raw),   -- DF002
   (U 6, .raw),    -- DF038 satellite
   (U 5, .chan),   -- DF040 frequency channel
   (U 1, .raw),    -- DF104 almanac health Cn
   (U 1, .raw),    -- DF105 health availability
   (U 2, .raw),    -- DF106 P1
   (U 12, .tk),    -- DF107 tk
   (U 1, .raw),    -- DF108 MSB of Bn
   (U 1, .raw),    -- DF109 P2
   (U 7, .sec 900), -- DF110 tb, 15 minutes
   (M 24, .p 20),  -- DF111 xn'
   (M 27, .p 11),  -- DF112 xn
   (M 5, .p 30),   -- DF113 xn''
   (M 24, .p 20),  -- DF114 yn'
   (M 27, .p 11),  -- DF115 yn
   (M 5, .p 30),   -- DF116 yn''
   (M 24, .p 20),  -- DF117 zn'
   (M 27, .p 11),  -- DF118 zn
   (M 5, .p 30),   -- DF119 zn''
   (U 1, .raw),    -- DF120 P3
   (M 11, .p 40),  -- DF121 gamma
   (U 2, .raw),    -- DF122 P
   (U 1, .raw),    -- DF123 ln third string
   (M 22, .p 30),  -- DF124 tau n
   (M 5, .p 30),   -- DF125 delta tau n
   (U 5, .raw),    -- DF126 En
   (U 1, .raw),    -- DF127 P4
   (U 4, .raw),    -- DF128 Ft
   (U 11, .raw),   -- DF129 Nt
   (U 2, .raw),    -- DF130 M
   (U 1, .raw),    -- DF131 additional data
   (U 11, .raw),   -- DF132 Na
   (M 32, .p 31),  -- DF133 tau c
   (U 5, .raw),    -- DF134 N4
   (M 22, .p 30),  -- DF135 tau GPS
   (U 1, .raw),    -- DF136 ln fifth string
   (R 7, .raw)]    -- reserved

/-- Attributes of a GLONASS ephemeris in the order of `T1020`. -/
def vals1020 {ν : Type} (x : EphGLO ν) : List ν :=
  [x.msgNum, x.satNum, x.frqSloNum, x.Cn, x.AlmHAI, x.P1, x.tk, x.BnMSB, x.P2, x.tb, x.dotXn, x.xn,
   x.dotDotXn, x.dotYn, x.yn, x.dotDotYn, x.dotZn, x.zn, x.dotDotZn, x.P3, x.gamma_n, x.P, x.ln3, x.tauN,
   x.delta_tauN, x.En, x.P4, x.Ft, x.Nt, x.M, x.auxDataOK, x.Na, x.tauC, x.N4, x.tauGPS, x.ln5]

/-- Message 1041, NavIC. -/
def T1041 : List (Field × Res) :=
  [(U 12, .raw),   -- DF002
   (U 6, .raw),    -- DF516 satellite
   (U 10, .raw),   -- DF517 week
   (S 22, .p 31),  -- DF518 af0
   (S 16, .p 43),  -- DF519 af1
   (S 8, .p 55),   -- DF520 af2
   (U 4, .raw),    -- DF521 URA
   (U 16, .sec 16), -- DF522 toc
   (S 8, .p 31),   -- DF523 TGD
   (S 22, .p 41),  -- DF524 delta n
   (U 8, .raw),    -- DF525 IODEC
   (R 10, .raw),   -- DF526 reserved
   (U 1, .raw),    -- DF527 L5 flag
   (U 1, .raw),    -- DF528 S flag
   (S 15, .p 28),  -- DF529 Cuc
   (S 15, .p 28),  -- DF530 Cus
   (S 15, .p 28),  -- DF531 Cic
   (S 15, .p 28),  -- DF532 Cis
   (S 15, .p 4),   -- DF533 Crc
   (S 15, .p 4),   -- DF534 Crs
   (S 14, .p 43),  -- DF535 IDOT
   (S 32, .p 31),  -- DF536 M0
   (U 16, .sec 16), -- DF537 toe
   (U 32, .p 33),  -- DF538 e
   (U 32, .p 19),  -- DF539 sqrt A
   (S 32, .p 31),  -- DF540 Omega0
   (S 32, .p 31),  -- DF541 omega
   (S 22, .p 41),  -- DF542 Omega dot
   (S 32, .p 31),  -- DF543 i0
   (R 2, .raw),    -- DF544 spare
   (R 2, .raw)]    -- DF545 spare

/-- Attributes of a NavIC ephemeris in the order of `T1041`. -/
def vals1041 {ν : Type} (x : EphNAVIC ν) : List ν :=
  [x.msgNum, x.satNum, x.weekNum, x.af0, x.af1, x.af2, x.URA, x.tc, x.TGD, x.delta_n, x.IODEC, x.L5_Flag,
   x.S_Flag, x.cuc, x.cus, x.cic, x.cis, x.crc, x.crs, x.i_dot, x.m0, x.te, x.e, x.sqrt_a, x.omega0, x.w,
   x.omega_dot, x.i0]

/-- Message 1042, BeiDou. -/
def T1042 : List (Field × Res) :=
  [(U 12, .raw),   -- DF002
   (U 6, .raw),    -- DF488 satellite
   (U 13, .raw),   -- DF489 week
   (U 4, .raw),    -- DF490 URAI
   (S 14, .p 43),  -- DF491 IDOT
   (U 5, .raw),    -- DF492 AODE
   (U 17, .sec 8), -- DF493 toc
   (S 11, .p 66),  -- DF494 a2
   (S 22, .p 50),  -- DF495 a1
   (S 24, .p 33),  -- DF496 a0
   (U 5, .raw),    -- DF497 AODC
   (S 18, .p 6),   -- DF498 Crs
   (S 16, .p 43),  -- DF499 delta n
   (S 32, .p 31),  -- DF500 M0
   (S 18, .p 31),  -- DF501 Cuc
   (U 32, .p 33),  -- DF502 e
   (S 18, .p 31),  -- DF503 Cus
   (U 32, .p 19),  -- DF504 sqrt A
   (U 17, .sec 8), -- DF505 toe
   (S 18, .p 31),  -- DF506 Cic
   (S 32, .p 31),  -- DF507 Omega0
   (S 18, .p 31),  -- DF508 Cis
   (S 32, .p 31),  -- DF509 i0
   (S 18, .p 6),   -- DF510 Crc
   (S 32, .p 31),  -- DF511 omega
   (S 24, .p 43),  -- DF512 Omega dot
   (S 10, .d 10),  -- DF513 TGD1, 0.1 ns
   (S 10, .d 10),  -- DF514 TGD2, 0.1 ns
   (U 1, .raw)]    -- DF515 health

/-- Attributes of a BeiDou ephemeris in the order of `T1042`. -/
def vals1042 {ν : Type} (x : EphBDS ν) : List ν :=
  [x.msgNum, x.satNum, x.weekNum, x.URAI, x.i_dot, x.AODE, x.tc, x.af2, x.af1, x.af0, x.AODC, x.crs,
   x.delta_n, x.m0, x.cuc, x.e, x.cus, x.sqrt_a, x.te, x.cic, x.omega0, x.cis, x.i0, x.crc, x.w, x.omega_dot,
   x.TGD1, x.TGD2, x.SVH]

/-- Common part of 1045 and 1046, Galileo. -/
def TGal : List (Field × Res) :=
  [(U 12, .raw),   -- DF002
   (U 6, .raw),    -- DF252 satellite
   (U 12, .raw),   -- DF289 week
   (U 10, .raw),   -- DF290 IODnav
   (U 8, .raw),    -- DF291 / DF286 SISA
   (S 14, .p 43),  -- DF292 IDOT
   (U 14, .sec 60), -- DF293 toc
   (S 6, .p 59),   -- DF294 af2
   (S 21, .p 46),  -- DF295 af1
   (S 31, .p 34),  -- DF296 af0
   (S 16, .p 5),   -- DF297 Crs
   (S 16, .p 43),  -- DF298 delta n
   (S 32, .p 31),  -- DF299 M0
   (S 16, .p 29),  -- DF300 Cuc
   (U 32, .p 33),  -- DF301 e
   (S 16, .p 29),  -- DF302 Cus
   (U 32, .p 19),  -- DF303 sqrt A
   (U 14, .sec 60), -- DF304 toe
   (S 16, .p 29),  -- DF305 Cic
   (S 32, .p 31),  -- DF306 Omega0
   (S 16, .p 29),  -- DF307 Cis
   (S 32, .p 31),  -- DF308 i0
   (S 16, .p 5),   -- DF309 Crc
   (S 32, .p 31),  -- DF310 omega
   (S 24, .p 43),  -- DF311 Omega dot
   (S 10, .p 32)]  -- DF312 BGD E5a/E1

/-- Message 1045, Galileo F/NAV. -/
def T1045 : List (Field × Res) :=
  TGal ++
  [(U 2, .raw),    -- DF314 E5a signal health
   (U 1, .raw),    -- DF315 E5a data validity
   (R 7, .raw)]    -- reserved

/-- Message 1046, Galileo I/NAV. -/
def T1046 : List (Field × Res) :=
  TGal ++
  [(S 10, .p 32),  -- DF313 BGD E5b/E1
   (U 2, .raw),    -- DF316 E5b signal health
   (U 1, .raw),    -- DF317 E5b data validity
   (U 2, .raw),    -- DF287 E1b signal health
   (U 1, .raw),    -- DF288 E1b data validity
   (R 2, .raw)]    -- reserved

/-- Attributes of a Galileo F/NAV ephemeris in the order of `T1045`. -/
def vals1045 {ν : Type} (x : EphGALF ν) : List ν :=
  [x.msgNum, x.satNum, x.weekNum, x.IODnav, x.SISA, x.i_dot, x.tc, x.af2, x.af1, x.af0, x.crs, x.delta_n,
   x.m0, x.cuc, x.e, x.cus, x.sqrt_a, x.te, x.cic, x.omega0, x.cis, x.i0, x.crc, x.w, x.omega_dot, x.E5a_BGD,
   x.E5a_SHS, x.E5a_DVS]

/-- Attributes of a Galileo I/NAV ephemeris in the order of `T1046`. -/
def vals1046 {ν : Type} (x : EphGALI ν) : List ν :=
  [x.msgNum, x.satNum, x.weekNum, x.IODnav, x.SISA, x.i_dot, x.tc, x.af2, x.af1, x.af0, x.crs, x.delta_n,
   x.m0, x.cuc, x.e, x.cus, x.sqrt_a, x.te, x.cic, x.omega0, x.cis, x.i0, x.crc, x.w, x.omega_dot, x.E5a_BGD,
   x.E5b_BGD, x.E5b_SHS, x.E5b_DVS, x.E1_SHS, x.E1_DVS]

/-- Message 1044, QZSS. -/
def T1044 : List (Field × Res) :=
  [(U 12, .raw),   -- DF002
   (U 4, .raw),    -- DF429 satellite
   (U 16, .sec 16), -- DF430 toc
   (S 8, .p 55),   -- DF431 af2
   (S 16, .p 43),  -- DF432 af1
   (S 22, .p 31),  -- DF433 af0
   (U 8, .raw),    -- DF434 IODE
   (S 16, .p 5),   -- DF435 Crs
   (S 16, .p 43),  -- DF436 delta n
   (S 32, .p 31),  -- DF437 M0
   (S 16, .p 29),  -- DF438 Cuc
   (U 32, .p 33),  -- DF439 e
   (S 16, .p 29),  -- DF440 Cus
   (U 32, .p 19),  -- DF441 sqrt A
   (U 16, .sec 16), -- DF442 toe
   (S 16, .p 29),  -- DF443 Cic
   (S 32, .p 31),  -- DF444 Omega0
   (S 16, .p 29),  -- DF445 Cis
   (S 32, .p 31),  -- DF446 i0
   (S 16, .p 5),   -- DF447 Crc
   (S 32, .p 31),  -- DF448 omega
   (S 24, .p 43),  -- DF449 Omega dot
   (S 14, .p 43),  -- DF450 IDOT
   (U 2, .raw),    -- DF451 code on L2
   (U 10, .raw),   -- DF452 week
   (U 4, .raw),    -- DF453 URA
   (U 6, .raw),    -- DF454 health
   (S 8, .p 31),   -- DF455 TGD
   (U 10, .raw),   -- DF456 IODC
   (U 1, .raw)]    -- DF457 fit interval

/-- Attributes of a QZSS ephemeris in the order of `T1044`. -/
def vals1044 {ν : Type} (x : EphQZS ν) : List ν :=
  [x.msgNum, x.satNum, x.tc, x.af2, x.af1, x.af0, x.IODE, x.crs, x.delta_n, x.m0, x.cuc, x.e, x.cus, x.sqrt_a,
   x.te, x.cic, x.omega0, x.cis, x.i0, x.crc, x.w, x.omega_dot, x.i_dot, x.L2_Codes, x.weekNum, x.URA, x.SVH,
   x.TGD, x.IODC, x.Fit]

/-- Fields of a table. -/
def fieldsOf (T : List (Field × Res)) : List Field := T.map (·.1)

/-- Resolutions of the value-carrying fields of a table. -/
def resOf (T : List (Field × Res)) : List Res := (T.filter (fun p => p.1.kind ≠ .res)).map (·.2)

/-- Physical values of transmitted integers. -/
def scaledVals (T : List (Field × Res)) (vs : List Int) : List PyNum := List.zipWith Res.apply (resOf T) vs

/-- Message table of an ephemeris object. -/
def tableOf {ν : Type} : Eph.Obj ν → List (Field × Res)
  | .gps _ => T1019
  | .glo _ => T1020
  | .navic _ => T1041
  | .bds _ => T1042
  | .qzs _ => T1044
  | .galf _ => T1045
  | .gali _ => T1046

/-- Message number of the type of an ephemeris object. -/
def ephNum {ν : Type} : Eph.Obj ν → Nat
  | .gps _ => 1019
  | .glo _ => 1020
  | .navic _ => 1041
  | .bds _ => 1042
  | .qzs _ => 1044
  | .galf _ => 1045
  | .gali _ => 1046

/-- All attributes of an ephemeris object in transmission order. The first one is the message number. -/
def valsOf {ν : Type} : Eph.Obj ν → List ν
  | .gps e => vals1019 e
  | .glo e => vals1020 e
  | .navic e => vals1041 e
  | .bds e => vals1042 e
  | .qzs e => vals1044 e
  | .galf e => vals1045 e
  | .gali e => vals1046 e

/-- The recorded message number is the one of the object's type. -/
def NumOk (o : Eph.Obj Int) : Prop := (valsOf o).head? = some (ephNum o : Int)

end Spec
end Verif
