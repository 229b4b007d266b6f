import Verif.Model.Py

/-!
# Model of gnss_types/ephemeris.py

The dataclasses, flattened: inherited fields (`EphHdr`, `ClockBias`, `Keplerians`, lines 16-57) come first, as in
the dataclass field order. The type of the numbers is a parameter: `Int` for bare objects, `PyNum` for scaled ones.
-/

namespace Verif

/-- A Python number that is an `int` or a `float`; floats are exact rationals in this model.
Annotation `int | float` in gnss_types/ephemeris.py:17-181. -/
inductive PyNum where
  | int (x : Int)
  | flt (x : Rat)
  deriving DecidableEq

/-- The numeric value. Annotation `int | float` in gnss_types/ephemeris.py:17-181. -/
def PyNum.val : PyNum → Rat
  | .int x => x
  | .flt x => x

/-- gnss_types/ephemeris.py:114-126 `EphGPS`. -/
structure EphGPS (ν : Type) where
  msgNum : ν
  satNum : ν
  weekNum : ν
  tc : ν
  af0 : ν
  af1 : ν
  af2 : ν
  te : ν
  delta_n : ν
  m0 : ν
  e : ν
  sqrt_a : ν
  w : ν
  i0 : ν
  i_dot : ν
  omega0 : ν
  omega_dot : ν
  crs : ν
  crc : ν
  cuc : ν
  cus : ν
  cic : ν
  cis : ν
  IODE : ν
  IODC : ν
  Fit : ν
  L2_Codes : ν
  L2P_Data : ν
  SVH : ν
  URA : ν
  TGD : ν
  deriving DecidableEq

/-- The same object with another number representation. Class: gnss_types/ephemeris.py:114-126. -/
def EphGPS.map {ν μ : Type} (f : ν → μ) (e : EphGPS ν) : EphGPS μ where
  msgNum := f e.msgNum
  satNum := f e.satNum
  weekNum := f e.weekNum
  tc := f e.tc
  af0 := f e.af0
  af1 := f e.af1
  af2 := f e.af2
  te := f e.te
  delta_n := f e.delta_n
  m0 := f e.m0
  e := f e.e
  sqrt_a := f e.sqrt_a
  w := f e.w
  i0 := f e.i0
  i_dot := f e.i_dot
  omega0 := f e.omega0
  omega_dot := f e.omega_dot
  crs := f e.crs
  crc := f e.crc
  cuc := f e.cuc
  cus := f e.cus
  cic := f e.cic
  cis := f e.cis
  IODE := f e.IODE
  IODC := f e.IODC
  Fit := f e.Fit
  L2_Codes := f e.L2_Codes
  L2P_Data := f e.L2P_Data
  SVH := f e.SVH
  URA := f e.URA
  TGD := f e.TGD

/-- gnss_types/ephemeris.py:141-181 `EphGLO`. -/
structure EphGLO (ν : Type) where
  msgNum : ν
  satNum : ν
  frqSloNum : ν
  tk : ν
  tb : ν
  xn : ν
  dotXn : ν
  dotDotXn : ν
  yn : ν
  dotYn : ν
  dotDotYn : ν
  zn : ν
  dotZn : ν
  dotDotZn : ν
  gamma_n : ν
  Cn : ν
  BnMSB : ν
  AlmHAI : ν
  P : ν
  P1 : ν
  P2 : ν
  P3 : ν
  P4 : ν
  ln3 : ν
  tauN : ν
  delta_tauN : ν
  En : ν
  Ft : ν
  Nt : ν
  M : ν
  auxDataOK : ν
  Na : ν
  tauC : ν
  N4 : ν
  tauGPS : ν
  ln5 : ν
  deriving DecidableEq

/-- The same object with another number representation. Class: gnss_types/ephemeris.py:141-181. -/
def EphGLO.map {ν μ : Type} (f : ν → μ) (e : EphGLO ν) : EphGLO μ where
  msgNum := f e.msgNum
  satNum := f e.satNum
  frqSloNum := f e.frqSloNum
  tk := f e.tk
  tb := f e.tb
  xn := f e.xn
  dotXn := f e.dotXn
  dotDotXn := f e.dotDotXn
  yn := f e.yn
  dotYn := f e.dotYn
  dotDotYn := f e.dotDotYn
  zn := f e.zn
  dotZn := f e.dotZn
  dotDotZn := f e.dotDotZn
  gamma_n := f e.gamma_n
  Cn := f e.Cn
  BnMSB := f e.BnMSB
  AlmHAI := f e.AlmHAI
  P := f e.P
  P1 := f e.P1
  P2 := f e.P2
  P3 := f e.P3
  P4 := f e.P4
  ln3 := f e.ln3
  tauN := f e.tauN
  delta_tauN := f e.delta_tauN
  En := f e.En
  Ft := f e.Ft
  Nt := f e.Nt
  M := f e.M
  auxDataOK := f e.auxDataOK
  Na := f e.Na
  tauC := f e.tauC
  N4 := f e.N4
  tauGPS := f e.tauGPS
  ln5 := f e.ln5

/-- gnss_types/ephemeris.py:129-138 `EphNAVIC`; `L5_Flag` and `S_Flag` are class attributes without annotation, hence plain instance attributes and not dataclass fields. -/
structure EphNAVIC (ν : Type) where
  msgNum : ν
  satNum : ν
  weekNum : ν
  tc : ν
  af0 : ν
  af1 : ν
  af2 : ν
  te : ν
  delta_n : ν
  m0 : ν
  e : ν
  sqrt_a : ν
  w : ν
  i0 : ν
  i_dot : ν
  omega0 : ν
  omega_dot : ν
  crs : ν
  crc : ν
  cuc : ν
  cus : ν
  cic : ν
  cis : ν
  URA : ν
  TGD : ν
  IODEC : ν
  L5_Flag : ν
  S_Flag : ν
  deriving DecidableEq

/-- The same object with another number representation. Class: gnss_types/ephemeris.py:129-138. -/
def EphNAVIC.map {ν μ : Type} (f : ν → μ) (e : EphNAVIC ν) : EphNAVIC μ where
  msgNum := f e.msgNum
  satNum := f e.satNum
  weekNum := f e.weekNum
  tc := f e.tc
  af0 := f e.af0
  af1 := f e.af1
  af2 := f e.af2
  te := f e.te
  delta_n := f e.delta_n
  m0 := f e.m0
  e := f e.e
  sqrt_a := f e.sqrt_a
  w := f e.w
  i0 := f e.i0
  i_dot := f e.i_dot
  omega0 := f e.omega0
  omega_dot := f e.omega_dot
  crs := f e.crs
  crc := f e.crc
  cuc := f e.cuc
  cus := f e.cus
  cic := f e.cic
  cis := f e.cis
  URA := f e.URA
  TGD := f e.TGD
  IODEC := f e.IODEC
  L5_Flag := f e.L5_Flag
  S_Flag := f e.S_Flag

/-- gnss_types/ephemeris.py:101-111 `EphBDS`. -/
structure EphBDS (ν : Type) where
  msgNum : ν
  satNum : ν
  weekNum : ν
  tc : ν
  af0 : ν
  af1 : ν
  af2 : ν
  te : ν
  delta_n : ν
  m0 : ν
  e : ν
  sqrt_a : ν
  w : ν
  i0 : ν
  i_dot : ν
  omega0 : ν
  omega_dot : ν
  crs : ν
  crc : ν
  cuc : ν
  cus : ν
  cic : ν
  cis : ν
  AODE : ν
  AODC : ν
  SVH : ν
  URAI : ν
  TGD1 : ν
  TGD2 : ν
  deriving DecidableEq

/-- The same object with another number representation. Class: gnss_types/ephemeris.py:101-111. -/
def EphBDS.map {ν μ : Type} (f : ν → μ) (e : EphBDS ν) : EphBDS μ where
  msgNum := f e.msgNum
  satNum := f e.satNum
  weekNum := f e.weekNum
  tc := f e.tc
  af0 := f e.af0
  af1 := f e.af1
  af2 := f e.af2
  te := f e.te
  delta_n := f e.delta_n
  m0 := f e.m0
  e := f e.e
  sqrt_a := f e.sqrt_a
  w := f e.w
  i0 := f e.i0
  i_dot := f e.i_dot
  omega0 := f e.omega0
  omega_dot := f e.omega_dot
  crs := f e.crs
  crc := f e.crc
  cuc := f e.cuc
  cus := f e.cus
  cic := f e.cic
  cis := f e.cis
  AODE := f e.AODE
  AODC := f e.AODC
  SVH := f e.SVH
  URAI := f e.URAI
  TGD1 := f e.TGD1
  TGD2 := f e.TGD2

/-- gnss_types/ephemeris.py:87-98 `EphQZS`. -/
structure EphQZS (ν : Type) where
  msgNum : ν
  satNum : ν
  weekNum : ν
  tc : ν
  af0 : ν
  af1 : ν
  af2 : ν
  te : ν
  delta_n : ν
  m0 : ν
  e : ν
  sqrt_a : ν
  w : ν
  i0 : ν
  i_dot : ν
  omega0 : ν
  omega_dot : ν
  crs : ν
  crc : ν
  cuc : ν
  cus : ν
  cic : ν
  cis : ν
  IODE : ν
  IODC : ν
  Fit : ν
  L2_Codes : ν
  SVH : ν
  URA : ν
  TGD : ν
  deriving DecidableEq

/-- The same object with another number representation. Class: gnss_types/ephemeris.py:87-98. -/
def EphQZS.map {ν μ : Type} (f : ν → μ) (e : EphQZS ν) : EphQZS μ where
  msgNum := f e.msgNum
  satNum := f e.satNum
  weekNum := f e.weekNum
  tc := f e.tc
  af0 := f e.af0
  af1 := f e.af1
  af2 := f e.af2
  te := f e.te
  delta_n := f e.delta_n
  m0 := f e.m0
  e := f e.e
  sqrt_a := f e.sqrt_a
  w := f e.w
  i0 := f e.i0
  i_dot := f e.i_dot
  omega0 := f e.omega0
  omega_dot := f e.omega_dot
  crs := f e.crs
  crc := f e.crc
  cuc := f e.cuc
  cus := f e.cus
  cic := f e.cic
  cis := f e.cis
  IODE := f e.IODE
  IODC := f e.IODC
  Fit := f e.Fit
  L2_Codes := f e.L2_Codes
  SVH := f e.SVH
  URA := f e.URA
  TGD := f e.TGD

/-- gnss_types/ephemeris.py:60-69 `EphGALF`. -/
structure EphGALF (ν : Type) where
  msgNum : ν
  satNum : ν
  weekNum : ν
  tc : ν
  af0 : ν
  af1 : ν
  af2 : ν
  te : ν
  delta_n : ν
  m0 : ν
  e : ν
  sqrt_a : ν
  w : ν
  i0 : ν
  i_dot : ν
  omega0 : ν
  omega_dot : ν
  crs : ν
  crc : ν
  cuc : ν
  cus : ν
  cic : ν
  cis : ν
  IODnav : ν
  SISA : ν
  E5a_BGD : ν
  E5a_SHS : ν
  E5a_DVS : ν
  deriving DecidableEq

/-- The same object with another number representation. Class: gnss_types/ephemeris.py:60-69. -/
def EphGALF.map {ν μ : Type} (f : ν → μ) (e : EphGALF ν) : EphGALF μ where
  msgNum := f e.msgNum
  satNum := f e.satNum
  weekNum := f e.weekNum
  tc := f e.tc
  af0 := f e.af0
  af1 := f e.af1
  af2 := f e.af2
  te := f e.te
  delta_n := f e.delta_n
  m0 := f e.m0
  e := f e.e
  sqrt_a := f e.sqrt_a
  w := f e.w
  i0 := f e.i0
  i_dot := f e.i_dot
  omega0 := f e.omega0
  omega_dot := f e.omega_dot
  crs := f e.crs
  crc := f e.crc
  cuc := f e.cuc
  cus := f e.cus
  cic := f e.cic
  cis := f e.cis
  IODnav := f e.IODnav
  SISA := f e.SISA
  E5a_BGD := f e.E5a_BGD
  E5a_SHS := f e.E5a_SHS
  E5a_DVS := f e.E5a_DVS

/-- gnss_types/ephemeris.py:72-84 `EphGALI`. -/
structure EphGALI (ν : Type) where
  msgNum : ν
  satNum : ν
  weekNum : ν
  tc : ν
  af0 : ν
  af1 : ν
  af2 : ν
  te : ν
  delta_n : ν
  m0 : ν
  e : ν
  sqrt_a : ν
  w : ν
  i0 : ν
  i_dot : ν
  omega0 : ν
  omega_dot : ν
  crs : ν
  crc : ν
  cuc : ν
  cus : ν
  cic : ν
  cis : ν
  IODnav : ν
  SISA : ν
  E5a_BGD : ν
  E5b_BGD : ν
  E1_SHS : ν
  E1_DVS : ν
  E5b_SHS : ν
  E5b_DVS : ν
  deriving DecidableEq

/-- The same object with another number representation. Class: gnss_types/ephemeris.py:72-84. -/
def EphGALI.map {ν μ : Type} (f : ν → μ) (e : EphGALI ν) : EphGALI μ where
  msgNum := f e.msgNum
  satNum := f e.satNum
  weekNum := f e.weekNum
  tc := f e.tc
  af0 := f e.af0
  af1 := f e.af1
  af2 := f e.af2
  te := f e.te
  delta_n := f e.delta_n
  m0 := f e.m0
  e := f e.e
  sqrt_a := f e.sqrt_a
  w := f e.w
  i0 := f e.i0
  i_dot := f e.i_dot
  omega0 := f e.omega0
  omega_dot := f e.omega_dot
  crs := f e.crs
  crc := f e.crc
  cuc := f e.cuc
  cus := f e.cus
  cic := f e.cic
  cis := f e.cis
  IODnav := f e.IODnav
  SISA := f e.SISA
  E5a_BGD := f e.E5a_BGD
  E5b_BGD := f e.E5b_BGD
  E1_SHS := f e.E1_SHS
  E1_DVS := f e.E1_DVS
  E5b_SHS := f e.E5b_SHS
  E5b_DVS := f e.E5b_DVS

namespace Eph

/-- The ephemeris objects, tagged by their class.
Classes: gnss_types/ephemeris.py:60-181; chosen in sub_decoders/RTCM_EPH.py:665-686. -/
inductive Obj (ν : Type) where
  | gps (e : EphGPS ν)
  | glo (e : EphGLO ν)
  | navic (e : EphNAVIC ν)
  | bds (e : EphBDS ν)
  | qzs (e : EphQZS ν)
  | galf (e : EphGALF ν)
  | gali (e : EphGALI ν)
  deriving DecidableEq

/-- The same object with another number representation. Classes: gnss_types/ephemeris.py:60-181. -/
def Obj.map {ν μ : Type} (f : ν → μ) : Obj ν → Obj μ
  | .gps e => .gps (e.map f)
  | .glo e => .glo (e.map f)
  | .navic e => .navic (e.map f)
  | .bds e => .bds (e.map f)
  | .qzs e => .qzs (e.map f)
  | .galf e => .galf (e.map f)
  | .gali e => .gali (e.map f)

end Eph
end Verif
