import Verif.Model.Eph

/-!
# Scaling of ephemerides with rounded arithmetic

The scaling functions of `Model/Eph.lean` once more, with a rounding `rnd` at each place where Python rounds: the conversion of the integer,
the float literal and the product.
-/

namespace Verif
namespace Eph

/-- `x * y` of an int and a float. sub_decoders/RTCM_EPH.py:104-158, 215-271, 316-351. -/
def mulR (rnd : Rat → Rat) (x : Int) (y : Rat) : Rat := rnd (rnd x * rnd y)

/-- `x * (2**-k)` of an int. sub_decoders/RTCM_EPH.py:118-145, and the other scaling methods. -/
def pow2R (rnd : Rat → Rat) (x : Int) (k : Nat) : PyNum := .flt (mulR rnd x (1 / 2 ^ k))

/-- sub_decoders/RTCM_EPH.py:103-158 `__scale1019` (with `decorate=False`, the only way it is called; lines 145-150 are not reached) -/
def scale1019R (rnd : Rat → Rat) (ie : EphGPS Int) : EphGPS PyNum where
  msgNum := .int ie.msgNum
  satNum := .int ie.satNum
  weekNum := .int ie.weekNum
  i_dot := pow2R rnd ie.i_dot 43
  IODE := .int ie.IODE
  tc := .int (ie.tc * 16)
  af2 := pow2R rnd ie.af2 55
  af1 := pow2R rnd ie.af1 43
  af0 := pow2R rnd ie.af0 31
  IODC := .int ie.IODC
  crs := pow2R rnd ie.crs 5
  delta_n := pow2R rnd ie.delta_n 43
  m0 := pow2R rnd ie.m0 31
  cuc := pow2R rnd ie.cuc 29
  e := pow2R rnd ie.e 33
  cus := pow2R rnd ie.cus 29
  sqrt_a := pow2R rnd ie.sqrt_a 19
  te := .int (ie.te * 16)
  cic := pow2R rnd ie.cic 29
  omega0 := pow2R rnd ie.omega0 31
  cis := pow2R rnd ie.cis 29
  i0 := pow2R rnd ie.i0 31
  crc := pow2R rnd ie.crc 5
  w := pow2R rnd ie.w 31
  omega_dot := pow2R rnd ie.omega_dot 43
  TGD := pow2R rnd ie.TGD 31
  L2_Codes := .int ie.L2_Codes
  URA := .int ie.URA
  SVH := .int ie.SVH
  L2P_Data := .int ie.L2P_Data
  Fit := .int ie.Fit

/-- sub_decoders/RTCM_EPH.py:214-271 `__scale1020` -/
def scale1020R (rnd : Rat → Rat) (ie : EphGLO Int) : EphGLO PyNum where
  msgNum := .int ie.msgNum
  satNum := .int ie.satNum
  frqSloNum := .int (ie.frqSloNum - 7)
  tk := .int (3600 * (ie.tk / 2 ^ 7 % 2 ^ 5) + 60 * (ie.tk / 2 ^ 1 % 2 ^ 6) + 30 * (ie.tk % 2 ^ 1))
  Cn := .int ie.Cn
  AlmHAI := .int ie.AlmHAI
  P1 := .int ie.P1
  BnMSB := .int ie.BnMSB
  P2 := .int ie.P2
  tb := .int (ie.tb * 15 * 60)
  dotXn := pow2R rnd ie.dotXn 20
  xn := pow2R rnd ie.xn 11
  dotDotXn := pow2R rnd ie.dotDotXn 30
  dotYn := pow2R rnd ie.dotYn 20
  yn := pow2R rnd ie.yn 11
  dotDotYn := pow2R rnd ie.dotDotYn 30
  dotZn := pow2R rnd ie.dotZn 20
  zn := pow2R rnd ie.zn 11
  dotDotZn := pow2R rnd ie.dotDotZn 30
  P3 := .int ie.P3
  gamma_n := pow2R rnd ie.gamma_n 40
  P := .int ie.P
  ln3 := .int ie.ln3
  tauN := pow2R rnd ie.tauN 30
  delta_tauN := pow2R rnd ie.delta_tauN 30
  En := .int ie.En
  P4 := .int ie.P4
  Ft := .int ie.Ft
  Nt := .int ie.Nt
  M := .int ie.M
  auxDataOK := .int ie.auxDataOK
  Na := .int ie.Na
  tauC := pow2R rnd ie.tauC 31
  N4 := .int ie.N4
  tauGPS := pow2R rnd ie.tauGPS 30
  ln5 := .int ie.ln5

/-- sub_decoders/RTCM_EPH.py:315-351 `__scale1041` -/
def scale1041R (rnd : Rat → Rat) (ie : EphNAVIC Int) : EphNAVIC PyNum where
  msgNum := .int ie.msgNum
  satNum := .int ie.satNum
  weekNum := .int ie.weekNum
  af0 := pow2R rnd ie.af0 31
  af1 := pow2R rnd ie.af1 43
  af2 := pow2R rnd ie.af2 55
  URA := .int ie.URA
  tc := .int (ie.tc * 16)
  TGD := pow2R rnd ie.TGD 31
  delta_n := pow2R rnd ie.delta_n 41
  IODEC := .int ie.IODEC
  L5_Flag := .int ie.L5_Flag
  S_Flag := .int ie.S_Flag
  cuc := pow2R rnd ie.cuc 28
  cus := pow2R rnd ie.cus 28
  cic := pow2R rnd ie.cic 28
  cis := pow2R rnd ie.cis 28
  crc := pow2R rnd ie.crc 4
  crs := pow2R rnd ie.crs 4
  i_dot := pow2R rnd ie.i_dot 43
  m0 := pow2R rnd ie.m0 31
  te := .int (ie.te * 16)
  e := pow2R rnd ie.e 33
  sqrt_a := pow2R rnd ie.sqrt_a 19
  omega0 := pow2R rnd ie.omega0 31
  w := pow2R rnd ie.w 31
  omega_dot := pow2R rnd ie.omega_dot 41
  i0 := pow2R rnd ie.i0 31

/-- sub_decoders/RTCM_EPH.py:394-431 `__scale1042` -/
def scale1042R (rnd : Rat → Rat) (ie : EphBDS Int) : EphBDS PyNum where
  msgNum := .int ie.msgNum
  satNum := .int ie.satNum
  weekNum := .int ie.weekNum
  URAI := .int ie.URAI
  i_dot := pow2R rnd ie.i_dot 43
  AODE := .int ie.AODE
  tc := .int (ie.tc * 8)
  af2 := pow2R rnd ie.af2 66
  af1 := pow2R rnd ie.af1 50
  af0 := pow2R rnd ie.af0 33
  AODC := .int ie.AODC
  crs := pow2R rnd ie.crs 6
  delta_n := pow2R rnd ie.delta_n 43
  m0 := pow2R rnd ie.m0 31
  cuc := pow2R rnd ie.cuc 31
  e := pow2R rnd ie.e 33
  cus := pow2R rnd ie.cus 31
  sqrt_a := pow2R rnd ie.sqrt_a 19
  te := .int (ie.te * 8)
  cic := pow2R rnd ie.cic 31
  omega0 := pow2R rnd ie.omega0 31
  cis := pow2R rnd ie.cis 31
  i0 := pow2R rnd ie.i0 31
  crc := pow2R rnd ie.crc 6
  w := pow2R rnd ie.w 31
  omega_dot := pow2R rnd ie.omega_dot 43
  TGD1 := .flt (mulR rnd ie.TGD1 (1 / 10 ^ 10))
  TGD2 := .flt (mulR rnd ie.TGD2 (1 / 10 ^ 10))
  SVH := .int ie.SVH

/-- sub_decoders/RTCM_EPH.py:474-511 `__scale1046` -/
def scale1046R (rnd : Rat → Rat) (ie : EphGALI Int) : EphGALI PyNum where
  msgNum := .int ie.msgNum
  satNum := .int ie.satNum
  weekNum := .int ie.weekNum
  IODnav := .int ie.IODnav
  SISA := .int ie.SISA
  i_dot := pow2R rnd ie.i_dot 43
  tc := .int (ie.tc * 60)
  af2 := pow2R rnd ie.af2 59
  af1 := pow2R rnd ie.af1 46
  af0 := pow2R rnd ie.af0 34
  crs := pow2R rnd ie.crs 5
  delta_n := pow2R rnd ie.delta_n 43
  m0 := pow2R rnd ie.m0 31
  cuc := pow2R rnd ie.cuc 29
  e := pow2R rnd ie.e 33
  cus := pow2R rnd ie.cus 29
  sqrt_a := pow2R rnd ie.sqrt_a 19
  te := .int (ie.te * 60)
  cic := pow2R rnd ie.cic 29
  omega0 := pow2R rnd ie.omega0 31
  cis := pow2R rnd ie.cis 29
  i0 := pow2R rnd ie.i0 31
  crc := pow2R rnd ie.crc 5
  w := pow2R rnd ie.w 31
  omega_dot := pow2R rnd ie.omega_dot 43
  E5a_BGD := pow2R rnd ie.E5a_BGD 32
  E5b_BGD := pow2R rnd ie.E5b_BGD 32
  E5b_SHS := .int ie.E5b_SHS
  E5b_DVS := .int ie.E5b_DVS
  E1_SHS := .int ie.E1_SHS
  E1_DVS := .int ie.E1_DVS

/-- sub_decoders/RTCM_EPH.py:551-585 `__scale1045` -/
def scale1045R (rnd : Rat → Rat) (ie : EphGALF Int) : EphGALF PyNum where
  msgNum := .int ie.msgNum
  satNum := .int ie.satNum
  weekNum := .int ie.weekNum
  IODnav := .int ie.IODnav
  SISA := .int ie.SISA
  i_dot := pow2R rnd ie.i_dot 43
  tc := .int (ie.tc * 60)
  af2 := pow2R rnd ie.af2 59
  af1 := pow2R rnd ie.af1 46
  af0 := pow2R rnd ie.af0 34
  crs := pow2R rnd ie.crs 5
  delta_n := pow2R rnd ie.delta_n 43
  m0 := pow2R rnd ie.m0 31
  cuc := pow2R rnd ie.cuc 29
  e := pow2R rnd ie.e 33
  cus := pow2R rnd ie.cus 29
  sqrt_a := pow2R rnd ie.sqrt_a 19
  te := .int (ie.te * 60)
  cic := pow2R rnd ie.cic 29
  omega0 := pow2R rnd ie.omega0 31
  cis := pow2R rnd ie.cis 29
  i0 := pow2R rnd ie.i0 31
  crc := pow2R rnd ie.crc 5
  w := pow2R rnd ie.w 31
  omega_dot := pow2R rnd ie.omega_dot 43
  E5a_BGD := pow2R rnd ie.E5a_BGD 32
  E5a_SHS := .int ie.E5a_SHS
  E5a_DVS := .int ie.E5a_DVS

/-- sub_decoders/RTCM_EPH.py:627-663 `__scale1044` -/
def scale1044R (rnd : Rat → Rat) (ie : EphQZS Int) : EphQZS PyNum where
  msgNum := .int ie.msgNum
  satNum := .int ie.satNum
  tc := .int (ie.tc * 16)
  af2 := pow2R rnd ie.af2 55
  af1 := pow2R rnd ie.af1 43
  af0 := pow2R rnd ie.af0 31
  IODE := .int ie.IODE
  crs := pow2R rnd ie.crs 5
  delta_n := pow2R rnd ie.delta_n 43
  m0 := pow2R rnd ie.m0 31
  cuc := pow2R rnd ie.cuc 29
  e := pow2R rnd ie.e 33
  cus := pow2R rnd ie.cus 29
  sqrt_a := pow2R rnd ie.sqrt_a 19
  te := .int (ie.te * 16)
  cic := pow2R rnd ie.cic 29
  omega0 := pow2R rnd ie.omega0 31
  cis := pow2R rnd ie.cis 29
  i0 := pow2R rnd ie.i0 31
  crc := pow2R rnd ie.crc 5
  w := pow2R rnd ie.w 31
  omega_dot := pow2R rnd ie.omega_dot 43
  i_dot := pow2R rnd ie.i_dot 43
  L2_Codes := .int ie.L2_Codes
  weekNum := .int ie.weekNum
  URA := .int ie.URA
  SVH := .int ie.SVH
  TGD := pow2R rnd ie.TGD 31
  IODC := .int ie.IODC
  Fit := .int ie.Fit

/-- sub_decoders/RTCM_EPH.py:688-710 `scale`. -/
def scaleR (rnd : Rat → Rat) : Obj Int → Obj PyNum
  | .gps e => .gps (scale1019R rnd e)
  | .glo e => .glo (scale1020R rnd e)
  | .galf e => .galf (scale1045R rnd e)
  | .gali e => .gali (scale1046R rnd e)
  | .bds e => .bds (scale1042R rnd e)
  | .navic e => .navic (scale1041R rnd e)
  | .qzs e => .qzs (scale1044R rnd e)

/-- sub_decoders/RTCM_EPH.py:712-720 `EphemerisDecoder.decode` -/
def decodeR (rnd : Rat → Rat) (buf : Bytes) (isBareOutput : Bool) : Py (Obj PyNum) := do
  let eph ← decodeBare buf
  if isBareOutput then pure (eph.map .int) else pure (scaleR rnd eph)

/-- sub_decoders/RTCM_EPH.py:733-765 `SubdecoderEph.decode` -/
def subDecodeR (rnd : Rat → Rat) (bareData : Bool) (buf : Bytes) : Option (Obj PyNum) :=
  match (do let _ ← getMsgNum buf; decodeR rnd buf bareData : Py (Obj PyNum)) with
  | .ok e => some e
  | .error _ => none

end Eph
end Verif
