import Verif.Model.Bits
import Verif.Model.EphTypes

/-!
# Model of sub_decoders/RTCM_EPH.py

An assignment `eph.x, offset = self.getbitu(buf, offset, w), offset + w` is `let x ← gbu buf offset w` followed by
`let offset := offset + w`. Python shifts and masks of the non-negative int `tk` are `/ 2^k` and `% 2^k`.
-/

namespace Verif
namespace Eph
open Bits

/-- sub_decoders/RTCM_EPH.py:42 `self.msgList` -/
def msgList : List Nat := [1019, 1020, 1041, 1042, 1044, 1045, 1046]

/-- sub_decoders/RTCM_EPH.py:44-46 `get_msg_num` -/
def getMsgNum (buf : Bytes) : Py Nat := gbu buf 24 12

/-- sub_decoders/RTCM_EPH.py:48-59 `__length_check` -/
def lengthCheck (nexp ndec bufLen : Nat) : Py Unit :=
  if ndec ≠ nexp then .error .ephDecoder
  else
    let ndec := 6 + ((ndec + 7) >>> 3)
    if bufLen < ndec then .error .ephDecoder else .ok ()

/-- `x * (2**-k)` of an int: a float.
sub_decoders/RTCM_EPH.py:118-145, and the other scaling methods. -/
def pow2 (x : Int) (k : Nat) : PyNum := .flt ((x : Rat) / 2 ^ k)

/-- sub_decoders/RTCM_EPH.py:61-101 `__decode1019` -/
def decode1019 (buf : Bytes) : Py (EphGPS Int) := do
  let offset := 24
  let msgNum ← gbu buf offset 12; let offset := offset + 12
  let satNum ← gbu buf offset 6; let offset := offset + 6
  let weekNum ← gbu buf offset 10; let offset := offset + 10
  let URA ← gbu buf offset 4; let offset := offset + 4
  let L2_Codes ← gbu buf offset 2; let offset := offset + 2
  let i_dot ← gbs buf offset 14; let offset := offset + 14
  let IODE ← gbu buf offset 8; let offset := offset + 8
  let tc ← gbu buf offset 16; let offset := offset + 16
  let af2 ← gbs buf offset 8; let offset := offset + 8
  let af1 ← gbs buf offset 16; let offset := offset + 16
  let af0 ← gbs buf offset 22; let offset := offset + 22
  let IODC ← gbu buf offset 10; let offset := offset + 10
  let crs ← gbs buf offset 16; let offset := offset + 16
  let delta_n ← gbs buf offset 16; let offset := offset + 16
  let m0 ← gbs buf offset 32; let offset := offset + 32
  let cuc ← gbs buf offset 16; let offset := offset + 16
  let e ← gbu buf offset 32; let offset := offset + 32
  let cus ← gbs buf offset 16; let offset := offset + 16
  let sqrt_a ← gbu buf offset 32; let offset := offset + 32
  let te ← gbu buf offset 16; let offset := offset + 16
  let cic ← gbs buf offset 16; let offset := offset + 16
  let omega0 ← gbs buf offset 32; let offset := offset + 32
  let cis ← gbs buf offset 16; let offset := offset + 16
  let i0 ← gbs buf offset 32; let offset := offset + 32
  let crc ← gbs buf offset 16; let offset := offset + 16
  let w ← gbs buf offset 32; let offset := offset + 32
  let omega_dot ← gbs buf offset 24; let offset := offset + 24
  let TGD ← gbs buf offset 8; let offset := offset + 8
  let SVH ← gbu buf offset 6; let offset := offset + 6
  let L2P_Data ← gbu buf offset 1; let offset := offset + 1
  let Fit ← gbu buf offset 1; let offset := offset + 1
  lengthCheck 488 (offset - 24) buf.length
  pure { msgNum, satNum, weekNum, tc, af0, af1, af2, te, delta_n, m0, e, sqrt_a, w, i0, i_dot, omega0, omega_dot, crs, crc, cuc, cus, cic, cis, IODE, IODC, Fit, L2_Codes, L2P_Data, SVH, URA, TGD }

/-- sub_decoders/RTCM_EPH.py:103-158 `__scale1019` (with `decorate=False`, the only way it is called; lines 145-150 are not reached) -/
def scale1019 (ie : EphGPS Int) : EphGPS PyNum where
  msgNum := .int ie.msgNum
  satNum := .int ie.satNum
  weekNum := .int ie.weekNum
  i_dot := pow2 ie.i_dot 43
  IODE := .int ie.IODE
  tc := .int (ie.tc * 16)
  af2 := pow2 ie.af2 55
  af1 := pow2 ie.af1 43
  af0 := pow2 ie.af0 31
  IODC := .int ie.IODC
  crs := pow2 ie.crs 5
  delta_n := pow2 ie.delta_n 43
  m0 := pow2 ie.m0 31
  cuc := pow2 ie.cuc 29
  e := pow2 ie.e 33
  cus := pow2 ie.cus 29
  sqrt_a := pow2 ie.sqrt_a 19
  te := .int (ie.te * 16)
  cic := pow2 ie.cic 29
  omega0 := pow2 ie.omega0 31
  cis := pow2 ie.cis 29
  i0 := pow2 ie.i0 31
  crc := pow2 ie.crc 5
  w := pow2 ie.w 31
  omega_dot := pow2 ie.omega_dot 43
  TGD := pow2 ie.TGD 31
  L2_Codes := .int ie.L2_Codes
  URA := .int ie.URA
  SVH := .int ie.SVH
  L2P_Data := .int ie.L2P_Data
  Fit := .int ie.Fit

/-- sub_decoders/RTCM_EPH.py:168-212 `__decode1020` -/
def decode1020 (buf : Bytes) : Py (EphGLO Int) := do
  let offset := 24
  let msgNum ← gbu buf offset 12; let offset := offset + 12
  let satNum ← gbu buf offset 6; let offset := offset + 6
  let frqSloNum ← gbu buf offset 5; let offset := offset + 5
  let Cn ← gbu buf offset 1; let offset := offset + 1
  let AlmHAI ← gbu buf offset 1; let offset := offset + 1
  let P1 ← gbu buf offset 2; let offset := offset + 2
  let tk ← gbu buf offset 12; let offset := offset + 12
  let BnMSB ← gbu buf offset 1; let offset := offset + 1
  let P2 ← gbu buf offset 1; let offset := offset + 1
  let tb ← gbu buf offset 7; let offset := offset + 7
  let dotXn ← gbS buf offset 24; let offset := offset + 24
  let xn ← gbS buf offset 27; let offset := offset + 27
  let dotDotXn ← gbS buf offset 5; let offset := offset + 5
  let dotYn ← gbS buf offset 24; let offset := offset + 24
  let yn ← gbS buf offset 27; let offset := offset + 27
  let dotDotYn ← gbS buf offset 5; let offset := offset + 5
  let dotZn ← gbS buf offset 24; let offset := offset + 24
  let zn ← gbS buf offset 27; let offset := offset + 27
  let dotDotZn ← gbS buf offset 5; let offset := offset + 5
  let P3 ← gbu buf offset 1; let offset := offset + 1
  let gamma_n ← gbS buf offset 11; let offset := offset + 11
  let P ← gbu buf offset 2; let offset := offset + 2
  let ln3 ← gbu buf offset 1; let offset := offset + 1
  let tauN ← gbS buf offset 22; let offset := offset + 22
  let delta_tauN ← gbS buf offset 5; let offset := offset + 5
  let En ← gbu buf offset 5; let offset := offset + 5
  let P4 ← gbu buf offset 1; let offset := offset + 1
  let Ft ← gbu buf offset 4; let offset := offset + 4
  let Nt ← gbu buf offset 11; let offset := offset + 11
  let M ← gbu buf offset 2; let offset := offset + 2
  let auxDataOK ← gbu buf offset 1; let offset := offset + 1
  let Na ← gbu buf offset 11; let offset := offset + 11
  let tauC ← gbS buf offset 32; let offset := offset + 32
  let N4 ← gbu buf offset 5; let offset := offset + 5
  let tauGPS ← gbS buf offset 22; let offset := offset + 22
  let ln5 ← gbu buf offset 1; let offset := offset + 1 + 7
  lengthCheck 360 (offset - 24) buf.length
  pure { msgNum, satNum, frqSloNum, tk, tb, xn, dotXn, dotDotXn, yn, dotYn, dotDotYn, zn, dotZn, dotDotZn, gamma_n, Cn, BnMSB, AlmHAI, P, P1, P2, P3, P4, ln3, tauN, delta_tauN, En, Ft, Nt, M, auxDataOK, Na, tauC, N4, tauGPS, ln5 }

/-- sub_decoders/RTCM_EPH.py:214-271 `__scale1020` -/
def scale1020 (ie : EphGLO Int) : EphGLO PyNum where
  msgNum := .int ie.msgNum
  satNum := .int ie.satNum
  frqSloNum := .int (ie.frqSloNum - 7)
  tk := .int (3600 * (ie.tk / 2 ^ 7 % 2 ^ 5) + 60 * (ie.tk / 2 ^ 1 % 2 ^ 6) + 30 * (ie.tk % 2 ^ 1))
  Cn := .int ie.Cn
  AlmHAI := .int ie.AlmHAI
  P1 := .int ie.P1
  BnMSB := .int ie.BnMSB
  P2 := .int ie.P2
  tb := .int (ie.tb * 15 * 60)
  dotXn := pow2 ie.dotXn 20
  xn := pow2 ie.xn 11
  dotDotXn := pow2 ie.dotDotXn 30
  dotYn := pow2 ie.dotYn 20
  yn := pow2 ie.yn 11
  dotDotYn := pow2 ie.dotDotYn 30
  dotZn := pow2 ie.dotZn 20
  zn := pow2 ie.zn 11
  dotDotZn := pow2 ie.dotDotZn 30
  P3 := .int ie.P3
  gamma_n := pow2 ie.gamma_n 40
  P := .int ie.P
  ln3 := .int ie.ln3
  tauN := pow2 ie.tauN 30
  delta_tauN := pow2 ie.delta_tauN 30
  En := .int ie.En
  P4 := .int ie.P4
  Ft := .int ie.Ft
  Nt := .int ie.Nt
  M := .int ie.M
  auxDataOK := .int ie.auxDataOK
  Na := .int ie.Na
  tauC := pow2 ie.tauC 31
  N4 := .int ie.N4
  tauGPS := pow2 ie.tauGPS 30
  ln5 := .int ie.ln5

/-- sub_decoders/RTCM_EPH.py:273-313 `__decode1041` -/
def decode1041 (buf : Bytes) : Py (EphNAVIC Int) := do
  let offset := 24
  let msgNum ← gbu buf offset 12; let offset := offset + 12
  let satNum ← gbu buf offset 6; let offset := offset + 6
  let weekNum ← gbu buf offset 10; let offset := offset + 10
  let af0 ← gbs buf offset 22; let offset := offset + 22
  let af1 ← gbs buf offset 16; let offset := offset + 16
  let af2 ← gbs buf offset 8; let offset := offset + 8
  let URA ← gbu buf offset 4; let offset := offset + 4
  let tc ← gbu buf offset 16; let offset := offset + 16
  let TGD ← gbs buf offset 8; let offset := offset + 8
  let delta_n ← gbs buf offset 22; let offset := offset + 22
  let IODEC ← gbu buf offset 8; let offset := offset + 8 + 10
  let L5_Flag ← gbu buf offset 1; let offset := offset + 1
  let S_Flag ← gbu buf offset 1; let offset := offset + 1
  let cuc ← gbs buf offset 15; let offset := offset + 15
  let cus ← gbs buf offset 15; let offset := offset + 15
  let cic ← gbs buf offset 15; let offset := offset + 15
  let cis ← gbs buf offset 15; let offset := offset + 15
  let crc ← gbs buf offset 15; let offset := offset + 15
  let crs ← gbs buf offset 15; let offset := offset + 15
  let i_dot ← gbs buf offset 14; let offset := offset + 14
  let m0 ← gbs buf offset 32; let offset := offset + 32
  let te ← gbu buf offset 16; let offset := offset + 16
  let e ← gbu buf offset 32; let offset := offset + 32
  let sqrt_a ← gbu buf offset 32; let offset := offset + 32
  let omega0 ← gbs buf offset 32; let offset := offset + 32
  let w ← gbs buf offset 32; let offset := offset + 32
  let omega_dot ← gbs buf offset 22; let offset := offset + 22
  let i0 ← gbs buf offset 32; let offset := offset + 32 + 2 + 2
  lengthCheck 482 (offset - 24) buf.length
  pure { msgNum, satNum, weekNum, tc, af0, af1, af2, te, delta_n, m0, e, sqrt_a, w, i0, i_dot, omega0, omega_dot, crs, crc, cuc, cus, cic, cis, URA, TGD, IODEC, L5_Flag, S_Flag }

/-- sub_decoders/RTCM_EPH.py:315-351 `__scale1041` -/
def scale1041 (ie : EphNAVIC Int) : EphNAVIC PyNum where
  msgNum := .int ie.msgNum
  satNum := .int ie.satNum
  weekNum := .int ie.weekNum
  af0 := pow2 ie.af0 31
  af1 := pow2 ie.af1 43
  af2 := pow2 ie.af2 55
  URA := .int ie.URA
  tc := .int (ie.tc * 16)
  TGD := pow2 ie.TGD 31
  delta_n := pow2 ie.delta_n 41
  IODEC := .int ie.IODEC
  L5_Flag := .int ie.L5_Flag
  S_Flag := .int ie.S_Flag
  cuc := pow2 ie.cuc 28
  cus := pow2 ie.cus 28
  cic := pow2 ie.cic 28
  cis := pow2 ie.cis 28
  crc := pow2 ie.crc 4
  crs := pow2 ie.crs 4
  i_dot := pow2 ie.i_dot 43
  m0 := pow2 ie.m0 31
  te := .int (ie.te * 16)
  e := pow2 ie.e 33
  sqrt_a := pow2 ie.sqrt_a 19
  omega0 := pow2 ie.omega0 31
  w := pow2 ie.w 31
  omega_dot := pow2 ie.omega_dot 41
  i0 := pow2 ie.i0 31

/-- sub_decoders/RTCM_EPH.py:353-392 `__decode1042` -/
def decode1042 (buf : Bytes) : Py (EphBDS Int) := do
  let offset := 24
  let msgNum ← gbu buf offset 12; let offset := offset + 12
  let satNum ← gbu buf offset 6; let offset := offset + 6
  let weekNum ← gbu buf offset 13; let offset := offset + 13
  let URAI ← gbu buf offset 4; let offset := offset + 4
  let i_dot ← gbs buf offset 14; let offset := offset + 14
  let AODE ← gbu buf offset 5; let offset := offset + 5
  let tc ← gbu buf offset 17; let offset := offset + 17
  let af2 ← gbs buf offset 11; let offset := offset + 11
  let af1 ← gbs buf offset 22; let offset := offset + 22
  let af0 ← gbs buf offset 24; let offset := offset + 24
  let AODC ← gbu buf offset 5; let offset := offset + 5
  let crs ← gbs buf offset 18; let offset := offset + 18
  let delta_n ← gbs buf offset 16; let offset := offset + 16
  let m0 ← gbs buf offset 32; let offset := offset + 32
  let cuc ← gbs buf offset 18; let offset := offset + 18
  let e ← gbu buf offset 32; let offset := offset + 32
  let cus ← gbs buf offset 18; let offset := offset + 18
  let sqrt_a ← gbu buf offset 32; let offset := offset + 32
  let te ← gbu buf offset 17; let offset := offset + 17
  let cic ← gbs buf offset 18; let offset := offset + 18
  let omega0 ← gbs buf offset 32; let offset := offset + 32
  let cis ← gbs buf offset 18; let offset := offset + 18
  let i0 ← gbs buf offset 32; let offset := offset + 32
  let crc ← gbs buf offset 18; let offset := offset + 18
  let w ← gbs buf offset 32; let offset := offset + 32
  let omega_dot ← gbs buf offset 24; let offset := offset + 24
  let TGD1 ← gbs buf offset 10; let offset := offset + 10
  let TGD2 ← gbs buf offset 10; let offset := offset + 10
  let SVH ← gbu buf offset 1; let offset := offset + 1
  lengthCheck 511 (offset - 24) buf.length
  pure { msgNum, satNum, weekNum, tc, af0, af1, af2, te, delta_n, m0, e, sqrt_a, w, i0, i_dot, omega0, omega_dot, crs, crc, cuc, cus, cic, cis, AODE, AODC, SVH, URAI, TGD1, TGD2 }

/-- sub_decoders/RTCM_EPH.py:394-431 `__scale1042` -/
def scale1042 (ie : EphBDS Int) : EphBDS PyNum where
  msgNum := .int ie.msgNum
  satNum := .int ie.satNum
  weekNum := .int ie.weekNum
  URAI := .int ie.URAI
  i_dot := pow2 ie.i_dot 43
  AODE := .int ie.AODE
  tc := .int (ie.tc * 8)
  af2 := pow2 ie.af2 66
  af1 := pow2 ie.af1 50
  af0 := pow2 ie.af0 33
  AODC := .int ie.AODC
  crs := pow2 ie.crs 6
  delta_n := pow2 ie.delta_n 43
  m0 := pow2 ie.m0 31
  cuc := pow2 ie.cuc 31
  e := pow2 ie.e 33
  cus := pow2 ie.cus 31
  sqrt_a := pow2 ie.sqrt_a 19
  te := .int (ie.te * 8)
  cic := pow2 ie.cic 31
  omega0 := pow2 ie.omega0 31
  cis := pow2 ie.cis 31
  i0 := pow2 ie.i0 31
  crc := pow2 ie.crc 6
  w := pow2 ie.w 31
  omega_dot := pow2 ie.omega_dot 43
  TGD1 := .flt ((ie.TGD1 : Rat) * (1 / 10 ^ 10))
  TGD2 := .flt ((ie.TGD2 : Rat) * (1 / 10 ^ 10))
  SVH := .int ie.SVH

/-- sub_decoders/RTCM_EPH.py:433-472 `__decode1046` -/
def decode1046 (buf : Bytes) : Py (EphGALI Int) := do
  let offset := 24
  let msgNum ← gbu buf offset 12; let offset := offset + 12
  let satNum ← gbu buf offset 6; let offset := offset + 6
  let weekNum ← gbu buf offset 12; let offset := offset + 12
  let IODnav ← gbu buf offset 10; let offset := offset + 10
  let SISA ← gbu buf offset 8; let offset := offset + 8
  let i_dot ← gbs buf offset 14; let offset := offset + 14
  let tc ← gbu buf offset 14; let offset := offset + 14
  let af2 ← gbs buf offset 6; let offset := offset + 6
  let af1 ← gbs buf offset 21; let offset := offset + 21
  let af0 ← gbs buf offset 31; let offset := offset + 31
  let crs ← gbs buf offset 16; let offset := offset + 16
  let delta_n ← gbs buf offset 16; let offset := offset + 16
  let m0 ← gbs buf offset 32; let offset := offset + 32
  let cuc ← gbs buf offset 16; let offset := offset + 16
  let e ← gbu buf offset 32; let offset := offset + 32
  let cus ← gbs buf offset 16; let offset := offset + 16
  let sqrt_a ← gbu buf offset 32; let offset := offset + 32
  let te ← gbu buf offset 14; let offset := offset + 14
  let cic ← gbs buf offset 16; let offset := offset + 16
  let omega0 ← gbs buf offset 32; let offset := offset + 32
  let cis ← gbs buf offset 16; let offset := offset + 16
  let i0 ← gbs buf offset 32; let offset := offset + 32
  let crc ← gbs buf offset 16; let offset := offset + 16
  let w ← gbs buf offset 32; let offset := offset + 32
  let omega_dot ← gbs buf offset 24; let offset := offset + 24
  let E5a_BGD ← gbs buf offset 10; let offset := offset + 10
  let E5b_BGD ← gbs buf offset 10; let offset := offset + 10
  let E5b_SHS ← gbu buf offset 2; let offset := offset + 2
  let E5b_DVS ← gbu buf offset 1; let offset := offset + 1
  let E1_SHS ← gbu buf offset 2; let offset := offset + 2
  let E1_DVS ← gbu buf offset 1; let offset := offset + 1 + 2
  lengthCheck 504 (offset - 24) buf.length
  pure { msgNum, satNum, weekNum, tc, af0, af1, af2, te, delta_n, m0, e, sqrt_a, w, i0, i_dot, omega0, omega_dot, crs, crc, cuc, cus, cic, cis, IODnav, SISA, E5a_BGD, E5b_BGD, E1_SHS, E1_DVS, E5b_SHS, E5b_DVS }

/-- sub_decoders/RTCM_EPH.py:474-511 `__scale1046` -/
def scale1046 (ie : EphGALI Int) : EphGALI PyNum where
  msgNum := .int ie.msgNum
  satNum := .int ie.satNum
  weekNum := .int ie.weekNum
  IODnav := .int ie.IODnav
  SISA := .int ie.SISA
  i_dot := pow2 ie.i_dot 43
  tc := .int (ie.tc * 60)
  af2 := pow2 ie.af2 59
  af1 := pow2 ie.af1 46
  af0 := pow2 ie.af0 34
  crs := pow2 ie.crs 5
  delta_n := pow2 ie.delta_n 43
  m0 := pow2 ie.m0 31
  cuc := pow2 ie.cuc 29
  e := pow2 ie.e 33
  cus := pow2 ie.cus 29
  sqrt_a := pow2 ie.sqrt_a 19
  te := .int (ie.te * 60)
  cic := pow2 ie.cic 29
  omega0 := pow2 ie.omega0 31
  cis := pow2 ie.cis 29
  i0 := pow2 ie.i0 31
  crc := pow2 ie.crc 5
  w := pow2 ie.w 31
  omega_dot := pow2 ie.omega_dot 43
  E5a_BGD := pow2 ie.E5a_BGD 32
  E5b_BGD := pow2 ie.E5b_BGD 32
  E5b_SHS := .int ie.E5b_SHS
  E5b_DVS := .int ie.E5b_DVS
  E1_SHS := .int ie.E1_SHS
  E1_DVS := .int ie.E1_DVS

/-- sub_decoders/RTCM_EPH.py:513-549 `__decode1045` -/
def decode1045 (buf : Bytes) : Py (EphGALF Int) := do
  let offset := 24
  let msgNum ← gbu buf offset 12; let offset := offset + 12
  let satNum ← gbu buf offset 6; let offset := offset + 6
  let weekNum ← gbu buf offset 12; let offset := offset + 12
  let IODnav ← gbu buf offset 10; let offset := offset + 10
  let SISA ← gbu buf offset 8; let offset := offset + 8
  let i_dot ← gbs buf offset 14; let offset := offset + 14
  let tc ← gbu buf offset 14; let offset := offset + 14
  let af2 ← gbs buf offset 6; let offset := offset + 6
  let af1 ← gbs buf offset 21; let offset := offset + 21
  let af0 ← gbs buf offset 31; let offset := offset + 31
  let crs ← gbs buf offset 16; let offset := offset + 16
  let delta_n ← gbs buf offset 16; let offset := offset + 16
  let m0 ← gbs buf offset 32; let offset := offset + 32
  let cuc ← gbs buf offset 16; let offset := offset + 16
  let e ← gbu buf offset 32; let offset := offset + 32
  let cus ← gbs buf offset 16; let offset := offset + 16
  let sqrt_a ← gbu buf offset 32; let offset := offset + 32
  let te ← gbu buf offset 14; let offset := offset + 14
  let cic ← gbs buf offset 16; let offset := offset + 16
  let omega0 ← gbs buf offset 32; let offset := offset + 32
  let cis ← gbs buf offset 16; let offset := offset + 16
  let i0 ← gbs buf offset 32; let offset := offset + 32
  let crc ← gbs buf offset 16; let offset := offset + 16
  let w ← gbs buf offset 32; let offset := offset + 32
  let omega_dot ← gbs buf offset 24; let offset := offset + 24
  let E5a_BGD ← gbs buf offset 10; let offset := offset + 10
  let E5a_SHS ← gbu buf offset 2; let offset := offset + 2
  let E5a_DVS ← gbu buf offset 1; let offset := offset + 1 + 7
  lengthCheck 496 (offset - 24) buf.length
  pure { msgNum, satNum, weekNum, tc, af0, af1, af2, te, delta_n, m0, e, sqrt_a, w, i0, i_dot, omega0, omega_dot, crs, crc, cuc, cus, cic, cis, IODnav, SISA, E5a_BGD, E5a_SHS, E5a_DVS }

/-- sub_decoders/RTCM_EPH.py:551-585 `__scale1045` -/
def scale1045 (ie : EphGALF Int) : EphGALF PyNum where
  msgNum := .int ie.msgNum
  satNum := .int ie.satNum
  weekNum := .int ie.weekNum
  IODnav := .int ie.IODnav
  SISA := .int ie.SISA
  i_dot := pow2 ie.i_dot 43
  tc := .int (ie.tc * 60)
  af2 := pow2 ie.af2 59
  af1 := pow2 ie.af1 46
  af0 := pow2 ie.af0 34
  crs := pow2 ie.crs 5
  delta_n := pow2 ie.delta_n 43
  m0 := pow2 ie.m0 31
  cuc := pow2 ie.cuc 29
  e := pow2 ie.e 33
  cus := pow2 ie.cus 29
  sqrt_a := pow2 ie.sqrt_a 19
  te := .int (ie.te * 60)
  cic := pow2 ie.cic 29
  omega0 := pow2 ie.omega0 31
  cis := pow2 ie.cis 29
  i0 := pow2 ie.i0 31
  crc := pow2 ie.crc 5
  w := pow2 ie.w 31
  omega_dot := pow2 ie.omega_dot 43
  E5a_BGD := pow2 ie.E5a_BGD 32
  E5a_SHS := .int ie.E5a_SHS
  E5a_DVS := .int ie.E5a_DVS

/-- sub_decoders/RTCM_EPH.py:587-625 `__decode1044` -/
def decode1044 (buf : Bytes) : Py (EphQZS Int) := do
  let offset := 24
  let msgNum ← gbu buf offset 12; let offset := offset + 12
  let satNum ← gbu buf offset 4; let offset := offset + 4
  let tc ← gbu buf offset 16; let offset := offset + 16
  let af2 ← gbs buf offset 8; let offset := offset + 8
  let af1 ← gbs buf offset 16; let offset := offset + 16
  let af0 ← gbs buf offset 22; let offset := offset + 22
  let IODE ← gbu buf offset 8; let offset := offset + 8
  let crs ← gbs buf offset 16; let offset := offset + 16
  let delta_n ← gbs buf offset 16; let offset := offset + 16
  let m0 ← gbs buf offset 32; let offset := offset + 32
  let cuc ← gbs buf offset 16; let offset := offset + 16
  let e ← gbu buf offset 32; let offset := offset + 32
  let cus ← gbs buf offset 16; let offset := offset + 16
  let sqrt_a ← gbu buf offset 32; let offset := offset + 32
  let te ← gbu buf offset 16; let offset := offset + 16
  let cic ← gbs buf offset 16; let offset := offset + 16
  let omega0 ← gbs buf offset 32; let offset := offset + 32
  let cis ← gbs buf offset 16; let offset := offset + 16
  let i0 ← gbs buf offset 32; let offset := offset + 32
  let crc ← gbs buf offset 16; let offset := offset + 16
  let w ← gbs buf offset 32; let offset := offset + 32
  let omega_dot ← gbs buf offset 24; let offset := offset + 24
  let i_dot ← gbs buf offset 14; let offset := offset + 14
  let L2_Codes ← gbu buf offset 2; let offset := offset + 2
  let weekNum ← gbu buf offset 10; let offset := offset + 10
  let URA ← gbu buf offset 4; let offset := offset + 4
  let SVH ← gbu buf offset 6; let offset := offset + 6
  let TGD ← gbs buf offset 8; let offset := offset + 8
  let IODC ← gbu buf offset 10; let offset := offset + 8
  let Fit ← gbu buf offset 1; let offset := offset + 1
  lengthCheck 485 (offset - 24) buf.length
  pure { msgNum, satNum, weekNum, tc, af0, af1, af2, te, delta_n, m0, e, sqrt_a, w, i0, i_dot, omega0, omega_dot, crs, crc, cuc, cus, cic, cis, IODE, IODC, Fit, L2_Codes, SVH, URA, TGD }

/-- sub_decoders/RTCM_EPH.py:627-663 `__scale1044` -/
def scale1044 (ie : EphQZS Int) : EphQZS PyNum where
  msgNum := .int ie.msgNum
  satNum := .int ie.satNum
  tc := .int (ie.tc * 16)
  af2 := pow2 ie.af2 55
  af1 := pow2 ie.af1 43
  af0 := pow2 ie.af0 31
  IODE := .int ie.IODE
  crs := pow2 ie.crs 5
  delta_n := pow2 ie.delta_n 43
  m0 := pow2 ie.m0 31
  cuc := pow2 ie.cuc 29
  e := pow2 ie.e 33
  cus := pow2 ie.cus 29
  sqrt_a := pow2 ie.sqrt_a 19
  te := .int (ie.te * 16)
  cic := pow2 ie.cic 29
  omega0 := pow2 ie.omega0 31
  cis := pow2 ie.cis 29
  i0 := pow2 ie.i0 31
  crc := pow2 ie.crc 5
  w := pow2 ie.w 31
  omega_dot := pow2 ie.omega_dot 43
  i_dot := pow2 ie.i_dot 43
  L2_Codes := .int ie.L2_Codes
  weekNum := .int ie.weekNum
  URA := .int ie.URA
  SVH := .int ie.SVH
  TGD := pow2 ie.TGD 31
  IODC := .int ie.IODC
  Fit := .int ie.Fit

/-- sub_decoders/RTCM_EPH.py:665-686 `__decode` -/
def decodeBare (buf : Bytes) : Py (Obj Int) := do
  let msgNum ← getMsgNum buf
  if msgNum = 1019 then return .gps (← decode1019 buf)
  else if msgNum = 1020 then return .glo (← decode1020 buf)
  else if msgNum = 1041 then return .navic (← decode1041 buf)
  else if msgNum = 1042 then return .bds (← decode1042 buf)
  else if msgNum = 1044 then return .qzs (← decode1044 buf)
  else if msgNum = 1045 then return .galf (← decode1045 buf)
  else if msgNum = 1046 then return .gali (← decode1046 buf)
  else .error .ephDecoder

/-- sub_decoders/RTCM_EPH.py:688-710 `scale`. The last case of the Python match is unreachable for these types. -/
def scale : Obj Int → Obj PyNum
  | .gps e => .gps (scale1019 e)
  | .glo e => .glo (scale1020 e)
  | .galf e => .galf (scale1045 e)
  | .gali e => .gali (scale1046 e)
  | .bds e => .bds (scale1042 e)
  | .navic e => .navic (scale1041 e)
  | .qzs e => .qzs (scale1044 e)

/-- sub_decoders/RTCM_EPH.py:712-720 `EphemerisDecoder.decode` -/
def decode (buf : Bytes) (isBareOutput : Bool) : Py (Obj PyNum) := do
  let eph ← decodeBare buf
  if isBareOutput then pure (eph.map .int) else pure (scale eph)

/-- sub_decoders/RTCM_EPH.py:733-765 `SubdecoderEph.decode`: every exception is caught and `None` returned. -/
def subDecode (bareData : Bool) (buf : Bytes) : Option (Obj PyNum) :=
  match (do let _ ← getMsgNum buf; decode buf bareData : Py (Obj PyNum)) with
  | .ok e => some e
  | .error _ => none

end Eph
end Verif
