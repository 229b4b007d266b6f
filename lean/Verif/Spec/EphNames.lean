import Verif.Spec.Eph

/-!
# Names of the ephemeris data in the output, in the order of the message tables
-/

namespace Verif
namespace Spec

/-- Names of the data of message 1019. -/
def names1019 : List String :=
  ["msgNum", "satNum", "weekNum", "URA", "L2_Codes", "i_dot", "IODE", "tc", "af2", "af1", "af0", "IODC", "crs",
   "delta_n", "m0", "cuc", "e", "cus", "sqrt_a", "te", "cic", "omega0", "cis", "i0", "crc", "w", "omega_dot", "TGD",
   "SVH", "L2P_Data", "Fit"]

/-- Names of the data of message 1020. -/
def names1020 : List String :=
  ["msgNum", "satNum", "frqSloNum", "Cn", "AlmHAI", "P1", "tk", "BnMSB", "P2", "tb", "dotXn", "xn", "dotDotXn", "dotYn",
   "yn", "dotDotYn", "dotZn", "zn", "dotDotZn", "P3", "gamma_n", "P", "ln3", "tauN", "delta_tauN", "En", "P4", "Ft",
   "Nt", "M", "auxDataOK", "Na", "tauC", "N4", "tauGPS", "ln5"]

/-- Names of the data of message 1041. -/
def names1041 : List String :=
  ["msgNum", "satNum", "weekNum", "af0", "af1", "af2", "URA", "tc", "TGD", "delta_n", "IODEC", "L5_Flag", "S_Flag",
   "cuc", "cus", "cic", "cis", "crc", "crs", "i_dot", "m0", "te", "e", "sqrt_a", "omega0", "w", "omega_dot", "i0"]

/-- Names of the data of message 1042. -/
def names1042 : List String :=
  ["msgNum", "satNum", "weekNum", "URAI", "i_dot", "AODE", "tc", "af2", "af1", "af0", "AODC", "crs", "delta_n", "m0",
   "cuc", "e", "cus", "sqrt_a", "te", "cic", "omega0", "cis", "i0", "crc", "w", "omega_dot", "TGD1", "TGD2", "SVH"]

/-- Names of the data of message 1045. -/
def names1045 : List String :=
  ["msgNum", "satNum", "weekNum", "IODnav", "SISA", "i_dot", "tc", "af2", "af1", "af0", "crs", "delta_n", "m0", "cuc",
   "e", "cus", "sqrt_a", "te", "cic", "omega0", "cis", "i0", "crc", "w", "omega_dot", "E5a_BGD", "E5a_SHS", "E5a_DVS"]

/-- Names of the data of message 1046. -/
def names1046 : List String :=
  ["msgNum", "satNum", "weekNum", "IODnav", "SISA", "i_dot", "tc", "af2", "af1", "af0", "crs", "delta_n", "m0", "cuc",
   "e", "cus", "sqrt_a", "te", "cic", "omega0", "cis", "i0", "crc", "w", "omega_dot", "E5a_BGD", "E5b_BGD", "E5b_SHS",
   "E5b_DVS", "E1_SHS", "E1_DVS"]

/-- Names of the data of message 1044. -/
def names1044 : List String :=
  ["msgNum", "satNum", "tc", "af2", "af1", "af0", "IODE", "crs", "delta_n", "m0", "cuc", "e", "cus", "sqrt_a", "te",
   "cic", "omega0", "cis", "i0", "crc", "w", "omega_dot", "i_dot", "L2_Codes", "weekNum", "URA", "SVH", "TGD", "IODC",
   "Fit"]

/-- Names of the data of an ephemeris object, in the order of `valsOf`. -/
def namesOf {ν : Type} : Eph.Obj ν → List String
  | .gps _ => names1019
  | .glo _ => names1020
  | .navic _ => names1041
  | .bds _ => names1042
  | .qzs _ => names1044
  | .galf _ => names1045
  | .gali _ => names1046

end Spec
end Verif
