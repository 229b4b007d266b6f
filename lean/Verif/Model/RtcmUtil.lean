import Verif.Model.Py
import Verif.Model.Dict

/-!
# Model of utilities/RTCM_utilities.py

Floats are exact rationals; `x & (2^k-1)` of a Python int is `x % 2^k` (also for negative `x`).
-/

namespace Verif
namespace RtcmUtil

/-- utilities/RTCM_utilities.py:36 `LEG1_MSG_LIST` -/
def leg1MsgList : PyDict Int String :=
  [(1001, "G"), (1009, "R")]

/-- utilities/RTCM_utilities.py:37 `LEG2_MSG_LIST` -/
def leg2MsgList : PyDict Int String :=
  [(1002, "G"), (1010, "R")]

/-- utilities/RTCM_utilities.py:38 `LEG3_MSG_LIST` -/
def leg3MsgList : PyDict Int String :=
  [(1003, "G"), (1011, "R")]

/-- utilities/RTCM_utilities.py:39 `LEG4_MSG_LIST` -/
def leg4MsgList : PyDict Int String :=
  [(1004, "G"), (1012, "R")]

/-- utilities/RTCM_utilities.py:72-80 `EPH_MSG_LIST` -/
def ephMsgList : PyDict Int String :=
  [(1019, "G"), (1020, "R"), (1045, "E"), (1046, "E"), (1044, "Q"), (1042, "B"),
   (1041, "I")]

/-- utilities/RTCM_utilities.py:100-108 `MSM7_MSG_LIST` -/
def msm7MsgList : PyDict Int String :=
  [(1077, "G"), (1087, "R"), (1097, "E"), (1107, "S"), (1117, "Q"), (1127, "B"),
   (1137, "I")]

/-- utilities/RTCM_utilities.py:109-117 `MSM6_MSG_LIST` -/
def msm6MsgList : PyDict Int String :=
  [(1076, "G"), (1086, "R"), (1096, "E"), (1106, "S"), (1116, "Q"), (1126, "B"),
   (1136, "I")]

/-- utilities/RTCM_utilities.py:118-126 `MSM5_MSG_LIST` -/
def msm5MsgList : PyDict Int String :=
  [(1075, "G"), (1085, "R"), (1095, "E"), (1105, "S"), (1115, "Q"), (1125, "B"),
   (1135, "I")]

/-- utilities/RTCM_utilities.py:127-135 `MSM4_MSG_LIST` -/
def msm4MsgList : PyDict Int String :=
  [(1074, "G"), (1084, "R"), (1094, "E"), (1104, "S"), (1114, "Q"), (1124, "B"),
   (1134, "I")]

/-- utilities/RTCM_utilities.py:136-144 `MSM3_MSG_LIST` -/
def msm3MsgList : PyDict Int String :=
  [(1073, "G"), (1083, "R"), (1093, "E"), (1103, "S"), (1113, "Q"), (1123, "B"),
   (1133, "I")]

/-- utilities/RTCM_utilities.py:145-153 `MSM2_MSG_LIST` -/
def msm2MsgList : PyDict Int String :=
  [(1072, "G"), (1082, "R"), (1092, "E"), (1102, "S"), (1112, "Q"), (1122, "B"),
   (1132, "I")]

/-- utilities/RTCM_utilities.py:154-162 `MSM1_MSG_LIST` -/
def msm1MsgList : PyDict Int String :=
  [(1071, "G"), (1081, "R"), (1091, "E"), (1101, "S"), (1111, "Q"), (1121, "B"),
   (1131, "I")]

/-- utilities/RTCM_utilities.py:165 `__NAVIC_LIT` -/
def navicLit : PyDict Nat String :=
  [(8, "9A"), (22, "5A")]

/-- utilities/RTCM_utilities.py:167-177 `__BDS_LIT` -/
def bdsLit : PyDict Nat String :=
  [(2, "2I"), (3, "2Q"), (4, "2X"), (8, "6I"), (9, "6Q"), (10, "6X"),
   (14, "7I"), (15, "7Q"), (16, "7X")]

/-- utilities/RTCM_utilities.py:179-193 `__QZSS_LIT` -/
def qzssLit : PyDict Nat String :=
  [(2, "1C"), (30, "1S"), (31, "1L"), (32, "1X"), (9, "6S"), (10, "6L"),
   (11, "6X"), (15, "2S"), (16, "2L"), (17, "2X"), (22, "5I"), (23, "5Q"),
   (24, "5X")]

/-- utilities/RTCM_utilities.py:195 `__SBAS_LIT` -/
def sbasLit : PyDict Nat String :=
  [(2, "1C"), (22, "5I"), (23, "5Q"), (24, "5X")]

/-- utilities/RTCM_utilities.py:197-217 `__GAL_LIT` -/
def galLit : PyDict Nat String :=
  [(2, "1C"), (3, "1A"), (4, "1B"), (5, "1X"), (6, "1Z"), (8, "6C"),
   (9, "6A"), (10, "6B"), (11, "6X"), (12, "6Z"), (14, "7I"), (15, "7Q"),
   (16, "7X"), (18, "8I"), (19, "8Q"), (20, "8X"), (22, "5I"), (23, "5Q"),
   (24, "5X")]

/-- utilities/RTCM_utilities.py:219-235 `__GPS_LIT` -/
def gpsLit : PyDict Nat String :=
  [(2, "1C"), (3, "1P"), (4, "1W"), (30, "1S"), (31, "1L"), (32, "1X"),
   (8, "2C"), (9, "2P"), (10, "2W"), (15, "2S"), (16, "2L"), (17, "2X"),
   (22, "5I"), (23, "5Q"), (24, "5X")]

/-- utilities/RTCM_utilities.py:237 `__GLN_LIT` -/
def glnLit : PyDict Nat String :=
  [(2, "1C"), (3, "1P"), (8, "2C"), (9, "2P")]

/-- utilities/RTCM_utilities.py:239-247 `__MSM2RINEX_TAB` -/
def msm2RinexTab : PyDict String (PyDict Nat String) :=
  [("G", gpsLit), ("R", glnLit), ("E", galLit), ("S", sbasLit), ("Q", qzssLit), ("B", bdsLit), ("I", navicLit)]

/-- utilities/RTCM_utilities.py:250-259 `__NAVIC_CF` -/
def navicCf : PyDict String Rat :=
  [("5A", 1176.45), ("5B", 1176.45), ("5C", 1176.45), ("5X", 1176.45), ("9A", 2492.028), ("9B", 2492.028),
   ("9C", 2492.028), ("9X", 2492.028)]

/-- utilities/RTCM_utilities.py:261-285 `__BDS_CF` -/
def bdsCf : PyDict String Rat :=
  [("2I", 1561.098), ("2Q", 1561.098), ("2X", 1561.098), ("1D", 1575.42), ("1P", 1575.42), ("1X", 1575.42),
   ("1A", 1575.42), ("1N", 1575.42), ("5D", 1176.45), ("5P", 1176.45), ("5X", 1176.45), ("7I", 1207.140),
   ("7Q", 1207.140), ("7X", 1207.140), ("7D", 1207.140), ("7P", 1207.140), ("7Z", 1207.140), ("8D", 1191.795),
   ("8P", 1191.795), ("8X", 1191.795), ("6I", 1268.52), ("6Q", 1268.52), ("6X", 1268.52)]

/-- utilities/RTCM_utilities.py:287-307 `__QZSS_CF` -/
def qzssCf : PyDict String Rat :=
  [("1C", 1575.42), ("1S", 1575.42), ("1L", 1575.42), ("1X", 1575.42), ("1Z", 1575.42), ("2S", 1227.60),
   ("2L", 1227.60), ("2X", 1227.60), ("5I", 1176.45), ("5Q", 1176.45), ("5X", 1176.45), ("5D", 1176.45),
   ("5P", 1176.45), ("5Z", 1176.45), ("6S", 1278.75), ("6L", 1278.75), ("6X", 1278.75), ("6E", 1278.75),
   ("6Z", 1278.75)]

/-- utilities/RTCM_utilities.py:309 `__SBAS_CF` -/
def sbasCf : PyDict String Rat :=
  [("1C", 1575.42), ("5I", 1176.45), ("5Q", 1176.45), ("5X", 1176.45)]

/-- utilities/RTCM_utilities.py:311-331 `__GAL_CF` -/
def galCf : PyDict String Rat :=
  [("1A", 1575.42), ("1B", 1575.42), ("1C", 1575.42), ("1Z", 1575.42), ("1X", 1575.42), ("5I", 1176.45),
   ("5Q", 1176.45), ("5X", 1176.45), ("7I", 1207.140), ("7Q", 1207.140), ("7X", 1207.140), ("8I", 1191.795),
   ("8Q", 1191.795), ("8X", 1191.795), ("6A", 1278.75), ("6B", 1278.75), ("6C", 1278.75), ("6X", 1278.75),
   ("6Z", 1278.75)]

/-- utilities/RTCM_utilities.py:333-356 `__GPS_CF` -/
def gpsCf : PyDict String Rat :=
  [("1C", 1575.42), ("1S", 1575.42), ("1L", 1575.42), ("1X", 1575.42), ("1P", 1575.42), ("1W", 1575.42),
   ("1Y", 1575.42), ("1M", 1575.42), ("1N", 1575.42), ("2C", 1227.60), ("2D", 1227.60), ("2S", 1227.60),
   ("2L", 1227.60), ("2X", 1227.60), ("2P", 1227.60), ("2W", 1227.60), ("2Y", 1227.60), ("2M", 1227.60),
   ("2N", 1227.60), ("5I", 1176.45), ("5Q", 1176.45), ("5X", 1176.45)]

/-- utilities/RTCM_utilities.py:358-373 `__GLN_CF` -/
def glnCf : PyDict String Rat :=
  [("1C", 1602.0), ("1P", 1602.0), ("4A", 1600.995), ("4B", 1600.995), ("4X", 1600.995), ("2C", 1246.0),
   ("2P", 1246.0), ("6A", 1248.06), ("6B", 1248.06), ("6X", 1248.06), ("25", 1202.0), ("3I", 1202.0),
   ("3Q", 1202.0), ("3X", 1202.0)]

/-- utilities/RTCM_utilities.py:375-383 `_RINEX_CF_TAB` -/
def rinexCfTab : PyDict String (PyDict String Rat) :=
  [("G", gpsCf), ("R", glnCf), ("E", galCf), ("S", sbasCf), ("Q", qzssCf), ("B", bdsCf), ("I", navicCf)]

/-- utilities/RTCM_utilities.py:98 `CRNG_1MS` [m]. -/
def CRNG_1MS : Rat := 299792458 / 1000

/-- `gnss = tab.get(num); if gnss: return gnss, name` with fall-through; an empty string would also fall through.
utilities/RTCM_utilities.py:42-64, 83-92, 410-436. -/
def tryTab (tab : PyDict Int String) (num : Int) (name : String) (rest : String × String) : String × String :=
  match tab.get? num with
  | some g => if g = "" then rest else (g, name)
  | none => rest

/-- utilities/RTCM_utilities.py:41-63 `LEGT.legacy_subset`. -/
def legacySubset (num : Int) : String × String :=
  if num < 1001 ∨ num > 1012 then ("", "")
  else tryTab leg1MsgList num "LEG1" <| tryTab leg2MsgList num "LEG2" <|
    tryTab leg3MsgList num "LEG3" <| tryTab leg4MsgList num "LEG4" ("", "")

/-- utilities/RTCM_utilities.py:82-91 `EPHT.eph_subset`. -/
def ephSubset (num : Int) : String × String := tryTab ephMsgList num "EPH" ("", "")

/-- utilities/RTCM_utilities.py:404-438 `MSMT.msm_subset`. -/
def msmSubset (num : Int) : String × String :=
  if num < 1071 ∨ num > 1137 then ("", "")
  else tryTab msm7MsgList num "MSM7" <| tryTab msm6MsgList num "MSM6" <|
    tryTab msm5MsgList num "MSM5" <| tryTab msm4MsgList num "MSM4" <|
    tryTab msm3MsgList num "MSM3" <| tryTab msm2MsgList num "MSM2" <|
    tryTab msm1MsgList num "MSM1" ("", "")

/-- utilities/RTCM_utilities.py:13-27 `getSubset`. -/
def getSubset (num : Int) : String × String :=
  if num ∈ ([1001, 1002, 1003, 1004, 1009, 1010, 1011, 1012] : List Int) then legacySubset num
  else if num ∈ ([1019, 1020] : List Int) then ephSubset num
  else if 1041 ≤ num ∧ num ≤ 1046 then ephSubset num
  else if 1071 ≤ num ∧ num ≤ 1137 then msmSubset num
  else ("", "")

/-- utilities/RTCM_utilities.py:385-394 `MSMT.rnx_lit` (no table is empty, so `if tab` tests for `None`). -/
def rnxLit (gnss : String) (msmCode : Nat) : Option String :=
  match msm2RinexTab.get? gnss with
  | some tab => tab.get? msmCode
  | none => none

/-- utilities/RTCM_utilities.py:396-402 `MSMT.crr_frq`; `sgn` may be `None` (then `KeyError`). -/
def crrFrq (gnss : String) (sgn : Option String) : Py Rat :=
  match rinexCfTab.get? gnss with
  | none => .error .keyError
  | some tab =>
    match sgn with
    | none => .error .keyError
    | some s =>
      match tab.get? s with
      | none => .error .keyError
      | some f => .ok f

/-- utilities/RTCM_utilities.py:440-448 -/
def unpackClkSteer (code : Nat) : String :=
  if code = 0 then "OFF" else if code = 1 then "ON" else "UNDEF"

/-- utilities/RTCM_utilities.py:450-460 -/
def unpackClkExt (code : Nat) : String :=
  if code = 0 then "INTERNAL" else if code = 1 then "EXT-LOCK" else if code = 2 then "EXT-UNLOCK" else "UNDEF"

/-- utilities/RTCM_utilities.py:462-465 -/
def unpackSmthIndc (code : Nat) : String := if code = 1 then "DVRG-FREE" else "UNDEF"

/-- utilities/RTCM_utilities.py:467-485 -/
def unpackSmthIntr (code : Nat) : String :=
  if code = 0 then "NOSMTH" else if code = 1 then "00-30" else if code = 2 then "30-60"
  else if code = 3 then "60-120" else if code = 4 then "120-240" else if code = 5 then "240-480"
  else if code = 6 then "480+" else "UNLIM"

/-- utilities/RTCM_utilities.py:487-501 `unpack_tlock10`. -/
def unpackTlock10 (t : Nat) : Nat :=
  if t < 64 then t
  else if t < 704 then
    let k := (t >>> 5) - 1
    (1 <<< k) * (t - 32 * k)
  else if t = 704 then 67108864
  else 0

/-- utilities/RTCM_utilities.py:503-506 `unpack_tlock4`. -/
def unpackTlock4 (t : Nat) : Nat := if t = 0 then 0 else 1 <<< (4 + t)

/-- utilities/RTCM_utilities.py:508-511 -/
def isDF405_OK (x : Int) : Bool := x % 2 ^ 20 != 0x80000

/-- utilities/RTCM_utilities.py:513-516 -/
def isDF406_OK (x : Int) : Bool := x % 2 ^ 24 != 0x800000

/-- utilities/RTCM_utilities.py:518-521 -/
def isDF400_OK (x : Int) : Bool := x % 2 ^ 15 != 0x4000

/-- utilities/RTCM_utilities.py:523-526 -/
def isDF401_OK (x : Int) : Bool := x % 2 ^ 22 != 0x200000

/-- utilities/RTCM_utilities.py:528-531 -/
def isDF404_OK (x : Int) : Bool := x % 2 ^ 15 != 0x4000

end RtcmUtil
end Verif
