import Verif.PyCore.Syntax

/-!
# utilities/RTCM_utilities.py

Generated by fidelity/embed.py from the text of the module.
-/

namespace Verif
namespace PyCore
namespace Src

/-- `getSubset`, utilities/RTCM_utilities.py:13-27. -/
def fn_getSubset : FnDef where
  params := [n!"num"]
  defaults := []
  body := [
    .ite (.cmp .mem (.name n!"num") (.tuple [.const (.int 1001), .const (.int 1002), .const (.int 1003), .const (.int 1004), .const (.int 1009), .const (.int 1010), .const (.int 1011), .const (.int 1012)])) [
      .unpack [.name n!"gnss", .name n!"subset"] (.call (.attr (.name n!"LEGT") n!"legacy_subset") [.name n!"num"])] [
      .ite (.cmp .mem (.name n!"num") (.tuple [.const (.int 1019), .const (.int 1020)])) [
        .unpack [.name n!"gnss", .name n!"subset"] (.call (.attr (.name n!"EPHT") n!"eph_subset") [.name n!"num"])] [
        .ite (.and (.cmp .le (.const (.int 1041)) (.name n!"num")) (.cmp .le (.name n!"num") (.const (.int 1046)))) [
          .unpack [.name n!"gnss", .name n!"subset"] (.call (.attr (.name n!"EPHT") n!"eph_subset") [.name n!"num"])] [
          .ite (.and (.cmp .le (.const (.int 1071)) (.name n!"num")) (.cmp .le (.name n!"num") (.const (.int 1137)))) [
            .unpack [.name n!"gnss", .name n!"subset"] (.call (.attr (.name n!"MSMT") n!"msm_subset") [.name n!"num"])] [
            .unpack [.name n!"gnss", .name n!"subset"] (.tuple [.const (.str ""), .const (.str "")])]]]],
    .ret (.tuple [.name n!"gnss", .name n!"subset"])]

/-- `LEGT.legacy_subset`, utilities/RTCM_utilities.py:42-63. -/
def fn_LEGT_legacy_subset : FnDef where
  params := [n!"cls", n!"num"]
  defaults := []
  body := [
    .ite (.or (.cmp .lt (.name n!"num") (.const (.int 1001))) (.cmp .gt (.name n!"num") (.const (.int 1012)))) [
      .ret (.tuple [.const (.str ""), .const (.str "")])] [],
    .assign (.name n!"gnss") (.call (.attr (.attr (.name n!"cls") n!"LEG1_MSG_LIST") n!"get") [.name n!"num"]),
    .ite (.name n!"gnss") [
      .ret (.tuple [.name n!"gnss", .const (.str "LEG1")])] [],
    .assign (.name n!"gnss") (.call (.attr (.attr (.name n!"cls") n!"LEG2_MSG_LIST") n!"get") [.name n!"num"]),
    .ite (.name n!"gnss") [
      .ret (.tuple [.name n!"gnss", .const (.str "LEG2")])] [],
    .assign (.name n!"gnss") (.call (.attr (.attr (.name n!"cls") n!"LEG3_MSG_LIST") n!"get") [.name n!"num"]),
    .ite (.name n!"gnss") [
      .ret (.tuple [.name n!"gnss", .const (.str "LEG3")])] [],
    .assign (.name n!"gnss") (.call (.attr (.attr (.name n!"cls") n!"LEG4_MSG_LIST") n!"get") [.name n!"num"]),
    .ite (.name n!"gnss") [
      .ret (.tuple [.name n!"gnss", .const (.str "LEG4")])] [],
    .ret (.tuple [.const (.str ""), .const (.str "")])]

/-- `LEGT`, utilities/RTCM_utilities.py:31-63. -/
def cls_LEGT : ClassDef where
  mro := [n!"LEGT"]
  members := [(n!"CRNG_1MS", .value (.const (.flt 149896229 500))),
    (n!"LEG1_MSG_LIST", .value (.dict [.const (.int 1001), .const (.int 1009)] [.const (.str "G"), .const (.str "R")])),
    (n!"LEG2_MSG_LIST", .value (.dict [.const (.int 1002), .const (.int 1010)] [.const (.str "G"), .const (.str "R")])),
    (n!"LEG3_MSG_LIST", .value (.dict [.const (.int 1003), .const (.int 1011)] [.const (.str "G"), .const (.str "R")])),
    (n!"LEG4_MSG_LIST", .value (.dict [.const (.int 1004), .const (.int 1012)] [.const (.str "G"), .const (.str "R")])),
    (n!"legacy_subset", .clsMethod n!"LEGT.legacy_subset")]
  fields := []
  isData := false
  isExc := false

/-- `EPHT.eph_subset`, utilities/RTCM_utilities.py:83-91. -/
def fn_EPHT_eph_subset : FnDef where
  params := [n!"cls", n!"num"]
  defaults := []
  body := [
    .assign (.name n!"gnss") (.call (.attr (.attr (.name n!"cls") n!"EPH_MSG_LIST") n!"get") [.name n!"num"]),
    .ite (.name n!"gnss") [
      .ret (.tuple [.name n!"gnss", .const (.str "EPH")])] [
      .ret (.tuple [.const (.str ""), .const (.str "")])]]

/-- `EPHT`, utilities/RTCM_utilities.py:69-91. -/
def cls_EPHT : ClassDef where
  mro := [n!"EPHT"]
  members := [(n!"EPH_MSG_LIST", .value (.dict [.const (.int 1019), .const (.int 1020), .const (.int 1045), .const (.int 1046), .const (.int 1044), .const (.int 1042), .const (.int 1041)] [.const (.str "G"), .const (.str "R"), .const (.str "E"), .const (.str "E"), .const (.str "Q"), .const (.str "B"), .const (.str "I")])),
    (n!"eph_subset", .clsMethod n!"EPHT.eph_subset")]
  fields := []
  isData := false
  isExc := false

/-- `MSMT.rnx_lit`, utilities/RTCM_utilities.py:386-394. -/
def fn_MSMT_rnx_lit : FnDef where
  params := [n!"cls", n!"gnss", n!"msm_code"]
  defaults := []
  body := [
    .assign (.name n!"tab") (.call (.attr (.attr (.name n!"cls") n!"_MSMT__MSM2RINEX_TAB") n!"get") [.name n!"gnss"]),
    .ret (.ite (.name n!"tab") (.call (.attr (.name n!"tab") n!"get") [.name n!"msm_code"]) (.const (.none)))]

/-- `MSMT.crr_frq`, utilities/RTCM_utilities.py:397-402. -/
def fn_MSMT_crr_frq : FnDef where
  params := [n!"cls", n!"gnss", n!"sgn"]
  defaults := []
  body := [
    .ret (.index (.index (.attr (.name n!"cls") n!"_RINEX_CF_TAB") (.name n!"gnss")) (.name n!"sgn"))]

/-- `MSMT.msm_subset`, utilities/RTCM_utilities.py:405-438. -/
def fn_MSMT_msm_subset : FnDef where
  params := [n!"cls", n!"num"]
  defaults := []
  body := [
    .ite (.or (.cmp .lt (.name n!"num") (.const (.int 1071))) (.cmp .gt (.name n!"num") (.const (.int 1137)))) [
      .ret (.tuple [.const (.str ""), .const (.str "")])] [],
    .assign (.name n!"gnss") (.call (.attr (.attr (.name n!"cls") n!"MSM7_MSG_LIST") n!"get") [.name n!"num"]),
    .ite (.name n!"gnss") [
      .ret (.tuple [.name n!"gnss", .const (.str "MSM7")])] [],
    .assign (.name n!"gnss") (.call (.attr (.attr (.name n!"cls") n!"MSM6_MSG_LIST") n!"get") [.name n!"num"]),
    .ite (.name n!"gnss") [
      .ret (.tuple [.name n!"gnss", .const (.str "MSM6")])] [],
    .assign (.name n!"gnss") (.call (.attr (.attr (.name n!"cls") n!"MSM5_MSG_LIST") n!"get") [.name n!"num"]),
    .ite (.name n!"gnss") [
      .ret (.tuple [.name n!"gnss", .const (.str "MSM5")])] [],
    .assign (.name n!"gnss") (.call (.attr (.attr (.name n!"cls") n!"MSM4_MSG_LIST") n!"get") [.name n!"num"]),
    .ite (.name n!"gnss") [
      .ret (.tuple [.name n!"gnss", .const (.str "MSM4")])] [],
    .assign (.name n!"gnss") (.call (.attr (.attr (.name n!"cls") n!"MSM3_MSG_LIST") n!"get") [.name n!"num"]),
    .ite (.name n!"gnss") [
      .ret (.tuple [.name n!"gnss", .const (.str "MSM3")])] [],
    .assign (.name n!"gnss") (.call (.attr (.attr (.name n!"cls") n!"MSM2_MSG_LIST") n!"get") [.name n!"num"]),
    .ite (.name n!"gnss") [
      .ret (.tuple [.name n!"gnss", .const (.str "MSM2")])] [],
    .assign (.name n!"gnss") (.call (.attr (.attr (.name n!"cls") n!"MSM1_MSG_LIST") n!"get") [.name n!"num"]),
    .ite (.name n!"gnss") [
      .ret (.tuple [.name n!"gnss", .const (.str "MSM1")])] [],
    .ret (.tuple [.const (.str ""), .const (.str "")])]

/-- `MSMT.unpack_clk_steer`, utilities/RTCM_utilities.py:441-448. -/
def fn_MSMT_unpack_clk_steer : FnDef where
  params := [n!"code"]
  defaults := []
  body := [
    .ite (.cmp .eq (.name n!"code") (.const (.int 0))) [
      .ret (.const (.str "OFF"))] [
      .ite (.cmp .eq (.name n!"code") (.const (.int 1))) [
        .ret (.const (.str "ON"))] [
        .ret (.const (.str "UNDEF"))]]]

/-- `MSMT.unpack_clk_ext`, utilities/RTCM_utilities.py:451-460. -/
def fn_MSMT_unpack_clk_ext : FnDef where
  params := [n!"code"]
  defaults := []
  body := [
    .ite (.cmp .eq (.name n!"code") (.const (.int 0))) [
      .ret (.const (.str "INTERNAL"))] [
      .ite (.cmp .eq (.name n!"code") (.const (.int 1))) [
        .ret (.const (.str "EXT-LOCK"))] [
        .ite (.cmp .eq (.name n!"code") (.const (.int 2))) [
          .ret (.const (.str "EXT-UNLOCK"))] [
          .ret (.const (.str "UNDEF"))]]]]

/-- `MSMT.unpack_smth_indc`, utilities/RTCM_utilities.py:463-465. -/
def fn_MSMT_unpack_smth_indc : FnDef where
  params := [n!"code"]
  defaults := []
  body := [
    .ret (.ite (.cmp .eq (.name n!"code") (.const (.int 1))) (.const (.str "DVRG-FREE")) (.const (.str "UNDEF")))]

/-- `MSMT.unpack_smth_intr`, utilities/RTCM_utilities.py:468-485. -/
def fn_MSMT_unpack_smth_intr : FnDef where
  params := [n!"code"]
  defaults := []
  body := [
    .ite (.cmp .eq (.name n!"code") (.const (.int 0))) [
      .ret (.const (.str "NOSMTH"))] [
      .ite (.cmp .eq (.name n!"code") (.const (.int 1))) [
        .ret (.const (.str "00-30"))] [
        .ite (.cmp .eq (.name n!"code") (.const (.int 2))) [
          .ret (.const (.str "30-60"))] [
          .ite (.cmp .eq (.name n!"code") (.const (.int 3))) [
            .ret (.const (.str "60-120"))] [
            .ite (.cmp .eq (.name n!"code") (.const (.int 4))) [
              .ret (.const (.str "120-240"))] [
              .ite (.cmp .eq (.name n!"code") (.const (.int 5))) [
                .ret (.const (.str "240-480"))] [
                .ite (.cmp .eq (.name n!"code") (.const (.int 6))) [
                  .ret (.const (.str "480+"))] [
                  .ret (.const (.str "UNLIM"))]]]]]]]]

/-- `MSMT.unpack_tlock10`, utilities/RTCM_utilities.py:488-501. -/
def fn_MSMT_unpack_tlock10 : FnDef where
  params := [n!"t"]
  defaults := []
  body := [
    .ite (.cmp .lt (.name n!"t") (.const (.int 64))) [
      .assign (.name n!"rv") (.name n!"t")] [
      .ite (.cmp .lt (.name n!"t") (.const (.int 704))) [
        .assign (.name n!"k") (.bin .sub (.bin .shr (.name n!"t") (.const (.int 5))) (.const (.int 1))),
        .assign (.name n!"rv") (.bin .mul (.bin .shl (.const (.int 1)) (.name n!"k")) (.bin .sub (.name n!"t") (.bin .mul (.const (.int 32)) (.name n!"k"))))] [
        .ite (.cmp .eq (.name n!"t") (.const (.int 704))) [
          .assign (.name n!"rv") (.const (.int 67108864))] [
          .assign (.name n!"rv") (.const (.int 0))]]],
    .ret (.name n!"rv")]

/-- `MSMT.unpack_tlock4`, utilities/RTCM_utilities.py:504-506. -/
def fn_MSMT_unpack_tlock4 : FnDef where
  params := [n!"t"]
  defaults := []
  body := [
    .ret (.ite (.cmp .eq (.name n!"t") (.const (.int 0))) (.const (.int 0)) (.bin .shl (.const (.int 1)) (.bin .add (.const (.int 4)) (.name n!"t"))))]

/-- `MSMT.isDF405_OK`, utilities/RTCM_utilities.py:509-511. -/
def fn_MSMT_isDF405_OK : FnDef where
  params := [n!"x"]
  defaults := []
  body := [
    .ret (.cmp .ne (.bin .band (.name n!"x") (.const (.int 1048575))) (.const (.int 524288)))]

/-- `MSMT.isDF406_OK`, utilities/RTCM_utilities.py:514-516. -/
def fn_MSMT_isDF406_OK : FnDef where
  params := [n!"x"]
  defaults := []
  body := [
    .ret (.cmp .ne (.bin .band (.name n!"x") (.const (.int 16777215))) (.const (.int 8388608)))]

/-- `MSMT.isDF400_OK`, utilities/RTCM_utilities.py:519-521. -/
def fn_MSMT_isDF400_OK : FnDef where
  params := [n!"x"]
  defaults := []
  body := [
    .ret (.cmp .ne (.bin .band (.name n!"x") (.const (.int 32767))) (.const (.int 16384)))]

/-- `MSMT.isDF401_OK`, utilities/RTCM_utilities.py:524-526. -/
def fn_MSMT_isDF401_OK : FnDef where
  params := [n!"x"]
  defaults := []
  body := [
    .ret (.cmp .ne (.bin .band (.name n!"x") (.const (.int 4194303))) (.const (.int 2097152)))]

/-- `MSMT.isDF404_OK`, utilities/RTCM_utilities.py:529-531. -/
def fn_MSMT_isDF404_OK : FnDef where
  params := [n!"x"]
  defaults := []
  body := [
    .ret (.cmp .ne (.bin .band (.name n!"x") (.const (.int 32767))) (.const (.int 16384)))]

/-- `MSMT`, utilities/RTCM_utilities.py:95-531. -/
def cls_MSMT : ClassDef where
  mro := [n!"MSMT"]
  members := [(n!"CRNG_1MS", .value (.const (.flt 149896229 500))),
    (n!"MSM7_MSG_LIST", .value (.dict [.const (.int 1077), .const (.int 1087), .const (.int 1097), .const (.int 1107), .const (.int 1117), .const (.int 1127), .const (.int 1137)] [.const (.str "G"), .const (.str "R"), .const (.str "E"), .const (.str "S"), .const (.str "Q"), .const (.str "B"), .const (.str "I")])),
    (n!"MSM6_MSG_LIST", .value (.dict [.const (.int 1076), .const (.int 1086), .const (.int 1096), .const (.int 1106), .const (.int 1116), .const (.int 1126), .const (.int 1136)] [.const (.str "G"), .const (.str "R"), .const (.str "E"), .const (.str "S"), .const (.str "Q"), .const (.str "B"), .const (.str "I")])),
    (n!"MSM5_MSG_LIST", .value (.dict [.const (.int 1075), .const (.int 1085), .const (.int 1095), .const (.int 1105), .const (.int 1115), .const (.int 1125), .const (.int 1135)] [.const (.str "G"), .const (.str "R"), .const (.str "E"), .const (.str "S"), .const (.str "Q"), .const (.str "B"), .const (.str "I")])),
    (n!"MSM4_MSG_LIST", .value (.dict [.const (.int 1074), .const (.int 1084), .const (.int 1094), .const (.int 1104), .const (.int 1114), .const (.int 1124), .const (.int 1134)] [.const (.str "G"), .const (.str "R"), .const (.str "E"), .const (.str "S"), .const (.str "Q"), .const (.str "B"), .const (.str "I")])),
    (n!"MSM3_MSG_LIST", .value (.dict [.const (.int 1073), .const (.int 1083), .const (.int 1093), .const (.int 1103), .const (.int 1113), .const (.int 1123), .const (.int 1133)] [.const (.str "G"), .const (.str "R"), .const (.str "E"), .const (.str "S"), .const (.str "Q"), .const (.str "B"), .const (.str "I")])),
    (n!"MSM2_MSG_LIST", .value (.dict [.const (.int 1072), .const (.int 1082), .const (.int 1092), .const (.int 1102), .const (.int 1112), .const (.int 1122), .const (.int 1132)] [.const (.str "G"), .const (.str "R"), .const (.str "E"), .const (.str "S"), .const (.str "Q"), .const (.str "B"), .const (.str "I")])),
    (n!"MSM1_MSG_LIST", .value (.dict [.const (.int 1071), .const (.int 1081), .const (.int 1091), .const (.int 1101), .const (.int 1111), .const (.int 1121), .const (.int 1131)] [.const (.str "G"), .const (.str "R"), .const (.str "E"), .const (.str "S"), .const (.str "Q"), .const (.str "B"), .const (.str "I")])),
    (n!"_MSMT__NAVIC_LIT", .value (.dict [.const (.int 8), .const (.int 22)] [.const (.str "9A"), .const (.str "5A")])),
    (n!"_MSMT__BDS_LIT", .value (.dict [.const (.int 2), .const (.int 3), .const (.int 4), .const (.int 8), .const (.int 9), .const (.int 10), .const (.int 14), .const (.int 15), .const (.int 16)] [.const (.str "2I"), .const (.str "2Q"), .const (.str "2X"), .const (.str "6I"), .const (.str "6Q"), .const (.str "6X"), .const (.str "7I"), .const (.str "7Q"), .const (.str "7X")])),
    (n!"_MSMT__QZSS_LIT", .value (.dict [.const (.int 2), .const (.int 30), .const (.int 31), .const (.int 32), .const (.int 9), .const (.int 10), .const (.int 11), .const (.int 15), .const (.int 16), .const (.int 17), .const (.int 22), .const (.int 23), .const (.int 24)] [.const (.str "1C"), .const (.str "1S"), .const (.str "1L"), .const (.str "1X"), .const (.str "6S"), .const (.str "6L"), .const (.str "6X"), .const (.str "2S"), .const (.str "2L"), .const (.str "2X"), .const (.str "5I"), .const (.str "5Q"), .const (.str "5X")])),
    (n!"_MSMT__SBAS_LIT", .value (.dict [.const (.int 2), .const (.int 22), .const (.int 23), .const (.int 24)] [.const (.str "1C"), .const (.str "5I"), .const (.str "5Q"), .const (.str "5X")])),
    (n!"_MSMT__GAL_LIT", .value (.dict [.const (.int 2), .const (.int 3), .const (.int 4), .const (.int 5), .const (.int 6), .const (.int 8), .const (.int 9), .const (.int 10), .const (.int 11), .const (.int 12), .const (.int 14), .const (.int 15), .const (.int 16), .const (.int 18), .const (.int 19), .const (.int 20), .const (.int 22), .const (.int 23), .const (.int 24)] [.const (.str "1C"), .const (.str "1A"), .const (.str "1B"), .const (.str "1X"), .const (.str "1Z"), .const (.str "6C"), .const (.str "6A"), .const (.str "6B"), .const (.str "6X"), .const (.str "6Z"), .const (.str "7I"), .const (.str "7Q"), .const (.str "7X"), .const (.str "8I"), .const (.str "8Q"), .const (.str "8X"), .const (.str "5I"), .const (.str "5Q"), .const (.str "5X")])),
    (n!"_MSMT__GPS_LIT", .value (.dict [.const (.int 2), .const (.int 3), .const (.int 4), .const (.int 30), .const (.int 31), .const (.int 32), .const (.int 8), .const (.int 9), .const (.int 10), .const (.int 15), .const (.int 16), .const (.int 17), .const (.int 22), .const (.int 23), .const (.int 24)] [.const (.str "1C"), .const (.str "1P"), .const (.str "1W"), .const (.str "1S"), .const (.str "1L"), .const (.str "1X"), .const (.str "2C"), .const (.str "2P"), .const (.str "2W"), .const (.str "2S"), .const (.str "2L"), .const (.str "2X"), .const (.str "5I"), .const (.str "5Q"), .const (.str "5X")])),
    (n!"_MSMT__GLN_LIT", .value (.dict [.const (.int 2), .const (.int 3), .const (.int 8), .const (.int 9)] [.const (.str "1C"), .const (.str "1P"), .const (.str "2C"), .const (.str "2P")])),
    (n!"_MSMT__MSM2RINEX_TAB", .value (.dict [.const (.str "G"), .const (.str "R"), .const (.str "E"), .const (.str "S"), .const (.str "Q"), .const (.str "B"), .const (.str "I")] [.name n!"_MSMT__GPS_LIT", .name n!"_MSMT__GLN_LIT", .name n!"_MSMT__GAL_LIT", .name n!"_MSMT__SBAS_LIT", .name n!"_MSMT__QZSS_LIT", .name n!"_MSMT__BDS_LIT", .name n!"_MSMT__NAVIC_LIT"])),
    (n!"_MSMT__NAVIC_CF", .value (.dict [.const (.str "5A"), .const (.str "5B"), .const (.str "5C"), .const (.str "5X"), .const (.str "9A"), .const (.str "9B"), .const (.str "9C"), .const (.str "9X")] [.const (.flt 23529 20), .const (.flt 23529 20), .const (.flt 23529 20), .const (.flt 23529 20), .const (.flt 623007 250), .const (.flt 623007 250), .const (.flt 623007 250), .const (.flt 623007 250)])),
    (n!"_MSMT__BDS_CF", .value (.dict [.const (.str "2I"), .const (.str "2Q"), .const (.str "2X"), .const (.str "1D"), .const (.str "1P"), .const (.str "1X"), .const (.str "1A"), .const (.str "1N"), .const (.str "5D"), .const (.str "5P"), .const (.str "5X"), .const (.str "7I"), .const (.str "7Q"), .const (.str "7X"), .const (.str "7D"), .const (.str "7P"), .const (.str "7Z"), .const (.str "8D"), .const (.str "8P"), .const (.str "8X"), .const (.str "6I"), .const (.str "6Q"), .const (.str "6X")] [.const (.flt 780549 500), .const (.flt 780549 500), .const (.flt 780549 500), .const (.flt 78771 50), .const (.flt 78771 50), .const (.flt 78771 50), .const (.flt 78771 50), .const (.flt 78771 50), .const (.flt 23529 20), .const (.flt 23529 20), .const (.flt 23529 20), .const (.flt 60357 50), .const (.flt 60357 50), .const (.flt 60357 50), .const (.flt 60357 50), .const (.flt 60357 50), .const (.flt 60357 50), .const (.flt 238359 200), .const (.flt 238359 200), .const (.flt 238359 200), .const (.flt 31713 25), .const (.flt 31713 25), .const (.flt 31713 25)])),
    (n!"_MSMT__QZSS_CF", .value (.dict [.const (.str "1C"), .const (.str "1S"), .const (.str "1L"), .const (.str "1X"), .const (.str "1Z"), .const (.str "2S"), .const (.str "2L"), .const (.str "2X"), .const (.str "5I"), .const (.str "5Q"), .const (.str "5X"), .const (.str "5D"), .const (.str "5P"), .const (.str "5Z"), .const (.str "6S"), .const (.str "6L"), .const (.str "6X"), .const (.str "6E"), .const (.str "6Z")] [.const (.flt 78771 50), .const (.flt 78771 50), .const (.flt 78771 50), .const (.flt 78771 50), .const (.flt 78771 50), .const (.flt 6138 5), .const (.flt 6138 5), .const (.flt 6138 5), .const (.flt 23529 20), .const (.flt 23529 20), .const (.flt 23529 20), .const (.flt 23529 20), .const (.flt 23529 20), .const (.flt 23529 20), .const (.flt 5115 4), .const (.flt 5115 4), .const (.flt 5115 4), .const (.flt 5115 4), .const (.flt 5115 4)])),
    (n!"_MSMT__SBAS_CF", .value (.dict [.const (.str "1C"), .const (.str "5I"), .const (.str "5Q"), .const (.str "5X")] [.const (.flt 78771 50), .const (.flt 23529 20), .const (.flt 23529 20), .const (.flt 23529 20)])),
    (n!"_MSMT__GAL_CF", .value (.dict [.const (.str "1A"), .const (.str "1B"), .const (.str "1C"), .const (.str "1Z"), .const (.str "1X"), .const (.str "5I"), .const (.str "5Q"), .const (.str "5X"), .const (.str "7I"), .const (.str "7Q"), .const (.str "7X"), .const (.str "8I"), .const (.str "8Q"), .const (.str "8X"), .const (.str "6A"), .const (.str "6B"), .const (.str "6C"), .const (.str "6X"), .const (.str "6Z")] [.const (.flt 78771 50), .const (.flt 78771 50), .const (.flt 78771 50), .const (.flt 78771 50), .const (.flt 78771 50), .const (.flt 23529 20), .const (.flt 23529 20), .const (.flt 23529 20), .const (.flt 60357 50), .const (.flt 60357 50), .const (.flt 60357 50), .const (.flt 238359 200), .const (.flt 238359 200), .const (.flt 238359 200), .const (.flt 5115 4), .const (.flt 5115 4), .const (.flt 5115 4), .const (.flt 5115 4), .const (.flt 5115 4)])),
    (n!"_MSMT__GPS_CF", .value (.dict [.const (.str "1C"), .const (.str "1S"), .const (.str "1L"), .const (.str "1X"), .const (.str "1P"), .const (.str "1W"), .const (.str "1Y"), .const (.str "1M"), .const (.str "1N"), .const (.str "2C"), .const (.str "2D"), .const (.str "2S"), .const (.str "2L"), .const (.str "2X"), .const (.str "2P"), .const (.str "2W"), .const (.str "2Y"), .const (.str "2M"), .const (.str "2N"), .const (.str "5I"), .const (.str "5Q"), .const (.str "5X")] [.const (.flt 78771 50), .const (.flt 78771 50), .const (.flt 78771 50), .const (.flt 78771 50), .const (.flt 78771 50), .const (.flt 78771 50), .const (.flt 78771 50), .const (.flt 78771 50), .const (.flt 78771 50), .const (.flt 6138 5), .const (.flt 6138 5), .const (.flt 6138 5), .const (.flt 6138 5), .const (.flt 6138 5), .const (.flt 6138 5), .const (.flt 6138 5), .const (.flt 6138 5), .const (.flt 6138 5), .const (.flt 6138 5), .const (.flt 23529 20), .const (.flt 23529 20), .const (.flt 23529 20)])),
    (n!"_MSMT__GLN_CF", .value (.dict [.const (.str "1C"), .const (.str "1P"), .const (.str "4A"), .const (.str "4B"), .const (.str "4X"), .const (.str "2C"), .const (.str "2P"), .const (.str "6A"), .const (.str "6B"), .const (.str "6X"), .const (.str "25"), .const (.str "3I"), .const (.str "3Q"), .const (.str "3X")] [.const (.flt 1602 1), .const (.flt 1602 1), .const (.flt 320199 200), .const (.flt 320199 200), .const (.flt 320199 200), .const (.flt 1246 1), .const (.flt 1246 1), .const (.flt 62403 50), .const (.flt 62403 50), .const (.flt 62403 50), .const (.flt 1202 1), .const (.flt 1202 1), .const (.flt 1202 1), .const (.flt 1202 1)])),
    (n!"_RINEX_CF_TAB", .value (.dict [.const (.str "G"), .const (.str "R"), .const (.str "E"), .const (.str "S"), .const (.str "Q"), .const (.str "B"), .const (.str "I")] [.name n!"_MSMT__GPS_CF", .name n!"_MSMT__GLN_CF", .name n!"_MSMT__GAL_CF", .name n!"_MSMT__SBAS_CF", .name n!"_MSMT__QZSS_CF", .name n!"_MSMT__BDS_CF", .name n!"_MSMT__NAVIC_CF"])),
    (n!"rnx_lit", .clsMethod n!"MSMT.rnx_lit"),
    (n!"crr_frq", .clsMethod n!"MSMT.crr_frq"),
    (n!"msm_subset", .clsMethod n!"MSMT.msm_subset"),
    (n!"unpack_clk_steer", .static n!"MSMT.unpack_clk_steer"),
    (n!"unpack_clk_ext", .static n!"MSMT.unpack_clk_ext"),
    (n!"unpack_smth_indc", .static n!"MSMT.unpack_smth_indc"),
    (n!"unpack_smth_intr", .static n!"MSMT.unpack_smth_intr"),
    (n!"unpack_tlock10", .static n!"MSMT.unpack_tlock10"),
    (n!"unpack_tlock4", .static n!"MSMT.unpack_tlock4"),
    (n!"isDF405_OK", .static n!"MSMT.isDF405_OK"),
    (n!"isDF406_OK", .static n!"MSMT.isDF406_OK"),
    (n!"isDF400_OK", .static n!"MSMT.isDF400_OK"),
    (n!"isDF401_OK", .static n!"MSMT.isDF401_OK"),
    (n!"isDF404_OK", .static n!"MSMT.isDF404_OK")]
  fields := []
  isData := false
  isExc := false

end Src
end PyCore
end Verif
