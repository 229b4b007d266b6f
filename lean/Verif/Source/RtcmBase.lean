import Verif.PyCore.Syntax

/-!
# sub_decoders/RTCM_BASE.py

Generated by fidelity/embed.py from the text of the module.
-/

namespace Verif
namespace PyCore
namespace Src

/-- `ExceptionBaseStationDataDecoder`, sub_decoders/RTCM_BASE.py:30-31. -/
def cls_ExceptionBaseStationDataDecoder : ClassDef where
  mro := [n!"ExceptionBaseStationDataDecoder"]
  members := []
  fields := []
  isData := false
  isExc := true

/-- `BaseStationDataDecoder.__init__`, sub_decoders/RTCM_BASE.py:40-42. -/
def fn_BaseStationDataDecoder_P_init_P : FnDef where
  params := [n!"self"]
  defaults := []
  body := [
    .expr (.call (.attr (.call (.name n!"super") []) n!"__init__") []),
    .assign (.attr (.name n!"self") n!"msgList") (.tuple [.const (.int 1005), .const (.int 1006), .const (.int 1007), .const (.int 1008), .const (.int 1033), .const (.int 1013), .const (.int 1029), .const (.int 1230)])]

/-- `BaseStationDataDecoder.get_msg_num`, sub_decoders/RTCM_BASE.py:44-46. -/
def fn_BaseStationDataDecoder_get_msg_num : FnDef where
  params := [n!"self", n!"buf"]
  defaults := []
  body := [
    .ret (.call (.attr (.name n!"self") n!"getbitu") [.name n!"buf", .const (.int 24), .const (.int 12)])]

/-- `BaseStationDataDecoder.__length_check`, sub_decoders/RTCM_BASE.py:49-61. -/
def fn_BaseStationDataDecoder_P_length_check : FnDef where
  params := [n!"Nexp", n!"Ndec", n!"bufLen"]
  defaults := []
  body := [
    .ite (.cmp .ne (.name n!"Ndec") (.name n!"Nexp")) [
      .raise (.call (.name n!"ExceptionBaseStationDataDecoder") [.fstr [.name n!"Ndec", .name n!"Nexp"]])] [],
    .assign (.name n!"Ndec") (.bin .add (.const (.int 6)) (.bin .shr (.bin .add (.name n!"Ndec") (.const (.int 7))) (.const (.int 3)))),
    .ite (.cmp .ne (.name n!"Ndec") (.name n!"bufLen")) [
      .raise (.call (.name n!"ExceptionBaseStationDataDecoder") [.fstr [.name n!"bufLen", .name n!"Ndec"]])] []]

/-- `BaseStationDataDecoder.__decode10056`, sub_decoders/RTCM_BASE.py:63-89. -/
def fn_BaseStationDataDecoder_P_decode10056 : FnDef where
  params := [n!"self", n!"buf"]
  defaults := []
  body := [
    .assign (.name n!"offset") (.const (.int 24)),
    .unpack [.name n!"msgNum", .name n!"offset"] (.tuple [.call (.attr (.name n!"self") n!"getbitu") [.name n!"buf", .name n!"offset", .const (.int 12)], .bin .add (.name n!"offset") (.const (.int 12))]),
    .assign (.name n!"bs") (.ite (.cmp .eq (.name n!"msgNum") (.const (.int 1005))) (.call (.name n!"BaseRP") []) (.call (.name n!"BaseRPH") [])),
    .assign (.attr (.name n!"bs") n!"msgNum") (.name n!"msgNum"),
    .unpack [.attr (.name n!"bs") n!"bsID", .name n!"offset"] (.tuple [.call (.attr (.name n!"self") n!"getbitu") [.name n!"buf", .name n!"offset", .const (.int 12)], .bin .add (.name n!"offset") (.const (.int 12))]),
    .unpack [.attr (.name n!"bs") n!"ITRF_Year", .name n!"offset"] (.tuple [.call (.attr (.name n!"self") n!"getbitu") [.name n!"buf", .name n!"offset", .const (.int 6)], .bin .add (.name n!"offset") (.const (.int 6))]),
    .unpack [.attr (.name n!"bs") n!"GPS_OK", .name n!"offset"] (.tuple [.call (.attr (.name n!"self") n!"getbitu") [.name n!"buf", .name n!"offset", .const (.int 1)], .bin .add (.name n!"offset") (.const (.int 1))]),
    .unpack [.attr (.name n!"bs") n!"GLO_OK", .name n!"offset"] (.tuple [.call (.attr (.name n!"self") n!"getbitu") [.name n!"buf", .name n!"offset", .const (.int 1)], .bin .add (.name n!"offset") (.const (.int 1))]),
    .unpack [.attr (.name n!"bs") n!"GAL_OK", .name n!"offset"] (.tuple [.call (.attr (.name n!"self") n!"getbitu") [.name n!"buf", .name n!"offset", .const (.int 1)], .bin .add (.name n!"offset") (.const (.int 1))]),
    .unpack [.attr (.name n!"bs") n!"isVirtual", .name n!"offset"] (.tuple [.call (.attr (.name n!"self") n!"getbitu") [.name n!"buf", .name n!"offset", .const (.int 1)], .bin .add (.name n!"offset") (.const (.int 1))]),
    .unpack [.attr (.name n!"bs") n!"refPoint_X", .name n!"offset"] (.tuple [.call (.attr (.name n!"self") n!"getbits") [.name n!"buf", .name n!"offset", .const (.int 38)], .bin .add (.name n!"offset") (.const (.int 38))]),
    .unpack [.attr (.name n!"bs") n!"singleOsc", .name n!"offset"] (.tuple [.call (.attr (.name n!"self") n!"getbitu") [.name n!"buf", .name n!"offset", .const (.int 1)], .bin .add (.bin .add (.name n!"offset") (.const (.int 1))) (.const (.int 1))]),
    .unpack [.attr (.name n!"bs") n!"refPoint_Y", .name n!"offset"] (.tuple [.call (.attr (.name n!"self") n!"getbits") [.name n!"buf", .name n!"offset", .const (.int 38)], .bin .add (.name n!"offset") (.const (.int 38))]),
    .unpack [.attr (.name n!"bs") n!"QC_bias", .name n!"offset"] (.tuple [.call (.attr (.name n!"self") n!"getbitu") [.name n!"buf", .name n!"offset", .const (.int 2)], .bin .add (.name n!"offset") (.const (.int 2))]),
    .unpack [.attr (.name n!"bs") n!"refPoint_Z", .name n!"offset"] (.tuple [.call (.attr (.name n!"self") n!"getbits") [.name n!"buf", .name n!"offset", .const (.int 38)], .bin .add (.name n!"offset") (.const (.int 38))]),
    .ite (.call (.name n!"isinstance") [.name n!"bs", .name n!"BaseRPH"]) [
      .unpack [.attr (.name n!"bs") n!"height", .name n!"offset"] (.tuple [.call (.attr (.name n!"self") n!"getbitu") [.name n!"buf", .name n!"offset", .const (.int 16)], .bin .add (.name n!"offset") (.const (.int 16))]),
      .expr (.call (.attr (.name n!"self") n!"_BaseStationDataDecoder__length_check") [.const (.int 168), .bin .sub (.name n!"offset") (.const (.int 24)), .call (.name n!"len") [.name n!"buf"]])] [
      .expr (.call (.attr (.name n!"self") n!"_BaseStationDataDecoder__length_check") [.const (.int 152), .bin .sub (.name n!"offset") (.const (.int 24)), .call (.name n!"len") [.name n!"buf"]])],
    .ret (.name n!"bs")]

/-- `BaseStationDataDecoder.__scale10056`, sub_decoders/RTCM_BASE.py:92-111. -/
def fn_BaseStationDataDecoder_P_scale10056 : FnDef where
  params := [n!"cls", n!"ibs"]
  defaults := []
  body := [
    .assign (.name n!"_BaseStationDataDecoder__QC_VALUES") (.list [.const (.str "UNDEF"), .const (.str "CORRECTED"), .const (.str "NOT CORRECTED"), .const (.str "RESERVED")]),
    .assign (.name n!"bs") (.call (.attr (.name n!"ibs") n!"copy") []),
    .assign (.attr (.name n!"bs") n!"GPS_OK") (.cmp .eq (.attr (.name n!"bs") n!"GPS_OK") (.const (.int 1))),
    .assign (.attr (.name n!"bs") n!"GLO_OK") (.cmp .eq (.attr (.name n!"bs") n!"GLO_OK") (.const (.int 1))),
    .assign (.attr (.name n!"bs") n!"GAL_OK") (.cmp .eq (.attr (.name n!"bs") n!"GAL_OK") (.const (.int 1))),
    .assign (.attr (.name n!"bs") n!"isVirtual") (.cmp .eq (.attr (.name n!"bs") n!"isVirtual") (.const (.int 1))),
    .assign (.attr (.name n!"bs") n!"refPoint_X") (.bin .mul (.attr (.name n!"bs") n!"refPoint_X") (.const (.flt 1 10000))),
    .assign (.attr (.name n!"bs") n!"singleOsc") (.cmp .eq (.attr (.name n!"bs") n!"singleOsc") (.const (.int 1))),
    .assign (.attr (.name n!"bs") n!"refPoint_Y") (.bin .mul (.attr (.name n!"bs") n!"refPoint_Y") (.const (.flt 1 10000))),
    .assign (.name n!"index") (.call (.name n!"int") [.attr (.name n!"bs") n!"QC_bias"]),
    .assign (.attr (.name n!"bs") n!"QC_bias") (.index (.name n!"_BaseStationDataDecoder__QC_VALUES") (.name n!"index")),
    .assign (.attr (.name n!"bs") n!"refPoint_Z") (.bin .mul (.attr (.name n!"bs") n!"refPoint_Z") (.const (.flt 1 10000))),
    .ite (.call (.name n!"isinstance") [.name n!"bs", .name n!"BaseRPH"]) [
      .assign (.attr (.name n!"bs") n!"height") (.bin .mul (.attr (.name n!"bs") n!"height") (.const (.flt 1 10000)))] [],
    .ret (.name n!"bs")]

/-- `BaseStationDataDecoder.__decode10078_1033`, sub_decoders/RTCM_BASE.py:113-189. -/
def fn_BaseStationDataDecoder_P_decode10078_1033 : FnDef where
  params := [n!"self", n!"buf"]
  defaults := []
  body := [
    .assign (.name n!"offset") (.const (.int 24)),
    .unpack [.name n!"msgNum", .name n!"offset"] (.tuple [.call (.attr (.name n!"self") n!"getbitu") [.name n!"buf", .name n!"offset", .const (.int 12)], .bin .add (.name n!"offset") (.const (.int 12))]),
    .ite (.cmp .eq (.name n!"msgNum") (.const (.int 1007))) [
      .assign (.name n!"bs") (.call (.name n!"BaseAD") [])] [
      .ite (.cmp .eq (.name n!"msgNum") (.const (.int 1008))) [
        .assign (.name n!"bs") (.call (.name n!"BaseADSN") [])] [
        .assign (.name n!"bs") (.call (.name n!"BaseADSNRC") [])]],
    .assign (.attr (.name n!"bs") n!"msgNum") (.name n!"msgNum"),
    .unpack [.attr (.name n!"bs") n!"bsID", .name n!"offset"] (.tuple [.call (.attr (.name n!"self") n!"getbitu") [.name n!"buf", .name n!"offset", .const (.int 12)], .bin .add (.name n!"offset") (.const (.int 12))]),
    .unpack [.attr (.name n!"bs") n!"descrLength", .name n!"offset"] (.tuple [.call (.attr (.name n!"self") n!"getbitu") [.name n!"buf", .name n!"offset", .const (.int 8)], .bin .add (.name n!"offset") (.const (.int 8))]),
    .assign (.name n!"symb") (.const (.str "")),
    .for (.name n!"_") (.call (.name n!"range") [.attr (.name n!"bs") n!"descrLength"]) [
      .aug (.name n!"symb") .add (.bin .add (.call (.name n!"hex") [.call (.attr (.name n!"self") n!"getbitu") [.name n!"buf", .name n!"offset", .const (.int 8)]]) (.const (.str " "))),
      .aug (.name n!"offset") .add (.const (.int 8))] [],
    .assign (.attr (.name n!"bs") n!"descr") (.call (.attr (.name n!"symb") n!"strip") []),
    .unpack [.attr (.name n!"bs") n!"setupID", .name n!"offset"] (.tuple [.call (.attr (.name n!"self") n!"getbitu") [.name n!"buf", .name n!"offset", .const (.int 8)], .bin .add (.name n!"offset") (.const (.int 8))]),
    .ite (.not (.call (.name n!"isinstance") [.name n!"bs", .tuple [.name n!"BaseADSN", .name n!"BaseADSNRC"]])) [
      .expr (.call (.attr (.name n!"self") n!"_BaseStationDataDecoder__length_check") [.bin .add (.const (.int 40)) (.bin .mul (.const (.int 8)) (.attr (.name n!"bs") n!"descrLength")), .bin .sub (.name n!"offset") (.const (.int 24)), .call (.name n!"len") [.name n!"buf"]]),
      .ret (.name n!"bs")] [],
    .unpack [.attr (.name n!"bs") n!"serialNumberLength", .name n!"offset"] (.tuple [.call (.attr (.name n!"self") n!"getbitu") [.name n!"buf", .name n!"offset", .const (.int 8)], .bin .add (.name n!"offset") (.const (.int 8))]),
    .assign (.name n!"symb") (.const (.str "")),
    .for (.name n!"_") (.call (.name n!"range") [.attr (.name n!"bs") n!"serialNumberLength"]) [
      .aug (.name n!"symb") .add (.bin .add (.call (.name n!"hex") [.call (.attr (.name n!"self") n!"getbitu") [.name n!"buf", .name n!"offset", .const (.int 8)]]) (.const (.str " "))),
      .aug (.name n!"offset") .add (.const (.int 8))] [],
    .assign (.attr (.name n!"bs") n!"serialNumber") (.call (.attr (.name n!"symb") n!"strip") []),
    .ite (.not (.call (.name n!"isinstance") [.name n!"bs", .name n!"BaseADSNRC"])) [
      .expr (.call (.attr (.name n!"self") n!"_BaseStationDataDecoder__length_check") [.bin .add (.const (.int 48)) (.bin .mul (.const (.int 8)) (.bin .add (.attr (.name n!"bs") n!"descrLength") (.attr (.name n!"bs") n!"serialNumberLength"))), .bin .sub (.name n!"offset") (.const (.int 24)), .call (.name n!"len") [.name n!"buf"]]),
      .ret (.name n!"bs")] [],
    .unpack [.attr (.name n!"bs") n!"rcvDescriptorLength", .name n!"offset"] (.tuple [.call (.attr (.name n!"self") n!"getbitu") [.name n!"buf", .name n!"offset", .const (.int 8)], .bin .add (.name n!"offset") (.const (.int 8))]),
    .assign (.name n!"symb") (.const (.str "")),
    .for (.name n!"_") (.call (.name n!"range") [.attr (.name n!"bs") n!"rcvDescriptorLength"]) [
      .aug (.name n!"symb") .add (.bin .add (.call (.name n!"hex") [.call (.attr (.name n!"self") n!"getbitu") [.name n!"buf", .name n!"offset", .const (.int 8)]]) (.const (.str " "))),
      .aug (.name n!"offset") .add (.const (.int 8))] [],
    .assign (.attr (.name n!"bs") n!"rcvDescriptor") (.call (.attr (.name n!"symb") n!"strip") []),
    .unpack [.attr (.name n!"bs") n!"rcvFWVersionLength", .name n!"offset"] (.tuple [.call (.attr (.name n!"self") n!"getbitu") [.name n!"buf", .name n!"offset", .const (.int 8)], .bin .add (.name n!"offset") (.const (.int 8))]),
    .assign (.name n!"symb") (.const (.str "")),
    .for (.name n!"_") (.call (.name n!"range") [.attr (.name n!"bs") n!"rcvFWVersionLength"]) [
      .aug (.name n!"symb") .add (.bin .add (.call (.name n!"hex") [.call (.attr (.name n!"self") n!"getbitu") [.name n!"buf", .name n!"offset", .const (.int 8)]]) (.const (.str " "))),
      .aug (.name n!"offset") .add (.const (.int 8))] [],
    .assign (.attr (.name n!"bs") n!"rcvFWVersion") (.call (.attr (.name n!"symb") n!"strip") []),
    .unpack [.attr (.name n!"bs") n!"rcvSerNumLength", .name n!"offset"] (.tuple [.call (.attr (.name n!"self") n!"getbitu") [.name n!"buf", .name n!"offset", .const (.int 8)], .bin .add (.name n!"offset") (.const (.int 8))]),
    .assign (.name n!"symb") (.const (.str "")),
    .for (.name n!"_") (.call (.name n!"range") [.attr (.name n!"bs") n!"rcvSerNumLength"]) [
      .aug (.name n!"symb") .add (.bin .add (.call (.name n!"hex") [.call (.attr (.name n!"self") n!"getbitu") [.name n!"buf", .name n!"offset", .const (.int 8)]]) (.const (.str " "))),
      .aug (.name n!"offset") .add (.const (.int 8))] [],
    .assign (.attr (.name n!"bs") n!"rcvSerNum") (.call (.attr (.name n!"symb") n!"strip") []),
    .assign (.name n!"strLen") (.bin .add (.bin .add (.attr (.name n!"bs") n!"descrLength") (.attr (.name n!"bs") n!"serialNumberLength")) (.attr (.name n!"bs") n!"rcvDescriptorLength")),
    .aug (.name n!"strLen") .add (.bin .add (.attr (.name n!"bs") n!"rcvFWVersionLength") (.attr (.name n!"bs") n!"rcvSerNumLength")),
    .expr (.call (.attr (.name n!"self") n!"_BaseStationDataDecoder__length_check") [.bin .add (.const (.int 72)) (.bin .mul (.const (.int 8)) (.name n!"strLen")), .bin .sub (.name n!"offset") (.const (.int 24)), .call (.name n!"len") [.name n!"buf"]]),
    .ret (.name n!"bs")]

/-- `BaseStationDataDecoder.__scale10078_1033`, sub_decoders/RTCM_BASE.py:192-221. -/
def fn_BaseStationDataDecoder_P_scale10078_1033 : FnDef where
  params := [n!"cls", n!"ibs"]
  defaults := []
  body := [
    .assign (.name n!"bs") (.call (.attr (.name n!"ibs") n!"deepcopy") []),
    .assign (.name n!"symbols") (.call (.attr (.attr (.name n!"ibs") n!"descr") n!"split") [.const (.str " ")]),
    .assign (.attr (.name n!"bs") n!"descr") (.call (.attr (.call (.name n!"bytes") [.listComp (.call (.name n!"int") [.name n!"s", .const (.int 16)]) n!"s" (.name n!"symbols") (.const (.bool true))]) n!"decode") [.const (.str "utf-8")]),
    .ite (.not (.call (.name n!"isinstance") [.name n!"bs", .tuple [.name n!"BaseADSN", .name n!"BaseADSNRC"]])) [
      .ret (.name n!"bs")] [],
    .assign (.name n!"symbols") (.call (.attr (.attr (.name n!"bs") n!"serialNumber") n!"split") [.const (.str " ")]),
    .assign (.attr (.name n!"bs") n!"serialNumber") (.call (.attr (.call (.name n!"bytes") [.listComp (.call (.name n!"int") [.name n!"s", .const (.int 16)]) n!"s" (.name n!"symbols") (.const (.bool true))]) n!"decode") [.const (.str "utf-8")]),
    .ite (.not (.call (.name n!"isinstance") [.name n!"bs", .name n!"BaseADSNRC"])) [
      .ret (.name n!"bs")] [],
    .assign (.name n!"symbols") (.call (.attr (.attr (.name n!"bs") n!"rcvDescriptor") n!"split") [.const (.str " ")]),
    .assign (.attr (.name n!"bs") n!"rcvDescriptor") (.call (.attr (.call (.name n!"bytes") [.listComp (.call (.name n!"int") [.name n!"s", .const (.int 16)]) n!"s" (.name n!"symbols") (.const (.bool true))]) n!"decode") [.const (.str "utf-8")]),
    .assign (.name n!"symbols") (.call (.attr (.attr (.name n!"bs") n!"rcvFWVersion") n!"split") [.const (.str " ")]),
    .assign (.attr (.name n!"bs") n!"rcvFWVersion") (.call (.attr (.call (.name n!"bytes") [.listComp (.call (.name n!"int") [.name n!"s", .const (.int 16)]) n!"s" (.name n!"symbols") (.const (.bool true))]) n!"decode") [.const (.str "utf-8")]),
    .assign (.name n!"symbols") (.call (.attr (.attr (.name n!"bs") n!"rcvSerNum") n!"split") [.const (.str " ")]),
    .assign (.attr (.name n!"bs") n!"rcvSerNum") (.call (.attr (.call (.name n!"bytes") [.listComp (.call (.name n!"int") [.name n!"s", .const (.int 16)]) n!"s" (.name n!"symbols") (.const (.bool true))]) n!"decode") [.const (.str "utf-8")]),
    .ret (.name n!"bs")]

/-- `BaseStationDataDecoder.__decode1013`, sub_decoders/RTCM_BASE.py:223-250. -/
def fn_BaseStationDataDecoder_P_decode1013 : FnDef where
  params := [n!"self", n!"buf"]
  defaults := []
  body := [
    .assign (.name n!"bs") (.call (.name n!"BaseSP") []),
    .assign (.name n!"offset") (.const (.int 24)),
    .unpack [.attr (.name n!"bs") n!"msgNum", .name n!"offset"] (.tuple [.call (.attr (.name n!"self") n!"getbitu") [.name n!"buf", .name n!"offset", .const (.int 12)], .bin .add (.name n!"offset") (.const (.int 12))]),
    .unpack [.attr (.name n!"bs") n!"bsID", .name n!"offset"] (.tuple [.call (.attr (.name n!"self") n!"getbitu") [.name n!"buf", .name n!"offset", .const (.int 12)], .bin .add (.name n!"offset") (.const (.int 12))]),
    .unpack [.attr (.name n!"bs") n!"modifiedJulianDay", .name n!"offset"] (.tuple [.call (.attr (.name n!"self") n!"getbitu") [.name n!"buf", .name n!"offset", .const (.int 16)], .bin .add (.name n!"offset") (.const (.int 16))]),
    .unpack [.attr (.name n!"bs") n!"daySec", .name n!"offset"] (.tuple [.call (.attr (.name n!"self") n!"getbitu") [.name n!"buf", .name n!"offset", .const (.int 17)], .bin .add (.name n!"offset") (.const (.int 17))]),
    .unpack [.attr (.name n!"bs") n!"Nm", .name n!"offset"] (.tuple [.call (.attr (.name n!"self") n!"getbitu") [.name n!"buf", .name n!"offset", .const (.int 5)], .bin .add (.name n!"offset") (.const (.int 5))]),
    .unpack [.attr (.name n!"bs") n!"leapSec", .name n!"offset"] (.tuple [.call (.attr (.name n!"self") n!"getbitu") [.name n!"buf", .name n!"offset", .const (.int 8)], .bin .add (.name n!"offset") (.const (.int 8))]),
    .ite (.cmp .ne (.attr (.name n!"bs") n!"Nm") (.const (.int 0))) [
      .assign (.name n!"Nm") (.attr (.name n!"bs") n!"Nm")] [
      .assign (.name n!"Nm") (.call (.attr (.name n!"math") n!"floor") [.bin .div (.bin .sub (.bin .mul (.const (.int 8)) (.call (.name n!"len") [.name n!"buf"])) (.const (.int 70))) (.const (.int 29))])],
    .for (.name n!"_") (.call (.name n!"range") [.name n!"Nm"]) [
      .unpack [.name n!"ID", .name n!"offset"] (.tuple [.call (.attr (.name n!"self") n!"getbitu") [.name n!"buf", .name n!"offset", .const (.int 12)], .bin .add (.name n!"offset") (.const (.int 12))]),
      .unpack [.name n!"isPeriodic", .name n!"offset"] (.tuple [.call (.attr (.name n!"self") n!"getbitu") [.name n!"buf", .name n!"offset", .const (.int 1)], .bin .add (.name n!"offset") (.const (.int 1))]),
      .unpack [.name n!"period", .name n!"offset"] (.tuple [.call (.attr (.name n!"self") n!"getbitu") [.name n!"buf", .name n!"offset", .const (.int 16)], .bin .add (.name n!"offset") (.const (.int 16))]),
      .expr (.call (.attr (.attr (.name n!"bs") n!"shedule") n!"update") [.dict [.name n!"ID"] [.tuple [.name n!"isPeriodic", .name n!"period"]]])] [],
    .expr (.call (.attr (.name n!"self") n!"_BaseStationDataDecoder__length_check") [.bin .add (.const (.int 70)) (.bin .mul (.const (.int 29)) (.name n!"Nm")), .bin .sub (.name n!"offset") (.const (.int 24)), .call (.name n!"len") [.name n!"buf"]]),
    .ret (.name n!"bs")]

/-- `BaseStationDataDecoder.__scale1013`, sub_decoders/RTCM_BASE.py:253-262. -/
def fn_BaseStationDataDecoder_P_scale1013 : FnDef where
  params := [n!"cls", n!"ibs"]
  defaults := []
  body := [
    .assign (.name n!"bs") (.call (.attr (.name n!"ibs") n!"deepcopy") []),
    .for (.name n!"k") (.call (.attr (.attr (.name n!"bs") n!"shedule") n!"keys") []) [
      .assign (.name n!"is_periodic") (.cmp .eq (.const (.int 1)) (.index (.index (.attr (.name n!"bs") n!"shedule") (.name n!"k")) (.const (.int 0)))),
      .assign (.name n!"period") (.bin .mul (.index (.index (.attr (.name n!"bs") n!"shedule") (.name n!"k")) (.const (.int 1))) (.const (.flt 1 10))),
      .assign (.index (.attr (.name n!"bs") n!"shedule") (.name n!"k")) (.tuple [.name n!"is_periodic", .name n!"period"])] [],
    .ret (.name n!"bs")]

/-- `BaseStationDataDecoder.__decode1029`, sub_decoders/RTCM_BASE.py:264-287. -/
def fn_BaseStationDataDecoder_P_decode1029 : FnDef where
  params := [n!"self", n!"buf"]
  defaults := []
  body := [
    .assign (.name n!"bs") (.call (.name n!"BaseTS") []),
    .assign (.name n!"offset") (.const (.int 24)),
    .unpack [.attr (.name n!"bs") n!"msgNum", .name n!"offset"] (.tuple [.call (.attr (.name n!"self") n!"getbitu") [.name n!"buf", .name n!"offset", .const (.int 12)], .bin .add (.name n!"offset") (.const (.int 12))]),
    .unpack [.attr (.name n!"bs") n!"bsID", .name n!"offset"] (.tuple [.call (.attr (.name n!"self") n!"getbitu") [.name n!"buf", .name n!"offset", .const (.int 12)], .bin .add (.name n!"offset") (.const (.int 12))]),
    .unpack [.attr (.name n!"bs") n!"modifiedJulianDay", .name n!"offset"] (.tuple [.call (.attr (.name n!"self") n!"getbitu") [.name n!"buf", .name n!"offset", .const (.int 16)], .bin .add (.name n!"offset") (.const (.int 16))]),
    .unpack [.attr (.name n!"bs") n!"daySec", .name n!"offset"] (.tuple [.call (.attr (.name n!"self") n!"getbitu") [.name n!"buf", .name n!"offset", .const (.int 17)], .bin .add (.name n!"offset") (.const (.int 17))]),
    .unpack [.attr (.name n!"bs") n!"charNum", .name n!"offset"] (.tuple [.call (.attr (.name n!"self") n!"getbitu") [.name n!"buf", .name n!"offset", .const (.int 7)], .bin .add (.name n!"offset") (.const (.int 7))]),
    .unpack [.attr (.name n!"bs") n!"unitsNum", .name n!"offset"] (.tuple [.call (.attr (.name n!"self") n!"getbitu") [.name n!"buf", .name n!"offset", .const (.int 8)], .bin .add (.name n!"offset") (.const (.int 8))]),
    .assign (.name n!"msg") (.const (.str "")),
    .for (.name n!"_") (.call (.name n!"range") [.attr (.name n!"bs") n!"unitsNum"]) [
      .aug (.name n!"msg") .add (.bin .add (.call (.name n!"hex") [.call (.attr (.name n!"self") n!"getbitu") [.name n!"buf", .name n!"offset", .const (.int 8)]]) (.const (.str " "))),
      .aug (.name n!"offset") .add (.const (.int 8))] [],
    .assign (.attr (.name n!"bs") n!"message") (.call (.attr (.name n!"msg") n!"strip") []),
    .expr (.call (.attr (.name n!"self") n!"_BaseStationDataDecoder__length_check") [.bin .add (.const (.int 72)) (.bin .mul (.const (.int 8)) (.attr (.name n!"bs") n!"unitsNum")), .bin .sub (.name n!"offset") (.const (.int 24)), .call (.name n!"len") [.name n!"buf"]]),
    .ret (.name n!"bs")]

/-- `BaseStationDataDecoder.__scale1029`, sub_decoders/RTCM_BASE.py:290-297. -/
def fn_BaseStationDataDecoder_P_scale1029 : FnDef where
  params := [n!"cls", n!"ibs"]
  defaults := []
  body := [
    .assign (.name n!"bs") (.call (.attr (.name n!"ibs") n!"deepcopy") []),
    .assign (.name n!"symbols") (.call (.attr (.attr (.name n!"ibs") n!"message") n!"split") [.const (.str " ")]),
    .assign (.attr (.name n!"bs") n!"message") (.call (.attr (.call (.name n!"bytes") [.listComp (.call (.name n!"int") [.name n!"s", .const (.int 16)]) n!"s" (.name n!"symbols") (.const (.bool true))]) n!"decode") [.const (.str "utf-8")]),
    .ret (.name n!"bs")]

/-- `BaseStationDataDecoder.__decode1230`, sub_decoders/RTCM_BASE.py:299-356. -/
def fn_BaseStationDataDecoder_P_decode1230 : FnDef where
  params := [n!"self", n!"buf"]
  defaults := []
  body := [
    .assign (.name n!"bs") (.call (.name n!"BaseGLBS") []),
    .assign (.name n!"offset") (.const (.int 24)),
    .unpack [.attr (.name n!"bs") n!"msgNum", .name n!"offset"] (.tuple [.call (.attr (.name n!"self") n!"getbitu") [.name n!"buf", .name n!"offset", .const (.int 12)], .bin .add (.name n!"offset") (.const (.int 12))]),
    .unpack [.attr (.name n!"bs") n!"bsID", .name n!"offset"] (.tuple [.call (.attr (.name n!"self") n!"getbitu") [.name n!"buf", .name n!"offset", .const (.int 12)], .bin .add (.name n!"offset") (.const (.int 12))]),
    .unpack [.attr (.name n!"bs") n!"isCorrected", .name n!"offset"] (.tuple [.call (.attr (.name n!"self") n!"getbitu") [.name n!"buf", .name n!"offset", .const (.int 1)], .bin .add (.bin .add (.name n!"offset") (.const (.int 1))) (.const (.int 3))]),
    .unpack [.name n!"validity", .name n!"offset"] (.tuple [.call (.attr (.name n!"self") n!"getbitu") [.name n!"buf", .name n!"offset", .const (.int 4)], .bin .add (.name n!"offset") (.const (.int 4))]),
    .assign (.name n!"N") (.const (.int 0)),
    .ite (.bin .band (.name n!"validity") (.const (.int 8))) [
      .unpack [.index (.attr (.name n!"bs") n!"correction") (.const (.str "1C")), .name n!"offset"] (.tuple [.call (.attr (.name n!"self") n!"getbits") [.name n!"buf", .name n!"offset", .const (.int 16)], .bin .add (.name n!"offset") (.const (.int 16))]),
      .ite (.cmp .eq (.index (.attr (.name n!"bs") n!"correction") (.const (.str "1C"))) (.neg (.const (.int 32768)))) [
        .expr (.call (.attr (.name n!"logger") n!"warning") [.fstr [.attr (.name n!"bs") n!"msgNum"]])] [],
      .assign (.index (.attr (.name n!"bs") n!"validity") (.const (.str "1C"))) (.const (.int 1)),
      .aug (.name n!"N") .add (.const (.int 1))] [],
    .ite (.bin .band (.name n!"validity") (.const (.int 4))) [
      .unpack [.index (.attr (.name n!"bs") n!"correction") (.const (.str "1P")), .name n!"offset"] (.tuple [.call (.attr (.name n!"self") n!"getbits") [.name n!"buf", .name n!"offset", .const (.int 16)], .bin .add (.name n!"offset") (.const (.int 16))]),
      .ite (.cmp .eq (.index (.attr (.name n!"bs") n!"correction") (.const (.str "1P"))) (.neg (.const (.int 32768)))) [
        .expr (.call (.attr (.name n!"logger") n!"warning") [.fstr [.attr (.name n!"bs") n!"msgNum"]])] [],
      .assign (.index (.attr (.name n!"bs") n!"validity") (.const (.str "1P"))) (.const (.int 1)),
      .aug (.name n!"N") .add (.const (.int 1))] [],
    .ite (.bin .band (.name n!"validity") (.const (.int 2))) [
      .unpack [.index (.attr (.name n!"bs") n!"correction") (.const (.str "2C")), .name n!"offset"] (.tuple [.call (.attr (.name n!"self") n!"getbits") [.name n!"buf", .name n!"offset", .const (.int 16)], .bin .add (.name n!"offset") (.const (.int 16))]),
      .ite (.cmp .eq (.index (.attr (.name n!"bs") n!"correction") (.const (.str "2C"))) (.neg (.const (.int 32768)))) [
        .expr (.call (.attr (.name n!"logger") n!"warning") [.fstr [.attr (.name n!"bs") n!"msgNum"]])] [],
      .assign (.index (.attr (.name n!"bs") n!"validity") (.const (.str "2C"))) (.const (.int 1)),
      .aug (.name n!"N") .add (.const (.int 1))] [],
    .ite (.bin .band (.name n!"validity") (.const (.int 1))) [
      .unpack [.index (.attr (.name n!"bs") n!"correction") (.const (.str "2P")), .name n!"offset"] (.tuple [.call (.attr (.name n!"self") n!"getbits") [.name n!"buf", .name n!"offset", .const (.int 16)], .bin .add (.name n!"offset") (.const (.int 16))]),
      .ite (.cmp .eq (.index (.attr (.name n!"bs") n!"correction") (.const (.str "2P"))) (.neg (.const (.int 32768)))) [
        .expr (.call (.attr (.name n!"logger") n!"warning") [.fstr [.attr (.name n!"bs") n!"msgNum"]])] [],
      .assign (.index (.attr (.name n!"bs") n!"validity") (.const (.str "2P"))) (.const (.int 1)),
      .aug (.name n!"N") .add (.const (.int 1))] [],
    .expr (.call (.attr (.name n!"self") n!"_BaseStationDataDecoder__length_check") [.bin .add (.const (.int 32)) (.bin .mul (.const (.int 16)) (.name n!"N")), .bin .sub (.name n!"offset") (.const (.int 24)), .call (.name n!"len") [.name n!"buf"]]),
    .ret (.name n!"bs")]

/-- `BaseStationDataDecoder.__scale1230`, sub_decoders/RTCM_BASE.py:359-373. -/
def fn_BaseStationDataDecoder_P_scale1230 : FnDef where
  params := [n!"cls", n!"ibs"]
  defaults := []
  body := [
    .assign (.name n!"bs") (.call (.attr (.name n!"ibs") n!"deepcopy") []),
    .assign (.attr (.name n!"bs") n!"isCorrected") (.cmp .eq (.attr (.name n!"bs") n!"isCorrected") (.const (.int 1))),
    .assign (.index (.attr (.name n!"bs") n!"validity") (.const (.str "1C"))) (.cmp .eq (.index (.attr (.name n!"bs") n!"validity") (.const (.str "1C"))) (.const (.int 1))),
    .assign (.index (.attr (.name n!"bs") n!"validity") (.const (.str "1P"))) (.cmp .eq (.index (.attr (.name n!"bs") n!"validity") (.const (.str "1P"))) (.const (.int 1))),
    .assign (.index (.attr (.name n!"bs") n!"validity") (.const (.str "2C"))) (.cmp .eq (.index (.attr (.name n!"bs") n!"validity") (.const (.str "2C"))) (.const (.int 1))),
    .assign (.index (.attr (.name n!"bs") n!"validity") (.const (.str "2P"))) (.cmp .eq (.index (.attr (.name n!"bs") n!"validity") (.const (.str "2P"))) (.const (.int 1))),
    .aug (.index (.attr (.name n!"bs") n!"correction") (.const (.str "1C"))) .mul (.const (.flt 1 5)),
    .aug (.index (.attr (.name n!"bs") n!"correction") (.const (.str "1P"))) .mul (.const (.flt 1 5)),
    .aug (.index (.attr (.name n!"bs") n!"correction") (.const (.str "2C"))) .mul (.const (.flt 1 5)),
    .aug (.index (.attr (.name n!"bs") n!"correction") (.const (.str "2P"))) .mul (.const (.flt 1 5)),
    .ret (.name n!"bs")]

/-- `BaseStationDataDecoder.__decode`, sub_decoders/RTCM_BASE.py:375-400. -/
def fn_BaseStationDataDecoder_P_decode : FnDef where
  params := [n!"self", n!"buf"]
  defaults := []
  body := [
    .assign (.name n!"msgNum") (.call (.attr (.name n!"self") n!"get_msg_num") [.name n!"buf"]),
    .assign (.name n!"$m") (.name n!"msgNum"),
    .ite (.cmp .eq (.name n!"$m") (.const (.int 1005))) [
      .ret (.call (.attr (.name n!"self") n!"_BaseStationDataDecoder__decode10056") [.name n!"buf"])] [.ite (.cmp .eq (.name n!"$m") (.const (.int 1006))) [
      .ret (.call (.attr (.name n!"self") n!"_BaseStationDataDecoder__decode10056") [.name n!"buf"])] [.ite (.cmp .eq (.name n!"$m") (.const (.int 1007))) [
      .ret (.call (.attr (.name n!"self") n!"_BaseStationDataDecoder__decode10078_1033") [.name n!"buf"])] [.ite (.cmp .eq (.name n!"$m") (.const (.int 1008))) [
      .ret (.call (.attr (.name n!"self") n!"_BaseStationDataDecoder__decode10078_1033") [.name n!"buf"])] [.ite (.cmp .eq (.name n!"$m") (.const (.int 1033))) [
      .ret (.call (.attr (.name n!"self") n!"_BaseStationDataDecoder__decode10078_1033") [.name n!"buf"])] [.ite (.cmp .eq (.name n!"$m") (.const (.int 1013))) [
      .ret (.call (.attr (.name n!"self") n!"_BaseStationDataDecoder__decode1013") [.name n!"buf"])] [.ite (.cmp .eq (.name n!"$m") (.const (.int 1029))) [
      .ret (.call (.attr (.name n!"self") n!"_BaseStationDataDecoder__decode1029") [.name n!"buf"])] [.ite (.cmp .eq (.name n!"$m") (.const (.int 1230))) [
      .ret (.call (.attr (.name n!"self") n!"_BaseStationDataDecoder__decode1230") [.name n!"buf"])] [
      .raise (.call (.name n!"ExceptionBaseStationDataDecoder") [.fstr [.name n!"msgNum"]])]]]]]]]]]

/-- `BaseStationDataDecoder.scale`, sub_decoders/RTCM_BASE.py:403-419. -/
def fn_BaseStationDataDecoder_scale : FnDef where
  params := [n!"cls", n!"bs"]
  defaults := []
  body := [
    .ite (.call (.name n!"isinstance") [.name n!"bs", .tuple [.name n!"BaseRP", .name n!"BaseRPH"]]) [
      .ret (.call (.attr (.name n!"cls") n!"_BaseStationDataDecoder__scale10056") [.name n!"bs"])] [
      .ite (.call (.name n!"isinstance") [.name n!"bs", .tuple [.name n!"BaseAD", .name n!"BaseADSN", .name n!"BaseADSNRC"]]) [
        .ret (.call (.attr (.name n!"cls") n!"_BaseStationDataDecoder__scale10078_1033") [.name n!"bs"])] [
        .ite (.call (.name n!"isinstance") [.name n!"bs", .name n!"BaseSP"]) [
          .ret (.call (.attr (.name n!"cls") n!"_BaseStationDataDecoder__scale1013") [.name n!"bs"])] [
          .ite (.call (.name n!"isinstance") [.name n!"bs", .name n!"BaseTS"]) [
            .ret (.call (.attr (.name n!"cls") n!"_BaseStationDataDecoder__scale1029") [.name n!"bs"])] [
            .ite (.call (.name n!"isinstance") [.name n!"bs", .name n!"BaseGLBS"]) [
              .ret (.call (.attr (.name n!"cls") n!"_BaseStationDataDecoder__scale1230") [.name n!"bs"])] [
              .raise (.call (.name n!"ExceptionBaseStationDataDecoder") [.fstr [.call (.name n!"type") [.name n!"bs"]]])]]]]]]

/-- `BaseStationDataDecoder.decode`, sub_decoders/RTCM_BASE.py:421-429. -/
def fn_BaseStationDataDecoder_decode : FnDef where
  params := [n!"self", n!"buf", n!"is_bare_output"]
  defaults := [.bool false]
  body := [
    .assign (.name n!"baseData") (.call (.attr (.name n!"self") n!"_BaseStationDataDecoder__decode") [.name n!"buf"]),
    .ite (.not (.name n!"is_bare_output")) [
      .assign (.name n!"baseData") (.call (.attr (.name n!"self") n!"scale") [.name n!"baseData"])] [],
    .ret (.name n!"baseData")]

/-- `BaseStationDataDecoder`, sub_decoders/RTCM_BASE.py:37-429. -/
def cls_BaseStationDataDecoder : ClassDef where
  mro := [n!"BaseStationDataDecoder", n!"Bits"]
  members := [(n!"__init__", .method n!"BaseStationDataDecoder.__init__"),
    (n!"get_msg_num", .method n!"BaseStationDataDecoder.get_msg_num"),
    (n!"_BaseStationDataDecoder__length_check", .static n!"BaseStationDataDecoder.__length_check"),
    (n!"_BaseStationDataDecoder__decode10056", .method n!"BaseStationDataDecoder.__decode10056"),
    (n!"_BaseStationDataDecoder__scale10056", .clsMethod n!"BaseStationDataDecoder.__scale10056"),
    (n!"_BaseStationDataDecoder__decode10078_1033", .method n!"BaseStationDataDecoder.__decode10078_1033"),
    (n!"_BaseStationDataDecoder__scale10078_1033", .clsMethod n!"BaseStationDataDecoder.__scale10078_1033"),
    (n!"_BaseStationDataDecoder__decode1013", .method n!"BaseStationDataDecoder.__decode1013"),
    (n!"_BaseStationDataDecoder__scale1013", .clsMethod n!"BaseStationDataDecoder.__scale1013"),
    (n!"_BaseStationDataDecoder__decode1029", .method n!"BaseStationDataDecoder.__decode1029"),
    (n!"_BaseStationDataDecoder__scale1029", .clsMethod n!"BaseStationDataDecoder.__scale1029"),
    (n!"_BaseStationDataDecoder__decode1230", .method n!"BaseStationDataDecoder.__decode1230"),
    (n!"_BaseStationDataDecoder__scale1230", .clsMethod n!"BaseStationDataDecoder.__scale1230"),
    (n!"_BaseStationDataDecoder__decode", .method n!"BaseStationDataDecoder.__decode"),
    (n!"scale", .clsMethod n!"BaseStationDataDecoder.scale"),
    (n!"decode", .method n!"BaseStationDataDecoder.decode")]
  fields := []
  isData := false
  isExc := false

/-- `SubdecoderBaseStationData.__init__`, sub_decoders/RTCM_BASE.py:435-440. -/
def fn_SubdecoderBaseStationData_P_init_P : FnDef where
  params := [n!"self", n!"bare_data"]
  defaults := [.bool false]
  body := [
    .assign (.attr (.name n!"self") n!"_SubdecoderBaseStationData__is_bare_data") (.name n!"bare_data"),
    .assign (.attr (.name n!"self") n!"decoder") (.call (.name n!"BaseStationDataDecoder") []),
    .assign (.attr (.name n!"self") n!"io") (.call (.name n!"SubDecoderInterface") [.const (.str "BASE"), .name n!"bare_data"]),
    .assign (.attr (.attr (.name n!"self") n!"io") n!"decode") (.attr (.name n!"self") n!"decode"),
    .assign (.attr (.attr (.name n!"self") n!"io") n!"actual_messages") (.call (.name n!"set") [.attr (.attr (.name n!"self") n!"decoder") n!"msgList"])]

/-- `SubdecoderBaseStationData.decode`, sub_decoders/RTCM_BASE.py:442-472. -/
def fn_SubdecoderBaseStationData_decode : FnDef where
  params := [n!"self", n!"buf"]
  defaults := []
  body := [
    .assign (.name n!"bsMsg") (.const (.none)),
    .assign (.name n!"msgNum") (.call (.attr (.attr (.name n!"self") n!"decoder") n!"get_msg_num") [.name n!"buf"]),
    .try [
      .assign (.name n!"bsMsg") (.call (.attr (.attr (.name n!"self") n!"decoder") n!"decode") [.name n!"buf", .attr (.name n!"self") n!"_SubdecoderBaseStationData__is_bare_data"]),
      .expr (.call (.attr (.name n!"logger") n!"info") [.fstr [.name n!"msgNum"]])] [
      .mk n!"ExceptionBaseStationDataDecoder" (some n!"ex") [
        .expr (.call (.attr (.name n!"logger") n!"error") [.bin .add (.fstr [.name n!"msgNum"]) (.index (.attr (.name n!"ex") n!"args") (.const (.int 0)))])],
      .mk n!"ExceptionBitsError" (some n!"ex") [
        .expr (.call (.attr (.name n!"logger") n!"error") [.bin .add (.fstr [.name n!"msgNum"]) (.index (.attr (.name n!"ex") n!"args") (.const (.int 0)))])],
      .mk n!"IndexError" (some n!"ie") [
        .expr (.call (.attr (.name n!"logger") n!"error") [.fstr [.name n!"msgNum", .call (.name n!"type") [.name n!"ie"], .name n!"ie"]])],
      .mk n!"ArithmeticError" (some n!"ae") [
        .expr (.call (.attr (.name n!"logger") n!"error") [.fstr [.name n!"msgNum", .call (.name n!"type") [.name n!"ae"], .name n!"ae"]])],
      .mk n!"Exception" (some n!"ex") [
        .expr (.call (.attr (.name n!"logger") n!"error") [.bin .add (.fstr [.name n!"msgNum"]) (.fstr [.call (.name n!"type") [.name n!"ex"], .name n!"ex"])])]] [
      .pass],
    .ret (.name n!"bsMsg")]

/-- `SubdecoderBaseStationData`, sub_decoders/RTCM_BASE.py:432-472. -/
def cls_SubdecoderBaseStationData : ClassDef where
  mro := [n!"SubdecoderBaseStationData"]
  members := [(n!"__init__", .method n!"SubdecoderBaseStationData.__init__"),
    (n!"decode", .method n!"SubdecoderBaseStationData.decode")]
  fields := []
  isData := false
  isExc := false

end Src
end PyCore
end Verif
