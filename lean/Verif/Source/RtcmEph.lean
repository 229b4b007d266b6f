import Verif.PyCore.Syntax

/-!
# sub_decoders/RTCM_EPH.py

Generated by fidelity/embed.py from the text of the module.
-/

namespace Verif
namespace PyCore
namespace Src

/-- `ExceptionEphemerisDecoder`, sub_decoders/RTCM_EPH.py:30-31. -/
def cls_ExceptionEphemerisDecoder : ClassDef where
  mro := [n!"ExceptionEphemerisDecoder"]
  members := []
  fields := []
  isData := false
  isExc := true

/-- `EphemerisDecoder.__init__`, sub_decoders/RTCM_EPH.py:40-42. -/
def fn_EphemerisDecoder_P_init_P : FnDef where
  params := [n!"self"]
  defaults := []
  body := [
    .expr (.call (.attr (.call (.name n!"super") []) n!"__init__") []),
    .assign (.attr (.name n!"self") n!"msgList") (.tuple [.const (.int 1019), .const (.int 1020), .const (.int 1041), .const (.int 1042), .const (.int 1044), .const (.int 1045), .const (.int 1046)])]

/-- `EphemerisDecoder.get_msg_num`, sub_decoders/RTCM_EPH.py:44-46. -/
def fn_EphemerisDecoder_get_msg_num : FnDef where
  params := [n!"self", n!"buf"]
  defaults := []
  body := [
    .ret (.call (.attr (.name n!"self") n!"getbitu") [.name n!"buf", .const (.int 24), .const (.int 12)])]

/-- `EphemerisDecoder.__length_check`, sub_decoders/RTCM_EPH.py:49-59. -/
def fn_EphemerisDecoder_P_length_check : FnDef where
  params := [n!"Nexp", n!"Ndec", n!"bufLen"]
  defaults := []
  body := [
    .ite (.cmp .ne (.name n!"Ndec") (.name n!"Nexp")) [
      .raise (.call (.name n!"ExceptionEphemerisDecoder") [.fstr [.name n!"Ndec", .name n!"Nexp"]])] [],
    .assign (.name n!"Ndec") (.bin .add (.const (.int 6)) (.bin .shr (.bin .add (.name n!"Ndec") (.const (.int 7))) (.const (.int 3)))),
    .ite (.cmp .lt (.name n!"bufLen") (.name n!"Ndec")) [
      .raise (.call (.name n!"ExceptionEphemerisDecoder") [.fstr [.name n!"bufLen", .name n!"Ndec"]])] []]

/-- `EphemerisDecoder.__decode1019`, sub_decoders/RTCM_EPH.py:61-101. -/
def fn_EphemerisDecoder_P_decode1019 : FnDef where
  params := [n!"self", n!"buf"]
  defaults := []
  body := [
    .assign (.name n!"eph") (.call (.attr (.name n!"mEph") n!"EphGPS") []),
    .assign (.name n!"offset") (.const (.int 24)),
    .unpack [.attr (.name n!"eph") n!"msgNum", .name n!"offset"] (.tuple [.call (.attr (.name n!"self") n!"getbitu") [.name n!"buf", .name n!"offset", .const (.int 12)], .bin .add (.name n!"offset") (.const (.int 12))]),
    .unpack [.attr (.name n!"eph") n!"satNum", .name n!"offset"] (.tuple [.call (.attr (.name n!"self") n!"getbitu") [.name n!"buf", .name n!"offset", .const (.int 6)], .bin .add (.name n!"offset") (.const (.int 6))]),
    .unpack [.attr (.name n!"eph") n!"weekNum", .name n!"offset"] (.tuple [.call (.attr (.name n!"self") n!"getbitu") [.name n!"buf", .name n!"offset", .const (.int 10)], .bin .add (.name n!"offset") (.const (.int 10))]),
    .unpack [.attr (.name n!"eph") n!"URA", .name n!"offset"] (.tuple [.call (.attr (.name n!"self") n!"getbitu") [.name n!"buf", .name n!"offset", .const (.int 4)], .bin .add (.name n!"offset") (.const (.int 4))]),
    .unpack [.attr (.name n!"eph") n!"L2_Codes", .name n!"offset"] (.tuple [.call (.attr (.name n!"self") n!"getbitu") [.name n!"buf", .name n!"offset", .const (.int 2)], .bin .add (.name n!"offset") (.const (.int 2))]),
    .unpack [.attr (.name n!"eph") n!"i_dot", .name n!"offset"] (.tuple [.call (.attr (.name n!"self") n!"getbits") [.name n!"buf", .name n!"offset", .const (.int 14)], .bin .add (.name n!"offset") (.const (.int 14))]),
    .unpack [.attr (.name n!"eph") n!"IODE", .name n!"offset"] (.tuple [.call (.attr (.name n!"self") n!"getbitu") [.name n!"buf", .name n!"offset", .const (.int 8)], .bin .add (.name n!"offset") (.const (.int 8))]),
    .unpack [.attr (.name n!"eph") n!"tc", .name n!"offset"] (.tuple [.call (.attr (.name n!"self") n!"getbitu") [.name n!"buf", .name n!"offset", .const (.int 16)], .bin .add (.name n!"offset") (.const (.int 16))]),
    .unpack [.attr (.name n!"eph") n!"af2", .name n!"offset"] (.tuple [.call (.attr (.name n!"self") n!"getbits") [.name n!"buf", .name n!"offset", .const (.int 8)], .bin .add (.name n!"offset") (.const (.int 8))]),
    .unpack [.attr (.name n!"eph") n!"af1", .name n!"offset"] (.tuple [.call (.attr (.name n!"self") n!"getbits") [.name n!"buf", .name n!"offset", .const (.int 16)], .bin .add (.name n!"offset") (.const (.int 16))]),
    .unpack [.attr (.name n!"eph") n!"af0", .name n!"offset"] (.tuple [.call (.attr (.name n!"self") n!"getbits") [.name n!"buf", .name n!"offset", .const (.int 22)], .bin .add (.name n!"offset") (.const (.int 22))]),
    .unpack [.attr (.name n!"eph") n!"IODC", .name n!"offset"] (.tuple [.call (.attr (.name n!"self") n!"getbitu") [.name n!"buf", .name n!"offset", .const (.int 10)], .bin .add (.name n!"offset") (.const (.int 10))]),
    .unpack [.attr (.name n!"eph") n!"crs", .name n!"offset"] (.tuple [.call (.attr (.name n!"self") n!"getbits") [.name n!"buf", .name n!"offset", .const (.int 16)], .bin .add (.name n!"offset") (.const (.int 16))]),
    .unpack [.attr (.name n!"eph") n!"delta_n", .name n!"offset"] (.tuple [.call (.attr (.name n!"self") n!"getbits") [.name n!"buf", .name n!"offset", .const (.int 16)], .bin .add (.name n!"offset") (.const (.int 16))]),
    .unpack [.attr (.name n!"eph") n!"m0", .name n!"offset"] (.tuple [.call (.attr (.name n!"self") n!"getbits") [.name n!"buf", .name n!"offset", .const (.int 32)], .bin .add (.name n!"offset") (.const (.int 32))]),
    .unpack [.attr (.name n!"eph") n!"cuc", .name n!"offset"] (.tuple [.call (.attr (.name n!"self") n!"getbits") [.name n!"buf", .name n!"offset", .const (.int 16)], .bin .add (.name n!"offset") (.const (.int 16))]),
    .unpack [.attr (.name n!"eph") n!"e", .name n!"offset"] (.tuple [.call (.attr (.name n!"self") n!"getbitu") [.name n!"buf", .name n!"offset", .const (.int 32)], .bin .add (.name n!"offset") (.const (.int 32))]),
    .unpack [.attr (.name n!"eph") n!"cus", .name n!"offset"] (.tuple [.call (.attr (.name n!"self") n!"getbits") [.name n!"buf", .name n!"offset", .const (.int 16)], .bin .add (.name n!"offset") (.const (.int 16))]),
    .unpack [.attr (.name n!"eph") n!"sqrt_a", .name n!"offset"] (.tuple [.call (.attr (.name n!"self") n!"getbitu") [.name n!"buf", .name n!"offset", .const (.int 32)], .bin .add (.name n!"offset") (.const (.int 32))]),
    .unpack [.attr (.name n!"eph") n!"te", .name n!"offset"] (.tuple [.call (.attr (.name n!"self") n!"getbitu") [.name n!"buf", .name n!"offset", .const (.int 16)], .bin .add (.name n!"offset") (.const (.int 16))]),
    .unpack [.attr (.name n!"eph") n!"cic", .name n!"offset"] (.tuple [.call (.attr (.name n!"self") n!"getbits") [.name n!"buf", .name n!"offset", .const (.int 16)], .bin .add (.name n!"offset") (.const (.int 16))]),
    .unpack [.attr (.name n!"eph") n!"omega0", .name n!"offset"] (.tuple [.call (.attr (.name n!"self") n!"getbits") [.name n!"buf", .name n!"offset", .const (.int 32)], .bin .add (.name n!"offset") (.const (.int 32))]),
    .unpack [.attr (.name n!"eph") n!"cis", .name n!"offset"] (.tuple [.call (.attr (.name n!"self") n!"getbits") [.name n!"buf", .name n!"offset", .const (.int 16)], .bin .add (.name n!"offset") (.const (.int 16))]),
    .unpack [.attr (.name n!"eph") n!"i0", .name n!"offset"] (.tuple [.call (.attr (.name n!"self") n!"getbits") [.name n!"buf", .name n!"offset", .const (.int 32)], .bin .add (.name n!"offset") (.const (.int 32))]),
    .unpack [.attr (.name n!"eph") n!"crc", .name n!"offset"] (.tuple [.call (.attr (.name n!"self") n!"getbits") [.name n!"buf", .name n!"offset", .const (.int 16)], .bin .add (.name n!"offset") (.const (.int 16))]),
    .unpack [.attr (.name n!"eph") n!"w", .name n!"offset"] (.tuple [.call (.attr (.name n!"self") n!"getbits") [.name n!"buf", .name n!"offset", .const (.int 32)], .bin .add (.name n!"offset") (.const (.int 32))]),
    .unpack [.attr (.name n!"eph") n!"omega_dot", .name n!"offset"] (.tuple [.call (.attr (.name n!"self") n!"getbits") [.name n!"buf", .name n!"offset", .const (.int 24)], .bin .add (.name n!"offset") (.const (.int 24))]),
    .unpack [.attr (.name n!"eph") n!"TGD", .name n!"offset"] (.tuple [.call (.attr (.name n!"self") n!"getbits") [.name n!"buf", .name n!"offset", .const (.int 8)], .bin .add (.name n!"offset") (.const (.int 8))]),
    .unpack [.attr (.name n!"eph") n!"SVH", .name n!"offset"] (.tuple [.call (.attr (.name n!"self") n!"getbitu") [.name n!"buf", .name n!"offset", .const (.int 6)], .bin .add (.name n!"offset") (.const (.int 6))]),
    .unpack [.attr (.name n!"eph") n!"L2P_Data", .name n!"offset"] (.tuple [.call (.attr (.name n!"self") n!"getbitu") [.name n!"buf", .name n!"offset", .const (.int 1)], .bin .add (.name n!"offset") (.const (.int 1))]),
    .unpack [.attr (.name n!"eph") n!"Fit", .name n!"offset"] (.tuple [.call (.attr (.name n!"self") n!"getbitu") [.name n!"buf", .name n!"offset", .const (.int 1)], .bin .add (.name n!"offset") (.const (.int 1))]),
    .expr (.call (.attr (.name n!"self") n!"_EphemerisDecoder__length_check") [.const (.int 488), .bin .sub (.name n!"offset") (.const (.int 24)), .call (.name n!"len") [.name n!"buf"]]),
    .ret (.name n!"eph")]

/-- `EphemerisDecoder.__scale1019.ura`, sub_decoders/RTCM_EPH.py:108-115. -/
def fn_EphemerisDecoder_P_scale1019_ura : FnDef where
  params := [n!"iURA"]
  defaults := []
  body := [
    .ite (.cmp .le (.name n!"iURA") (.const (.int 6))) [
      .ret (.bin .pow (.const (.int 2)) (.bin .add (.const (.int 1)) (.bin .mul (.name n!"iURA") (.const (.flt 1 2)))))] [
      .ite (.cmp .lt (.name n!"iURA") (.const (.int 15))) [
        .ret (.bin .pow (.const (.int 2)) (.bin .sub (.name n!"iURA") (.const (.flt 2 1))))] [
        .ret (.const (.flt 6144 1))]]]

/-- `EphemerisDecoder.__scale1019`, sub_decoders/RTCM_EPH.py:104-158. -/
def fn_EphemerisDecoder_P_scale1019 : FnDef where
  params := [n!"cls", n!"ie", n!"decorate"]
  defaults := [.bool false]
  body := [
    .assign (.name n!"_L2_Codes") (.dict [.const (.int 0), .const (.int 1), .const (.int 2), .const (.int 3)] [.const (.str "RS"), .const (.str "P"), .const (.str "CA"), .const (.str "L2C")]),
    .assign (.name n!"ura") (.name n!"EphemerisDecoder.__scale1019.ura"),
    .assign (.name n!"eph") (.call (.attr (.name n!"mEph") n!"EphGPS") []),
    .assign (.attr (.name n!"eph") n!"msgNum") (.attr (.name n!"ie") n!"msgNum"),
    .assign (.attr (.name n!"eph") n!"satNum") (.attr (.name n!"ie") n!"satNum"),
    .assign (.attr (.name n!"eph") n!"weekNum") (.attr (.name n!"ie") n!"weekNum"),
    .assign (.attr (.name n!"eph") n!"i_dot") (.bin .mul (.attr (.name n!"ie") n!"i_dot") (.bin .pow (.const (.int 2)) (.neg (.const (.int 43))))),
    .assign (.attr (.name n!"eph") n!"IODE") (.attr (.name n!"ie") n!"IODE"),
    .assign (.attr (.name n!"eph") n!"tc") (.bin .mul (.attr (.name n!"ie") n!"tc") (.const (.int 16))),
    .assign (.attr (.name n!"eph") n!"af2") (.bin .mul (.attr (.name n!"ie") n!"af2") (.bin .pow (.const (.int 2)) (.neg (.const (.int 55))))),
    .assign (.attr (.name n!"eph") n!"af1") (.bin .mul (.attr (.name n!"ie") n!"af1") (.bin .pow (.const (.int 2)) (.neg (.const (.int 43))))),
    .assign (.attr (.name n!"eph") n!"af0") (.bin .mul (.attr (.name n!"ie") n!"af0") (.bin .pow (.const (.int 2)) (.neg (.const (.int 31))))),
    .assign (.attr (.name n!"eph") n!"IODC") (.attr (.name n!"ie") n!"IODC"),
    .assign (.attr (.name n!"eph") n!"crs") (.bin .mul (.attr (.name n!"ie") n!"crs") (.bin .pow (.const (.int 2)) (.neg (.const (.int 5))))),
    .assign (.attr (.name n!"eph") n!"delta_n") (.bin .mul (.attr (.name n!"ie") n!"delta_n") (.bin .pow (.const (.int 2)) (.neg (.const (.int 43))))),
    .assign (.attr (.name n!"eph") n!"m0") (.bin .mul (.attr (.name n!"ie") n!"m0") (.bin .pow (.const (.int 2)) (.neg (.const (.int 31))))),
    .assign (.attr (.name n!"eph") n!"cuc") (.bin .mul (.attr (.name n!"ie") n!"cuc") (.bin .pow (.const (.int 2)) (.neg (.const (.int 29))))),
    .assign (.attr (.name n!"eph") n!"e") (.bin .mul (.attr (.name n!"ie") n!"e") (.bin .pow (.const (.int 2)) (.neg (.const (.int 33))))),
    .assign (.attr (.name n!"eph") n!"cus") (.bin .mul (.attr (.name n!"ie") n!"cus") (.bin .pow (.const (.int 2)) (.neg (.const (.int 29))))),
    .assign (.attr (.name n!"eph") n!"sqrt_a") (.bin .mul (.attr (.name n!"ie") n!"sqrt_a") (.bin .pow (.const (.int 2)) (.neg (.const (.int 19))))),
    .assign (.attr (.name n!"eph") n!"te") (.bin .mul (.attr (.name n!"ie") n!"te") (.const (.int 16))),
    .assign (.attr (.name n!"eph") n!"cic") (.bin .mul (.attr (.name n!"ie") n!"cic") (.bin .pow (.const (.int 2)) (.neg (.const (.int 29))))),
    .assign (.attr (.name n!"eph") n!"omega0") (.bin .mul (.attr (.name n!"ie") n!"omega0") (.bin .pow (.const (.int 2)) (.neg (.const (.int 31))))),
    .assign (.attr (.name n!"eph") n!"cis") (.bin .mul (.attr (.name n!"ie") n!"cis") (.bin .pow (.const (.int 2)) (.neg (.const (.int 29))))),
    .assign (.attr (.name n!"eph") n!"i0") (.bin .mul (.attr (.name n!"ie") n!"i0") (.bin .pow (.const (.int 2)) (.neg (.const (.int 31))))),
    .assign (.attr (.name n!"eph") n!"crc") (.bin .mul (.attr (.name n!"ie") n!"crc") (.bin .pow (.const (.int 2)) (.neg (.const (.int 5))))),
    .assign (.attr (.name n!"eph") n!"w") (.bin .mul (.attr (.name n!"ie") n!"w") (.bin .pow (.const (.int 2)) (.neg (.const (.int 31))))),
    .assign (.attr (.name n!"eph") n!"omega_dot") (.bin .mul (.attr (.name n!"ie") n!"omega_dot") (.bin .pow (.const (.int 2)) (.neg (.const (.int 43))))),
    .assign (.attr (.name n!"eph") n!"TGD") (.bin .mul (.attr (.name n!"ie") n!"TGD") (.bin .pow (.const (.int 2)) (.neg (.const (.int 31))))),
    .ite (.name n!"decorate") [
      .assign (.attr (.name n!"eph") n!"L2_Codes") (.index (.name n!"_L2_Codes") (.attr (.name n!"ie") n!"L2_Codes")),
      .assign (.attr (.name n!"eph") n!"URA") (.call (.name n!"ura") [.attr (.name n!"ie") n!"URA"]),
      .assign (.attr (.name n!"eph") n!"SVH") (.ite (.cmp .eq (.attr (.name n!"ie") n!"SVH") (.const (.int 0))) (.const (.str "OK")) (.attr (.name n!"ie") n!"SVH")),
      .assign (.attr (.name n!"eph") n!"L2P_Data") (.ite (.cmp .eq (.attr (.name n!"ie") n!"L2P_Data") (.const (.int 0))) (.const (.str "ON")) (.const (.str "OFF"))),
      .assign (.attr (.name n!"eph") n!"Fit") (.ite (.cmp .eq (.attr (.name n!"ie") n!"Fit") (.const (.int 0))) (.const (.str "=4h")) (.const (.str ">4h")))] [
      .assign (.attr (.name n!"eph") n!"L2_Codes") (.attr (.name n!"ie") n!"L2_Codes"),
      .assign (.attr (.name n!"eph") n!"URA") (.attr (.name n!"ie") n!"URA"),
      .assign (.attr (.name n!"eph") n!"SVH") (.attr (.name n!"ie") n!"SVH"),
      .assign (.attr (.name n!"eph") n!"L2P_Data") (.attr (.name n!"ie") n!"L2P_Data"),
      .assign (.attr (.name n!"eph") n!"Fit") (.attr (.name n!"ie") n!"Fit")],
    .ret (.name n!"eph")]

/-- `EphemerisDecoder.getbitS`, sub_decoders/RTCM_EPH.py:160-166. -/
def fn_EphemerisDecoder_getbitS : FnDef where
  params := [n!"self", n!"buf", n!"offcet", n!"length"]
  defaults := []
  body := [
    .assign (.name n!"sgnMask") (.bin .shl (.const (.int 1)) (.bin .sub (.name n!"length") (.const (.int 1)))),
    .assign (.name n!"magnMask") (.bin .sub (.name n!"sgnMask") (.const (.int 1))),
    .assign (.name n!"d") (.call (.attr (.name n!"self") n!"getbitu") [.name n!"buf", .name n!"offcet", .name n!"length"]),
    .assign (.name n!"magn") (.bin .band (.name n!"d") (.name n!"magnMask")),
    .ret (.ite (.cmp .eq (.bin .band (.name n!"d") (.name n!"sgnMask")) (.const (.int 0))) (.name n!"magn") (.neg (.name n!"magn")))]

/-- `EphemerisDecoder.__decode1020`, sub_decoders/RTCM_EPH.py:168-212. -/
def fn_EphemerisDecoder_P_decode1020 : FnDef where
  params := [n!"self", n!"buf"]
  defaults := []
  body := [
    .assign (.name n!"eph") (.call (.attr (.name n!"mEph") n!"EphGLO") []),
    .assign (.name n!"offset") (.const (.int 24)),
    .unpack [.attr (.name n!"eph") n!"msgNum", .name n!"offset"] (.tuple [.call (.attr (.name n!"self") n!"getbitu") [.name n!"buf", .name n!"offset", .const (.int 12)], .bin .add (.name n!"offset") (.const (.int 12))]),
    .unpack [.attr (.name n!"eph") n!"satNum", .name n!"offset"] (.tuple [.call (.attr (.name n!"self") n!"getbitu") [.name n!"buf", .name n!"offset", .const (.int 6)], .bin .add (.name n!"offset") (.const (.int 6))]),
    .unpack [.attr (.name n!"eph") n!"frqSloNum", .name n!"offset"] (.tuple [.call (.attr (.name n!"self") n!"getbitu") [.name n!"buf", .name n!"offset", .const (.int 5)], .bin .add (.name n!"offset") (.const (.int 5))]),
    .unpack [.attr (.name n!"eph") n!"Cn", .name n!"offset"] (.tuple [.call (.attr (.name n!"self") n!"getbitu") [.name n!"buf", .name n!"offset", .const (.int 1)], .bin .add (.name n!"offset") (.const (.int 1))]),
    .unpack [.attr (.name n!"eph") n!"AlmHAI", .name n!"offset"] (.tuple [.call (.attr (.name n!"self") n!"getbitu") [.name n!"buf", .name n!"offset", .const (.int 1)], .bin .add (.name n!"offset") (.const (.int 1))]),
    .unpack [.attr (.name n!"eph") n!"P1", .name n!"offset"] (.tuple [.call (.attr (.name n!"self") n!"getbitu") [.name n!"buf", .name n!"offset", .const (.int 2)], .bin .add (.name n!"offset") (.const (.int 2))]),
    .unpack [.attr (.name n!"eph") n!"tk", .name n!"offset"] (.tuple [.call (.attr (.name n!"self") n!"getbitu") [.name n!"buf", .name n!"offset", .const (.int 12)], .bin .add (.name n!"offset") (.const (.int 12))]),
    .unpack [.attr (.name n!"eph") n!"BnMSB", .name n!"offset"] (.tuple [.call (.attr (.name n!"self") n!"getbitu") [.name n!"buf", .name n!"offset", .const (.int 1)], .bin .add (.name n!"offset") (.const (.int 1))]),
    .unpack [.attr (.name n!"eph") n!"P2", .name n!"offset"] (.tuple [.call (.attr (.name n!"self") n!"getbitu") [.name n!"buf", .name n!"offset", .const (.int 1)], .bin .add (.name n!"offset") (.const (.int 1))]),
    .unpack [.attr (.name n!"eph") n!"tb", .name n!"offset"] (.tuple [.call (.attr (.name n!"self") n!"getbitu") [.name n!"buf", .name n!"offset", .const (.int 7)], .bin .add (.name n!"offset") (.const (.int 7))]),
    .unpack [.attr (.name n!"eph") n!"dotXn", .name n!"offset"] (.tuple [.call (.attr (.name n!"self") n!"getbitS") [.name n!"buf", .name n!"offset", .const (.int 24)], .bin .add (.name n!"offset") (.const (.int 24))]),
    .unpack [.attr (.name n!"eph") n!"xn", .name n!"offset"] (.tuple [.call (.attr (.name n!"self") n!"getbitS") [.name n!"buf", .name n!"offset", .const (.int 27)], .bin .add (.name n!"offset") (.const (.int 27))]),
    .unpack [.attr (.name n!"eph") n!"dotDotXn", .name n!"offset"] (.tuple [.call (.attr (.name n!"self") n!"getbitS") [.name n!"buf", .name n!"offset", .const (.int 5)], .bin .add (.name n!"offset") (.const (.int 5))]),
    .unpack [.attr (.name n!"eph") n!"dotYn", .name n!"offset"] (.tuple [.call (.attr (.name n!"self") n!"getbitS") [.name n!"buf", .name n!"offset", .const (.int 24)], .bin .add (.name n!"offset") (.const (.int 24))]),
    .unpack [.attr (.name n!"eph") n!"yn", .name n!"offset"] (.tuple [.call (.attr (.name n!"self") n!"getbitS") [.name n!"buf", .name n!"offset", .const (.int 27)], .bin .add (.name n!"offset") (.const (.int 27))]),
    .unpack [.attr (.name n!"eph") n!"dotDotYn", .name n!"offset"] (.tuple [.call (.attr (.name n!"self") n!"getbitS") [.name n!"buf", .name n!"offset", .const (.int 5)], .bin .add (.name n!"offset") (.const (.int 5))]),
    .unpack [.attr (.name n!"eph") n!"dotZn", .name n!"offset"] (.tuple [.call (.attr (.name n!"self") n!"getbitS") [.name n!"buf", .name n!"offset", .const (.int 24)], .bin .add (.name n!"offset") (.const (.int 24))]),
    .unpack [.attr (.name n!"eph") n!"zn", .name n!"offset"] (.tuple [.call (.attr (.name n!"self") n!"getbitS") [.name n!"buf", .name n!"offset", .const (.int 27)], .bin .add (.name n!"offset") (.const (.int 27))]),
    .unpack [.attr (.name n!"eph") n!"dotDotZn", .name n!"offset"] (.tuple [.call (.attr (.name n!"self") n!"getbitS") [.name n!"buf", .name n!"offset", .const (.int 5)], .bin .add (.name n!"offset") (.const (.int 5))]),
    .unpack [.attr (.name n!"eph") n!"P3", .name n!"offset"] (.tuple [.call (.attr (.name n!"self") n!"getbitu") [.name n!"buf", .name n!"offset", .const (.int 1)], .bin .add (.name n!"offset") (.const (.int 1))]),
    .unpack [.attr (.name n!"eph") n!"gamma_n", .name n!"offset"] (.tuple [.call (.attr (.name n!"self") n!"getbitS") [.name n!"buf", .name n!"offset", .const (.int 11)], .bin .add (.name n!"offset") (.const (.int 11))]),
    .unpack [.attr (.name n!"eph") n!"P", .name n!"offset"] (.tuple [.call (.attr (.name n!"self") n!"getbitu") [.name n!"buf", .name n!"offset", .const (.int 2)], .bin .add (.name n!"offset") (.const (.int 2))]),
    .unpack [.attr (.name n!"eph") n!"ln3", .name n!"offset"] (.tuple [.call (.attr (.name n!"self") n!"getbitu") [.name n!"buf", .name n!"offset", .const (.int 1)], .bin .add (.name n!"offset") (.const (.int 1))]),
    .unpack [.attr (.name n!"eph") n!"tauN", .name n!"offset"] (.tuple [.call (.attr (.name n!"self") n!"getbitS") [.name n!"buf", .name n!"offset", .const (.int 22)], .bin .add (.name n!"offset") (.const (.int 22))]),
    .unpack [.attr (.name n!"eph") n!"delta_tauN", .name n!"offset"] (.tuple [.call (.attr (.name n!"self") n!"getbitS") [.name n!"buf", .name n!"offset", .const (.int 5)], .bin .add (.name n!"offset") (.const (.int 5))]),
    .unpack [.attr (.name n!"eph") n!"En", .name n!"offset"] (.tuple [.call (.attr (.name n!"self") n!"getbitu") [.name n!"buf", .name n!"offset", .const (.int 5)], .bin .add (.name n!"offset") (.const (.int 5))]),
    .unpack [.attr (.name n!"eph") n!"P4", .name n!"offset"] (.tuple [.call (.attr (.name n!"self") n!"getbitu") [.name n!"buf", .name n!"offset", .const (.int 1)], .bin .add (.name n!"offset") (.const (.int 1))]),
    .unpack [.attr (.name n!"eph") n!"Ft", .name n!"offset"] (.tuple [.call (.attr (.name n!"self") n!"getbitu") [.name n!"buf", .name n!"offset", .const (.int 4)], .bin .add (.name n!"offset") (.const (.int 4))]),
    .unpack [.attr (.name n!"eph") n!"Nt", .name n!"offset"] (.tuple [.call (.attr (.name n!"self") n!"getbitu") [.name n!"buf", .name n!"offset", .const (.int 11)], .bin .add (.name n!"offset") (.const (.int 11))]),
    .unpack [.attr (.name n!"eph") n!"M", .name n!"offset"] (.tuple [.call (.attr (.name n!"self") n!"getbitu") [.name n!"buf", .name n!"offset", .const (.int 2)], .bin .add (.name n!"offset") (.const (.int 2))]),
    .unpack [.attr (.name n!"eph") n!"auxDataOK", .name n!"offset"] (.tuple [.call (.attr (.name n!"self") n!"getbitu") [.name n!"buf", .name n!"offset", .const (.int 1)], .bin .add (.name n!"offset") (.const (.int 1))]),
    .unpack [.attr (.name n!"eph") n!"Na", .name n!"offset"] (.tuple [.call (.attr (.name n!"self") n!"getbitu") [.name n!"buf", .name n!"offset", .const (.int 11)], .bin .add (.name n!"offset") (.const (.int 11))]),
    .unpack [.attr (.name n!"eph") n!"tauC", .name n!"offset"] (.tuple [.call (.attr (.name n!"self") n!"getbitS") [.name n!"buf", .name n!"offset", .const (.int 32)], .bin .add (.name n!"offset") (.const (.int 32))]),
    .unpack [.attr (.name n!"eph") n!"N4", .name n!"offset"] (.tuple [.call (.attr (.name n!"self") n!"getbitu") [.name n!"buf", .name n!"offset", .const (.int 5)], .bin .add (.name n!"offset") (.const (.int 5))]),
    .unpack [.attr (.name n!"eph") n!"tauGPS", .name n!"offset"] (.tuple [.call (.attr (.name n!"self") n!"getbitS") [.name n!"buf", .name n!"offset", .const (.int 22)], .bin .add (.name n!"offset") (.const (.int 22))]),
    .unpack [.attr (.name n!"eph") n!"ln5", .name n!"offset"] (.tuple [.call (.attr (.name n!"self") n!"getbitu") [.name n!"buf", .name n!"offset", .const (.int 1)], .bin .add (.bin .add (.name n!"offset") (.const (.int 1))) (.const (.int 7))]),
    .expr (.call (.attr (.name n!"self") n!"_EphemerisDecoder__length_check") [.const (.int 360), .bin .sub (.name n!"offset") (.const (.int 24)), .call (.name n!"len") [.name n!"buf"]]),
    .ret (.name n!"eph")]

/-- `EphemerisDecoder.__scale1020`, sub_decoders/RTCM_EPH.py:215-271. -/
def fn_EphemerisDecoder_P_scale1020 : FnDef where
  params := [n!"cls", n!"ie"]
  defaults := []
  body := [
    .assign (.name n!"eph") (.call (.attr (.name n!"mEph") n!"EphGLO") []),
    .assign (.attr (.name n!"eph") n!"msgNum") (.attr (.name n!"ie") n!"msgNum"),
    .assign (.attr (.name n!"eph") n!"satNum") (.attr (.name n!"ie") n!"satNum"),
    .assign (.attr (.name n!"eph") n!"frqSloNum") (.bin .sub (.attr (.name n!"ie") n!"frqSloNum") (.const (.int 7))),
    .assign (.name n!"tk_h") (.bin .mul (.const (.int 3600)) (.bin .band (.bin .shr (.attr (.name n!"ie") n!"tk") (.const (.int 7))) (.const (.int 31)))),
    .assign (.name n!"tk_m") (.bin .mul (.const (.int 60)) (.bin .band (.bin .shr (.attr (.name n!"ie") n!"tk") (.const (.int 1))) (.const (.int 63)))),
    .assign (.name n!"tk_s") (.bin .mul (.const (.int 30)) (.bin .band (.attr (.name n!"ie") n!"tk") (.const (.int 1)))),
    .assign (.attr (.name n!"eph") n!"tk") (.bin .add (.bin .add (.name n!"tk_h") (.name n!"tk_m")) (.name n!"tk_s")),
    .assign (.attr (.name n!"eph") n!"Cn") (.attr (.name n!"ie") n!"Cn"),
    .assign (.attr (.name n!"eph") n!"AlmHAI") (.attr (.name n!"ie") n!"AlmHAI"),
    .assign (.attr (.name n!"eph") n!"P1") (.attr (.name n!"ie") n!"P1"),
    .assign (.attr (.name n!"eph") n!"BnMSB") (.attr (.name n!"ie") n!"BnMSB"),
    .assign (.attr (.name n!"eph") n!"P2") (.attr (.name n!"ie") n!"P2"),
    .assign (.attr (.name n!"eph") n!"tb") (.bin .mul (.bin .mul (.attr (.name n!"ie") n!"tb") (.const (.int 15))) (.const (.int 60))),
    .assign (.attr (.name n!"eph") n!"dotXn") (.bin .mul (.attr (.name n!"ie") n!"dotXn") (.bin .pow (.const (.int 2)) (.neg (.const (.int 20))))),
    .assign (.attr (.name n!"eph") n!"xn") (.bin .mul (.attr (.name n!"ie") n!"xn") (.bin .pow (.const (.int 2)) (.neg (.const (.int 11))))),
    .assign (.attr (.name n!"eph") n!"dotDotXn") (.bin .mul (.attr (.name n!"ie") n!"dotDotXn") (.bin .pow (.const (.int 2)) (.neg (.const (.int 30))))),
    .assign (.attr (.name n!"eph") n!"dotYn") (.bin .mul (.attr (.name n!"ie") n!"dotYn") (.bin .pow (.const (.int 2)) (.neg (.const (.int 20))))),
    .assign (.attr (.name n!"eph") n!"yn") (.bin .mul (.attr (.name n!"ie") n!"yn") (.bin .pow (.const (.int 2)) (.neg (.const (.int 11))))),
    .assign (.attr (.name n!"eph") n!"dotDotYn") (.bin .mul (.attr (.name n!"ie") n!"dotDotYn") (.bin .pow (.const (.int 2)) (.neg (.const (.int 30))))),
    .assign (.attr (.name n!"eph") n!"dotZn") (.bin .mul (.attr (.name n!"ie") n!"dotZn") (.bin .pow (.const (.int 2)) (.neg (.const (.int 20))))),
    .assign (.attr (.name n!"eph") n!"zn") (.bin .mul (.attr (.name n!"ie") n!"zn") (.bin .pow (.const (.int 2)) (.neg (.const (.int 11))))),
    .assign (.attr (.name n!"eph") n!"dotDotZn") (.bin .mul (.attr (.name n!"ie") n!"dotDotZn") (.bin .pow (.const (.int 2)) (.neg (.const (.int 30))))),
    .assign (.attr (.name n!"eph") n!"P3") (.attr (.name n!"ie") n!"P3"),
    .assign (.attr (.name n!"eph") n!"gamma_n") (.bin .mul (.attr (.name n!"ie") n!"gamma_n") (.bin .pow (.const (.int 2)) (.neg (.const (.int 40))))),
    .assign (.attr (.name n!"eph") n!"P") (.attr (.name n!"ie") n!"P"),
    .assign (.attr (.name n!"eph") n!"ln3") (.attr (.name n!"ie") n!"ln3"),
    .assign (.attr (.name n!"eph") n!"tauN") (.bin .mul (.attr (.name n!"ie") n!"tauN") (.bin .pow (.const (.int 2)) (.neg (.const (.int 30))))),
    .assign (.attr (.name n!"eph") n!"delta_tauN") (.bin .mul (.attr (.name n!"ie") n!"delta_tauN") (.bin .pow (.const (.int 2)) (.neg (.const (.int 30))))),
    .assign (.attr (.name n!"eph") n!"En") (.attr (.name n!"ie") n!"En"),
    .assign (.attr (.name n!"eph") n!"P4") (.attr (.name n!"ie") n!"P4"),
    .assign (.attr (.name n!"eph") n!"Ft") (.attr (.name n!"ie") n!"Ft"),
    .assign (.attr (.name n!"eph") n!"Nt") (.attr (.name n!"ie") n!"Nt"),
    .assign (.attr (.name n!"eph") n!"M") (.attr (.name n!"ie") n!"M"),
    .assign (.attr (.name n!"eph") n!"auxDataOK") (.attr (.name n!"ie") n!"auxDataOK"),
    .assign (.attr (.name n!"eph") n!"Na") (.attr (.name n!"ie") n!"Na"),
    .assign (.attr (.name n!"eph") n!"tauC") (.bin .mul (.attr (.name n!"ie") n!"tauC") (.bin .pow (.const (.int 2)) (.neg (.const (.int 31))))),
    .assign (.attr (.name n!"eph") n!"N4") (.attr (.name n!"ie") n!"N4"),
    .assign (.attr (.name n!"eph") n!"tauGPS") (.bin .mul (.attr (.name n!"ie") n!"tauGPS") (.bin .pow (.const (.int 2)) (.neg (.const (.int 30))))),
    .assign (.attr (.name n!"eph") n!"ln5") (.attr (.name n!"ie") n!"ln5"),
    .ret (.name n!"eph")]

/-- `EphemerisDecoder.__decode1041`, sub_decoders/RTCM_EPH.py:273-313. -/
def fn_EphemerisDecoder_P_decode1041 : FnDef where
  params := [n!"self", n!"buf"]
  defaults := []
  body := [
    .assign (.name n!"eph") (.call (.attr (.name n!"mEph") n!"EphNAVIC") []),
    .assign (.name n!"offset") (.const (.int 24)),
    .unpack [.attr (.name n!"eph") n!"msgNum", .name n!"offset"] (.tuple [.call (.attr (.name n!"self") n!"getbitu") [.name n!"buf", .name n!"offset", .const (.int 12)], .bin .add (.name n!"offset") (.const (.int 12))]),
    .unpack [.attr (.name n!"eph") n!"satNum", .name n!"offset"] (.tuple [.call (.attr (.name n!"self") n!"getbitu") [.name n!"buf", .name n!"offset", .const (.int 6)], .bin .add (.name n!"offset") (.const (.int 6))]),
    .unpack [.attr (.name n!"eph") n!"weekNum", .name n!"offset"] (.tuple [.call (.attr (.name n!"self") n!"getbitu") [.name n!"buf", .name n!"offset", .const (.int 10)], .bin .add (.name n!"offset") (.const (.int 10))]),
    .unpack [.attr (.name n!"eph") n!"af0", .name n!"offset"] (.tuple [.call (.attr (.name n!"self") n!"getbits") [.name n!"buf", .name n!"offset", .const (.int 22)], .bin .add (.name n!"offset") (.const (.int 22))]),
    .unpack [.attr (.name n!"eph") n!"af1", .name n!"offset"] (.tuple [.call (.attr (.name n!"self") n!"getbits") [.name n!"buf", .name n!"offset", .const (.int 16)], .bin .add (.name n!"offset") (.const (.int 16))]),
    .unpack [.attr (.name n!"eph") n!"af2", .name n!"offset"] (.tuple [.call (.attr (.name n!"self") n!"getbits") [.name n!"buf", .name n!"offset", .const (.int 8)], .bin .add (.name n!"offset") (.const (.int 8))]),
    .unpack [.attr (.name n!"eph") n!"URA", .name n!"offset"] (.tuple [.call (.attr (.name n!"self") n!"getbitu") [.name n!"buf", .name n!"offset", .const (.int 4)], .bin .add (.name n!"offset") (.const (.int 4))]),
    .unpack [.attr (.name n!"eph") n!"tc", .name n!"offset"] (.tuple [.call (.attr (.name n!"self") n!"getbitu") [.name n!"buf", .name n!"offset", .const (.int 16)], .bin .add (.name n!"offset") (.const (.int 16))]),
    .unpack [.attr (.name n!"eph") n!"TGD", .name n!"offset"] (.tuple [.call (.attr (.name n!"self") n!"getbits") [.name n!"buf", .name n!"offset", .const (.int 8)], .bin .add (.name n!"offset") (.const (.int 8))]),
    .unpack [.attr (.name n!"eph") n!"delta_n", .name n!"offset"] (.tuple [.call (.attr (.name n!"self") n!"getbits") [.name n!"buf", .name n!"offset", .const (.int 22)], .bin .add (.name n!"offset") (.const (.int 22))]),
    .unpack [.attr (.name n!"eph") n!"IODEC", .name n!"offset"] (.tuple [.call (.attr (.name n!"self") n!"getbitu") [.name n!"buf", .name n!"offset", .const (.int 8)], .bin .add (.bin .add (.name n!"offset") (.const (.int 8))) (.const (.int 10))]),
    .unpack [.attr (.name n!"eph") n!"L5_Flag", .name n!"offset"] (.tuple [.call (.attr (.name n!"self") n!"getbitu") [.name n!"buf", .name n!"offset", .const (.int 1)], .bin .add (.name n!"offset") (.const (.int 1))]),
    .unpack [.attr (.name n!"eph") n!"S_Flag", .name n!"offset"] (.tuple [.call (.attr (.name n!"self") n!"getbitu") [.name n!"buf", .name n!"offset", .const (.int 1)], .bin .add (.name n!"offset") (.const (.int 1))]),
    .unpack [.attr (.name n!"eph") n!"cuc", .name n!"offset"] (.tuple [.call (.attr (.name n!"self") n!"getbits") [.name n!"buf", .name n!"offset", .const (.int 15)], .bin .add (.name n!"offset") (.const (.int 15))]),
    .unpack [.attr (.name n!"eph") n!"cus", .name n!"offset"] (.tuple [.call (.attr (.name n!"self") n!"getbits") [.name n!"buf", .name n!"offset", .const (.int 15)], .bin .add (.name n!"offset") (.const (.int 15))]),
    .unpack [.attr (.name n!"eph") n!"cic", .name n!"offset"] (.tuple [.call (.attr (.name n!"self") n!"getbits") [.name n!"buf", .name n!"offset", .const (.int 15)], .bin .add (.name n!"offset") (.const (.int 15))]),
    .unpack [.attr (.name n!"eph") n!"cis", .name n!"offset"] (.tuple [.call (.attr (.name n!"self") n!"getbits") [.name n!"buf", .name n!"offset", .const (.int 15)], .bin .add (.name n!"offset") (.const (.int 15))]),
    .unpack [.attr (.name n!"eph") n!"crc", .name n!"offset"] (.tuple [.call (.attr (.name n!"self") n!"getbits") [.name n!"buf", .name n!"offset", .const (.int 15)], .bin .add (.name n!"offset") (.const (.int 15))]),
    .unpack [.attr (.name n!"eph") n!"crs", .name n!"offset"] (.tuple [.call (.attr (.name n!"self") n!"getbits") [.name n!"buf", .name n!"offset", .const (.int 15)], .bin .add (.name n!"offset") (.const (.int 15))]),
    .unpack [.attr (.name n!"eph") n!"i_dot", .name n!"offset"] (.tuple [.call (.attr (.name n!"self") n!"getbits") [.name n!"buf", .name n!"offset", .const (.int 14)], .bin .add (.name n!"offset") (.const (.int 14))]),
    .unpack [.attr (.name n!"eph") n!"m0", .name n!"offset"] (.tuple [.call (.attr (.name n!"self") n!"getbits") [.name n!"buf", .name n!"offset", .const (.int 32)], .bin .add (.name n!"offset") (.const (.int 32))]),
    .unpack [.attr (.name n!"eph") n!"te", .name n!"offset"] (.tuple [.call (.attr (.name n!"self") n!"getbitu") [.name n!"buf", .name n!"offset", .const (.int 16)], .bin .add (.name n!"offset") (.const (.int 16))]),
    .unpack [.attr (.name n!"eph") n!"e", .name n!"offset"] (.tuple [.call (.attr (.name n!"self") n!"getbitu") [.name n!"buf", .name n!"offset", .const (.int 32)], .bin .add (.name n!"offset") (.const (.int 32))]),
    .unpack [.attr (.name n!"eph") n!"sqrt_a", .name n!"offset"] (.tuple [.call (.attr (.name n!"self") n!"getbitu") [.name n!"buf", .name n!"offset", .const (.int 32)], .bin .add (.name n!"offset") (.const (.int 32))]),
    .unpack [.attr (.name n!"eph") n!"omega0", .name n!"offset"] (.tuple [.call (.attr (.name n!"self") n!"getbits") [.name n!"buf", .name n!"offset", .const (.int 32)], .bin .add (.name n!"offset") (.const (.int 32))]),
    .unpack [.attr (.name n!"eph") n!"w", .name n!"offset"] (.tuple [.call (.attr (.name n!"self") n!"getbits") [.name n!"buf", .name n!"offset", .const (.int 32)], .bin .add (.name n!"offset") (.const (.int 32))]),
    .unpack [.attr (.name n!"eph") n!"omega_dot", .name n!"offset"] (.tuple [.call (.attr (.name n!"self") n!"getbits") [.name n!"buf", .name n!"offset", .const (.int 22)], .bin .add (.name n!"offset") (.const (.int 22))]),
    .unpack [.attr (.name n!"eph") n!"i0", .name n!"offset"] (.tuple [.call (.attr (.name n!"self") n!"getbits") [.name n!"buf", .name n!"offset", .const (.int 32)], .bin .add (.bin .add (.bin .add (.name n!"offset") (.const (.int 32))) (.const (.int 2))) (.const (.int 2))]),
    .expr (.call (.attr (.name n!"self") n!"_EphemerisDecoder__length_check") [.const (.int 482), .bin .sub (.name n!"offset") (.const (.int 24)), .call (.name n!"len") [.name n!"buf"]]),
    .ret (.name n!"eph")]

/-- `EphemerisDecoder.__scale1041`, sub_decoders/RTCM_EPH.py:316-351. -/
def fn_EphemerisDecoder_P_scale1041 : FnDef where
  params := [n!"cls", n!"ie"]
  defaults := []
  body := [
    .assign (.name n!"eph") (.call (.attr (.name n!"mEph") n!"EphNAVIC") []),
    .assign (.attr (.name n!"eph") n!"msgNum") (.attr (.name n!"ie") n!"msgNum"),
    .assign (.attr (.name n!"eph") n!"satNum") (.attr (.name n!"ie") n!"satNum"),
    .assign (.attr (.name n!"eph") n!"weekNum") (.attr (.name n!"ie") n!"weekNum"),
    .assign (.attr (.name n!"eph") n!"af0") (.bin .mul (.attr (.name n!"ie") n!"af0") (.bin .pow (.const (.int 2)) (.neg (.const (.int 31))))),
    .assign (.attr (.name n!"eph") n!"af1") (.bin .mul (.attr (.name n!"ie") n!"af1") (.bin .pow (.const (.int 2)) (.neg (.const (.int 43))))),
    .assign (.attr (.name n!"eph") n!"af2") (.bin .mul (.attr (.name n!"ie") n!"af2") (.bin .pow (.const (.int 2)) (.neg (.const (.int 55))))),
    .assign (.attr (.name n!"eph") n!"URA") (.attr (.name n!"ie") n!"URA"),
    .assign (.attr (.name n!"eph") n!"tc") (.bin .mul (.attr (.name n!"ie") n!"tc") (.const (.int 16))),
    .assign (.attr (.name n!"eph") n!"TGD") (.bin .mul (.attr (.name n!"ie") n!"TGD") (.bin .pow (.const (.int 2)) (.neg (.const (.int 31))))),
    .assign (.attr (.name n!"eph") n!"delta_n") (.bin .mul (.attr (.name n!"ie") n!"delta_n") (.bin .pow (.const (.int 2)) (.neg (.const (.int 41))))),
    .assign (.attr (.name n!"eph") n!"IODEC") (.attr (.name n!"ie") n!"IODEC"),
    .assign (.attr (.name n!"eph") n!"L5_Flag") (.attr (.name n!"ie") n!"L5_Flag"),
    .assign (.attr (.name n!"eph") n!"S_Flag") (.attr (.name n!"ie") n!"S_Flag"),
    .assign (.attr (.name n!"eph") n!"cuc") (.bin .mul (.attr (.name n!"ie") n!"cuc") (.bin .pow (.const (.int 2)) (.neg (.const (.int 28))))),
    .assign (.attr (.name n!"eph") n!"cus") (.bin .mul (.attr (.name n!"ie") n!"cus") (.bin .pow (.const (.int 2)) (.neg (.const (.int 28))))),
    .assign (.attr (.name n!"eph") n!"cic") (.bin .mul (.attr (.name n!"ie") n!"cic") (.bin .pow (.const (.int 2)) (.neg (.const (.int 28))))),
    .assign (.attr (.name n!"eph") n!"cis") (.bin .mul (.attr (.name n!"ie") n!"cis") (.bin .pow (.const (.int 2)) (.neg (.const (.int 28))))),
    .assign (.attr (.name n!"eph") n!"crc") (.bin .mul (.attr (.name n!"ie") n!"crc") (.bin .pow (.const (.int 2)) (.neg (.const (.int 4))))),
    .assign (.attr (.name n!"eph") n!"crs") (.bin .mul (.attr (.name n!"ie") n!"crs") (.bin .pow (.const (.int 2)) (.neg (.const (.int 4))))),
    .assign (.attr (.name n!"eph") n!"i_dot") (.bin .mul (.attr (.name n!"ie") n!"i_dot") (.bin .pow (.const (.int 2)) (.neg (.const (.int 43))))),
    .assign (.attr (.name n!"eph") n!"m0") (.bin .mul (.attr (.name n!"ie") n!"m0") (.bin .pow (.const (.int 2)) (.neg (.const (.int 31))))),
    .assign (.attr (.name n!"eph") n!"te") (.bin .mul (.attr (.name n!"ie") n!"te") (.const (.int 16))),
    .assign (.attr (.name n!"eph") n!"e") (.bin .mul (.attr (.name n!"ie") n!"e") (.bin .pow (.const (.int 2)) (.neg (.const (.int 33))))),
    .assign (.attr (.name n!"eph") n!"sqrt_a") (.bin .mul (.attr (.name n!"ie") n!"sqrt_a") (.bin .pow (.const (.int 2)) (.neg (.const (.int 19))))),
    .assign (.attr (.name n!"eph") n!"omega0") (.bin .mul (.attr (.name n!"ie") n!"omega0") (.bin .pow (.const (.int 2)) (.neg (.const (.int 31))))),
    .assign (.attr (.name n!"eph") n!"w") (.bin .mul (.attr (.name n!"ie") n!"w") (.bin .pow (.const (.int 2)) (.neg (.const (.int 31))))),
    .assign (.attr (.name n!"eph") n!"omega_dot") (.bin .mul (.attr (.name n!"ie") n!"omega_dot") (.bin .pow (.const (.int 2)) (.neg (.const (.int 41))))),
    .assign (.attr (.name n!"eph") n!"i0") (.bin .mul (.attr (.name n!"ie") n!"i0") (.bin .pow (.const (.int 2)) (.neg (.const (.int 31))))),
    .ret (.name n!"eph")]

/-- `EphemerisDecoder.__decode1042`, sub_decoders/RTCM_EPH.py:353-392. -/
def fn_EphemerisDecoder_P_decode1042 : FnDef where
  params := [n!"self", n!"buf"]
  defaults := []
  body := [
    .assign (.name n!"eph") (.call (.attr (.name n!"mEph") n!"EphBDS") []),
    .assign (.name n!"offset") (.const (.int 24)),
    .unpack [.attr (.name n!"eph") n!"msgNum", .name n!"offset"] (.tuple [.call (.attr (.name n!"self") n!"getbitu") [.name n!"buf", .name n!"offset", .const (.int 12)], .bin .add (.name n!"offset") (.const (.int 12))]),
    .unpack [.attr (.name n!"eph") n!"satNum", .name n!"offset"] (.tuple [.call (.attr (.name n!"self") n!"getbitu") [.name n!"buf", .name n!"offset", .const (.int 6)], .bin .add (.name n!"offset") (.const (.int 6))]),
    .unpack [.attr (.name n!"eph") n!"weekNum", .name n!"offset"] (.tuple [.call (.attr (.name n!"self") n!"getbitu") [.name n!"buf", .name n!"offset", .const (.int 13)], .bin .add (.name n!"offset") (.const (.int 13))]),
    .unpack [.attr (.name n!"eph") n!"URAI", .name n!"offset"] (.tuple [.call (.attr (.name n!"self") n!"getbitu") [.name n!"buf", .name n!"offset", .const (.int 4)], .bin .add (.name n!"offset") (.const (.int 4))]),
    .unpack [.attr (.name n!"eph") n!"i_dot", .name n!"offset"] (.tuple [.call (.attr (.name n!"self") n!"getbits") [.name n!"buf", .name n!"offset", .const (.int 14)], .bin .add (.name n!"offset") (.const (.int 14))]),
    .unpack [.attr (.name n!"eph") n!"AODE", .name n!"offset"] (.tuple [.call (.attr (.name n!"self") n!"getbitu") [.name n!"buf", .name n!"offset", .const (.int 5)], .bin .add (.name n!"offset") (.const (.int 5))]),
    .unpack [.attr (.name n!"eph") n!"tc", .name n!"offset"] (.tuple [.call (.attr (.name n!"self") n!"getbitu") [.name n!"buf", .name n!"offset", .const (.int 17)], .bin .add (.name n!"offset") (.const (.int 17))]),
    .unpack [.attr (.name n!"eph") n!"af2", .name n!"offset"] (.tuple [.call (.attr (.name n!"self") n!"getbits") [.name n!"buf", .name n!"offset", .const (.int 11)], .bin .add (.name n!"offset") (.const (.int 11))]),
    .unpack [.attr (.name n!"eph") n!"af1", .name n!"offset"] (.tuple [.call (.attr (.name n!"self") n!"getbits") [.name n!"buf", .name n!"offset", .const (.int 22)], .bin .add (.name n!"offset") (.const (.int 22))]),
    .unpack [.attr (.name n!"eph") n!"af0", .name n!"offset"] (.tuple [.call (.attr (.name n!"self") n!"getbits") [.name n!"buf", .name n!"offset", .const (.int 24)], .bin .add (.name n!"offset") (.const (.int 24))]),
    .unpack [.attr (.name n!"eph") n!"AODC", .name n!"offset"] (.tuple [.call (.attr (.name n!"self") n!"getbitu") [.name n!"buf", .name n!"offset", .const (.int 5)], .bin .add (.name n!"offset") (.const (.int 5))]),
    .unpack [.attr (.name n!"eph") n!"crs", .name n!"offset"] (.tuple [.call (.attr (.name n!"self") n!"getbits") [.name n!"buf", .name n!"offset", .const (.int 18)], .bin .add (.name n!"offset") (.const (.int 18))]),
    .unpack [.attr (.name n!"eph") n!"delta_n", .name n!"offset"] (.tuple [.call (.attr (.name n!"self") n!"getbits") [.name n!"buf", .name n!"offset", .const (.int 16)], .bin .add (.name n!"offset") (.const (.int 16))]),
    .unpack [.attr (.name n!"eph") n!"m0", .name n!"offset"] (.tuple [.call (.attr (.name n!"self") n!"getbits") [.name n!"buf", .name n!"offset", .const (.int 32)], .bin .add (.name n!"offset") (.const (.int 32))]),
    .unpack [.attr (.name n!"eph") n!"cuc", .name n!"offset"] (.tuple [.call (.attr (.name n!"self") n!"getbits") [.name n!"buf", .name n!"offset", .const (.int 18)], .bin .add (.name n!"offset") (.const (.int 18))]),
    .unpack [.attr (.name n!"eph") n!"e", .name n!"offset"] (.tuple [.call (.attr (.name n!"self") n!"getbitu") [.name n!"buf", .name n!"offset", .const (.int 32)], .bin .add (.name n!"offset") (.const (.int 32))]),
    .unpack [.attr (.name n!"eph") n!"cus", .name n!"offset"] (.tuple [.call (.attr (.name n!"self") n!"getbits") [.name n!"buf", .name n!"offset", .const (.int 18)], .bin .add (.name n!"offset") (.const (.int 18))]),
    .unpack [.attr (.name n!"eph") n!"sqrt_a", .name n!"offset"] (.tuple [.call (.attr (.name n!"self") n!"getbitu") [.name n!"buf", .name n!"offset", .const (.int 32)], .bin .add (.name n!"offset") (.const (.int 32))]),
    .unpack [.attr (.name n!"eph") n!"te", .name n!"offset"] (.tuple [.call (.attr (.name n!"self") n!"getbitu") [.name n!"buf", .name n!"offset", .const (.int 17)], .bin .add (.name n!"offset") (.const (.int 17))]),
    .unpack [.attr (.name n!"eph") n!"cic", .name n!"offset"] (.tuple [.call (.attr (.name n!"self") n!"getbits") [.name n!"buf", .name n!"offset", .const (.int 18)], .bin .add (.name n!"offset") (.const (.int 18))]),
    .unpack [.attr (.name n!"eph") n!"omega0", .name n!"offset"] (.tuple [.call (.attr (.name n!"self") n!"getbits") [.name n!"buf", .name n!"offset", .const (.int 32)], .bin .add (.name n!"offset") (.const (.int 32))]),
    .unpack [.attr (.name n!"eph") n!"cis", .name n!"offset"] (.tuple [.call (.attr (.name n!"self") n!"getbits") [.name n!"buf", .name n!"offset", .const (.int 18)], .bin .add (.name n!"offset") (.const (.int 18))]),
    .unpack [.attr (.name n!"eph") n!"i0", .name n!"offset"] (.tuple [.call (.attr (.name n!"self") n!"getbits") [.name n!"buf", .name n!"offset", .const (.int 32)], .bin .add (.name n!"offset") (.const (.int 32))]),
    .unpack [.attr (.name n!"eph") n!"crc", .name n!"offset"] (.tuple [.call (.attr (.name n!"self") n!"getbits") [.name n!"buf", .name n!"offset", .const (.int 18)], .bin .add (.name n!"offset") (.const (.int 18))]),
    .unpack [.attr (.name n!"eph") n!"w", .name n!"offset"] (.tuple [.call (.attr (.name n!"self") n!"getbits") [.name n!"buf", .name n!"offset", .const (.int 32)], .bin .add (.name n!"offset") (.const (.int 32))]),
    .unpack [.attr (.name n!"eph") n!"omega_dot", .name n!"offset"] (.tuple [.call (.attr (.name n!"self") n!"getbits") [.name n!"buf", .name n!"offset", .const (.int 24)], .bin .add (.name n!"offset") (.const (.int 24))]),
    .unpack [.attr (.name n!"eph") n!"TGD1", .name n!"offset"] (.tuple [.call (.attr (.name n!"self") n!"getbits") [.name n!"buf", .name n!"offset", .const (.int 10)], .bin .add (.name n!"offset") (.const (.int 10))]),
    .unpack [.attr (.name n!"eph") n!"TGD2", .name n!"offset"] (.tuple [.call (.attr (.name n!"self") n!"getbits") [.name n!"buf", .name n!"offset", .const (.int 10)], .bin .add (.name n!"offset") (.const (.int 10))]),
    .unpack [.attr (.name n!"eph") n!"SVH", .name n!"offset"] (.tuple [.call (.attr (.name n!"self") n!"getbitu") [.name n!"buf", .name n!"offset", .const (.int 1)], .bin .add (.name n!"offset") (.const (.int 1))]),
    .expr (.call (.attr (.name n!"self") n!"_EphemerisDecoder__length_check") [.const (.int 511), .bin .sub (.name n!"offset") (.const (.int 24)), .call (.name n!"len") [.name n!"buf"]]),
    .ret (.name n!"eph")]

/-- `EphemerisDecoder.__scale1042`, sub_decoders/RTCM_EPH.py:395-431. -/
def fn_EphemerisDecoder_P_scale1042 : FnDef where
  params := [n!"cls", n!"ie"]
  defaults := []
  body := [
    .assign (.name n!"eph") (.call (.attr (.name n!"mEph") n!"EphBDS") []),
    .assign (.attr (.name n!"eph") n!"msgNum") (.attr (.name n!"ie") n!"msgNum"),
    .assign (.attr (.name n!"eph") n!"satNum") (.attr (.name n!"ie") n!"satNum"),
    .assign (.attr (.name n!"eph") n!"weekNum") (.attr (.name n!"ie") n!"weekNum"),
    .assign (.attr (.name n!"eph") n!"URAI") (.attr (.name n!"ie") n!"URAI"),
    .assign (.attr (.name n!"eph") n!"i_dot") (.bin .mul (.attr (.name n!"ie") n!"i_dot") (.bin .pow (.const (.int 2)) (.neg (.const (.int 43))))),
    .assign (.attr (.name n!"eph") n!"AODE") (.attr (.name n!"ie") n!"AODE"),
    .assign (.attr (.name n!"eph") n!"tc") (.bin .mul (.attr (.name n!"ie") n!"tc") (.const (.int 8))),
    .assign (.attr (.name n!"eph") n!"af2") (.bin .mul (.attr (.name n!"ie") n!"af2") (.bin .pow (.const (.int 2)) (.neg (.const (.int 66))))),
    .assign (.attr (.name n!"eph") n!"af1") (.bin .mul (.attr (.name n!"ie") n!"af1") (.bin .pow (.const (.int 2)) (.neg (.const (.int 50))))),
    .assign (.attr (.name n!"eph") n!"af0") (.bin .mul (.attr (.name n!"ie") n!"af0") (.bin .pow (.const (.int 2)) (.neg (.const (.int 33))))),
    .assign (.attr (.name n!"eph") n!"AODC") (.attr (.name n!"ie") n!"AODC"),
    .assign (.attr (.name n!"eph") n!"crs") (.bin .mul (.attr (.name n!"ie") n!"crs") (.bin .pow (.const (.int 2)) (.neg (.const (.int 6))))),
    .assign (.attr (.name n!"eph") n!"delta_n") (.bin .mul (.attr (.name n!"ie") n!"delta_n") (.bin .pow (.const (.int 2)) (.neg (.const (.int 43))))),
    .assign (.attr (.name n!"eph") n!"m0") (.bin .mul (.attr (.name n!"ie") n!"m0") (.bin .pow (.const (.int 2)) (.neg (.const (.int 31))))),
    .assign (.attr (.name n!"eph") n!"cuc") (.bin .mul (.attr (.name n!"ie") n!"cuc") (.bin .pow (.const (.int 2)) (.neg (.const (.int 31))))),
    .assign (.attr (.name n!"eph") n!"e") (.bin .mul (.attr (.name n!"ie") n!"e") (.bin .pow (.const (.int 2)) (.neg (.const (.int 33))))),
    .assign (.attr (.name n!"eph") n!"cus") (.bin .mul (.attr (.name n!"ie") n!"cus") (.bin .pow (.const (.int 2)) (.neg (.const (.int 31))))),
    .assign (.attr (.name n!"eph") n!"sqrt_a") (.bin .mul (.attr (.name n!"ie") n!"sqrt_a") (.bin .pow (.const (.int 2)) (.neg (.const (.int 19))))),
    .assign (.attr (.name n!"eph") n!"te") (.bin .mul (.attr (.name n!"ie") n!"te") (.const (.int 8))),
    .assign (.attr (.name n!"eph") n!"cic") (.bin .mul (.attr (.name n!"ie") n!"cic") (.bin .pow (.const (.int 2)) (.neg (.const (.int 31))))),
    .assign (.attr (.name n!"eph") n!"omega0") (.bin .mul (.attr (.name n!"ie") n!"omega0") (.bin .pow (.const (.int 2)) (.neg (.const (.int 31))))),
    .assign (.attr (.name n!"eph") n!"cis") (.bin .mul (.attr (.name n!"ie") n!"cis") (.bin .pow (.const (.int 2)) (.neg (.const (.int 31))))),
    .assign (.attr (.name n!"eph") n!"i0") (.bin .mul (.attr (.name n!"ie") n!"i0") (.bin .pow (.const (.int 2)) (.neg (.const (.int 31))))),
    .assign (.attr (.name n!"eph") n!"crc") (.bin .mul (.attr (.name n!"ie") n!"crc") (.bin .pow (.const (.int 2)) (.neg (.const (.int 6))))),
    .assign (.attr (.name n!"eph") n!"w") (.bin .mul (.attr (.name n!"ie") n!"w") (.bin .pow (.const (.int 2)) (.neg (.const (.int 31))))),
    .assign (.attr (.name n!"eph") n!"omega_dot") (.bin .mul (.attr (.name n!"ie") n!"omega_dot") (.bin .pow (.const (.int 2)) (.neg (.const (.int 43))))),
    .assign (.attr (.name n!"eph") n!"TGD1") (.bin .mul (.attr (.name n!"ie") n!"TGD1") (.const (.flt 1 10000000000))),
    .assign (.attr (.name n!"eph") n!"TGD2") (.bin .mul (.attr (.name n!"ie") n!"TGD2") (.const (.flt 1 10000000000))),
    .assign (.attr (.name n!"eph") n!"SVH") (.attr (.name n!"ie") n!"SVH"),
    .ret (.name n!"eph")]

/-- `EphemerisDecoder.__decode1046`, sub_decoders/RTCM_EPH.py:433-472. -/
def fn_EphemerisDecoder_P_decode1046 : FnDef where
  params := [n!"self", n!"buf"]
  defaults := []
  body := [
    .assign (.name n!"eph") (.call (.attr (.name n!"mEph") n!"EphGALI") []),
    .assign (.name n!"offset") (.const (.int 24)),
    .unpack [.attr (.name n!"eph") n!"msgNum", .name n!"offset"] (.tuple [.call (.attr (.name n!"self") n!"getbitu") [.name n!"buf", .name n!"offset", .const (.int 12)], .bin .add (.name n!"offset") (.const (.int 12))]),
    .unpack [.attr (.name n!"eph") n!"satNum", .name n!"offset"] (.tuple [.call (.attr (.name n!"self") n!"getbitu") [.name n!"buf", .name n!"offset", .const (.int 6)], .bin .add (.name n!"offset") (.const (.int 6))]),
    .unpack [.attr (.name n!"eph") n!"weekNum", .name n!"offset"] (.tuple [.call (.attr (.name n!"self") n!"getbitu") [.name n!"buf", .name n!"offset", .const (.int 12)], .bin .add (.name n!"offset") (.const (.int 12))]),
    .unpack [.attr (.name n!"eph") n!"IODnav", .name n!"offset"] (.tuple [.call (.attr (.name n!"self") n!"getbitu") [.name n!"buf", .name n!"offset", .const (.int 10)], .bin .add (.name n!"offset") (.const (.int 10))]),
    .unpack [.attr (.name n!"eph") n!"SISA", .name n!"offset"] (.tuple [.call (.attr (.name n!"self") n!"getbitu") [.name n!"buf", .name n!"offset", .const (.int 8)], .bin .add (.name n!"offset") (.const (.int 8))]),
    .unpack [.attr (.name n!"eph") n!"i_dot", .name n!"offset"] (.tuple [.call (.attr (.name n!"self") n!"getbits") [.name n!"buf", .name n!"offset", .const (.int 14)], .bin .add (.name n!"offset") (.const (.int 14))]),
    .unpack [.attr (.name n!"eph") n!"tc", .name n!"offset"] (.tuple [.call (.attr (.name n!"self") n!"getbitu") [.name n!"buf", .name n!"offset", .const (.int 14)], .bin .add (.name n!"offset") (.const (.int 14))]),
    .unpack [.attr (.name n!"eph") n!"af2", .name n!"offset"] (.tuple [.call (.attr (.name n!"self") n!"getbits") [.name n!"buf", .name n!"offset", .const (.int 6)], .bin .add (.name n!"offset") (.const (.int 6))]),
    .unpack [.attr (.name n!"eph") n!"af1", .name n!"offset"] (.tuple [.call (.attr (.name n!"self") n!"getbits") [.name n!"buf", .name n!"offset", .const (.int 21)], .bin .add (.name n!"offset") (.const (.int 21))]),
    .unpack [.attr (.name n!"eph") n!"af0", .name n!"offset"] (.tuple [.call (.attr (.name n!"self") n!"getbits") [.name n!"buf", .name n!"offset", .const (.int 31)], .bin .add (.name n!"offset") (.const (.int 31))]),
    .unpack [.attr (.name n!"eph") n!"crs", .name n!"offset"] (.tuple [.call (.attr (.name n!"self") n!"getbits") [.name n!"buf", .name n!"offset", .const (.int 16)], .bin .add (.name n!"offset") (.const (.int 16))]),
    .unpack [.attr (.name n!"eph") n!"delta_n", .name n!"offset"] (.tuple [.call (.attr (.name n!"self") n!"getbits") [.name n!"buf", .name n!"offset", .const (.int 16)], .bin .add (.name n!"offset") (.const (.int 16))]),
    .unpack [.attr (.name n!"eph") n!"m0", .name n!"offset"] (.tuple [.call (.attr (.name n!"self") n!"getbits") [.name n!"buf", .name n!"offset", .const (.int 32)], .bin .add (.name n!"offset") (.const (.int 32))]),
    .unpack [.attr (.name n!"eph") n!"cuc", .name n!"offset"] (.tuple [.call (.attr (.name n!"self") n!"getbits") [.name n!"buf", .name n!"offset", .const (.int 16)], .bin .add (.name n!"offset") (.const (.int 16))]),
    .unpack [.attr (.name n!"eph") n!"e", .name n!"offset"] (.tuple [.call (.attr (.name n!"self") n!"getbitu") [.name n!"buf", .name n!"offset", .const (.int 32)], .bin .add (.name n!"offset") (.const (.int 32))]),
    .unpack [.attr (.name n!"eph") n!"cus", .name n!"offset"] (.tuple [.call (.attr (.name n!"self") n!"getbits") [.name n!"buf", .name n!"offset", .const (.int 16)], .bin .add (.name n!"offset") (.const (.int 16))]),
    .unpack [.attr (.name n!"eph") n!"sqrt_a", .name n!"offset"] (.tuple [.call (.attr (.name n!"self") n!"getbitu") [.name n!"buf", .name n!"offset", .const (.int 32)], .bin .add (.name n!"offset") (.const (.int 32))]),
    .unpack [.attr (.name n!"eph") n!"te", .name n!"offset"] (.tuple [.call (.attr (.name n!"self") n!"getbitu") [.name n!"buf", .name n!"offset", .const (.int 14)], .bin .add (.name n!"offset") (.const (.int 14))]),
    .unpack [.attr (.name n!"eph") n!"cic", .name n!"offset"] (.tuple [.call (.attr (.name n!"self") n!"getbits") [.name n!"buf", .name n!"offset", .const (.int 16)], .bin .add (.name n!"offset") (.const (.int 16))]),
    .unpack [.attr (.name n!"eph") n!"omega0", .name n!"offset"] (.tuple [.call (.attr (.name n!"self") n!"getbits") [.name n!"buf", .name n!"offset", .const (.int 32)], .bin .add (.name n!"offset") (.const (.int 32))]),
    .unpack [.attr (.name n!"eph") n!"cis", .name n!"offset"] (.tuple [.call (.attr (.name n!"self") n!"getbits") [.name n!"buf", .name n!"offset", .const (.int 16)], .bin .add (.name n!"offset") (.const (.int 16))]),
    .unpack [.attr (.name n!"eph") n!"i0", .name n!"offset"] (.tuple [.call (.attr (.name n!"self") n!"getbits") [.name n!"buf", .name n!"offset", .const (.int 32)], .bin .add (.name n!"offset") (.const (.int 32))]),
    .unpack [.attr (.name n!"eph") n!"crc", .name n!"offset"] (.tuple [.call (.attr (.name n!"self") n!"getbits") [.name n!"buf", .name n!"offset", .const (.int 16)], .bin .add (.name n!"offset") (.const (.int 16))]),
    .unpack [.attr (.name n!"eph") n!"w", .name n!"offset"] (.tuple [.call (.attr (.name n!"self") n!"getbits") [.name n!"buf", .name n!"offset", .const (.int 32)], .bin .add (.name n!"offset") (.const (.int 32))]),
    .unpack [.attr (.name n!"eph") n!"omega_dot", .name n!"offset"] (.tuple [.call (.attr (.name n!"self") n!"getbits") [.name n!"buf", .name n!"offset", .const (.int 24)], .bin .add (.name n!"offset") (.const (.int 24))]),
    .unpack [.attr (.name n!"eph") n!"E5a_BGD", .name n!"offset"] (.tuple [.call (.attr (.name n!"self") n!"getbits") [.name n!"buf", .name n!"offset", .const (.int 10)], .bin .add (.name n!"offset") (.const (.int 10))]),
    .unpack [.attr (.name n!"eph") n!"E5b_BGD", .name n!"offset"] (.tuple [.call (.attr (.name n!"self") n!"getbits") [.name n!"buf", .name n!"offset", .const (.int 10)], .bin .add (.name n!"offset") (.const (.int 10))]),
    .unpack [.attr (.name n!"eph") n!"E5b_SHS", .name n!"offset"] (.tuple [.call (.attr (.name n!"self") n!"getbitu") [.name n!"buf", .name n!"offset", .const (.int 2)], .bin .add (.name n!"offset") (.const (.int 2))]),
    .unpack [.attr (.name n!"eph") n!"E5b_DVS", .name n!"offset"] (.tuple [.call (.attr (.name n!"self") n!"getbitu") [.name n!"buf", .name n!"offset", .const (.int 1)], .bin .add (.name n!"offset") (.const (.int 1))]),
    .unpack [.attr (.name n!"eph") n!"E1_SHS", .name n!"offset"] (.tuple [.call (.attr (.name n!"self") n!"getbitu") [.name n!"buf", .name n!"offset", .const (.int 2)], .bin .add (.name n!"offset") (.const (.int 2))]),
    .unpack [.attr (.name n!"eph") n!"E1_DVS", .name n!"offset"] (.tuple [.call (.attr (.name n!"self") n!"getbitu") [.name n!"buf", .name n!"offset", .const (.int 1)], .bin .add (.bin .add (.name n!"offset") (.const (.int 1))) (.const (.int 2))]),
    .expr (.call (.attr (.name n!"self") n!"_EphemerisDecoder__length_check") [.const (.int 504), .bin .sub (.name n!"offset") (.const (.int 24)), .call (.name n!"len") [.name n!"buf"]]),
    .ret (.name n!"eph")]

/-- `EphemerisDecoder.__scale1046`, sub_decoders/RTCM_EPH.py:475-511. -/
def fn_EphemerisDecoder_P_scale1046 : FnDef where
  params := [n!"cls", n!"ie"]
  defaults := []
  body := [
    .assign (.name n!"eph") (.call (.attr (.name n!"mEph") n!"EphGALI") []),
    .assign (.attr (.name n!"eph") n!"msgNum") (.attr (.name n!"ie") n!"msgNum"),
    .assign (.attr (.name n!"eph") n!"satNum") (.attr (.name n!"ie") n!"satNum"),
    .assign (.attr (.name n!"eph") n!"weekNum") (.attr (.name n!"ie") n!"weekNum"),
    .assign (.attr (.name n!"eph") n!"IODnav") (.attr (.name n!"ie") n!"IODnav"),
    .assign (.attr (.name n!"eph") n!"SISA") (.attr (.name n!"ie") n!"SISA"),
    .assign (.attr (.name n!"eph") n!"i_dot") (.bin .mul (.attr (.name n!"ie") n!"i_dot") (.bin .pow (.const (.int 2)) (.neg (.const (.int 43))))),
    .assign (.attr (.name n!"eph") n!"tc") (.bin .mul (.attr (.name n!"ie") n!"tc") (.const (.int 60))),
    .assign (.attr (.name n!"eph") n!"af2") (.bin .mul (.attr (.name n!"ie") n!"af2") (.bin .pow (.const (.int 2)) (.neg (.const (.int 59))))),
    .assign (.attr (.name n!"eph") n!"af1") (.bin .mul (.attr (.name n!"ie") n!"af1") (.bin .pow (.const (.int 2)) (.neg (.const (.int 46))))),
    .assign (.attr (.name n!"eph") n!"af0") (.bin .mul (.attr (.name n!"ie") n!"af0") (.bin .pow (.const (.int 2)) (.neg (.const (.int 34))))),
    .assign (.attr (.name n!"eph") n!"crs") (.bin .mul (.attr (.name n!"ie") n!"crs") (.bin .pow (.const (.int 2)) (.neg (.const (.int 5))))),
    .assign (.attr (.name n!"eph") n!"delta_n") (.bin .mul (.attr (.name n!"ie") n!"delta_n") (.bin .pow (.const (.int 2)) (.neg (.const (.int 43))))),
    .assign (.attr (.name n!"eph") n!"m0") (.bin .mul (.attr (.name n!"ie") n!"m0") (.bin .pow (.const (.int 2)) (.neg (.const (.int 31))))),
    .assign (.attr (.name n!"eph") n!"cuc") (.bin .mul (.attr (.name n!"ie") n!"cuc") (.bin .pow (.const (.int 2)) (.neg (.const (.int 29))))),
    .assign (.attr (.name n!"eph") n!"e") (.bin .mul (.attr (.name n!"ie") n!"e") (.bin .pow (.const (.int 2)) (.neg (.const (.int 33))))),
    .assign (.attr (.name n!"eph") n!"cus") (.bin .mul (.attr (.name n!"ie") n!"cus") (.bin .pow (.const (.int 2)) (.neg (.const (.int 29))))),
    .assign (.attr (.name n!"eph") n!"sqrt_a") (.bin .mul (.attr (.name n!"ie") n!"sqrt_a") (.bin .pow (.const (.int 2)) (.neg (.const (.int 19))))),
    .assign (.attr (.name n!"eph") n!"te") (.bin .mul (.attr (.name n!"ie") n!"te") (.const (.int 60))),
    .assign (.attr (.name n!"eph") n!"cic") (.bin .mul (.attr (.name n!"ie") n!"cic") (.bin .pow (.const (.int 2)) (.neg (.const (.int 29))))),
    .assign (.attr (.name n!"eph") n!"omega0") (.bin .mul (.attr (.name n!"ie") n!"omega0") (.bin .pow (.const (.int 2)) (.neg (.const (.int 31))))),
    .assign (.attr (.name n!"eph") n!"cis") (.bin .mul (.attr (.name n!"ie") n!"cis") (.bin .pow (.const (.int 2)) (.neg (.const (.int 29))))),
    .assign (.attr (.name n!"eph") n!"i0") (.bin .mul (.attr (.name n!"ie") n!"i0") (.bin .pow (.const (.int 2)) (.neg (.const (.int 31))))),
    .assign (.attr (.name n!"eph") n!"crc") (.bin .mul (.attr (.name n!"ie") n!"crc") (.bin .pow (.const (.int 2)) (.neg (.const (.int 5))))),
    .assign (.attr (.name n!"eph") n!"w") (.bin .mul (.attr (.name n!"ie") n!"w") (.bin .pow (.const (.int 2)) (.neg (.const (.int 31))))),
    .assign (.attr (.name n!"eph") n!"omega_dot") (.bin .mul (.attr (.name n!"ie") n!"omega_dot") (.bin .pow (.const (.int 2)) (.neg (.const (.int 43))))),
    .assign (.attr (.name n!"eph") n!"E5a_BGD") (.bin .mul (.attr (.name n!"ie") n!"E5a_BGD") (.bin .pow (.const (.int 2)) (.neg (.const (.int 32))))),
    .assign (.attr (.name n!"eph") n!"E5b_BGD") (.bin .mul (.attr (.name n!"ie") n!"E5b_BGD") (.bin .pow (.const (.int 2)) (.neg (.const (.int 32))))),
    .assign (.attr (.name n!"eph") n!"E5b_SHS") (.attr (.name n!"ie") n!"E5b_SHS"),
    .assign (.attr (.name n!"eph") n!"E5b_DVS") (.attr (.name n!"ie") n!"E5b_DVS"),
    .assign (.attr (.name n!"eph") n!"E1_SHS") (.attr (.name n!"ie") n!"E1_SHS"),
    .assign (.attr (.name n!"eph") n!"E1_DVS") (.attr (.name n!"ie") n!"E1_DVS"),
    .ret (.name n!"eph")]

/-- `EphemerisDecoder.__decode1045`, sub_decoders/RTCM_EPH.py:513-549. -/
def fn_EphemerisDecoder_P_decode1045 : FnDef where
  params := [n!"self", n!"buf"]
  defaults := []
  body := [
    .assign (.name n!"eph") (.call (.attr (.name n!"mEph") n!"EphGALF") []),
    .assign (.name n!"offset") (.const (.int 24)),
    .unpack [.attr (.name n!"eph") n!"msgNum", .name n!"offset"] (.tuple [.call (.attr (.name n!"self") n!"getbitu") [.name n!"buf", .name n!"offset", .const (.int 12)], .bin .add (.name n!"offset") (.const (.int 12))]),
    .unpack [.attr (.name n!"eph") n!"satNum", .name n!"offset"] (.tuple [.call (.attr (.name n!"self") n!"getbitu") [.name n!"buf", .name n!"offset", .const (.int 6)], .bin .add (.name n!"offset") (.const (.int 6))]),
    .unpack [.attr (.name n!"eph") n!"weekNum", .name n!"offset"] (.tuple [.call (.attr (.name n!"self") n!"getbitu") [.name n!"buf", .name n!"offset", .const (.int 12)], .bin .add (.name n!"offset") (.const (.int 12))]),
    .unpack [.attr (.name n!"eph") n!"IODnav", .name n!"offset"] (.tuple [.call (.attr (.name n!"self") n!"getbitu") [.name n!"buf", .name n!"offset", .const (.int 10)], .bin .add (.name n!"offset") (.const (.int 10))]),
    .unpack [.attr (.name n!"eph") n!"SISA", .name n!"offset"] (.tuple [.call (.attr (.name n!"self") n!"getbitu") [.name n!"buf", .name n!"offset", .const (.int 8)], .bin .add (.name n!"offset") (.const (.int 8))]),
    .unpack [.attr (.name n!"eph") n!"i_dot", .name n!"offset"] (.tuple [.call (.attr (.name n!"self") n!"getbits") [.name n!"buf", .name n!"offset", .const (.int 14)], .bin .add (.name n!"offset") (.const (.int 14))]),
    .unpack [.attr (.name n!"eph") n!"tc", .name n!"offset"] (.tuple [.call (.attr (.name n!"self") n!"getbitu") [.name n!"buf", .name n!"offset", .const (.int 14)], .bin .add (.name n!"offset") (.const (.int 14))]),
    .unpack [.attr (.name n!"eph") n!"af2", .name n!"offset"] (.tuple [.call (.attr (.name n!"self") n!"getbits") [.name n!"buf", .name n!"offset", .const (.int 6)], .bin .add (.name n!"offset") (.const (.int 6))]),
    .unpack [.attr (.name n!"eph") n!"af1", .name n!"offset"] (.tuple [.call (.attr (.name n!"self") n!"getbits") [.name n!"buf", .name n!"offset", .const (.int 21)], .bin .add (.name n!"offset") (.const (.int 21))]),
    .unpack [.attr (.name n!"eph") n!"af0", .name n!"offset"] (.tuple [.call (.attr (.name n!"self") n!"getbits") [.name n!"buf", .name n!"offset", .const (.int 31)], .bin .add (.name n!"offset") (.const (.int 31))]),
    .unpack [.attr (.name n!"eph") n!"crs", .name n!"offset"] (.tuple [.call (.attr (.name n!"self") n!"getbits") [.name n!"buf", .name n!"offset", .const (.int 16)], .bin .add (.name n!"offset") (.const (.int 16))]),
    .unpack [.attr (.name n!"eph") n!"delta_n", .name n!"offset"] (.tuple [.call (.attr (.name n!"self") n!"getbits") [.name n!"buf", .name n!"offset", .const (.int 16)], .bin .add (.name n!"offset") (.const (.int 16))]),
    .unpack [.attr (.name n!"eph") n!"m0", .name n!"offset"] (.tuple [.call (.attr (.name n!"self") n!"getbits") [.name n!"buf", .name n!"offset", .const (.int 32)], .bin .add (.name n!"offset") (.const (.int 32))]),
    .unpack [.attr (.name n!"eph") n!"cuc", .name n!"offset"] (.tuple [.call (.attr (.name n!"self") n!"getbits") [.name n!"buf", .name n!"offset", .const (.int 16)], .bin .add (.name n!"offset") (.const (.int 16))]),
    .unpack [.attr (.name n!"eph") n!"e", .name n!"offset"] (.tuple [.call (.attr (.name n!"self") n!"getbitu") [.name n!"buf", .name n!"offset", .const (.int 32)], .bin .add (.name n!"offset") (.const (.int 32))]),
    .unpack [.attr (.name n!"eph") n!"cus", .name n!"offset"] (.tuple [.call (.attr (.name n!"self") n!"getbits") [.name n!"buf", .name n!"offset", .const (.int 16)], .bin .add (.name n!"offset") (.const (.int 16))]),
    .unpack [.attr (.name n!"eph") n!"sqrt_a", .name n!"offset"] (.tuple [.call (.attr (.name n!"self") n!"getbitu") [.name n!"buf", .name n!"offset", .const (.int 32)], .bin .add (.name n!"offset") (.const (.int 32))]),
    .unpack [.attr (.name n!"eph") n!"te", .name n!"offset"] (.tuple [.call (.attr (.name n!"self") n!"getbitu") [.name n!"buf", .name n!"offset", .const (.int 14)], .bin .add (.name n!"offset") (.const (.int 14))]),
    .unpack [.attr (.name n!"eph") n!"cic", .name n!"offset"] (.tuple [.call (.attr (.name n!"self") n!"getbits") [.name n!"buf", .name n!"offset", .const (.int 16)], .bin .add (.name n!"offset") (.const (.int 16))]),
    .unpack [.attr (.name n!"eph") n!"omega0", .name n!"offset"] (.tuple [.call (.attr (.name n!"self") n!"getbits") [.name n!"buf", .name n!"offset", .const (.int 32)], .bin .add (.name n!"offset") (.const (.int 32))]),
    .unpack [.attr (.name n!"eph") n!"cis", .name n!"offset"] (.tuple [.call (.attr (.name n!"self") n!"getbits") [.name n!"buf", .name n!"offset", .const (.int 16)], .bin .add (.name n!"offset") (.const (.int 16))]),
    .unpack [.attr (.name n!"eph") n!"i0", .name n!"offset"] (.tuple [.call (.attr (.name n!"self") n!"getbits") [.name n!"buf", .name n!"offset", .const (.int 32)], .bin .add (.name n!"offset") (.const (.int 32))]),
    .unpack [.attr (.name n!"eph") n!"crc", .name n!"offset"] (.tuple [.call (.attr (.name n!"self") n!"getbits") [.name n!"buf", .name n!"offset", .const (.int 16)], .bin .add (.name n!"offset") (.const (.int 16))]),
    .unpack [.attr (.name n!"eph") n!"w", .name n!"offset"] (.tuple [.call (.attr (.name n!"self") n!"getbits") [.name n!"buf", .name n!"offset", .const (.int 32)], .bin .add (.name n!"offset") (.const (.int 32))]),
    .unpack [.attr (.name n!"eph") n!"omega_dot", .name n!"offset"] (.tuple [.call (.attr (.name n!"self") n!"getbits") [.name n!"buf", .name n!"offset", .const (.int 24)], .bin .add (.name n!"offset") (.const (.int 24))]),
    .unpack [.attr (.name n!"eph") n!"E5a_BGD", .name n!"offset"] (.tuple [.call (.attr (.name n!"self") n!"getbits") [.name n!"buf", .name n!"offset", .const (.int 10)], .bin .add (.name n!"offset") (.const (.int 10))]),
    .unpack [.attr (.name n!"eph") n!"E5a_SHS", .name n!"offset"] (.tuple [.call (.attr (.name n!"self") n!"getbitu") [.name n!"buf", .name n!"offset", .const (.int 2)], .bin .add (.name n!"offset") (.const (.int 2))]),
    .unpack [.attr (.name n!"eph") n!"E5a_DVS", .name n!"offset"] (.tuple [.call (.attr (.name n!"self") n!"getbitu") [.name n!"buf", .name n!"offset", .const (.int 1)], .bin .add (.bin .add (.name n!"offset") (.const (.int 1))) (.const (.int 7))]),
    .expr (.call (.attr (.name n!"self") n!"_EphemerisDecoder__length_check") [.const (.int 496), .bin .sub (.name n!"offset") (.const (.int 24)), .call (.name n!"len") [.name n!"buf"]]),
    .ret (.name n!"eph")]

/-- `EphemerisDecoder.__scale1045`, sub_decoders/RTCM_EPH.py:552-585. -/
def fn_EphemerisDecoder_P_scale1045 : FnDef where
  params := [n!"cls", n!"ie"]
  defaults := []
  body := [
    .assign (.name n!"eph") (.call (.attr (.name n!"mEph") n!"EphGALF") []),
    .assign (.attr (.name n!"eph") n!"msgNum") (.attr (.name n!"ie") n!"msgNum"),
    .assign (.attr (.name n!"eph") n!"satNum") (.attr (.name n!"ie") n!"satNum"),
    .assign (.attr (.name n!"eph") n!"weekNum") (.attr (.name n!"ie") n!"weekNum"),
    .assign (.attr (.name n!"eph") n!"IODnav") (.attr (.name n!"ie") n!"IODnav"),
    .assign (.attr (.name n!"eph") n!"SISA") (.attr (.name n!"ie") n!"SISA"),
    .assign (.attr (.name n!"eph") n!"i_dot") (.bin .mul (.attr (.name n!"ie") n!"i_dot") (.bin .pow (.const (.int 2)) (.neg (.const (.int 43))))),
    .assign (.attr (.name n!"eph") n!"tc") (.bin .mul (.attr (.name n!"ie") n!"tc") (.const (.int 60))),
    .assign (.attr (.name n!"eph") n!"af2") (.bin .mul (.attr (.name n!"ie") n!"af2") (.bin .pow (.const (.int 2)) (.neg (.const (.int 59))))),
    .assign (.attr (.name n!"eph") n!"af1") (.bin .mul (.attr (.name n!"ie") n!"af1") (.bin .pow (.const (.int 2)) (.neg (.const (.int 46))))),
    .assign (.attr (.name n!"eph") n!"af0") (.bin .mul (.attr (.name n!"ie") n!"af0") (.bin .pow (.const (.int 2)) (.neg (.const (.int 34))))),
    .assign (.attr (.name n!"eph") n!"crs") (.bin .mul (.attr (.name n!"ie") n!"crs") (.bin .pow (.const (.int 2)) (.neg (.const (.int 5))))),
    .assign (.attr (.name n!"eph") n!"delta_n") (.bin .mul (.attr (.name n!"ie") n!"delta_n") (.bin .pow (.const (.int 2)) (.neg (.const (.int 43))))),
    .assign (.attr (.name n!"eph") n!"m0") (.bin .mul (.attr (.name n!"ie") n!"m0") (.bin .pow (.const (.int 2)) (.neg (.const (.int 31))))),
    .assign (.attr (.name n!"eph") n!"cuc") (.bin .mul (.attr (.name n!"ie") n!"cuc") (.bin .pow (.const (.int 2)) (.neg (.const (.int 29))))),
    .assign (.attr (.name n!"eph") n!"e") (.bin .mul (.attr (.name n!"ie") n!"e") (.bin .pow (.const (.int 2)) (.neg (.const (.int 33))))),
    .assign (.attr (.name n!"eph") n!"cus") (.bin .mul (.attr (.name n!"ie") n!"cus") (.bin .pow (.const (.int 2)) (.neg (.const (.int 29))))),
    .assign (.attr (.name n!"eph") n!"sqrt_a") (.bin .mul (.attr (.name n!"ie") n!"sqrt_a") (.bin .pow (.const (.int 2)) (.neg (.const (.int 19))))),
    .assign (.attr (.name n!"eph") n!"te") (.bin .mul (.attr (.name n!"ie") n!"te") (.const (.int 60))),
    .assign (.attr (.name n!"eph") n!"cic") (.bin .mul (.attr (.name n!"ie") n!"cic") (.bin .pow (.const (.int 2)) (.neg (.const (.int 29))))),
    .assign (.attr (.name n!"eph") n!"omega0") (.bin .mul (.attr (.name n!"ie") n!"omega0") (.bin .pow (.const (.int 2)) (.neg (.const (.int 31))))),
    .assign (.attr (.name n!"eph") n!"cis") (.bin .mul (.attr (.name n!"ie") n!"cis") (.bin .pow (.const (.int 2)) (.neg (.const (.int 29))))),
    .assign (.attr (.name n!"eph") n!"i0") (.bin .mul (.attr (.name n!"ie") n!"i0") (.bin .pow (.const (.int 2)) (.neg (.const (.int 31))))),
    .assign (.attr (.name n!"eph") n!"crc") (.bin .mul (.attr (.name n!"ie") n!"crc") (.bin .pow (.const (.int 2)) (.neg (.const (.int 5))))),
    .assign (.attr (.name n!"eph") n!"w") (.bin .mul (.attr (.name n!"ie") n!"w") (.bin .pow (.const (.int 2)) (.neg (.const (.int 31))))),
    .assign (.attr (.name n!"eph") n!"omega_dot") (.bin .mul (.attr (.name n!"ie") n!"omega_dot") (.bin .pow (.const (.int 2)) (.neg (.const (.int 43))))),
    .assign (.attr (.name n!"eph") n!"E5a_BGD") (.bin .mul (.attr (.name n!"ie") n!"E5a_BGD") (.bin .pow (.const (.int 2)) (.neg (.const (.int 32))))),
    .assign (.attr (.name n!"eph") n!"E5a_SHS") (.attr (.name n!"ie") n!"E5a_SHS"),
    .assign (.attr (.name n!"eph") n!"E5a_DVS") (.attr (.name n!"ie") n!"E5a_DVS"),
    .ret (.name n!"eph")]

/-- `EphemerisDecoder.__decode1044`, sub_decoders/RTCM_EPH.py:587-625. -/
def fn_EphemerisDecoder_P_decode1044 : FnDef where
  params := [n!"self", n!"buf"]
  defaults := []
  body := [
    .assign (.name n!"eph") (.call (.attr (.name n!"mEph") n!"EphQZS") []),
    .assign (.name n!"offset") (.const (.int 24)),
    .unpack [.attr (.name n!"eph") n!"msgNum", .name n!"offset"] (.tuple [.call (.attr (.name n!"self") n!"getbitu") [.name n!"buf", .name n!"offset", .const (.int 12)], .bin .add (.name n!"offset") (.const (.int 12))]),
    .unpack [.attr (.name n!"eph") n!"satNum", .name n!"offset"] (.tuple [.call (.attr (.name n!"self") n!"getbitu") [.name n!"buf", .name n!"offset", .const (.int 4)], .bin .add (.name n!"offset") (.const (.int 4))]),
    .unpack [.attr (.name n!"eph") n!"tc", .name n!"offset"] (.tuple [.call (.attr (.name n!"self") n!"getbitu") [.name n!"buf", .name n!"offset", .const (.int 16)], .bin .add (.name n!"offset") (.const (.int 16))]),
    .unpack [.attr (.name n!"eph") n!"af2", .name n!"offset"] (.tuple [.call (.attr (.name n!"self") n!"getbits") [.name n!"buf", .name n!"offset", .const (.int 8)], .bin .add (.name n!"offset") (.const (.int 8))]),
    .unpack [.attr (.name n!"eph") n!"af1", .name n!"offset"] (.tuple [.call (.attr (.name n!"self") n!"getbits") [.name n!"buf", .name n!"offset", .const (.int 16)], .bin .add (.name n!"offset") (.const (.int 16))]),
    .unpack [.attr (.name n!"eph") n!"af0", .name n!"offset"] (.tuple [.call (.attr (.name n!"self") n!"getbits") [.name n!"buf", .name n!"offset", .const (.int 22)], .bin .add (.name n!"offset") (.const (.int 22))]),
    .unpack [.attr (.name n!"eph") n!"IODE", .name n!"offset"] (.tuple [.call (.attr (.name n!"self") n!"getbitu") [.name n!"buf", .name n!"offset", .const (.int 8)], .bin .add (.name n!"offset") (.const (.int 8))]),
    .unpack [.attr (.name n!"eph") n!"crs", .name n!"offset"] (.tuple [.call (.attr (.name n!"self") n!"getbits") [.name n!"buf", .name n!"offset", .const (.int 16)], .bin .add (.name n!"offset") (.const (.int 16))]),
    .unpack [.attr (.name n!"eph") n!"delta_n", .name n!"offset"] (.tuple [.call (.attr (.name n!"self") n!"getbits") [.name n!"buf", .name n!"offset", .const (.int 16)], .bin .add (.name n!"offset") (.const (.int 16))]),
    .unpack [.attr (.name n!"eph") n!"m0", .name n!"offset"] (.tuple [.call (.attr (.name n!"self") n!"getbits") [.name n!"buf", .name n!"offset", .const (.int 32)], .bin .add (.name n!"offset") (.const (.int 32))]),
    .unpack [.attr (.name n!"eph") n!"cuc", .name n!"offset"] (.tuple [.call (.attr (.name n!"self") n!"getbits") [.name n!"buf", .name n!"offset", .const (.int 16)], .bin .add (.name n!"offset") (.const (.int 16))]),
    .unpack [.attr (.name n!"eph") n!"e", .name n!"offset"] (.tuple [.call (.attr (.name n!"self") n!"getbitu") [.name n!"buf", .name n!"offset", .const (.int 32)], .bin .add (.name n!"offset") (.const (.int 32))]),
    .unpack [.attr (.name n!"eph") n!"cus", .name n!"offset"] (.tuple [.call (.attr (.name n!"self") n!"getbits") [.name n!"buf", .name n!"offset", .const (.int 16)], .bin .add (.name n!"offset") (.const (.int 16))]),
    .unpack [.attr (.name n!"eph") n!"sqrt_a", .name n!"offset"] (.tuple [.call (.attr (.name n!"self") n!"getbitu") [.name n!"buf", .name n!"offset", .const (.int 32)], .bin .add (.name n!"offset") (.const (.int 32))]),
    .unpack [.attr (.name n!"eph") n!"te", .name n!"offset"] (.tuple [.call (.attr (.name n!"self") n!"getbitu") [.name n!"buf", .name n!"offset", .const (.int 16)], .bin .add (.name n!"offset") (.const (.int 16))]),
    .unpack [.attr (.name n!"eph") n!"cic", .name n!"offset"] (.tuple [.call (.attr (.name n!"self") n!"getbits") [.name n!"buf", .name n!"offset", .const (.int 16)], .bin .add (.name n!"offset") (.const (.int 16))]),
    .unpack [.attr (.name n!"eph") n!"omega0", .name n!"offset"] (.tuple [.call (.attr (.name n!"self") n!"getbits") [.name n!"buf", .name n!"offset", .const (.int 32)], .bin .add (.name n!"offset") (.const (.int 32))]),
    .unpack [.attr (.name n!"eph") n!"cis", .name n!"offset"] (.tuple [.call (.attr (.name n!"self") n!"getbits") [.name n!"buf", .name n!"offset", .const (.int 16)], .bin .add (.name n!"offset") (.const (.int 16))]),
    .unpack [.attr (.name n!"eph") n!"i0", .name n!"offset"] (.tuple [.call (.attr (.name n!"self") n!"getbits") [.name n!"buf", .name n!"offset", .const (.int 32)], .bin .add (.name n!"offset") (.const (.int 32))]),
    .unpack [.attr (.name n!"eph") n!"crc", .name n!"offset"] (.tuple [.call (.attr (.name n!"self") n!"getbits") [.name n!"buf", .name n!"offset", .const (.int 16)], .bin .add (.name n!"offset") (.const (.int 16))]),
    .unpack [.attr (.name n!"eph") n!"w", .name n!"offset"] (.tuple [.call (.attr (.name n!"self") n!"getbits") [.name n!"buf", .name n!"offset", .const (.int 32)], .bin .add (.name n!"offset") (.const (.int 32))]),
    .unpack [.attr (.name n!"eph") n!"omega_dot", .name n!"offset"] (.tuple [.call (.attr (.name n!"self") n!"getbits") [.name n!"buf", .name n!"offset", .const (.int 24)], .bin .add (.name n!"offset") (.const (.int 24))]),
    .unpack [.attr (.name n!"eph") n!"i_dot", .name n!"offset"] (.tuple [.call (.attr (.name n!"self") n!"getbits") [.name n!"buf", .name n!"offset", .const (.int 14)], .bin .add (.name n!"offset") (.const (.int 14))]),
    .unpack [.attr (.name n!"eph") n!"L2_Codes", .name n!"offset"] (.tuple [.call (.attr (.name n!"self") n!"getbitu") [.name n!"buf", .name n!"offset", .const (.int 2)], .bin .add (.name n!"offset") (.const (.int 2))]),
    .unpack [.attr (.name n!"eph") n!"weekNum", .name n!"offset"] (.tuple [.call (.attr (.name n!"self") n!"getbitu") [.name n!"buf", .name n!"offset", .const (.int 10)], .bin .add (.name n!"offset") (.const (.int 10))]),
    .unpack [.attr (.name n!"eph") n!"URA", .name n!"offset"] (.tuple [.call (.attr (.name n!"self") n!"getbitu") [.name n!"buf", .name n!"offset", .const (.int 4)], .bin .add (.name n!"offset") (.const (.int 4))]),
    .unpack [.attr (.name n!"eph") n!"SVH", .name n!"offset"] (.tuple [.call (.attr (.name n!"self") n!"getbitu") [.name n!"buf", .name n!"offset", .const (.int 6)], .bin .add (.name n!"offset") (.const (.int 6))]),
    .unpack [.attr (.name n!"eph") n!"TGD", .name n!"offset"] (.tuple [.call (.attr (.name n!"self") n!"getbits") [.name n!"buf", .name n!"offset", .const (.int 8)], .bin .add (.name n!"offset") (.const (.int 8))]),
    .unpack [.attr (.name n!"eph") n!"IODC", .name n!"offset"] (.tuple [.call (.attr (.name n!"self") n!"getbitu") [.name n!"buf", .name n!"offset", .const (.int 10)], .bin .add (.name n!"offset") (.const (.int 8))]),
    .unpack [.attr (.name n!"eph") n!"Fit", .name n!"offset"] (.tuple [.call (.attr (.name n!"self") n!"getbitu") [.name n!"buf", .name n!"offset", .const (.int 1)], .bin .add (.name n!"offset") (.const (.int 1))]),
    .expr (.call (.attr (.name n!"self") n!"_EphemerisDecoder__length_check") [.const (.int 485), .bin .sub (.name n!"offset") (.const (.int 24)), .call (.name n!"len") [.name n!"buf"]]),
    .ret (.name n!"eph")]

/-- `EphemerisDecoder.__scale1044`, sub_decoders/RTCM_EPH.py:628-663. -/
def fn_EphemerisDecoder_P_scale1044 : FnDef where
  params := [n!"cls", n!"ie"]
  defaults := []
  body := [
    .assign (.name n!"eph") (.call (.attr (.name n!"mEph") n!"EphQZS") []),
    .assign (.attr (.name n!"eph") n!"msgNum") (.attr (.name n!"ie") n!"msgNum"),
    .assign (.attr (.name n!"eph") n!"satNum") (.attr (.name n!"ie") n!"satNum"),
    .assign (.attr (.name n!"eph") n!"tc") (.bin .mul (.attr (.name n!"ie") n!"tc") (.const (.int 16))),
    .assign (.attr (.name n!"eph") n!"af2") (.bin .mul (.attr (.name n!"ie") n!"af2") (.bin .pow (.const (.int 2)) (.neg (.const (.int 55))))),
    .assign (.attr (.name n!"eph") n!"af1") (.bin .mul (.attr (.name n!"ie") n!"af1") (.bin .pow (.const (.int 2)) (.neg (.const (.int 43))))),
    .assign (.attr (.name n!"eph") n!"af0") (.bin .mul (.attr (.name n!"ie") n!"af0") (.bin .pow (.const (.int 2)) (.neg (.const (.int 31))))),
    .assign (.attr (.name n!"eph") n!"IODE") (.attr (.name n!"ie") n!"IODE"),
    .assign (.attr (.name n!"eph") n!"crs") (.bin .mul (.attr (.name n!"ie") n!"crs") (.bin .pow (.const (.int 2)) (.neg (.const (.int 5))))),
    .assign (.attr (.name n!"eph") n!"delta_n") (.bin .mul (.attr (.name n!"ie") n!"delta_n") (.bin .pow (.const (.int 2)) (.neg (.const (.int 43))))),
    .assign (.attr (.name n!"eph") n!"m0") (.bin .mul (.attr (.name n!"ie") n!"m0") (.bin .pow (.const (.int 2)) (.neg (.const (.int 31))))),
    .assign (.attr (.name n!"eph") n!"cuc") (.bin .mul (.attr (.name n!"ie") n!"cuc") (.bin .pow (.const (.int 2)) (.neg (.const (.int 29))))),
    .assign (.attr (.name n!"eph") n!"e") (.bin .mul (.attr (.name n!"ie") n!"e") (.bin .pow (.const (.int 2)) (.neg (.const (.int 33))))),
    .assign (.attr (.name n!"eph") n!"cus") (.bin .mul (.attr (.name n!"ie") n!"cus") (.bin .pow (.const (.int 2)) (.neg (.const (.int 29))))),
    .assign (.attr (.name n!"eph") n!"sqrt_a") (.bin .mul (.attr (.name n!"ie") n!"sqrt_a") (.bin .pow (.const (.int 2)) (.neg (.const (.int 19))))),
    .assign (.attr (.name n!"eph") n!"te") (.bin .mul (.attr (.name n!"ie") n!"te") (.const (.int 16))),
    .assign (.attr (.name n!"eph") n!"cic") (.bin .mul (.attr (.name n!"ie") n!"cic") (.bin .pow (.const (.int 2)) (.neg (.const (.int 29))))),
    .assign (.attr (.name n!"eph") n!"omega0") (.bin .mul (.attr (.name n!"ie") n!"omega0") (.bin .pow (.const (.int 2)) (.neg (.const (.int 31))))),
    .assign (.attr (.name n!"eph") n!"cis") (.bin .mul (.attr (.name n!"ie") n!"cis") (.bin .pow (.const (.int 2)) (.neg (.const (.int 29))))),
    .assign (.attr (.name n!"eph") n!"i0") (.bin .mul (.attr (.name n!"ie") n!"i0") (.bin .pow (.const (.int 2)) (.neg (.const (.int 31))))),
    .assign (.attr (.name n!"eph") n!"crc") (.bin .mul (.attr (.name n!"ie") n!"crc") (.bin .pow (.const (.int 2)) (.neg (.const (.int 5))))),
    .assign (.attr (.name n!"eph") n!"w") (.bin .mul (.attr (.name n!"ie") n!"w") (.bin .pow (.const (.int 2)) (.neg (.const (.int 31))))),
    .assign (.attr (.name n!"eph") n!"omega_dot") (.bin .mul (.attr (.name n!"ie") n!"omega_dot") (.bin .pow (.const (.int 2)) (.neg (.const (.int 43))))),
    .assign (.attr (.name n!"eph") n!"i_dot") (.bin .mul (.attr (.name n!"ie") n!"i_dot") (.bin .pow (.const (.int 2)) (.neg (.const (.int 43))))),
    .assign (.attr (.name n!"eph") n!"L2_Codes") (.attr (.name n!"ie") n!"L2_Codes"),
    .assign (.attr (.name n!"eph") n!"weekNum") (.attr (.name n!"ie") n!"weekNum"),
    .assign (.attr (.name n!"eph") n!"URA") (.attr (.name n!"ie") n!"URA"),
    .assign (.attr (.name n!"eph") n!"SVH") (.attr (.name n!"ie") n!"SVH"),
    .assign (.attr (.name n!"eph") n!"TGD") (.bin .mul (.attr (.name n!"ie") n!"TGD") (.bin .pow (.const (.int 2)) (.neg (.const (.int 31))))),
    .assign (.attr (.name n!"eph") n!"IODC") (.attr (.name n!"ie") n!"IODC"),
    .assign (.attr (.name n!"eph") n!"Fit") (.attr (.name n!"ie") n!"Fit"),
    .ret (.name n!"eph")]

/-- `EphemerisDecoder.__decode`, sub_decoders/RTCM_EPH.py:665-686. -/
def fn_EphemerisDecoder_P_decode : FnDef where
  params := [n!"self", n!"buf"]
  defaults := []
  body := [
    .assign (.name n!"msgNum") (.call (.attr (.name n!"self") n!"get_msg_num") [.name n!"buf"]),
    .assign (.name n!"$m") (.name n!"msgNum"),
    .ite (.cmp .eq (.name n!"$m") (.const (.int 1019))) [
      .ret (.call (.attr (.name n!"self") n!"_EphemerisDecoder__decode1019") [.name n!"buf"])] [.ite (.cmp .eq (.name n!"$m") (.const (.int 1020))) [
      .ret (.call (.attr (.name n!"self") n!"_EphemerisDecoder__decode1020") [.name n!"buf"])] [.ite (.cmp .eq (.name n!"$m") (.const (.int 1041))) [
      .ret (.call (.attr (.name n!"self") n!"_EphemerisDecoder__decode1041") [.name n!"buf"])] [.ite (.cmp .eq (.name n!"$m") (.const (.int 1042))) [
      .ret (.call (.attr (.name n!"self") n!"_EphemerisDecoder__decode1042") [.name n!"buf"])] [.ite (.cmp .eq (.name n!"$m") (.const (.int 1044))) [
      .ret (.call (.attr (.name n!"self") n!"_EphemerisDecoder__decode1044") [.name n!"buf"])] [.ite (.cmp .eq (.name n!"$m") (.const (.int 1045))) [
      .ret (.call (.attr (.name n!"self") n!"_EphemerisDecoder__decode1045") [.name n!"buf"])] [.ite (.cmp .eq (.name n!"$m") (.const (.int 1046))) [
      .ret (.call (.attr (.name n!"self") n!"_EphemerisDecoder__decode1046") [.name n!"buf"])] [
      .raise (.call (.name n!"ExceptionEphemerisDecoder") [.fstr [.name n!"msgNum"]])]]]]]]]]

/-- `EphemerisDecoder.scale`, sub_decoders/RTCM_EPH.py:689-710. -/
def fn_EphemerisDecoder_scale : FnDef where
  params := [n!"cls", n!"ie"]
  defaults := []
  body := [
    .assign (.name n!"$m") (.call (.name n!"type") [.name n!"ie"]),
    .ite (.cmp .eq (.name n!"$m") (.attr (.name n!"mEph") n!"EphGPS")) [
      .ret (.call (.attr (.name n!"cls") n!"_EphemerisDecoder__scale1019") [.name n!"ie"])] [.ite (.cmp .eq (.name n!"$m") (.attr (.name n!"mEph") n!"EphGLO")) [
      .ret (.call (.attr (.name n!"cls") n!"_EphemerisDecoder__scale1020") [.name n!"ie"])] [.ite (.cmp .eq (.name n!"$m") (.attr (.name n!"mEph") n!"EphGALF")) [
      .ret (.call (.attr (.name n!"cls") n!"_EphemerisDecoder__scale1045") [.name n!"ie"])] [.ite (.cmp .eq (.name n!"$m") (.attr (.name n!"mEph") n!"EphGALI")) [
      .ret (.call (.attr (.name n!"cls") n!"_EphemerisDecoder__scale1046") [.name n!"ie"])] [.ite (.cmp .eq (.name n!"$m") (.attr (.name n!"mEph") n!"EphBDS")) [
      .ret (.call (.attr (.name n!"cls") n!"_EphemerisDecoder__scale1042") [.name n!"ie"])] [.ite (.cmp .eq (.name n!"$m") (.attr (.name n!"mEph") n!"EphNAVIC")) [
      .ret (.call (.attr (.name n!"cls") n!"_EphemerisDecoder__scale1041") [.name n!"ie"])] [.ite (.cmp .eq (.name n!"$m") (.attr (.name n!"mEph") n!"EphQZS")) [
      .ret (.call (.attr (.name n!"cls") n!"_EphemerisDecoder__scale1044") [.name n!"ie"])] [
      .raise (.call (.name n!"ExceptionEphemerisDecoder") [.fstr [.call (.name n!"type") [.name n!"ie"]]])]]]]]]]]

/-- `EphemerisDecoder.decode`, sub_decoders/RTCM_EPH.py:712-720. -/
def fn_EphemerisDecoder_decode : FnDef where
  params := [n!"self", n!"buf", n!"is_bare_output"]
  defaults := [.bool false]
  body := [
    .assign (.name n!"eph") (.call (.attr (.name n!"self") n!"_EphemerisDecoder__decode") [.name n!"buf"]),
    .ite (.not (.name n!"is_bare_output")) [
      .assign (.name n!"eph") (.call (.attr (.name n!"self") n!"scale") [.name n!"eph"])] [],
    .ret (.name n!"eph")]

/-- `EphemerisDecoder`, sub_decoders/RTCM_EPH.py:37-720. -/
def cls_EphemerisDecoder : ClassDef where
  mro := [n!"EphemerisDecoder", n!"Bits"]
  members := [(n!"__init__", .method n!"EphemerisDecoder.__init__"),
    (n!"get_msg_num", .method n!"EphemerisDecoder.get_msg_num"),
    (n!"_EphemerisDecoder__length_check", .static n!"EphemerisDecoder.__length_check"),
    (n!"_EphemerisDecoder__decode1019", .method n!"EphemerisDecoder.__decode1019"),
    (n!"_EphemerisDecoder__scale1019", .clsMethod n!"EphemerisDecoder.__scale1019"),
    (n!"getbitS", .method n!"EphemerisDecoder.getbitS"),
    (n!"_EphemerisDecoder__decode1020", .method n!"EphemerisDecoder.__decode1020"),
    (n!"_EphemerisDecoder__scale1020", .clsMethod n!"EphemerisDecoder.__scale1020"),
    (n!"_EphemerisDecoder__decode1041", .method n!"EphemerisDecoder.__decode1041"),
    (n!"_EphemerisDecoder__scale1041", .clsMethod n!"EphemerisDecoder.__scale1041"),
    (n!"_EphemerisDecoder__decode1042", .method n!"EphemerisDecoder.__decode1042"),
    (n!"_EphemerisDecoder__scale1042", .clsMethod n!"EphemerisDecoder.__scale1042"),
    (n!"_EphemerisDecoder__decode1046", .method n!"EphemerisDecoder.__decode1046"),
    (n!"_EphemerisDecoder__scale1046", .clsMethod n!"EphemerisDecoder.__scale1046"),
    (n!"_EphemerisDecoder__decode1045", .method n!"EphemerisDecoder.__decode1045"),
    (n!"_EphemerisDecoder__scale1045", .clsMethod n!"EphemerisDecoder.__scale1045"),
    (n!"_EphemerisDecoder__decode1044", .method n!"EphemerisDecoder.__decode1044"),
    (n!"_EphemerisDecoder__scale1044", .clsMethod n!"EphemerisDecoder.__scale1044"),
    (n!"_EphemerisDecoder__decode", .method n!"EphemerisDecoder.__decode"),
    (n!"scale", .clsMethod n!"EphemerisDecoder.scale"),
    (n!"decode", .method n!"EphemerisDecoder.decode")]
  fields := []
  isData := false
  isExc := false

/-- `SubdecoderEph.__init__`, sub_decoders/RTCM_EPH.py:726-731. -/
def fn_SubdecoderEph_P_init_P : FnDef where
  params := [n!"self", n!"bare_data"]
  defaults := [.bool false]
  body := [
    .assign (.attr (.name n!"self") n!"_SubdecoderEph__bare_data") (.name n!"bare_data"),
    .assign (.attr (.name n!"self") n!"decoder") (.call (.name n!"EphemerisDecoder") []),
    .assign (.attr (.name n!"self") n!"io") (.call (.name n!"SubDecoderInterface") [.const (.str "EPH"), .name n!"bare_data"]),
    .assign (.attr (.attr (.name n!"self") n!"io") n!"decode") (.attr (.name n!"self") n!"decode"),
    .assign (.attr (.attr (.name n!"self") n!"io") n!"actual_messages") (.call (.name n!"set") [.attr (.attr (.name n!"self") n!"decoder") n!"msgList"])]

/-- `SubdecoderEph.decode`, sub_decoders/RTCM_EPH.py:733-765. -/
def fn_SubdecoderEph_decode : FnDef where
  params := [n!"self", n!"buf"]
  defaults := []
  body := [
    .assign (.name n!"ephBlock") (.const (.none)),
    .assign (.name n!"msgNum") (.const (.int 0)),
    .try [
      .assign (.name n!"msgNum") (.call (.attr (.attr (.name n!"self") n!"decoder") n!"get_msg_num") [.name n!"buf"]),
      .assign (.name n!"ephBlock") (.call (.attr (.attr (.name n!"self") n!"decoder") n!"decode") [.name n!"buf", .attr (.name n!"self") n!"_SubdecoderEph__bare_data"]),
      .expr (.call (.attr (.name n!"logger") n!"info") [.fstr [.name n!"msgNum"]])] [
      .mk n!"ExceptionEphemerisDecoder" (some n!"ex") [
        .expr (.call (.attr (.name n!"logger") n!"error") [.bin .add (.fstr [.name n!"msgNum"]) (.index (.attr (.name n!"ex") n!"args") (.const (.int 0)))])],
      .mk n!"ExceptionBitsError" (some n!"ex") [
        .expr (.call (.attr (.name n!"logger") n!"error") [.bin .add (.fstr [.name n!"msgNum"]) (.index (.attr (.name n!"ex") n!"args") (.const (.int 0)))])],
      .mk n!"IndexError" (some n!"ie") [
        .expr (.call (.attr (.name n!"logger") n!"error") [.fstr [.name n!"msgNum", .call (.name n!"type") [.name n!"ie"], .name n!"ie"]])],
      .mk n!"ArithmeticError" (some n!"ae") [
        .expr (.call (.attr (.name n!"logger") n!"error") [.fstr [.name n!"msgNum", .call (.name n!"type") [.name n!"ae"], .name n!"ae"]])],
      .mk n!"Exception" (some n!"ex") [
        .expr (.call (.attr (.name n!"logger") n!"error") [.bin .add (.fstr [.name n!"msgNum"]) (.fstr [.call (.name n!"type") [.name n!"ex"], .name n!"ex"])])]] [
      .pass],
    .ret (.name n!"ephBlock")]

/-- `SubdecoderEph`, sub_decoders/RTCM_EPH.py:723-765. -/
def cls_SubdecoderEph : ClassDef where
  mro := [n!"SubdecoderEph"]
  members := [(n!"__init__", .method n!"SubdecoderEph.__init__"),
    (n!"decode", .method n!"SubdecoderEph.decode")]
  fields := []
  isData := false
  isExc := false

end Src
end PyCore
end Verif
