import Verif.PyCore.Syntax

/-!
# sub_decoders/RTCM_MSM.py

Generated by fidelity/embed.py from the text of the module.
-/

namespace Verif
namespace PyCore
namespace Src

/-- `ExceptionBareDataStructure`, sub_decoders/RTCM_MSM.py:29-30. -/
def cls_ExceptionBareDataStructure : ClassDef where
  mro := [n!"ExceptionBareDataStructure"]
  members := []
  fields := []
  isData := false
  isExc := true

/-- `BareObservablesMSM17Decoder.__init__`, sub_decoders/RTCM_MSM.py:49-52. -/
def fn_BareObservablesMSM17Decoder_P_init_P : FnDef where
  params := [n!"self"]
  defaults := []
  body := [
    .expr (.call (.attr (.call (.name n!"super") []) n!"__init__") []),
    .assign (.attr (.name n!"self") n!"_ready") (.const (.bool false))]

/-- `BareObservablesMSM17Decoder.ready`, sub_decoders/RTCM_MSM.py:55-57. -/
def fn_BareObservablesMSM17Decoder_ready : FnDef where
  params := [n!"self"]
  defaults := []
  body := [
    .ret (.and (.attr (.name n!"self") n!"_ready") (.cmp .isNot (.attr (.name n!"self") n!"bd") (.const (.none))))]

/-- `BareObservablesMSM17Decoder.bare_data`, sub_decoders/RTCM_MSM.py:60-62. -/
def fn_BareObservablesMSM17Decoder_bare_data : FnDef where
  params := [n!"self"]
  defaults := []
  body := [
    .ret (.ite (.attr (.name n!"self") n!"ready") (.attr (.name n!"self") n!"bd") (.const (.none)))]

/-- `BareObservablesMSM17Decoder.decode`, sub_decoders/RTCM_MSM.py:64-97. -/
def fn_BareObservablesMSM17Decoder_decode : FnDef where
  params := [n!"self", n!"buf"]
  defaults := []
  body := [
    .assign (.attr (.name n!"self") n!"_ready") (.const (.bool false)),
    .assign (.name n!"atr") (.call (.name n!"Attributes") []),
    .assign (.attr (.name n!"atr") n!"msg_number") (.call (.attr (.name n!"self") n!"get_msg_num") [.name n!"buf"]),
    .unpack [.attr (.name n!"atr") n!"gnss", .attr (.name n!"atr") n!"subset"] (.call (.attr (.name n!"MSMT") n!"msm_subset") [.attr (.name n!"atr") n!"msg_number"]),
    .ite (.or (.attr (.name n!"atr") n!"is_msm1") (.or (.attr (.name n!"atr") n!"is_msm2") (.attr (.name n!"atr") n!"is_msm3"))) [
      .assign (.attr (.name n!"self") n!"bd") (.call (.name n!"BareObservablesMSM123") [])] [
      .ite (.or (.attr (.name n!"atr") n!"is_msm4") (.or (.attr (.name n!"atr") n!"is_msm5") (.or (.attr (.name n!"atr") n!"is_msm6") (.attr (.name n!"atr") n!"is_msm7")))) [
        .assign (.attr (.name n!"self") n!"bd") (.call (.name n!"BareObservablesMSM4567") [])] [
        .raise (.call (.name n!"ExceptionBareDataStructure") [.fstr [.attr (.name n!"atr") n!"msg_number"]])]],
    .expr (.call (.attr (.attr (.name n!"self") n!"bd") n!"clear") []),
    .assign (.attr (.attr (.name n!"self") n!"bd") n!"atr") (.name n!"atr"),
    .assign (.name n!"offset") (.const (.int 24)),
    .assign (.name n!"offset") (.call (.attr (.name n!"self") n!"_BareObservablesMSM17Decoder__extract_hdr") [.name n!"buf", .name n!"offset"]),
    .ite (.cmp .eq (.attr (.attr (.attr (.name n!"self") n!"bd") n!"hdr") n!"sat_mask") (.const (.int 0))) [
      .assign (.attr (.name n!"self") n!"_ready") (.const (.bool true)),
      .ret (.const .none)] [],
    .ite (.call (.name n!"isinstance") [.attr (.name n!"self") n!"bd", .name n!"BareObservablesMSM4567"]) [
      .assign (.name n!"offset") (.call (.attr (.name n!"self") n!"_BareObservablesMSM17Decoder__extract_observables4567") [.name n!"buf", .name n!"offset"])] [
      .assign (.name n!"offset") (.call (.attr (.name n!"self") n!"_BareObservablesMSM17Decoder__extract_observables123") [.name n!"buf", .name n!"offset"])],
    .assign (.attr (.name n!"self") n!"_ready") (.const (.bool true)),
    .ret (.const .none)]

/-- `BareObservablesMSM17Decoder.get_msg_num$undecorated`, sub_decoders/RTCM_MSM.py:100-102. -/
def fn_BareObservablesMSM17Decoder_get_msg_num_undecorated : FnDef where
  params := [n!"self", n!"buf"]
  defaults := []
  body := [
    .ret (.call (.attr (.name n!"self") n!"getbitu") [.name n!"buf", .const (.int 24), .const (.int 12)])]

/-- `BareObservablesMSM17Decoder.get_msg_num`, sub_decoders/RTCM_MSM.py:100-102 in the wrapper of utilities/bits.py:25-38. -/
def fn_BareObservablesMSM17Decoder_get_msg_num : FnDef where
  params := [n!"args"]
  defaults := []
  star := true
  body := [
    .try [
      .assign (.name n!"rv") (.callStar (.name n!"BareObservablesMSM17Decoder.get_msg_num$undecorated") n!"args")] [
      .mk n!"ExceptionBitsError" (some n!"be") [
        .expr (.call (.attr (.name n!"be") n!"process") [])],
      .mk n!"Exception" (some n!"ex") [
        .expr (.call (.attr (.name n!"logger") n!"error") [.fstr [.call (.name n!"type") [.name n!"ex"], .name n!"ex"]])]] [
      .ret (.name n!"rv")]]

/-- `BareObservablesMSM17Decoder.__extract_hdr`, sub_decoders/RTCM_MSM.py:104-156. -/
def fn_BareObservablesMSM17Decoder_P_extract_hdr : FnDef where
  params := [n!"self", n!"buf", n!"offset"]
  defaults := []
  body := [
    .assign (.name n!"bits_elapsed") (.bin .mul (.bin .sub (.call (.attr (.name n!"self") n!"getbitu") [.name n!"buf", .const (.int 14), .const (.int 10)]) (.const (.int 3))) (.const (.int 8))),
    .ite (.cmp .lt (.name n!"bits_elapsed") (.attr (.name n!"self") n!"_BareObservablesMSM17Decoder__MIN_HDR_LEN")) [
      .raise (.call (.name n!"ExceptionBareDataStructure") [.fstr [.name n!"bits_elapsed"]])] [],
    .unpack [.name n!"msg_num", .name n!"offset"] (.tuple [.call (.attr (.name n!"self") n!"getbitu") [.name n!"buf", .name n!"offset", .const (.int 12)], .bin .add (.name n!"offset") (.const (.int 12))]),
    .unpack [.attr (.attr (.attr (.name n!"self") n!"bd") n!"hdr") n!"rs_id", .name n!"offset"] (.tuple [.call (.attr (.name n!"self") n!"getbitu") [.name n!"buf", .name n!"offset", .const (.int 12)], .bin .add (.name n!"offset") (.const (.int 12))]),
    .unpack [.attr (.attr (.attr (.name n!"self") n!"bd") n!"hdr") n!"time", .name n!"offset"] (.tuple [.call (.attr (.name n!"self") n!"getbitu") [.name n!"buf", .name n!"offset", .const (.int 30)], .bin .add (.name n!"offset") (.const (.int 30))]),
    .unpack [.attr (.attr (.attr (.name n!"self") n!"bd") n!"hdr") n!"MMB", .name n!"offset"] (.tuple [.call (.attr (.name n!"self") n!"getbitu") [.name n!"buf", .name n!"offset", .const (.int 1)], .bin .add (.name n!"offset") (.const (.int 1))]),
    .unpack [.attr (.attr (.attr (.name n!"self") n!"bd") n!"hdr") n!"IODS", .name n!"offset"] (.tuple [.call (.attr (.name n!"self") n!"getbitu") [.name n!"buf", .name n!"offset", .const (.int 3)], .bin .add (.name n!"offset") (.bin .add (.const (.int 3)) (.const (.int 7)))]),
    .unpack [.attr (.attr (.attr (.name n!"self") n!"bd") n!"hdr") n!"clk_steer", .name n!"offset"] (.tuple [.call (.attr (.name n!"self") n!"getbitu") [.name n!"buf", .name n!"offset", .const (.int 2)], .bin .add (.name n!"offset") (.const (.int 2))]),
    .unpack [.attr (.attr (.attr (.name n!"self") n!"bd") n!"hdr") n!"clk_ext", .name n!"offset"] (.tuple [.call (.attr (.name n!"self") n!"getbitu") [.name n!"buf", .name n!"offset", .const (.int 2)], .bin .add (.name n!"offset") (.const (.int 2))]),
    .unpack [.attr (.attr (.attr (.name n!"self") n!"bd") n!"hdr") n!"smth_indc", .name n!"offset"] (.tuple [.call (.attr (.name n!"self") n!"getbitu") [.name n!"buf", .name n!"offset", .const (.int 1)], .bin .add (.name n!"offset") (.const (.int 1))]),
    .unpack [.attr (.attr (.attr (.name n!"self") n!"bd") n!"hdr") n!"smth_intr", .name n!"offset"] (.tuple [.call (.attr (.name n!"self") n!"getbitu") [.name n!"buf", .name n!"offset", .const (.int 3)], .bin .add (.name n!"offset") (.const (.int 3))]),
    .unpack [.attr (.attr (.attr (.name n!"self") n!"bd") n!"hdr") n!"sat_mask", .name n!"offset"] (.tuple [.call (.attr (.name n!"self") n!"getbitu") [.name n!"buf", .name n!"offset", .const (.int 64)], .bin .add (.name n!"offset") (.const (.int 64))]),
    .assign (.attr (.attr (.attr (.name n!"self") n!"bd") n!"hdr") n!"sat_mask") (.call (.attr (.name n!"self") n!"revbitu") [.attr (.attr (.attr (.name n!"self") n!"bd") n!"hdr") n!"sat_mask", .const (.int 64)]),
    .unpack [.attr (.attr (.attr (.name n!"self") n!"bd") n!"hdr") n!"sgn_mask", .name n!"offset"] (.tuple [.call (.attr (.name n!"self") n!"getbitu") [.name n!"buf", .name n!"offset", .const (.int 32)], .bin .add (.name n!"offset") (.const (.int 32))]),
    .assign (.attr (.attr (.attr (.name n!"self") n!"bd") n!"hdr") n!"sgn_mask") (.call (.attr (.name n!"self") n!"revbitu") [.attr (.attr (.attr (.name n!"self") n!"bd") n!"hdr") n!"sgn_mask", .const (.int 32)]),
    .assign (.name n!"Nsat") (.call (.attr (.attr (.attr (.attr (.name n!"self") n!"bd") n!"hdr") n!"sat_mask") n!"bit_count") []),
    .assign (.name n!"Nsgn") (.call (.attr (.attr (.attr (.attr (.name n!"self") n!"bd") n!"hdr") n!"sgn_mask") n!"bit_count") []),
    .ite (.cmp .eq (.name n!"Nsat") (.const (.int 0))) [
      .assign (.name n!"Nbytes") (.bin .shr (.bin .add (.name n!"offset") (.const (.int 7))) (.const (.int 3))),
      .ite (.cmp .ne (.call (.name n!"len") [.name n!"buf"]) (.bin .add (.name n!"Nbytes") (.const (.int 3)))) [
        .raise (.call (.name n!"ExceptionBareDataStructure") [.fstr [.name n!"Nbytes", .call (.name n!"len") [.name n!"buf"]]])] [
        .ret (.name n!"offset")]] [],
    .assign (.name n!"cell_bits") (.bin .mul (.name n!"Nsat") (.name n!"Nsgn")),
    .aug (.name n!"bits_elapsed") .sub (.attr (.name n!"self") n!"_BareObservablesMSM17Decoder__MIN_HDR_LEN"),
    .ite (.cmp .gt (.name n!"cell_bits") (.const (.int 64))) [
      .raise (.call (.name n!"ExceptionBareDataStructure") [.fstr [.name n!"cell_bits"]])] [
      .ite (.cmp .gt (.name n!"cell_bits") (.name n!"bits_elapsed")) [
        .raise (.call (.name n!"ExceptionBareDataStructure") [.fstr [.name n!"cell_bits", .name n!"bits_elapsed"]])] []],
    .unpack [.name n!"cell_mask", .name n!"offset"] (.tuple [.call (.attr (.name n!"self") n!"getbitu") [.name n!"buf", .name n!"offset", .name n!"cell_bits"], .bin .add (.name n!"offset") (.name n!"cell_bits")]),
    .assign (.attr (.attr (.attr (.name n!"self") n!"bd") n!"hdr") n!"cell_mask") (.call (.attr (.name n!"self") n!"revbitu") [.name n!"cell_mask", .name n!"cell_bits"]),
    .ret (.name n!"offset")]

/-- `BareObservablesMSM17Decoder.__extract_observables4567`, sub_decoders/RTCM_MSM.py:158-259. -/
def fn_BareObservablesMSM17Decoder_P_extract_observables4567 : FnDef where
  params := [n!"self", n!"buf", n!"offset"]
  defaults := []
  body := [
    .assign (.name n!"Nsat") (.call (.attr (.attr (.attr (.attr (.name n!"self") n!"bd") n!"hdr") n!"sat_mask") n!"bit_count") []),
    .assign (.name n!"Nsgn") (.call (.attr (.attr (.attr (.attr (.name n!"self") n!"bd") n!"hdr") n!"sgn_mask") n!"bit_count") []),
    .assign (.name n!"Ncell") (.call (.attr (.attr (.attr (.attr (.name n!"self") n!"bd") n!"hdr") n!"cell_mask") n!"bit_count") []),
    .ite (.or (.cmp .eq (.name n!"Nsat") (.const (.int 0))) (.or (.cmp .eq (.name n!"Nsgn") (.const (.int 0))) (.cmp .eq (.name n!"Ncell") (.const (.int 0))))) [
      .raise (.call (.name n!"ExceptionBareDataStructure") [.fstr [.name n!"Nsat", .name n!"Nsgn", .name n!"Ncell"]])] [],
    .ite (.attr (.attr (.attr (.name n!"self") n!"bd") n!"atr") n!"is_msm7") [
      .assign (.name n!"est_len") (.bin .add (.bin .shr (.bin .add (.bin .add (.bin .add (.name n!"offset") (.bin .mul (.const (.int 36)) (.name n!"Nsat"))) (.bin .mul (.const (.int 80)) (.name n!"Ncell"))) (.const (.int 7))) (.const (.int 3))) (.const (.int 3))),
      .assign (.name n!"bw") (.gen (.name n!"b") n!"b" (.attr (.name n!"self") n!"_BareObservablesMSM17Decoder__BIT_WIDTH_7") (.const (.bool true)))] [
      .ite (.attr (.attr (.attr (.name n!"self") n!"bd") n!"atr") n!"is_msm6") [
        .assign (.name n!"est_len") (.bin .add (.bin .shr (.bin .add (.bin .add (.bin .add (.name n!"offset") (.bin .mul (.const (.int 18)) (.name n!"Nsat"))) (.bin .mul (.const (.int 65)) (.name n!"Ncell"))) (.const (.int 7))) (.const (.int 3))) (.const (.int 3))),
        .assign (.name n!"bw") (.gen (.name n!"b") n!"b" (.attr (.name n!"self") n!"_BareObservablesMSM17Decoder__BIT_WIDTH_6") (.const (.bool true)))] [
        .ite (.attr (.attr (.attr (.name n!"self") n!"bd") n!"atr") n!"is_msm5") [
          .assign (.name n!"est_len") (.bin .add (.bin .shr (.bin .add (.bin .add (.bin .add (.name n!"offset") (.bin .mul (.const (.int 36)) (.name n!"Nsat"))) (.bin .mul (.const (.int 63)) (.name n!"Ncell"))) (.const (.int 7))) (.const (.int 3))) (.const (.int 3))),
          .assign (.name n!"bw") (.gen (.name n!"b") n!"b" (.attr (.name n!"self") n!"_BareObservablesMSM17Decoder__BIT_WIDTH_5") (.const (.bool true)))] [
          .assign (.name n!"est_len") (.bin .add (.bin .shr (.bin .add (.bin .add (.bin .add (.name n!"offset") (.bin .mul (.const (.int 18)) (.name n!"Nsat"))) (.bin .mul (.const (.int 48)) (.name n!"Ncell"))) (.const (.int 7))) (.const (.int 3))) (.const (.int 3))),
          .assign (.name n!"bw") (.gen (.name n!"b") n!"b" (.attr (.name n!"self") n!"_BareObservablesMSM17Decoder__BIT_WIDTH_4") (.const (.bool true)))]]],
    .ite (.cmp .ne (.name n!"est_len") (.call (.name n!"len") [.name n!"buf"])) [
      .raise (.call (.name n!"ExceptionBareDataStructure") [.fstr [.name n!"est_len", .call (.name n!"len") [.name n!"buf"]]])] [],
    .assign (.name n!"bits") (.call (.name n!"next") [.name n!"bw"]),
    .assign (.attr (.attr (.attr (.name n!"self") n!"bd") n!"sat") n!"rng_ms") (.call (.name n!"tuple") [.gen (.call (.attr (.name n!"self") n!"getbitu") [.name n!"buf", .bin .add (.name n!"offset") (.bin .mul (.name n!"i") (.name n!"bits")), .name n!"bits"]) n!"i" (.call (.name n!"range") [.const (.int 0), .name n!"Nsat"]) (.const (.bool true))]),
    .aug (.name n!"offset") .add (.bin .mul (.name n!"bits") (.name n!"Nsat")),
    .ite (.or (.attr (.attr (.attr (.name n!"self") n!"bd") n!"atr") n!"is_msm5") (.attr (.attr (.attr (.name n!"self") n!"bd") n!"atr") n!"is_msm7")) [
      .assign (.name n!"bits") (.call (.name n!"next") [.name n!"bw"]),
      .assign (.attr (.attr (.attr (.name n!"self") n!"bd") n!"sat") n!"ext_info") (.call (.name n!"tuple") [.gen (.call (.attr (.name n!"self") n!"getbitu") [.name n!"buf", .bin .add (.name n!"offset") (.bin .mul (.name n!"i") (.name n!"bits")), .name n!"bits"]) n!"i" (.call (.name n!"range") [.const (.int 0), .name n!"Nsat"]) (.const (.bool true))]),
      .aug (.name n!"offset") .add (.bin .mul (.name n!"bits") (.name n!"Nsat"))] [],
    .assign (.name n!"bits") (.call (.name n!"next") [.name n!"bw"]),
    .assign (.attr (.attr (.attr (.name n!"self") n!"bd") n!"sat") n!"rng_rough") (.call (.name n!"tuple") [.gen (.call (.attr (.name n!"self") n!"getbitu") [.name n!"buf", .bin .add (.name n!"offset") (.bin .mul (.name n!"i") (.name n!"bits")), .name n!"bits"]) n!"i" (.call (.name n!"range") [.const (.int 0), .name n!"Nsat"]) (.const (.bool true))]),
    .aug (.name n!"offset") .add (.bin .mul (.name n!"bits") (.name n!"Nsat")),
    .ite (.or (.attr (.attr (.attr (.name n!"self") n!"bd") n!"atr") n!"is_msm5") (.attr (.attr (.attr (.name n!"self") n!"bd") n!"atr") n!"is_msm7")) [
      .assign (.name n!"bits") (.call (.name n!"next") [.name n!"bw"]),
      .assign (.attr (.attr (.attr (.name n!"self") n!"bd") n!"sat") n!"phase_rate_rough") (.call (.name n!"tuple") [.gen (.call (.attr (.name n!"self") n!"getbits") [.name n!"buf", .bin .add (.name n!"offset") (.bin .mul (.name n!"i") (.name n!"bits")), .name n!"bits"]) n!"i" (.call (.name n!"range") [.const (.int 0), .name n!"Nsat"]) (.const (.bool true))]),
      .aug (.name n!"offset") .add (.bin .mul (.name n!"bits") (.name n!"Nsat"))] [],
    .assign (.name n!"bits") (.call (.name n!"next") [.name n!"bw"]),
    .assign (.attr (.attr (.attr (.name n!"self") n!"bd") n!"sgn") n!"rng_fine") (.call (.name n!"tuple") [.gen (.call (.attr (.name n!"self") n!"getbits") [.name n!"buf", .bin .add (.name n!"offset") (.bin .mul (.name n!"i") (.name n!"bits")), .name n!"bits"]) n!"i" (.call (.name n!"range") [.const (.int 0), .name n!"Ncell"]) (.const (.bool true))]),
    .aug (.name n!"offset") .add (.bin .mul (.name n!"bits") (.name n!"Ncell")),
    .assign (.name n!"bits") (.call (.name n!"next") [.name n!"bw"]),
    .assign (.attr (.attr (.attr (.name n!"self") n!"bd") n!"sgn") n!"phase_fine") (.call (.name n!"tuple") [.gen (.call (.attr (.name n!"self") n!"getbits") [.name n!"buf", .bin .add (.name n!"offset") (.bin .mul (.name n!"i") (.name n!"bits")), .name n!"bits"]) n!"i" (.call (.name n!"range") [.const (.int 0), .name n!"Ncell"]) (.const (.bool true))]),
    .aug (.name n!"offset") .add (.bin .mul (.name n!"bits") (.name n!"Ncell")),
    .assign (.name n!"bits") (.call (.name n!"next") [.name n!"bw"]),
    .assign (.attr (.attr (.attr (.name n!"self") n!"bd") n!"sgn") n!"lock_time") (.call (.name n!"tuple") [.gen (.call (.attr (.name n!"self") n!"getbitu") [.name n!"buf", .bin .add (.name n!"offset") (.bin .mul (.name n!"i") (.name n!"bits")), .name n!"bits"]) n!"i" (.call (.name n!"range") [.const (.int 0), .name n!"Ncell"]) (.const (.bool true))]),
    .aug (.name n!"offset") .add (.bin .mul (.name n!"bits") (.name n!"Ncell")),
    .assign (.name n!"bits") (.call (.name n!"next") [.name n!"bw"]),
    .assign (.attr (.attr (.attr (.name n!"self") n!"bd") n!"sgn") n!"hc_indc") (.call (.name n!"tuple") [.gen (.call (.attr (.name n!"self") n!"getbitu") [.name n!"buf", .bin .add (.name n!"offset") (.bin .mul (.name n!"i") (.name n!"bits")), .name n!"bits"]) n!"i" (.call (.name n!"range") [.const (.int 0), .name n!"Ncell"]) (.const (.bool true))]),
    .aug (.name n!"offset") .add (.bin .mul (.name n!"bits") (.name n!"Ncell")),
    .assign (.name n!"bits") (.call (.name n!"next") [.name n!"bw"]),
    .assign (.attr (.attr (.attr (.name n!"self") n!"bd") n!"sgn") n!"c2n") (.call (.name n!"tuple") [.gen (.call (.attr (.name n!"self") n!"getbitu") [.name n!"buf", .bin .add (.name n!"offset") (.bin .mul (.name n!"i") (.name n!"bits")), .name n!"bits"]) n!"i" (.call (.name n!"range") [.const (.int 0), .name n!"Ncell"]) (.const (.bool true))]),
    .aug (.name n!"offset") .add (.bin .mul (.name n!"bits") (.name n!"Ncell")),
    .ite (.or (.attr (.attr (.attr (.name n!"self") n!"bd") n!"atr") n!"is_msm5") (.attr (.attr (.attr (.name n!"self") n!"bd") n!"atr") n!"is_msm7")) [
      .assign (.name n!"bits") (.call (.name n!"next") [.name n!"bw"]),
      .assign (.attr (.attr (.attr (.name n!"self") n!"bd") n!"sgn") n!"phase_rate_fine") (.call (.name n!"tuple") [.gen (.call (.attr (.name n!"self") n!"getbits") [.name n!"buf", .bin .add (.name n!"offset") (.bin .mul (.name n!"i") (.name n!"bits")), .name n!"bits"]) n!"i" (.call (.name n!"range") [.const (.int 0), .name n!"Ncell"]) (.const (.bool true))]),
      .aug (.name n!"offset") .add (.bin .mul (.name n!"bits") (.name n!"Ncell"))] [],
    .assign (.name n!"Nbytes") (.bin .shr (.bin .add (.name n!"offset") (.const (.int 7))) (.const (.int 3))),
    .ite (.cmp .ne (.call (.name n!"len") [.name n!"buf"]) (.bin .add (.name n!"Nbytes") (.const (.int 3)))) [
      .raise (.call (.name n!"ExceptionBareDataStructure") [.fstr [.name n!"Nbytes", .call (.name n!"len") [.name n!"buf"]]])] [],
    .ret (.name n!"offset")]

/-- `BareObservablesMSM17Decoder.__extract_observables123`, sub_decoders/RTCM_MSM.py:261-340. -/
def fn_BareObservablesMSM17Decoder_P_extract_observables123 : FnDef where
  params := [n!"self", n!"buf", n!"offset"]
  defaults := []
  body := [
    .assign (.name n!"Nsat") (.call (.attr (.attr (.attr (.attr (.name n!"self") n!"bd") n!"hdr") n!"sat_mask") n!"bit_count") []),
    .assign (.name n!"Nsgn") (.call (.attr (.attr (.attr (.attr (.name n!"self") n!"bd") n!"hdr") n!"sgn_mask") n!"bit_count") []),
    .assign (.name n!"Ncell") (.call (.attr (.attr (.attr (.attr (.name n!"self") n!"bd") n!"hdr") n!"cell_mask") n!"bit_count") []),
    .ite (.or (.cmp .eq (.name n!"Nsat") (.const (.int 0))) (.or (.cmp .eq (.name n!"Nsgn") (.const (.int 0))) (.cmp .eq (.name n!"Ncell") (.const (.int 0))))) [
      .raise (.call (.name n!"ExceptionBareDataStructure") [.fstr [.name n!"Nsat", .name n!"Nsgn", .name n!"Ncell"]])] [],
    .ite (.attr (.attr (.attr (.name n!"self") n!"bd") n!"atr") n!"is_msm1") [
      .assign (.name n!"est_len") (.bin .add (.bin .shr (.bin .add (.bin .add (.bin .add (.name n!"offset") (.bin .mul (.const (.int 10)) (.name n!"Nsat"))) (.bin .mul (.const (.int 15)) (.name n!"Ncell"))) (.const (.int 7))) (.const (.int 3))) (.const (.int 3))),
      .assign (.name n!"bw") (.gen (.name n!"b") n!"b" (.attr (.name n!"self") n!"_BareObservablesMSM17Decoder__BIT_WIDTH_1") (.const (.bool true)))] [
      .ite (.attr (.attr (.attr (.name n!"self") n!"bd") n!"atr") n!"is_msm2") [
        .assign (.name n!"est_len") (.bin .add (.bin .shr (.bin .add (.bin .add (.bin .add (.name n!"offset") (.bin .mul (.const (.int 10)) (.name n!"Nsat"))) (.bin .mul (.const (.int 28)) (.name n!"Ncell"))) (.const (.int 7))) (.const (.int 3))) (.const (.int 3))),
        .assign (.name n!"bw") (.gen (.name n!"b") n!"b" (.attr (.name n!"self") n!"_BareObservablesMSM17Decoder__BIT_WIDTH_2") (.const (.bool true)))] [
        .ite (.attr (.attr (.attr (.name n!"self") n!"bd") n!"atr") n!"is_msm3") [
          .assign (.name n!"est_len") (.bin .add (.bin .shr (.bin .add (.bin .add (.bin .add (.name n!"offset") (.bin .mul (.const (.int 10)) (.name n!"Nsat"))) (.bin .mul (.const (.int 43)) (.name n!"Ncell"))) (.const (.int 7))) (.const (.int 3))) (.const (.int 3))),
          .assign (.name n!"bw") (.gen (.name n!"b") n!"b" (.attr (.name n!"self") n!"_BareObservablesMSM17Decoder__BIT_WIDTH_3") (.const (.bool true)))] [
          .assign (.name n!"bw") (.gen (.name n!"b") n!"b" (.attr (.name n!"self") n!"_BareObservablesMSM17Decoder__BIT_WIDTH_3") (.const (.bool true))),
          .assign (.name n!"est_len") (.const (.int 0))]]],
    .ite (.cmp .ne (.name n!"est_len") (.call (.name n!"len") [.name n!"buf"])) [
      .raise (.call (.name n!"ExceptionBareDataStructure") [.fstr [.name n!"est_len", .call (.name n!"len") [.name n!"buf"]]])] [],
    .assign (.name n!"bits") (.call (.name n!"next") [.name n!"bw"]),
    .assign (.attr (.attr (.attr (.name n!"self") n!"bd") n!"sat") n!"rng_rough") (.call (.name n!"tuple") [.gen (.call (.attr (.name n!"self") n!"getbitu") [.name n!"buf", .bin .add (.name n!"offset") (.bin .mul (.name n!"i") (.name n!"bits")), .name n!"bits"]) n!"i" (.call (.name n!"range") [.const (.int 0), .name n!"Nsat"]) (.const (.bool true))]),
    .aug (.name n!"offset") .add (.bin .mul (.name n!"bits") (.name n!"Nsat")),
    .ite (.attr (.attr (.attr (.name n!"self") n!"bd") n!"atr") n!"is_msm1") [
      .assign (.name n!"bits") (.call (.name n!"next") [.name n!"bw"]),
      .assign (.attr (.attr (.attr (.name n!"self") n!"bd") n!"sgn") n!"rng_fine") (.call (.name n!"tuple") [.gen (.call (.attr (.name n!"self") n!"getbits") [.name n!"buf", .bin .add (.name n!"offset") (.bin .mul (.name n!"i") (.name n!"bits")), .name n!"bits"]) n!"i" (.call (.name n!"range") [.const (.int 0), .name n!"Ncell"]) (.const (.bool true))]),
      .aug (.name n!"offset") .add (.bin .mul (.name n!"bits") (.name n!"Ncell"))] [
      .ite (.attr (.attr (.attr (.name n!"self") n!"bd") n!"atr") n!"is_msm3") [
        .assign (.name n!"bits") (.call (.name n!"next") [.name n!"bw"]),
        .assign (.attr (.attr (.attr (.name n!"self") n!"bd") n!"sgn") n!"rng_fine") (.call (.name n!"tuple") [.gen (.call (.attr (.name n!"self") n!"getbits") [.name n!"buf", .bin .add (.name n!"offset") (.bin .mul (.name n!"i") (.name n!"bits")), .name n!"bits"]) n!"i" (.call (.name n!"range") [.const (.int 0), .name n!"Ncell"]) (.const (.bool true))]),
        .aug (.name n!"offset") .add (.bin .mul (.name n!"bits") (.name n!"Ncell"))] [],
      .assign (.name n!"bits") (.call (.name n!"next") [.name n!"bw"]),
      .assign (.attr (.attr (.attr (.name n!"self") n!"bd") n!"sgn") n!"phase_fine") (.call (.name n!"tuple") [.gen (.call (.attr (.name n!"self") n!"getbits") [.name n!"buf", .bin .add (.name n!"offset") (.bin .mul (.name n!"i") (.name n!"bits")), .name n!"bits"]) n!"i" (.call (.name n!"range") [.const (.int 0), .name n!"Ncell"]) (.const (.bool true))]),
      .aug (.name n!"offset") .add (.bin .mul (.name n!"bits") (.name n!"Ncell")),
      .assign (.name n!"bits") (.call (.name n!"next") [.name n!"bw"]),
      .assign (.attr (.attr (.attr (.name n!"self") n!"bd") n!"sgn") n!"lock_time") (.call (.name n!"tuple") [.gen (.call (.attr (.name n!"self") n!"getbitu") [.name n!"buf", .bin .add (.name n!"offset") (.bin .mul (.name n!"i") (.name n!"bits")), .name n!"bits"]) n!"i" (.call (.name n!"range") [.const (.int 0), .name n!"Ncell"]) (.const (.bool true))]),
      .aug (.name n!"offset") .add (.bin .mul (.name n!"bits") (.name n!"Ncell")),
      .assign (.name n!"bits") (.call (.name n!"next") [.name n!"bw"]),
      .assign (.attr (.attr (.attr (.name n!"self") n!"bd") n!"sgn") n!"hc_indc") (.call (.name n!"tuple") [.gen (.call (.attr (.name n!"self") n!"getbitu") [.name n!"buf", .bin .add (.name n!"offset") (.bin .mul (.name n!"i") (.name n!"bits")), .name n!"bits"]) n!"i" (.call (.name n!"range") [.const (.int 0), .name n!"Ncell"]) (.const (.bool true))]),
      .aug (.name n!"offset") .add (.bin .mul (.name n!"bits") (.name n!"Ncell"))],
    .assign (.name n!"Nbytes") (.bin .shr (.bin .add (.name n!"offset") (.const (.int 7))) (.const (.int 3))),
    .ite (.cmp .ne (.call (.name n!"len") [.name n!"buf"]) (.bin .add (.name n!"Nbytes") (.const (.int 3)))) [
      .raise (.call (.name n!"ExceptionBareDataStructure") [.fstr [.name n!"Nbytes", .call (.name n!"len") [.name n!"buf"]]])] [],
    .ret (.name n!"offset")]

/-- `BareObservablesMSM17Decoder`, sub_decoders/RTCM_MSM.py:36-340. -/
def cls_BareObservablesMSM17Decoder : ClassDef where
  mro := [n!"BareObservablesMSM17Decoder", n!"Bits"]
  members := [(n!"_BareObservablesMSM17Decoder__MIN_HDR_LEN", .value (.const (.int 169))),
    (n!"_BareObservablesMSM17Decoder__BIT_WIDTH_7", .value (.tuple [.const (.int 8), .const (.int 4), .const (.int 10), .const (.int 14), .const (.int 20), .const (.int 24), .const (.int 10), .const (.int 1), .const (.int 10), .const (.int 15)])),
    (n!"_BareObservablesMSM17Decoder__BIT_WIDTH_6", .value (.tuple [.const (.int 8), .const (.int 10), .const (.int 20), .const (.int 24), .const (.int 10), .const (.int 1), .const (.int 10)])),
    (n!"_BareObservablesMSM17Decoder__BIT_WIDTH_5", .value (.tuple [.const (.int 8), .const (.int 4), .const (.int 10), .const (.int 14), .const (.int 15), .const (.int 22), .const (.int 4), .const (.int 1), .const (.int 6), .const (.int 15)])),
    (n!"_BareObservablesMSM17Decoder__BIT_WIDTH_4", .value (.tuple [.const (.int 8), .const (.int 10), .const (.int 15), .const (.int 22), .const (.int 4), .const (.int 1), .const (.int 6)])),
    (n!"_BareObservablesMSM17Decoder__BIT_WIDTH_3", .value (.tuple [.const (.int 10), .const (.int 15), .const (.int 22), .const (.int 4), .const (.int 1)])),
    (n!"_BareObservablesMSM17Decoder__BIT_WIDTH_2", .value (.tuple [.const (.int 10), .const (.int 22), .const (.int 4), .const (.int 1)])),
    (n!"_BareObservablesMSM17Decoder__BIT_WIDTH_1", .value (.tuple [.const (.int 10), .const (.int 15)])),
    (n!"__init__", .method n!"BareObservablesMSM17Decoder.__init__"),
    (n!"ready", .prop n!"BareObservablesMSM17Decoder.ready"),
    (n!"bare_data", .prop n!"BareObservablesMSM17Decoder.bare_data"),
    (n!"decode", .method n!"BareObservablesMSM17Decoder.decode"),
    (n!"get_msg_num", .method n!"BareObservablesMSM17Decoder.get_msg_num"),
    (n!"_BareObservablesMSM17Decoder__extract_hdr", .method n!"BareObservablesMSM17Decoder.__extract_hdr"),
    (n!"_BareObservablesMSM17Decoder__extract_observables4567", .method n!"BareObservablesMSM17Decoder.__extract_observables4567"),
    (n!"_BareObservablesMSM17Decoder__extract_observables123", .method n!"BareObservablesMSM17Decoder.__extract_observables123")]
  fields := []
  isData := false
  isExc := false

/-- `Bare2Scaled.__init__`, sub_decoders/RTCM_MSM.py:377-380. -/
def fn_Bare2Scaled_P_init_P : FnDef where
  params := [n!"self"]
  defaults := []
  body := [
    .assign (.attr (.name n!"self") n!"sgn_map") (.tuple [.call (.name n!"str") []]),
    .assign (.attr (.name n!"self") n!"slots_per_sat") (.tuple [.call (.name n!"int") []]),
    .assign (.attr (.name n!"self") n!"sat_list") (.tuple [.call (.name n!"int") []])]

/-- `Bare2Scaled.convert`, sub_decoders/RTCM_MSM.py:382-445. -/
def fn_Bare2Scaled_convert : FnDef where
  params := [n!"self", n!"src"]
  defaults := []
  body := [
    .ite (.not (.call (.name n!"isinstance") [.name n!"src", .tuple [.name n!"BareObservablesMSM4567", .name n!"BareObservablesMSM123"]])) [
      .ret (.const (.none))] [],
    .ite (.cmp .eq (.attr (.attr (.name n!"src") n!"atr") n!"gnss") (.const (.str ""))) [
      .ret (.const (.none))] [],
    .assign (.name n!"rv") (.call (.name n!"ObservablesMSM") []),
    .assign (.attr (.name n!"rv") n!"atr") (.attr (.name n!"src") n!"atr"),
    .assign (.attr (.attr (.name n!"rv") n!"hdr") n!"time") (.attr (.name n!"src") n!"time"),
    .assign (.attr (.attr (.name n!"rv") n!"hdr") n!"day") (.attr (.name n!"src") n!"day"),
    .assign (.attr (.attr (.name n!"rv") n!"aux") n!"rs_id") (.attr (.attr (.name n!"src") n!"hdr") n!"rs_id"),
    .assign (.attr (.attr (.name n!"rv") n!"aux") n!"MMB") (.attr (.attr (.name n!"src") n!"hdr") n!"MMB"),
    .assign (.attr (.attr (.name n!"rv") n!"aux") n!"IODS") (.attr (.attr (.name n!"src") n!"hdr") n!"IODS"),
    .assign (.index (.attr (.attr (.name n!"rv") n!"aux") n!"clk_steer") (.const (.str "code"))) (.attr (.attr (.name n!"src") n!"hdr") n!"clk_steer"),
    .assign (.index (.attr (.attr (.name n!"rv") n!"aux") n!"clk_steer") (.const (.str "val"))) (.call (.attr (.name n!"MSMT") n!"unpack_clk_steer") [.attr (.attr (.name n!"src") n!"hdr") n!"clk_steer"]),
    .assign (.index (.attr (.attr (.name n!"rv") n!"aux") n!"clk_ext") (.const (.str "code"))) (.attr (.attr (.name n!"src") n!"hdr") n!"clk_ext"),
    .assign (.index (.attr (.attr (.name n!"rv") n!"aux") n!"clk_ext") (.const (.str "val"))) (.call (.attr (.name n!"MSMT") n!"unpack_clk_ext") [.attr (.attr (.name n!"src") n!"hdr") n!"clk_ext"]),
    .assign (.index (.attr (.attr (.name n!"rv") n!"aux") n!"smth_indc") (.const (.str "code"))) (.attr (.attr (.name n!"src") n!"hdr") n!"smth_indc"),
    .assign (.index (.attr (.attr (.name n!"rv") n!"aux") n!"smth_indc") (.const (.str "val"))) (.call (.attr (.name n!"MSMT") n!"unpack_smth_indc") [.attr (.attr (.name n!"src") n!"hdr") n!"smth_indc"]),
    .assign (.index (.attr (.attr (.name n!"rv") n!"aux") n!"smth_intr") (.const (.str "code"))) (.attr (.attr (.name n!"src") n!"hdr") n!"smth_intr"),
    .assign (.index (.attr (.attr (.name n!"rv") n!"aux") n!"smth_intr") (.const (.str "val"))) (.call (.attr (.name n!"MSMT") n!"unpack_smth_intr") [.attr (.attr (.name n!"src") n!"hdr") n!"smth_intr"]),
    .ite (.cmp .eq (.attr (.attr (.name n!"src") n!"hdr") n!"sat_mask") (.const (.int 0))) [
      .assign (.attr (.attr (.name n!"rv") n!"hdr") n!"sats") (.tuple []),
      .assign (.attr (.attr (.name n!"rv") n!"hdr") n!"signals") (.dict [] []),
      .ret (.name n!"rv")] [],
    .assign (.attr (.name n!"self") n!"sat_list") (.call (.name n!"tuple") [.gen (.bin .add (.name n!"i") (.const (.int 1))) n!"i" (.call (.name n!"range") [.const (.int 0), .const (.int 64)]) (.bin .band (.attr (.attr (.name n!"src") n!"hdr") n!"sat_mask") (.bin .shl (.const (.int 1)) (.name n!"i")))]),
    .assign (.name n!"sat_num") (.call (.name n!"len") [.attr (.name n!"self") n!"sat_list"]),
    .assign (.attr (.attr (.name n!"rv") n!"hdr") n!"sats") (.attr (.name n!"self") n!"sat_list"),
    .assign (.attr (.name n!"self") n!"sgn_map") (.gen (.bin .add (.name n!"i") (.const (.int 1))) n!"i" (.call (.name n!"range") [.const (.int 0), .const (.int 32)]) (.bin .band (.attr (.attr (.name n!"src") n!"hdr") n!"sgn_mask") (.bin .shl (.const (.int 1)) (.name n!"i")))),
    .assign (.attr (.name n!"self") n!"sgn_map") (.call (.name n!"tuple") [.gen (.call (.attr (.name n!"MSMT") n!"rnx_lit") [.attr (.attr (.name n!"src") n!"atr") n!"gnss", .name n!"s"]) n!"s" (.attr (.name n!"self") n!"sgn_map") (.const (.bool true))]),
    .assign (.attr (.attr (.name n!"rv") n!"hdr") n!"signals") (.dictComp (.name n!"s") (.call (.attr (.name n!"MSMT") n!"crr_frq") [.attr (.attr (.name n!"src") n!"atr") n!"gnss", .name n!"s"]) n!"s" (.attr (.name n!"self") n!"sgn_map")),
    .assign (.name n!"M") (.call (.attr (.attr (.attr (.name n!"src") n!"hdr") n!"sgn_mask") n!"bit_count") []),
    .assign (.name n!"mask") (.bin .sub (.bin .shl (.const (.int 1)) (.name n!"M")) (.const (.int 1))),
    .assign (.attr (.name n!"self") n!"slots_per_sat") (.call (.name n!"tuple") [.gen (.bin .band (.bin .shr (.attr (.attr (.name n!"src") n!"hdr") n!"cell_mask") (.bin .mul (.name n!"M") (.name n!"i"))) (.name n!"mask")) n!"i" (.call (.name n!"range") [.const (.int 0), .name n!"sat_num"]) (.const (.bool true))]),
    .ite (.call (.name n!"isinstance") [.name n!"src", .name n!"BareObservablesMSM4567"]) [
      .expr (.call (.attr (.name n!"self") n!"_convert_obs47") [.name n!"src", .name n!"rv"])] [
      .expr (.call (.attr (.name n!"self") n!"_convert_obs13") [.name n!"src", .name n!"rv"])],
    .ret (.name n!"rv")]

/-- `Bare2Scaled._convert_obs47`, sub_decoders/RTCM_MSM.py:447-583. -/
def fn_Bare2Scaled_convert_obs47 : FnDef where
  params := [n!"self", n!"src", n!"rv"]
  defaults := []
  body := [
    .ite (.or (.attr (.attr (.name n!"src") n!"atr") n!"is_msm7") (.attr (.attr (.name n!"src") n!"atr") n!"is_msm6")) [
      .assign (.name n!"scalers") (.attr (.name n!"self") n!"_Bare2Scaled__SCALERS67"),
      .assign (.name n!"checkers") (.attr (.name n!"self") n!"_Bare2Scaled__CHECKERS67")] [
      .assign (.name n!"scalers") (.attr (.name n!"self") n!"_Bare2Scaled__SCALERS45"),
      .assign (.name n!"checkers") (.attr (.name n!"self") n!"_Bare2Scaled__CHECKERS45")],
    .for (.name n!"sgn") (.attr (.name n!"self") n!"sgn_map") [
      .expr (.call (.attr (.attr (.attr (.name n!"rv") n!"obs") n!"rng") n!"update") [.dict [.name n!"sgn"] [.dict [] []]]),
      .expr (.call (.attr (.attr (.attr (.name n!"rv") n!"obs") n!"c2n") n!"update") [.dict [.name n!"sgn"] [.dict [] []]]),
      .expr (.call (.attr (.attr (.attr (.name n!"rv") n!"obs") n!"dpl") n!"update") [.dict [.name n!"sgn"] [.dict [] []]]),
      .expr (.call (.attr (.attr (.attr (.name n!"rv") n!"obs") n!"phs") n!"update") [.dict [.name n!"sgn"] [.dict [] []]]),
      .expr (.call (.attr (.attr (.attr (.name n!"rv") n!"obs") n!"ltm") n!"update") [.dict [.name n!"sgn"] [.dict [] []]]),
      .expr (.call (.attr (.attr (.attr (.name n!"rv") n!"obs") n!"hca") n!"update") [.dict [.name n!"sgn"] [.dict [] []]])] [],
    .unpack [.name n!"sat_idx", .name n!"sgn_idx"] (.tuple [.const (.int 0), .const (.int 0)]),
    .for (.name n!"slots") (.attr (.name n!"self") n!"slots_per_sat") [
      .assign (.name n!"sat") (.index (.attr (.name n!"self") n!"sat_list") (.name n!"sat_idx")),
      .assign (.name n!"rng") (.const (.flt 0 1)),
      .assign (.name n!"phase_rate") (.const (.flt 0 1)),
      .assign (.name n!"rng_ok") (.cmp .ne (.index (.attr (.attr (.name n!"src") n!"sat") n!"rng_ms") (.name n!"sat_idx")) (.const (.int 255))),
      .ite (.name n!"rng_ok") [
        .assign (.name n!"rng") (.bin .div (.call (.name n!"float") [.bin .add (.bin .shl (.index (.attr (.attr (.name n!"src") n!"sat") n!"rng_ms") (.name n!"sat_idx")) (.const (.int 10))) (.index (.attr (.attr (.name n!"src") n!"sat") n!"rng_rough") (.name n!"sat_idx"))]) (.const (.flt 1024 1)))] [
        .expr (.call (.attr (.name n!"logger") n!"warning") [.fstr [.attr (.attr (.name n!"src") n!"atr") n!"gnss", .name n!"sat", .name n!"sgn_idx"]])],
      .ite (.or (.attr (.attr (.name n!"src") n!"atr") n!"is_msm7") (.attr (.attr (.name n!"src") n!"atr") n!"is_msm5")) [
        .assign (.name n!"phase_rate_ok") (.cmp .ne (.bin .band (.index (.attr (.attr (.name n!"src") n!"sat") n!"phase_rate_rough") (.name n!"sat_idx")) (.const (.int 16383))) (.const (.int 8192))),
        .ite (.name n!"phase_rate_ok") [
          .assign (.name n!"phase_rate") (.call (.name n!"float") [.index (.attr (.attr (.name n!"src") n!"sat") n!"phase_rate_rough") (.name n!"sat_idx")])] [
          .expr (.call (.attr (.name n!"logger") n!"warning") [.fstr [.attr (.attr (.name n!"src") n!"atr") n!"gnss", .name n!"sat", .name n!"sgn_idx"]])]] [
        .assign (.name n!"phase_rate_ok") (.const (.bool false))],
      .assign (.name n!"i") (.const (.int 0)),
      .while (.name n!"slots") [
        .assign (.name n!"sgn") (.index (.attr (.name n!"self") n!"sgn_map") (.name n!"i")),
        .aug (.name n!"i") .add (.const (.int 1)),
        .assign (.name n!"slotExist") (.bin .band (.name n!"slots") (.const (.int 1))),
        .assign (.name n!"slots") (.bin .shr (.name n!"slots") (.const (.int 1))),
        .ite (.cmp .eq (.name n!"slotExist") (.const (.int 0))) [
          .cont] [],
        .ite (.name n!"rng_ok") [
          .ite (.call (.index (.name n!"checkers") (.const (.str "rng"))) [.index (.attr (.attr (.name n!"src") n!"sgn") n!"rng_fine") (.name n!"sgn_idx")]) [
            .assign (.name n!"tmp") (.bin .mul (.bin .add (.name n!"rng") (.bin .mul (.call (.name n!"float") [.index (.attr (.attr (.name n!"src") n!"sgn") n!"rng_fine") (.name n!"sgn_idx")]) (.index (.name n!"scalers") (.const (.str "rng"))))) (.attr (.name n!"MSMT") n!"CRNG_1MS")),
            .expr (.call (.attr (.index (.attr (.attr (.name n!"rv") n!"obs") n!"rng") (.name n!"sgn")) n!"update") [.dict [.name n!"sat"] [.name n!"tmp"]])] [
            .expr (.call (.attr (.name n!"logger") n!"info") [.fstr [.attr (.attr (.name n!"src") n!"atr") n!"gnss", .name n!"sat", .name n!"sgn"]])]] [],
        .ite (.name n!"rng_ok") [
          .ite (.call (.index (.name n!"checkers") (.const (.str "phs"))) [.index (.attr (.attr (.name n!"src") n!"sgn") n!"phase_fine") (.name n!"sgn_idx")]) [
            .assign (.name n!"tmp") (.bin .mul (.bin .add (.name n!"rng") (.bin .mul (.call (.name n!"float") [.index (.attr (.attr (.name n!"src") n!"sgn") n!"phase_fine") (.name n!"sgn_idx")]) (.index (.name n!"scalers") (.const (.str "phs"))))) (.attr (.name n!"MSMT") n!"CRNG_1MS")),
            .expr (.call (.attr (.index (.attr (.attr (.name n!"rv") n!"obs") n!"phs") (.name n!"sgn")) n!"update") [.dict [.name n!"sat"] [.name n!"tmp"]])] [
            .expr (.call (.attr (.name n!"logger") n!"info") [.fstr [.attr (.attr (.name n!"src") n!"atr") n!"gnss", .name n!"sat", .name n!"sgn"]])]] [],
        .ite (.name n!"phase_rate_ok") [
          .ite (.call (.index (.name n!"checkers") (.const (.str "dpl"))) [.index (.attr (.attr (.name n!"src") n!"sgn") n!"phase_rate_fine") (.name n!"sgn_idx")]) [
            .assign (.name n!"tmp") (.bin .add (.name n!"phase_rate") (.bin .mul (.call (.name n!"float") [.index (.attr (.attr (.name n!"src") n!"sgn") n!"phase_rate_fine") (.name n!"sgn_idx")]) (.index (.name n!"scalers") (.const (.str "dpl"))))),
            .expr (.call (.attr (.index (.attr (.attr (.name n!"rv") n!"obs") n!"dpl") (.name n!"sgn")) n!"update") [.dict [.name n!"sat"] [.name n!"tmp"]])] [
            .expr (.call (.attr (.name n!"logger") n!"info") [.fstr [.attr (.attr (.name n!"src") n!"atr") n!"gnss", .name n!"sat", .name n!"sgn"]])]] [],
        .assign (.name n!"tmp") (.call (.index (.name n!"scalers") (.const (.str "ltm"))) [.index (.attr (.attr (.name n!"src") n!"sgn") n!"lock_time") (.name n!"sgn_idx")]),
        .expr (.call (.attr (.index (.attr (.attr (.name n!"rv") n!"obs") n!"ltm") (.name n!"sgn")) n!"update") [.dict [.name n!"sat"] [.name n!"tmp"]]),
        .assign (.name n!"tmp") (.bin .mul (.call (.name n!"float") [.index (.attr (.attr (.name n!"src") n!"sgn") n!"c2n") (.name n!"sgn_idx")]) (.index (.name n!"scalers") (.const (.str "c2n")))),
        .expr (.call (.attr (.index (.attr (.attr (.name n!"rv") n!"obs") n!"c2n") (.name n!"sgn")) n!"update") [.dict [.name n!"sat"] [.name n!"tmp"]]),
        .assign (.name n!"tmp") (.cmp .ne (.index (.attr (.attr (.name n!"src") n!"sgn") n!"hc_indc") (.name n!"sgn_idx")) (.const (.int 0))),
        .expr (.call (.attr (.index (.attr (.attr (.name n!"rv") n!"obs") n!"hca") (.name n!"sgn")) n!"update") [.dict [.name n!"sat"] [.name n!"tmp"]]),
        .aug (.name n!"sgn_idx") .add (.const (.int 1))] [],
      .aug (.name n!"sat_idx") .add (.const (.int 1))] [],
    .for (.name n!"sgn") (.attr (.name n!"self") n!"sgn_map") [
      .ite (.cmp .eq (.const (.int 0)) (.call (.name n!"len") [.index (.attr (.attr (.name n!"rv") n!"obs") n!"dpl") (.name n!"sgn")])) [
        .del (.attr (.attr (.name n!"rv") n!"obs") n!"dpl") (.name n!"sgn")] [],
      .ite (.cmp .eq (.const (.int 0)) (.call (.name n!"len") [.index (.attr (.attr (.name n!"rv") n!"obs") n!"rng") (.name n!"sgn")])) [
        .del (.attr (.attr (.name n!"rv") n!"obs") n!"rng") (.name n!"sgn")] [],
      .ite (.cmp .eq (.const (.int 0)) (.call (.name n!"len") [.index (.attr (.attr (.name n!"rv") n!"obs") n!"c2n") (.name n!"sgn")])) [
        .del (.attr (.attr (.name n!"rv") n!"obs") n!"c2n") (.name n!"sgn")] [],
      .ite (.cmp .eq (.const (.int 0)) (.call (.name n!"len") [.index (.attr (.attr (.name n!"rv") n!"obs") n!"phs") (.name n!"sgn")])) [
        .del (.attr (.attr (.name n!"rv") n!"obs") n!"phs") (.name n!"sgn")] [],
      .ite (.cmp .eq (.const (.int 0)) (.call (.name n!"len") [.index (.attr (.attr (.name n!"rv") n!"obs") n!"ltm") (.name n!"sgn")])) [
        .del (.attr (.attr (.name n!"rv") n!"obs") n!"ltm") (.name n!"sgn")] [],
      .ite (.cmp .eq (.const (.int 0)) (.call (.name n!"len") [.index (.attr (.attr (.name n!"rv") n!"obs") n!"hca") (.name n!"sgn")])) [
        .del (.attr (.attr (.name n!"rv") n!"obs") n!"hca") (.name n!"sgn")] []] []]

/-- `Bare2Scaled._convert_obs13`, sub_decoders/RTCM_MSM.py:585-669. -/
def fn_Bare2Scaled_convert_obs13 : FnDef where
  params := [n!"self", n!"src", n!"rv"]
  defaults := []
  body := [
    .assign (.name n!"scalers") (.attr (.name n!"self") n!"_Bare2Scaled__SCALERS45"),
    .for (.name n!"sgn") (.attr (.name n!"self") n!"sgn_map") [
      .expr (.call (.attr (.attr (.attr (.name n!"rv") n!"obs") n!"rng") n!"update") [.dict [.name n!"sgn"] [.dict [] []]]),
      .expr (.call (.attr (.attr (.attr (.name n!"rv") n!"obs") n!"phs") n!"update") [.dict [.name n!"sgn"] [.dict [] []]]),
      .expr (.call (.attr (.attr (.attr (.name n!"rv") n!"obs") n!"ltm") n!"update") [.dict [.name n!"sgn"] [.dict [] []]]),
      .expr (.call (.attr (.attr (.attr (.name n!"rv") n!"obs") n!"hca") n!"update") [.dict [.name n!"sgn"] [.dict [] []]])] [],
    .unpack [.name n!"sat_idx", .name n!"sgn_idx"] (.tuple [.const (.int 0), .const (.int 0)]),
    .for (.name n!"slots") (.attr (.name n!"self") n!"slots_per_sat") [
      .assign (.name n!"sat") (.index (.attr (.name n!"self") n!"sat_list") (.name n!"sat_idx")),
      .assign (.name n!"rng") (.bin .div (.call (.name n!"float") [.index (.attr (.attr (.name n!"src") n!"sat") n!"rng_rough") (.name n!"sat_idx")]) (.const (.flt 1024 1))),
      .assign (.name n!"rng_ok") (.or (.attr (.attr (.name n!"src") n!"atr") n!"is_msm1") (.attr (.attr (.name n!"src") n!"atr") n!"is_msm3")),
      .assign (.name n!"ph_ok") (.or (.attr (.attr (.name n!"src") n!"atr") n!"is_msm2") (.attr (.attr (.name n!"src") n!"atr") n!"is_msm3")),
      .assign (.name n!"i") (.const (.int 0)),
      .while (.name n!"slots") [
        .assign (.name n!"sgn") (.index (.attr (.name n!"self") n!"sgn_map") (.name n!"i")),
        .aug (.name n!"i") .add (.const (.int 1)),
        .assign (.name n!"slotExist") (.bin .band (.name n!"slots") (.const (.int 1))),
        .assign (.name n!"slots") (.bin .shr (.name n!"slots") (.const (.int 1))),
        .ite (.cmp .eq (.name n!"slotExist") (.const (.int 0))) [
          .cont] [],
        .ite (.name n!"rng_ok") [
          .ite (.cmp .ne (.bin .band (.index (.attr (.attr (.name n!"src") n!"sgn") n!"rng_fine") (.name n!"sgn_idx")) (.const (.int 32767))) (.const (.int 16384))) [
            .assign (.name n!"tmp") (.bin .mul (.bin .add (.name n!"rng") (.bin .mul (.call (.name n!"float") [.index (.attr (.attr (.name n!"src") n!"sgn") n!"rng_fine") (.name n!"sgn_idx")]) (.index (.name n!"scalers") (.const (.str "rng"))))) (.attr (.name n!"MSMT") n!"CRNG_1MS")),
            .expr (.call (.attr (.index (.attr (.attr (.name n!"rv") n!"obs") n!"rng") (.name n!"sgn")) n!"update") [.dict [.name n!"sat"] [.name n!"tmp"]])] [
            .expr (.call (.attr (.name n!"logger") n!"info") [.fstr [.attr (.attr (.name n!"src") n!"atr") n!"gnss", .name n!"sat", .name n!"sgn"]]),
            .assign (.name n!"ph_ok") (.const (.bool false))]] [],
        .ite (.name n!"ph_ok") [
          .ite (.cmp .eq (.bin .band (.index (.attr (.attr (.name n!"src") n!"sgn") n!"phase_fine") (.name n!"sgn_idx")) (.const (.int 4194303))) (.const (.int 2097152))) [
            .expr (.call (.attr (.name n!"logger") n!"info") [.fstr [.attr (.attr (.name n!"src") n!"atr") n!"gnss", .name n!"sat", .name n!"sgn"]])] [
            .assign (.name n!"tmp") (.bin .mul (.bin .add (.name n!"rng") (.bin .mul (.call (.name n!"float") [.index (.attr (.attr (.name n!"src") n!"sgn") n!"phase_fine") (.name n!"sgn_idx")]) (.index (.name n!"scalers") (.const (.str "phs"))))) (.attr (.name n!"MSMT") n!"CRNG_1MS")),
            .expr (.call (.attr (.index (.attr (.attr (.name n!"rv") n!"obs") n!"phs") (.name n!"sgn")) n!"update") [.dict [.name n!"sat"] [.name n!"tmp"]]),
            .assign (.name n!"tmp") (.call (.index (.name n!"scalers") (.const (.str "ltm"))) [.index (.attr (.attr (.name n!"src") n!"sgn") n!"lock_time") (.name n!"sgn_idx")]),
            .expr (.call (.attr (.index (.attr (.attr (.name n!"rv") n!"obs") n!"ltm") (.name n!"sgn")) n!"update") [.dict [.name n!"sat"] [.name n!"tmp"]]),
            .assign (.name n!"tmp") (.cmp .ne (.index (.attr (.attr (.name n!"src") n!"sgn") n!"hc_indc") (.name n!"sgn_idx")) (.const (.int 0))),
            .expr (.call (.attr (.index (.attr (.attr (.name n!"rv") n!"obs") n!"hca") (.name n!"sgn")) n!"update") [.dict [.name n!"sat"] [.name n!"tmp"]])]] [],
        .aug (.name n!"sgn_idx") .add (.const (.int 1))] [],
      .aug (.name n!"sat_idx") .add (.const (.int 1))] [],
    .for (.name n!"sgn") (.attr (.name n!"self") n!"sgn_map") [
      .ite (.cmp .eq (.const (.int 0)) (.call (.name n!"len") [.index (.attr (.attr (.name n!"rv") n!"obs") n!"rng") (.name n!"sgn")])) [
        .del (.attr (.attr (.name n!"rv") n!"obs") n!"rng") (.name n!"sgn")] [],
      .ite (.cmp .eq (.const (.int 0)) (.call (.name n!"len") [.index (.attr (.attr (.name n!"rv") n!"obs") n!"phs") (.name n!"sgn")])) [
        .del (.attr (.attr (.name n!"rv") n!"obs") n!"phs") (.name n!"sgn")] [],
      .ite (.cmp .eq (.const (.int 0)) (.call (.name n!"len") [.index (.attr (.attr (.name n!"rv") n!"obs") n!"ltm") (.name n!"sgn")])) [
        .del (.attr (.attr (.name n!"rv") n!"obs") n!"ltm") (.name n!"sgn")] [],
      .ite (.cmp .eq (.const (.int 0)) (.call (.name n!"len") [.index (.attr (.attr (.name n!"rv") n!"obs") n!"hca") (.name n!"sgn")])) [
        .del (.attr (.attr (.name n!"rv") n!"obs") n!"hca") (.name n!"sgn")] []] []]

/-- `Bare2Scaled`, sub_decoders/RTCM_MSM.py:346-669. -/
def cls_Bare2Scaled : ClassDef where
  mro := [n!"Bare2Scaled"]
  members := [(n!"_Bare2Scaled__SCALERS67", .value (.dict [.const (.str "rng"), .const (.str "phs"), .const (.str "dpl"), .const (.str "ltm"), .const (.str "c2n")] [.bin .pow (.const (.int 2)) (.neg (.const (.int 29))), .bin .pow (.const (.int 2)) (.neg (.const (.int 31))), .const (.flt 1 10000), .attr (.name n!"MSMT") n!"unpack_tlock10", .const (.flt 1 16)])),
    (n!"_Bare2Scaled__SCALERS45", .value (.dict [.const (.str "rng"), .const (.str "phs"), .const (.str "dpl"), .const (.str "ltm"), .const (.str "c2n")] [.bin .pow (.const (.int 2)) (.neg (.const (.int 24))), .bin .pow (.const (.int 2)) (.neg (.const (.int 29))), .const (.flt 1 10000), .attr (.name n!"MSMT") n!"unpack_tlock4", .const (.int 1)])),
    (n!"_Bare2Scaled__CHECKERS67", .value (.dict [.const (.str "rng"), .const (.str "phs"), .const (.str "dpl")] [.attr (.name n!"MSMT") n!"isDF405_OK", .attr (.name n!"MSMT") n!"isDF406_OK", .attr (.name n!"MSMT") n!"isDF404_OK"])),
    (n!"_Bare2Scaled__CHECKERS45", .value (.dict [.const (.str "rng"), .const (.str "phs"), .const (.str "dpl")] [.attr (.name n!"MSMT") n!"isDF400_OK", .attr (.name n!"MSMT") n!"isDF401_OK", .attr (.name n!"MSMT") n!"isDF404_OK"])),
    (n!"__init__", .method n!"Bare2Scaled.__init__"),
    (n!"convert", .method n!"Bare2Scaled.convert"),
    (n!"_convert_obs47", .method n!"Bare2Scaled._convert_obs47"),
    (n!"_convert_obs13", .method n!"Bare2Scaled._convert_obs13")]
  fields := []
  isData := false
  isExc := false

/-- `decode_msm17`, sub_decoders/RTCM_MSM.py:675-728. -/
def fn_decode_msm17 : FnDef where
  params := [n!"is_bare_output", n!"buf"]
  defaults := []
  body := [
    .assign (.name n!"msm") (.call (.name n!"BareObservablesMSM17Decoder") []),
    .assign (.name n!"mnum") (.call (.attr (.name n!"msm") n!"get_msg_num") [.name n!"buf"]),
    .try [
      .expr (.call (.attr (.name n!"msm") n!"decode") [.name n!"buf"])] [
      .mk n!"ExceptionBareDataStructure" (some n!"ex") [
        .expr (.call (.attr (.name n!"logger") n!"error") [.bin .add (.fstr [.name n!"mnum"]) (.index (.attr (.name n!"ex") n!"args") (.const (.int 0)))])],
      .mk n!"ExceptionBitsError" (some n!"ex") [
        .expr (.call (.attr (.name n!"logger") n!"error") [.bin .add (.fstr [.name n!"mnum"]) (.index (.attr (.name n!"ex") n!"args") (.const (.int 0)))])],
      .mk n!"IndexError" (some n!"ie") [
        .expr (.call (.attr (.name n!"logger") n!"error") [.fstr [.name n!"mnum", .call (.name n!"type") [.name n!"ie"], .name n!"ie"]])],
      .mk n!"ArithmeticError" (some n!"ae") [
        .expr (.call (.attr (.name n!"logger") n!"error") [.fstr [.name n!"mnum", .call (.name n!"type") [.name n!"ae"], .name n!"ae"]])],
      .mk n!"Exception" (some n!"ex") [
        .expr (.call (.attr (.name n!"logger") n!"error") [.bin .add (.fstr [.name n!"mnum"]) (.fstr [.call (.name n!"type") [.name n!"ex"], .name n!"ex"])])]] [
      .pass],
    .ite (.not (.attr (.name n!"msm") n!"ready")) [
      .ret (.const (.none))] [],
    .ite (.name n!"is_bare_output") [
      .expr (.call (.attr (.name n!"logger") n!"info") [.fstr [.name n!"mnum", .attr (.attr (.name n!"msm") n!"bd") n!"time", .call (.attr (.attr (.attr (.attr (.name n!"msm") n!"bd") n!"hdr") n!"sat_mask") n!"bit_count") []]]),
      .ret (.attr (.name n!"msm") n!"bare_data")] [],
    .assign (.name n!"scaler") (.call (.name n!"Bare2Scaled") []),
    .assign (.name n!"rv") (.const (.none)),
    .try [
      .assign (.name n!"rv") (.call (.attr (.name n!"scaler") n!"convert") [.attr (.name n!"msm") n!"bare_data"])] [
      .mk n!"IndexError" (some n!"ie") [
        .expr (.call (.attr (.name n!"logger") n!"error") [.fstr [.call (.name n!"type") [.name n!"ie"], .name n!"ie"]])],
      .mk n!"ArithmeticError" (some n!"ae") [
        .expr (.call (.attr (.name n!"logger") n!"error") [.fstr [.call (.name n!"type") [.name n!"ae"], .name n!"ae"]])],
      .mk n!"Exception" (some n!"ex") [
        .expr (.call (.attr (.name n!"logger") n!"error") [.fstr [.call (.name n!"type") [.name n!"ex"], .name n!"ex"]])]] [
      .ite (.cmp .isNot (.name n!"rv") (.const (.none))) [
        .expr (.call (.attr (.name n!"logger") n!"info") [.fstr [.name n!"mnum", .attr (.attr (.name n!"rv") n!"hdr") n!"time", .call (.name n!"len") [.attr (.attr (.name n!"rv") n!"hdr") n!"sats"]]])] [
        .expr (.call (.attr (.name n!"logger") n!"error") [.fstr [.name n!"mnum"]])]],
    .ret (.name n!"rv")]

/-- `SubdecoderMSM4567.__init__`, sub_decoders/RTCM_MSM.py:734-738. -/
def fn_SubdecoderMSM4567_P_init_P : FnDef where
  params := [n!"self", n!"bare_data"]
  defaults := [.bool false]
  body := [
    .assign (.attr (.name n!"self") n!"_SubdecoderMSM4567__bare_data") (.name n!"bare_data"),
    .assign (.attr (.name n!"self") n!"io") (.call (.name n!"SubDecoderInterface") [.const (.str "MSM47O"), .name n!"bare_data"]),
    .assign (.attr (.attr (.name n!"self") n!"io") n!"decode") (.attr (.name n!"self") n!"decode"),
    .assign (.attr (.attr (.name n!"self") n!"io") n!"actual_messages") (.call (.name n!"set") [.call (.attr (.attr (.attr (.name n!"self") n!"io") n!"io_spec") n!"keys") []])]

/-- `SubdecoderMSM4567.decode`, sub_decoders/RTCM_MSM.py:740-742. -/
def fn_SubdecoderMSM4567_decode : FnDef where
  params := [n!"self", n!"buf"]
  defaults := []
  body := [
    .ret (.call (.name n!"decode_msm17") [.attr (.name n!"self") n!"_SubdecoderMSM4567__bare_data", .name n!"buf"])]

/-- `SubdecoderMSM4567`, sub_decoders/RTCM_MSM.py:731-742. -/
def cls_SubdecoderMSM4567 : ClassDef where
  mro := [n!"SubdecoderMSM4567"]
  members := [(n!"__init__", .method n!"SubdecoderMSM4567.__init__"),
    (n!"decode", .method n!"SubdecoderMSM4567.decode")]
  fields := []
  isData := false
  isExc := false

/-- `SubdecoderMSM123.__init__`, sub_decoders/RTCM_MSM.py:748-752. -/
def fn_SubdecoderMSM123_P_init_P : FnDef where
  params := [n!"self", n!"bare_data"]
  defaults := [.bool false]
  body := [
    .assign (.attr (.name n!"self") n!"_SubdecoderMSM123__bare_data") (.name n!"bare_data"),
    .assign (.attr (.name n!"self") n!"io") (.call (.name n!"SubDecoderInterface") [.const (.str "MSM13O"), .name n!"bare_data"]),
    .assign (.attr (.attr (.name n!"self") n!"io") n!"decode") (.attr (.name n!"self") n!"decode"),
    .assign (.attr (.attr (.name n!"self") n!"io") n!"actual_messages") (.call (.name n!"set") [.call (.attr (.attr (.attr (.name n!"self") n!"io") n!"io_spec") n!"keys") []])]

/-- `SubdecoderMSM123.decode`, sub_decoders/RTCM_MSM.py:754-756. -/
def fn_SubdecoderMSM123_decode : FnDef where
  params := [n!"self", n!"buf"]
  defaults := []
  body := [
    .ret (.call (.name n!"decode_msm17") [.attr (.name n!"self") n!"_SubdecoderMSM123__bare_data", .name n!"buf"])]

/-- `SubdecoderMSM123`, sub_decoders/RTCM_MSM.py:745-756. -/
def cls_SubdecoderMSM123 : ClassDef where
  mro := [n!"SubdecoderMSM123"]
  members := [(n!"__init__", .method n!"SubdecoderMSM123.__init__"),
    (n!"decode", .method n!"SubdecoderMSM123.decode")]
  fields := []
  isData := false
  isExc := false

end Src
end PyCore
end Verif
