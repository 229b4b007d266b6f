import Verif.PyCore.Syntax

/-!
# decoder_top.py

Generated by fidelity/embed.py from the text of the module.
-/

namespace Verif
namespace PyCore
namespace Src

/-- `SubDecoderInterface.__make_MSM47O_spec`, decoder_top.py:47-54. -/
def fn_SubDecoderInterface_P_make_MSM47O_spec : FnDef where
  params := [n!"bare"]
  defaults := []
  body := [
    .assign (.name n!"messages") (.tuple [.const (.int 1074), .const (.int 1075), .const (.int 1076), .const (.int 1077)]),
    .assign (.name n!"$c") (.list []),
    .for (.name n!"i") (.call (.name n!"range") [.const (.int 7)]) [.for (.name n!"m") (.name n!"messages") [.expr (.call (.attr (.name n!"$c") n!"append") [.bin .add (.name n!"m") (.bin .mul (.name n!"i") (.const (.int 10)))])] []] [],
    .assign (.name n!"messages") (.name n!"$c"),
    .assign (.name n!"output_format") (.ite (.name n!"bare") (.name n!"BareObservablesMSM4567") (.name n!"ObservablesMSM")),
    .assign (.name n!"rv") (.call (.attr (.call (.name n!"dict") []) n!"fromkeys") [.name n!"messages", .name n!"output_format"]),
    .ret (.name n!"rv")]

/-- `SubDecoderInterface.__make_MSM13O_spec`, decoder_top.py:57-64. -/
def fn_SubDecoderInterface_P_make_MSM13O_spec : FnDef where
  params := [n!"bare"]
  defaults := []
  body := [
    .assign (.name n!"messages") (.tuple [.const (.int 1071), .const (.int 1072), .const (.int 1073)]),
    .assign (.name n!"$c") (.list []),
    .for (.name n!"i") (.call (.name n!"range") [.const (.int 7)]) [.for (.name n!"m") (.name n!"messages") [.expr (.call (.attr (.name n!"$c") n!"append") [.bin .add (.name n!"m") (.bin .mul (.name n!"i") (.const (.int 10)))])] []] [],
    .assign (.name n!"messages") (.name n!"$c"),
    .assign (.name n!"output_format") (.ite (.name n!"bare") (.name n!"BareObservablesMSM123") (.name n!"ObservablesMSM")),
    .assign (.name n!"rv") (.call (.attr (.call (.name n!"dict") []) n!"fromkeys") [.name n!"messages", .name n!"output_format"]),
    .ret (.name n!"rv")]

/-- `SubDecoderInterface.__make_EPH_spec`, decoder_top.py:67-80. -/
def fn_SubDecoderInterface_P_make_EPH_spec : FnDef where
  params := [n!"bare"]
  defaults := []
  body := [
    .assign (.name n!"rv") (.dict [.const (.int 1045), .const (.int 1046), .const (.int 1020), .const (.int 1019), .const (.int 1044), .const (.int 1042), .const (.int 1041)] [.name n!"EphGALF", .name n!"EphGALI", .name n!"EphGLO", .name n!"EphGPS", .name n!"EphQZS", .name n!"EphBDS", .name n!"EphNAVIC"]),
    .ret (.ite (.name n!"bare") (.name n!"rv") (.name n!"rv"))]

/-- `SubDecoderInterface.__make_BASE_spec`, decoder_top.py:83-98. -/
def fn_SubDecoderInterface_P_make_BASE_spec : FnDef where
  params := [n!"bare"]
  defaults := []
  body := [
    .assign (.name n!"rv") (.dict [.const (.int 1005), .const (.int 1006), .const (.int 1007), .const (.int 1008), .const (.int 1033), .const (.int 1013), .const (.int 1029), .const (.int 1230)] [.name n!"BaseRP", .name n!"BaseRPH", .name n!"BaseAD", .name n!"BaseADSN", .name n!"BaseADSNRC", .name n!"BaseSP", .name n!"BaseTS", .name n!"BaseGLBS"]),
    .ret (.ite (.name n!"bare") (.name n!"rv") (.name n!"rv"))]

/-- `SubDecoderInterface.__make_LEGO_spec`, decoder_top.py:101-105. -/
def fn_SubDecoderInterface_P_make_LEGO_spec : FnDef where
  params := [n!"bare"]
  defaults := []
  body := [
    .ret (.dict [] [])]

/-- `SubDecoderInterface.default_decode`, decoder_top.py:108-110. -/
def fn_SubDecoderInterface_default_decode : FnDef where
  params := [n!"buf"]
  defaults := []
  body := [
    .raise (.call (.name n!"NotImplementedError") [.const (.str "Virtual method 'decode' not defined")])]

/-- `SubDecoderInterface.__init__`, decoder_top.py:120-128. -/
def fn_SubDecoderInterface_P_init_P : FnDef where
  params := [n!"self", n!"subset", n!"bare"]
  defaults := [.bool false]
  body := [
    .assign (.name n!"spec_generator") (.call (.attr (.attr (.name n!"self") n!"_RTCM_MSG_SUBSETS") n!"get") [.name n!"subset"]),
    .ite (.not (.cmp .isNot (.name n!"spec_generator") (.const (.none)))) [.raise (.call (.name n!"AssertionError") [.fstr [.name n!"subset"]])] [],
    .assign (.attr (.name n!"self") n!"decode") (.attr (.name n!"self") n!"default_decode"),
    .assign (.attr (.name n!"self") n!"io_spec") (.call (.name n!"spec_generator") [.name n!"bare"]),
    .assign (.attr (.name n!"self") n!"subset") (.name n!"subset"),
    .assign (.attr (.name n!"self") n!"actual_messages") (.call (.name n!"set") [])]

/-- `SubDecoderInterface`, decoder_top.py:34-128. -/
def cls_SubDecoderInterface : ClassDef where
  mro := [n!"SubDecoderInterface"]
  members := [(n!"_SubDecoderInterface__make_MSM47O_spec", .static n!"SubDecoderInterface.__make_MSM47O_spec"),
    (n!"_SubDecoderInterface__make_MSM13O_spec", .static n!"SubDecoderInterface.__make_MSM13O_spec"),
    (n!"_SubDecoderInterface__make_EPH_spec", .static n!"SubDecoderInterface.__make_EPH_spec"),
    (n!"_SubDecoderInterface__make_BASE_spec", .static n!"SubDecoderInterface.__make_BASE_spec"),
    (n!"_SubDecoderInterface__make_LEGO_spec", .static n!"SubDecoderInterface.__make_LEGO_spec"),
    (n!"default_decode", .static n!"SubDecoderInterface.default_decode"),
    (n!"_RTCM_MSG_SUBSETS", .value (.dict [.const (.str "LEGO"), .const (.str "MSM13O"), .const (.str "MSM47O"), .const (.str "EPH"), .const (.str "BASE")] [.name n!"_SubDecoderInterface__make_LEGO_spec", .name n!"_SubDecoderInterface__make_MSM13O_spec", .name n!"_SubDecoderInterface__make_MSM47O_spec", .name n!"_SubDecoderInterface__make_EPH_spec", .name n!"_SubDecoderInterface__make_BASE_spec"])),
    (n!"__init__", .method n!"SubDecoderInterface.__init__")]
  fields := []
  isData := false
  isExc := false

/-- `ExceptionDecoderDecode`, decoder_top.py:134-135. -/
def cls_ExceptionDecoderDecode : ClassDef where
  mro := [n!"ExceptionDecoderDecode"]
  members := []
  fields := []
  isData := false
  isExc := true

/-- `DecoderTop.__init__`, decoder_top.py:158-168. -/
def fn_DecoderTop_P_init_P : FnDef where
  params := [n!"self"]
  defaults := []
  body := [
    .assign (.attr (.name n!"self") n!"decoders") (.call (.name n!"dict") []),
    .assign (.attr (.name n!"self") n!"_tail") (.const (.bytes [])),
    .assign (.attr (.name n!"self") n!"_skipped_some_bytes") (.const (.bool false)),
    .assign (.attr (.name n!"self") n!"_synchronized") (.const (.bool false)),
    .assign (.attr (.name n!"self") n!"_DecoderTop__pars_err_cnt") (.const (.int 0)),
    .assign (.attr (.name n!"self") n!"_DecoderTop__dec_attempts") (.const (.int 0)),
    .assign (.attr (.name n!"self") n!"_DecoderTop__dec_succeeded") (.const (.int 0)),
    .ite (.cmp .isNot (.name n!"TEST_DATA_GRABBER") (.const (.none))) [
      .assign (.attr (.name n!"self") n!"_TDG") (.call (.name n!"TDG") [])] []]

/-- `DecoderTop.register_decoder`, decoder_top.py:172-190. -/
def fn_DecoderTop_register_decoder : FnDef where
  params := [n!"self", n!"io"]
  defaults := []
  body := [
    .assign (.name n!"rv") (.const (.bool false)),
    .ite (.not (.call (.name n!"isinstance") [.name n!"io", .name n!"SubDecoderInterface"])) [
      .expr (.call (.attr (.name n!"logger") n!"error") [.fstr [.call (.name n!"type") [.name n!"io"]]])] [
      .ite (.cmp .eq (.attr (.name n!"io") n!"decode") (.attr (.name n!"SubDecoderInterface") n!"default_decode")) [
        .expr (.call (.attr (.name n!"logger") n!"error") [.fstr [.call (.name n!"type") [.name n!"io"]]])] [
        .ite (.cmp .eq (.call (.name n!"len") [.attr (.name n!"io") n!"actual_messages"]) (.const (.int 0))) [
          .expr (.call (.attr (.name n!"logger") n!"error") [.fstr [.call (.name n!"type") [.name n!"io"]]])] [
          .expr (.call (.attr (.attr (.name n!"self") n!"decoders") n!"update") [.dict [.attr (.name n!"io") n!"subset"] [.name n!"io"]]),
          .assign (.name n!"rv") (.const (.bool true))]]],
    .ret (.name n!"rv")]

/-- `DecoderTop.decode$undecorated`, decoder_top.py:193-218. -/
def fn_DecoderTop_decode_undecorated : FnDef where
  params := [n!"self", n!"msg"]
  defaults := []
  body := [
    .assign (.name n!"num") (.call (.attr (.name n!"self") n!"mnum") [.name n!"msg"]),
    .assign (.name n!"dec") (.const (.none)),
    .assign (.name n!"rv") (.const (.none)),
    .ite (.cmp .isNot (.name n!"TEST_DATA_GRABBER") (.const (.none))) [
      .expr (.call (.attr (.attr (.name n!"self") n!"_TDG") n!"save") [.name n!"num", .name n!"msg", .name n!"TEST_DATA_GRABBER"])] [],
    .for (.name n!"dec") (.call (.attr (.attr (.name n!"self") n!"decoders") n!"values") []) [
      .ite (.and (.cmp .mem (.name n!"num") (.call (.attr (.attr (.name n!"dec") n!"io_spec") n!"keys") [])) (.cmp .mem (.name n!"num") (.attr (.name n!"dec") n!"actual_messages"))) [
        .aug (.attr (.name n!"self") n!"_DecoderTop__dec_attempts") .add (.const (.int 1)),
        .assign (.name n!"rv") (.call (.attr (.name n!"dec") n!"decode") [.name n!"msg"]),
        .ite (.not (.call (.name n!"isinstance") [.name n!"rv", .index (.attr (.name n!"dec") n!"io_spec") (.name n!"num")])) [
          .raise (.call (.name n!"ExceptionDecoderDecode") [.fstr [.attr (.name n!"dec") n!"subset", .name n!"num"]])] [],
        .aug (.attr (.name n!"self") n!"_DecoderTop__dec_succeeded") .add (.const (.int 1)),
        .brk] []] [
      .expr (.call (.attr (.name n!"logger") n!"info") [.fstr [.name n!"num"]])],
    .ret (.name n!"rv")]

/-- `DecoderTop.decode`, decoder_top.py:193-218 in the wrapper of decoder_top.py:138-152. -/
def fn_DecoderTop_decode : FnDef where
  params := [n!"args"]
  defaults := []
  star := true
  body := [
    .assign (.name n!"rv") (.const (.none)),
    .try [
      .assign (.name n!"rv") (.callStar (.name n!"DecoderTop.decode$undecorated") n!"args")] [
      .mk n!"ExceptionDecoderDecode" (some n!"de") [
        .expr (.call (.attr (.name n!"logger") n!"warning") [.index (.attr (.name n!"de") n!"args") (.const (.int 0))])],
      .mk n!"Exception" (some n!"ex") [
        .expr (.call (.attr (.name n!"logger") n!"error") [.fstr [.call (.name n!"type") [.name n!"ex"], .name n!"ex"]])]] [],
    .ret (.name n!"rv")]

/-- `DecoderTop.catch_message`, decoder_top.py:222-271. -/
def fn_DecoderTop_catch_message : FnDef where
  params := [n!"self", n!"chunk"]
  defaults := []
  body := [
    .assign (.name n!"ret_list") (.list []),
    .assign (.attr (.name n!"self") n!"_tail") (.call (.attr (.const (.bytes [])) n!"join") [.list [.attr (.name n!"self") n!"_tail", .name n!"chunk"]]),
    .assign (.name n!"search_finished") (.cmp .eq (.attr (.name n!"self") n!"_tail") (.const (.bytes []))),
    .while (.not (.name n!"search_finished")) [
      .assign (.name n!"tail_0") (.call (.name n!"len") [.attr (.name n!"self") n!"_tail"]),
      .assign (.name n!"tail_length") (.call (.attr (.name n!"self") n!"_DecoderTop__rebase_to_D3") []),
      .ite (.and (.not (.attr (.name n!"self") n!"_skipped_some_bytes")) (.and (.cmp .lt (.name n!"tail_length") (.name n!"tail_0")) (.attr (.name n!"self") n!"_synchronized"))) [
        .assign (.attr (.name n!"self") n!"_skipped_some_bytes") (.const (.bool true)),
        .assign (.attr (.name n!"self") n!"_synchronized") (.const (.bool false))] [],
      .ite (.cmp .lt (.name n!"tail_length") (.const (.int 6))) [
        .assign (.name n!"search_finished") (.const (.bool true)),
        .assign (.name n!"msg_length") (.const (.int 0))] [
        .assign (.name n!"msg_length") (.call (.attr (.name n!"self") n!"mlen") [.attr (.name n!"self") n!"_tail"]),
        .assign (.name n!"search_finished") (.cmp .gt (.name n!"msg_length") (.name n!"tail_length"))],
      .ite (.not (.name n!"search_finished")) [
        .ite (.call (.attr (.name n!"self") n!"mcrc") [.attr (.name n!"self") n!"_tail"]) [
          .expr (.call (.attr (.name n!"ret_list") n!"append") [.slice (.attr (.name n!"self") n!"_tail") (.const (.int 0)) (.name n!"msg_length")]),
          .assign (.attr (.name n!"self") n!"_tail") (.slice (.attr (.name n!"self") n!"_tail") (.name n!"msg_length") (.const .none)),
          .ite (.attr (.name n!"self") n!"_skipped_some_bytes") [
            .aug (.attr (.name n!"self") n!"_DecoderTop__pars_err_cnt") .add (.const (.int 1)),
            .assign (.attr (.name n!"self") n!"_skipped_some_bytes") (.const (.bool false))] [],
          .assign (.attr (.name n!"self") n!"_synchronized") (.const (.bool true))] [
          .assign (.attr (.name n!"self") n!"_tail") (.slice (.attr (.name n!"self") n!"_tail") (.const (.int 1)) (.const .none))]] []] [],
    .ret (.name n!"ret_list")]

/-- `DecoderTop.__rebase_to_D3`, decoder_top.py:275-319. -/
def fn_DecoderTop_P_rebase_to_D3 : FnDef where
  params := [n!"self"]
  defaults := []
  body := [
    .ite (.cmp .eq (.attr (.name n!"self") n!"_tail") (.const (.bytes []))) [
      .ret (.const (.int 0))] [],
    .assign (.name n!"tail_len") (.call (.name n!"len") [.attr (.name n!"self") n!"_tail"]),
    .assign (.name n!"synch_ok") (.cmp .eq (.index (.attr (.name n!"self") n!"_tail") (.const (.int 0))) (.const (.int 211))),
    .ite (.cmp .eq (.name n!"tail_len") (.const (.int 1))) [
      .ret (.ite (.name n!"synch_ok") (.const (.int 1)) (.const (.int 0)))] [],
    .ite (.and (.name n!"synch_ok") (.cmp .ne (.bin .band (.index (.attr (.name n!"self") n!"_tail") (.const (.int 1))) (.const (.int 252))) (.const (.int 0)))) [
      .assign (.name n!"synch_ok") (.const (.bool false))] [],
    .ite (.name n!"synch_ok") [
      .ret (.name n!"tail_len")] [],
    .assign (.name n!"ptr") (.const (.int 1)),
    .while (.not (.name n!"synch_ok")) [
      .assign (.name n!"ofs") (.call (.attr (.attr (.name n!"self") n!"_tail") n!"find") [.call (.attr (.name n!"bytes") n!"fromhex") [.const (.str "D3")], .name n!"ptr"]),
      .ite (.cmp .eq (.name n!"ofs") (.neg (.const (.int 1)))) [
        .assign (.attr (.name n!"self") n!"_tail") (.const (.bytes [])),
        .brk] [
        .ite (.cmp .eq (.name n!"ofs") (.bin .sub (.name n!"tail_len") (.const (.int 1)))) [
          .assign (.attr (.name n!"self") n!"_tail") (.slice (.attr (.name n!"self") n!"_tail") (.name n!"ofs") (.bin .add (.name n!"ofs") (.const (.int 1)))),
          .assign (.name n!"synch_ok") (.const (.bool true))] [
          .ite (.cmp .eq (.bin .band (.index (.attr (.name n!"self") n!"_tail") (.bin .add (.name n!"ofs") (.const (.int 1)))) (.const (.int 252))) (.const (.int 0))) [
            .assign (.attr (.name n!"self") n!"_tail") (.slice (.attr (.name n!"self") n!"_tail") (.name n!"ofs") (.const .none)),
            .assign (.name n!"synch_ok") (.const (.bool true))] [
            .assign (.name n!"ptr") (.bin .add (.name n!"ofs") (.const (.int 1)))]]]] [
      .pass],
    .ret (.call (.name n!"len") [.attr (.name n!"self") n!"_tail"])]

/-- `DecoderTop.parse_errors`, decoder_top.py:322-324. -/
def fn_DecoderTop_parse_errors : FnDef where
  params := [n!"self"]
  defaults := []
  body := [
    .ret (.attr (.name n!"self") n!"_DecoderTop__pars_err_cnt")]

/-- `DecoderTop.dec_errors`, decoder_top.py:327-329. -/
def fn_DecoderTop_dec_errors : FnDef where
  params := [n!"self"]
  defaults := []
  body := [
    .ret (.bin .sub (.attr (.name n!"self") n!"_DecoderTop__dec_attempts") (.attr (.name n!"self") n!"_DecoderTop__dec_succeeded"))]

/-- `DecoderTop.dec_attempts`, decoder_top.py:332-334. -/
def fn_DecoderTop_dec_attempts : FnDef where
  params := [n!"self"]
  defaults := []
  body := [
    .ret (.attr (.name n!"self") n!"_DecoderTop__dec_attempts")]

/-- `DecoderTop.mnum$undecorated`, decoder_top.py:340-342. -/
def fn_DecoderTop_mnum_undecorated : FnDef where
  params := [n!"buf"]
  defaults := []
  body := [
    .ret (.call (.attr (.name n!"Bits") n!"getbitu") [.name n!"buf", .const (.int 24), .const (.int 12)])]

/-- `DecoderTop.mnum`, decoder_top.py:340-342 in the wrapper of utilities/bits.py:25-38. -/
def fn_DecoderTop_mnum : FnDef where
  params := [n!"args"]
  defaults := []
  star := true
  body := [
    .try [
      .assign (.name n!"rv") (.callStar (.name n!"DecoderTop.mnum$undecorated") n!"args")] [
      .mk n!"ExceptionBitsError" (some n!"be") [
        .expr (.call (.attr (.name n!"be") n!"process") [])],
      .mk n!"Exception" (some n!"ex") [
        .expr (.call (.attr (.name n!"logger") n!"error") [.fstr [.call (.name n!"type") [.name n!"ex"], .name n!"ex"]])]] [
      .ret (.name n!"rv")]]

/-- `DecoderTop.mlen$undecorated`, decoder_top.py:346-348. -/
def fn_DecoderTop_mlen_undecorated : FnDef where
  params := [n!"buf"]
  defaults := []
  body := [
    .ret (.bin .add (.call (.attr (.name n!"Bits") n!"getbitu") [.name n!"buf", .const (.int 14), .const (.int 10)]) (.const (.int 6)))]

/-- `DecoderTop.mlen`, decoder_top.py:346-348 in the wrapper of utilities/bits.py:25-38. -/
def fn_DecoderTop_mlen : FnDef where
  params := [n!"args"]
  defaults := []
  star := true
  body := [
    .try [
      .assign (.name n!"rv") (.callStar (.name n!"DecoderTop.mlen$undecorated") n!"args")] [
      .mk n!"ExceptionBitsError" (some n!"be") [
        .expr (.call (.attr (.name n!"be") n!"process") [])],
      .mk n!"Exception" (some n!"ex") [
        .expr (.call (.attr (.name n!"logger") n!"error") [.fstr [.call (.name n!"type") [.name n!"ex"], .name n!"ex"]])]] [
      .ret (.name n!"rv")]]

/-- `DecoderTop.mcrc$undecorated`, decoder_top.py:352-357. -/
def fn_DecoderTop_mcrc_undecorated : FnDef where
  params := [n!"buf"]
  defaults := []
  body := [
    .assign (.name n!"data_len") (.bin .add (.call (.attr (.name n!"Bits") n!"getbitu") [.name n!"buf", .const (.int 14), .const (.int 10)]) (.const (.int 3))),
    .assign (.name n!"crc_calc") (.call (.attr (.name n!"CRC24Q") n!"calc") [.slice (.name n!"buf") (.const (.int 0)) (.name n!"data_len")]),
    .assign (.name n!"crc_get") (.call (.attr (.name n!"Bits") n!"getbitu") [.name n!"buf", .bin .mul (.name n!"data_len") (.const (.int 8)), .const (.int 24)]),
    .ret (.cmp .eq (.name n!"crc_calc") (.name n!"crc_get"))]

/-- `DecoderTop.mcrc`, decoder_top.py:352-357 in the wrapper of utilities/bits.py:25-38. -/
def fn_DecoderTop_mcrc : FnDef where
  params := [n!"args"]
  defaults := []
  star := true
  body := [
    .try [
      .assign (.name n!"rv") (.callStar (.name n!"DecoderTop.mcrc$undecorated") n!"args")] [
      .mk n!"ExceptionBitsError" (some n!"be") [
        .expr (.call (.attr (.name n!"be") n!"process") [])],
      .mk n!"Exception" (some n!"ex") [
        .expr (.call (.attr (.name n!"logger") n!"error") [.fstr [.call (.name n!"type") [.name n!"ex"], .name n!"ex"]])]] [
      .ret (.name n!"rv")]]

/-- `DecoderTop`, decoder_top.py:155-357. -/
def cls_DecoderTop : ClassDef where
  mro := [n!"DecoderTop"]
  members := [(n!"__init__", .method n!"DecoderTop.__init__"),
    (n!"register_decoder", .method n!"DecoderTop.register_decoder"),
    (n!"decode", .method n!"DecoderTop.decode"),
    (n!"catch_message", .method n!"DecoderTop.catch_message"),
    (n!"_DecoderTop__rebase_to_D3", .method n!"DecoderTop.__rebase_to_D3"),
    (n!"parse_errors", .prop n!"DecoderTop.parse_errors"),
    (n!"dec_errors", .prop n!"DecoderTop.dec_errors"),
    (n!"dec_attempts", .prop n!"DecoderTop.dec_attempts"),
    (n!"mnum", .static n!"DecoderTop.mnum"),
    (n!"mlen", .static n!"DecoderTop.mlen"),
    (n!"mcrc", .static n!"DecoderTop.mcrc")]
  fields := []
  isData := false
  isExc := false

end Src
end PyCore
end Verif
