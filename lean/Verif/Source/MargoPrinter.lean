import Verif.PyCore.Syntax

/-!
# printers/margo_printer.py

Generated by fidelity/embed.py from the text of the module. Left out:
`PrintMARGO`, `MargoCore.format_obs_string`, `MargoCore.make_header`.
-/

namespace Verif
namespace PyCore
namespace Src

/-- `MargoControls.__init__`, printers/margo_printer.py:34-63. -/
def fn_MargoControls_P_init_P : FnDef where
  params := [n!"self"]
  defaults := []
  body := [
    .assign (.attr (.name n!"self") n!"half_cycle_enable") (.const (.bool false)),
    .assign (.attr (.name n!"self") n!"lock_time_enable") (.const (.bool false)),
    .assign (.attr (.name n!"self") n!"gps_utc_shift") (.const (.int 18)),
    .assign (.attr (.name n!"self") n!"glo_lit_tab") (.dict [.const (.int 1), .const (.int 2), .const (.int 3), .const (.int 4), .const (.int 5), .const (.int 6), .const (.int 7), .const (.int 8), .const (.int 9), .const (.int 10), .const (.int 11), .const (.int 12), .const (.int 13), .const (.int 14), .const (.int 15), .const (.int 16), .const (.int 17), .const (.int 18), .const (.int 19), .const (.int 20), .const (.int 21), .const (.int 22), .const (.int 23), .const (.int 24)] [.const (.int 1), .neg (.const (.int 4)), .const (.int 5), .const (.int 6), .const (.int 1), .neg (.const (.int 4)), .const (.int 5), .const (.int 6), .neg (.const (.int 2)), .neg (.const (.int 7)), .const (.int 0), .neg (.const (.int 1)), .neg (.const (.int 2)), .neg (.const (.int 7)), .const (.int 0), .neg (.const (.int 1)), .const (.int 4), .neg (.const (.int 3)), .const (.int 3), .const (.int 2), .const (.int 4), .neg (.const (.int 3)), .const (.int 3), .const (.int 2)])]

/-- `MargoControls`, printers/margo_printer.py:24-63. -/
def cls_MargoControls : ClassDef where
  mro := [n!"MargoControls"]
  members := [(n!"__slots__", .value (.tuple [.const (.str "half_cycle_enable"), .const (.str "lock_time_enable"), .const (.str "gps_utc_shift"), .const (.str "glo_lit_tab")])),
    (n!"__init__", .method n!"MargoControls.__init__")]
  fields := []
  isData := false
  isExc := false

/-- `MargoCore.__init__`, printers/margo_printer.py:71-72. -/
def fn_MargoCore_P_init_P : FnDef where
  params := [n!"self", n!"ctrl"]
  defaults := []
  body := [
    .assign (.attr (.name n!"self") n!"ctrl") (.ite (.cmp .isNot (.name n!"ctrl") (.const (.none))) (.name n!"ctrl") (.attr (.name n!"self") n!"_DEFAULT_CONTROLS"))]

/-- `MargoCore.literals`, printers/margo_printer.py:75-77. -/
def fn_MargoCore_literals : FnDef where
  params := [n!"self"]
  defaults := []
  body := [
    .ret (.attr (.attr (.name n!"self") n!"ctrl") n!"glo_lit_tab")]

/-- `MargoCore.utc_shift`, printers/margo_printer.py:80-82. -/
def fn_MargoCore_utc_shift : FnDef where
  params := [n!"self"]
  defaults := []
  body := [
    .ret (.attr (.attr (.name n!"self") n!"ctrl") n!"gps_utc_shift")]

/-- `MargoCore.HC_EN`, printers/margo_printer.py:85-87. -/
def fn_MargoCore_HC_EN : FnDef where
  params := [n!"self"]
  defaults := []
  body := [
    .ret (.attr (.attr (.name n!"self") n!"ctrl") n!"half_cycle_enable")]

/-- `MargoCore.LT_EN`, printers/margo_printer.py:90-92. -/
def fn_MargoCore_LT_EN : FnDef where
  params := [n!"self"]
  defaults := []
  body := [
    .ret (.attr (.attr (.name n!"self") n!"ctrl") n!"lock_time_enable")]

/-- `MargoCore.DIRNAME`, printers/margo_printer.py:106-110. -/
def fn_MargoCore_DIRNAME : FnDef where
  params := [n!"cls", n!"gnss"]
  defaults := []
  body := [
    .assign (.name n!"rv") (.call (.attr (.attr (.name n!"cls") n!"_MargoCore__OFILE_LT1") n!"get") [.name n!"gnss"]),
    .ite (.not (.cmp .isNot (.name n!"rv") (.const (.none)))) [.raise (.call (.name n!"AssertionError") [.fstr [.name n!"gnss"]])] [],
    .ret (.name n!"rv")]

/-- `MargoCore.GNSSTUPLE`, printers/margo_printer.py:113-115. -/
def fn_MargoCore_GNSSTUPLE : FnDef where
  params := [n!"cls"]
  defaults := []
  body := [
    .ret (.call (.attr (.attr (.name n!"cls") n!"_MargoCore__OFILE_LT1") n!"keys") [])]

/-- `MargoCore.FORMAT`, printers/margo_printer.py:134-140. -/
def fn_MargoCore_FORMAT : FnDef where
  params := [n!"cls", n!"parameter"]
  defaults := []
  body := [
    .assign (.name n!"rv") (.call (.attr (.attr (.name n!"cls") n!"_MargoCore__FORMAT_COLUMNS") n!"get") [.name n!"parameter"]),
    .ite (.not (.cmp .isNot (.name n!"rv") (.const (.none)))) [.raise (.call (.name n!"AssertionError") [.fstr [.name n!"parameter"]])] [],
    .ret (.name n!"rv")]

/-- `MargoCore.MARGO_FILE_ID`, printers/margo_printer.py:143-149. -/
def fn_MargoCore_MARGO_FILE_ID : FnDef where
  params := [n!"cls", n!"parameter"]
  defaults := []
  body := [
    .assign (.name n!"rv") (.call (.attr (.attr (.name n!"cls") n!"_MargoCore__MARGO_FILE_ID") n!"get") [.name n!"parameter"]),
    .ite (.not (.cmp .isNot (.name n!"rv") (.const (.none)))) [.raise (.call (.name n!"AssertionError") [.fstr [.name n!"parameter"]])] [],
    .ret (.name n!"rv")]

/-- `MargoCore.MAX_SATS`, printers/margo_printer.py:152-156. -/
def fn_MargoCore_MAX_SATS : FnDef where
  params := [n!"cls", n!"gnss"]
  defaults := []
  body := [
    .assign (.name n!"rv") (.call (.attr (.attr (.name n!"cls") n!"_MargoCore__MAX_SATS") n!"get") [.name n!"gnss"]),
    .ite (.not (.cmp .isNot (.name n!"rv") (.const (.none)))) [.raise (.call (.name n!"AssertionError") [.fstr [.name n!"gnss"]])] [],
    .ret (.name n!"rv")]

/-- `MargoCore.make_obs_file_name`, printers/margo_printer.py:159-174. -/
def fn_MargoCore_make_obs_file_name : FnDef where
  params := [n!"cls", n!"gnss", n!"param", n!"sgn", n!"postf"]
  defaults := []
  body := [
    .assign (.name n!"rv") (.const (.str "")),
    .ite (.not (.cmp .mem (.name n!"gnss") (.call (.attr (.name n!"cls") n!"GNSSTUPLE") []))) [
      .ret (.name n!"rv")] [],
    .ite (.or (.cmp .ne (.call (.name n!"len") [.name n!"sgn"]) (.const (.int 2))) (.cmp .ne (.call (.name n!"len") [.name n!"param"]) (.const (.int 1)))) [
      .ret (.name n!"rv")] [],
    .ite (.cmp .gt (.call (.name n!"len") [.name n!"postf"]) (.const (.int 5))) [
      .assign (.name n!"postf") (.slice (.name n!"postf") (.const (.int 0)) (.const (.int 5)))] [],
    .assign (.name n!"rv") (.bin .add (.bin .add (.bin .add (.bin .add (.bin .add (.name n!"gnss") (.name n!"param")) (.name n!"sgn")) (.const (.str "_"))) (.name n!"postf")) (.const (.str ".obs"))),
    .ret (.name n!"rv")]

/-- `MargoCore.conv_to_gps_time`, printers/margo_printer.py:177-189. -/
def fn_MargoCore_conv_to_gps_time : FnDef where
  params := [n!"cls", n!"time", n!"day", n!"utc_shift", n!"src_gnss"]
  defaults := []
  body := [
    .ite (.cmp .eq (.name n!"src_gnss") (.const (.str "B"))) [
      .assign (.name n!"rv") (.bin .add (.name n!"time") (.const (.int 14000))),
      .ret (.ite (.cmp .ge (.name n!"rv") (.const (.int 604800000))) (.bin .sub (.name n!"rv") (.const (.int 604800000))) (.name n!"rv"))] [
      .ite (.cmp .eq (.name n!"src_gnss") (.const (.str "R"))) [
        .assign (.name n!"rv") (.bin .sub (.bin .add (.name n!"time") (.bin .mul (.name n!"day") (.const (.int 86400000)))) (.bin .mul (.bin .sub (.const (.int 10800)) (.name n!"utc_shift")) (.const (.int 1000)))),
        .ret (.ite (.cmp .lt (.name n!"rv") (.const (.int 0))) (.bin .add (.name n!"rv") (.const (.int 604800000))) (.name n!"rv"))] [
        .ret (.name n!"time")]]]

/-- `MargoCore.make_crr_frq`, printers/margo_printer.py:191-202. -/
def fn_MargoCore_make_crr_frq : FnDef where
  params := [n!"self", n!"gnss", n!"sgn"]
  defaults := []
  body := [
    .assign (.name n!"frq") (.bin .mul (.tuple [.call (.attr (.name n!"MSMT") n!"crr_frq") [.name n!"gnss", .name n!"sgn"]]) (.call (.attr (.name n!"self") n!"MAX_SATS") [.name n!"gnss"])),
    .ite (.cmp .ne (.name n!"gnss") (.const (.str "R"))) [
      .ret (.name n!"frq")] [],
    .ite (.cmp .notMem (.name n!"sgn") (.tuple [.const (.str "1C"), .const (.str "1P"), .const (.str "2C"), .const (.str "2P")])) [
      .ret (.name n!"frq")] [],
    .assign (.name n!"df") (.ite (.cmp .mem (.name n!"sgn") (.tuple [.const (.str "1C"), .const (.str "1P")])) (.const (.flt 9 16)) (.const (.flt 7 16))),
    .assign (.name n!"LT") (.attr (.name n!"self") n!"literals"),
    .assign (.name n!"frq") (.call (.name n!"tuple") [.gen (.bin .add (.index (.name n!"$g") (.const (.int 1))) (.bin .mul (.name n!"df") (.index (.name n!"LT") (.index (.name n!"$g") (.const (.int 0)))))) n!"$g" (.call (.name n!"enumerate") [.name n!"frq", .const (.int 1)]) (.const (.bool true))]),
    .ret (.name n!"frq")]

/-- `MargoCore.make_lambdas`, printers/margo_printer.py:204-210. -/
def fn_MargoCore_make_lambdas : FnDef where
  params := [n!"self", n!"gnss", n!"sgn"]
  defaults := []
  body := [
    .assign (.name n!"frequencies") (.call (.attr (.name n!"self") n!"make_crr_frq") [.name n!"gnss", .name n!"sgn"]),
    .assign (.name n!"lm") (.gen (.bin .div (.bin .mul (.attr (.name n!"MSMT") n!"CRNG_1MS") (.const (.flt 1 1000))) (.name n!"f")) n!"f" (.name n!"frequencies") (.const (.bool true))),
    .ret (.call (.name n!"tuple") [.name n!"lm"])]

/-- `MargoCore.ObservablesMSMtoPrintBuffer`, printers/margo_printer.py:212-343. -/
def fn_MargoCore_ObservablesMSMtoPrintBuffer : FnDef where
  params := [n!"self", n!"pdata"]
  defaults := []
  body := [
    .assign (.name n!"rv") (.call (.name n!"dict") []),
    .assign (.name n!"gnss") (.attr (.attr (.name n!"pdata") n!"atr") n!"gnss"),
    .ite (.not (.cmp .mem (.name n!"gnss") (.call (.attr (.name n!"self") n!"GNSSTUPLE") []))) [.raise (.call (.name n!"AssertionError") [.fstr [.name n!"gnss"]])] [],
    .ite (.cmp .ne (.name n!"gnss") (.const (.str "G"))) [
      .assign (.name n!"time") (.call (.attr (.name n!"self") n!"conv_to_gps_time") [.attr (.attr (.name n!"pdata") n!"hdr") n!"time", .attr (.attr (.name n!"pdata") n!"hdr") n!"day", .attr (.name n!"self") n!"utc_shift", .name n!"gnss"])] [
      .assign (.name n!"time") (.attr (.attr (.name n!"pdata") n!"hdr") n!"time")],
    .assign (.name n!"max_sats") (.call (.attr (.name n!"self") n!"MAX_SATS") [.name n!"gnss"]),
    .assign (.name n!"pattern") (.list [.name n!"time"]),
    .for (.name n!"$t") (.call (.attr (.attr (.attr (.name n!"pdata") n!"obs") n!"rng") n!"items") []) [
      .unpack [.name n!"slot", .name n!"obs"] (.name n!"$t"),
      .assign (.name n!"fn") (.call (.attr (.name n!"self") n!"make_obs_file_name") [.name n!"gnss", .const (.str "C"), .name n!"slot", .attr (.attr (.name n!"pdata") n!"atr") n!"subset"]),
      .ite (.cmp .eq (.name n!"fn") (.const (.str ""))) [
        .cont] [],
      .assign (.name n!"values") (.slice (.name n!"pattern") (.const .none) (.const .none)),
      .for (.name n!"sat") (.call (.name n!"range") [.const (.int 1), .bin .add (.name n!"max_sats") (.const (.int 1))]) [
        .assign (.name n!"value") (.ite (.cmp .mem (.name n!"sat") (.call (.attr (.name n!"obs") n!"keys") [])) (.index (.name n!"obs") (.name n!"sat")) (.const (.str "NaN"))),
        .expr (.call (.attr (.name n!"values") n!"append") [.name n!"value"])] [],
      .expr (.call (.attr (.name n!"rv") n!"update") [.dict [.name n!"fn"] [.name n!"values"]])] [],
    .for (.name n!"$t2") (.call (.attr (.attr (.attr (.name n!"pdata") n!"obs") n!"phs") n!"items") []) [
      .unpack [.name n!"slot", .name n!"obs"] (.name n!"$t2"),
      .assign (.name n!"fn") (.call (.attr (.name n!"self") n!"make_obs_file_name") [.name n!"gnss", .const (.str "L"), .name n!"slot", .attr (.attr (.name n!"pdata") n!"atr") n!"subset"]),
      .ite (.cmp .eq (.name n!"fn") (.const (.str ""))) [
        .cont] [],
      .assign (.name n!"values") (.slice (.name n!"pattern") (.const .none) (.const .none)),
      .assign (.name n!"lam") (.call (.attr (.name n!"self") n!"make_lambdas") [.name n!"gnss", .name n!"slot"]),
      .for (.name n!"sat") (.call (.name n!"range") [.const (.int 1), .bin .add (.name n!"max_sats") (.const (.int 1))]) [
        .ite (.not (.cmp .mem (.name n!"sat") (.call (.attr (.name n!"obs") n!"keys") []))) [
          .expr (.call (.attr (.name n!"values") n!"append") [.const (.str "NaN")]),
          .cont] [],
        .ite (.attr (.name n!"self") n!"HC_EN") [
          .assign (.name n!"amb_ok") (.const (.bool true))] [
          .ite (.cmp .mem (.name n!"slot") (.call (.attr (.attr (.attr (.name n!"pdata") n!"obs") n!"hca") n!"keys") [])) [
            .ite (.cmp .mem (.name n!"sat") (.call (.attr (.index (.attr (.attr (.name n!"pdata") n!"obs") n!"hca") (.name n!"slot")) n!"keys") [])) [
              .assign (.name n!"amb_ok") (.not (.index (.index (.attr (.attr (.name n!"pdata") n!"obs") n!"hca") (.name n!"slot")) (.name n!"sat")))] [
              .assign (.name n!"amb_ok") (.const (.bool false))]] [
            .assign (.name n!"amb_ok") (.const (.bool true))]],
        .assign (.name n!"value") (.ite (.name n!"amb_ok") (.bin .div (.index (.name n!"obs") (.name n!"sat")) (.index (.name n!"lam") (.bin .sub (.name n!"sat") (.const (.int 1))))) (.const (.str "NaN"))),
        .expr (.call (.attr (.name n!"values") n!"append") [.name n!"value"])] [],
      .expr (.call (.attr (.name n!"rv") n!"update") [.dict [.name n!"fn"] [.name n!"values"]])] [],
    .for (.name n!"$t3") (.call (.attr (.attr (.attr (.name n!"pdata") n!"obs") n!"dpl") n!"items") []) [
      .unpack [.name n!"slot", .name n!"obs"] (.name n!"$t3"),
      .assign (.name n!"fn") (.call (.attr (.name n!"self") n!"make_obs_file_name") [.name n!"gnss", .const (.str "D"), .name n!"slot", .attr (.attr (.name n!"pdata") n!"atr") n!"subset"]),
      .ite (.cmp .eq (.name n!"fn") (.const (.str ""))) [
        .cont] [],
      .assign (.name n!"values") (.slice (.name n!"pattern") (.const .none) (.const .none)),
      .assign (.name n!"lam") (.call (.attr (.name n!"self") n!"make_lambdas") [.name n!"gnss", .name n!"slot"]),
      .for (.name n!"sat") (.call (.name n!"range") [.const (.int 1), .bin .add (.name n!"max_sats") (.const (.int 1))]) [
        .assign (.name n!"value") (.ite (.cmp .mem (.name n!"sat") (.call (.attr (.name n!"obs") n!"keys") [])) (.bin .div (.neg (.index (.name n!"obs") (.name n!"sat"))) (.index (.name n!"lam") (.bin .sub (.name n!"sat") (.const (.int 1))))) (.const (.str "NaN"))),
        .expr (.call (.attr (.name n!"values") n!"append") [.name n!"value"])] [],
      .expr (.call (.attr (.name n!"rv") n!"update") [.dict [.name n!"fn"] [.name n!"values"]])] [],
    .for (.name n!"$t4") (.call (.attr (.attr (.attr (.name n!"pdata") n!"obs") n!"c2n") n!"items") []) [
      .unpack [.name n!"slot", .name n!"obs"] (.name n!"$t4"),
      .assign (.name n!"fn") (.call (.attr (.name n!"self") n!"make_obs_file_name") [.name n!"gnss", .const (.str "S"), .name n!"slot", .attr (.attr (.name n!"pdata") n!"atr") n!"subset"]),
      .ite (.cmp .eq (.name n!"fn") (.const (.str ""))) [
        .cont] [],
      .assign (.name n!"values") (.slice (.name n!"pattern") (.const .none) (.const .none)),
      .for (.name n!"sat") (.call (.name n!"range") [.const (.int 1), .bin .add (.name n!"max_sats") (.const (.int 1))]) [
        .assign (.name n!"value") (.ite (.cmp .mem (.name n!"sat") (.call (.attr (.name n!"obs") n!"keys") [])) (.index (.name n!"obs") (.name n!"sat")) (.const (.str "NaN"))),
        .expr (.call (.attr (.name n!"values") n!"append") [.name n!"value"])] [],
      .expr (.call (.attr (.name n!"rv") n!"update") [.dict [.name n!"fn"] [.name n!"values"]])] [],
    .ite (.attr (.name n!"self") n!"LT_EN") [
      .for (.name n!"$t5") (.call (.attr (.attr (.attr (.name n!"pdata") n!"obs") n!"ltm") n!"items") []) [
        .unpack [.name n!"slot", .name n!"obs"] (.name n!"$t5"),
        .assign (.name n!"fn") (.call (.attr (.name n!"self") n!"make_obs_file_name") [.name n!"gnss", .const (.str "T"), .name n!"slot", .attr (.attr (.name n!"pdata") n!"atr") n!"subset"]),
        .ite (.cmp .eq (.name n!"fn") (.const (.str ""))) [
          .cont] [],
        .assign (.name n!"values") (.slice (.name n!"pattern") (.const .none) (.const .none)),
        .for (.name n!"sat") (.call (.name n!"range") [.const (.int 1), .bin .add (.name n!"max_sats") (.const (.int 1))]) [
          .assign (.name n!"value") (.ite (.cmp .mem (.name n!"sat") (.call (.attr (.name n!"obs") n!"keys") [])) (.bin .mul (.index (.name n!"obs") (.name n!"sat")) (.const (.flt 1 1000))) (.const (.str "NaN"))),
          .expr (.call (.attr (.name n!"values") n!"append") [.name n!"value"])] [],
        .expr (.call (.attr (.name n!"rv") n!"update") [.dict [.name n!"fn"] [.name n!"values"]])] []] [],
    .ite (.attr (.name n!"self") n!"HC_EN") [
      .for (.name n!"$t6") (.call (.attr (.attr (.attr (.name n!"pdata") n!"obs") n!"hca") n!"items") []) [
        .unpack [.name n!"slot", .name n!"obs"] (.name n!"$t6"),
        .assign (.name n!"fn") (.call (.attr (.name n!"self") n!"make_obs_file_name") [.name n!"gnss", .const (.str "A"), .name n!"slot", .attr (.attr (.name n!"pdata") n!"atr") n!"subset"]),
        .ite (.cmp .eq (.name n!"fn") (.const (.str ""))) [
          .cont] [],
        .assign (.name n!"values") (.slice (.name n!"pattern") (.const .none) (.const .none)),
        .for (.name n!"sat") (.call (.name n!"range") [.const (.int 1), .bin .add (.name n!"max_sats") (.const (.int 1))]) [
          .ite (.cmp .mem (.name n!"sat") (.call (.attr (.name n!"obs") n!"keys") [])) [
            .assign (.name n!"value") (.ite (.index (.name n!"obs") (.name n!"sat")) (.const (.flt 1 1)) (.const (.flt 0 1)))] [
            .assign (.name n!"value") (.const (.str "NaN"))],
          .expr (.call (.attr (.name n!"values") n!"append") [.name n!"value"])] [],
        .expr (.call (.attr (.name n!"rv") n!"update") [.dict [.name n!"fn"] [.name n!"values"]])] []] [],
    .ret (.name n!"rv")]

/-- `MargoCore`, printers/margo_printer.py:66-377. -/
def cls_MargoCore : ClassDef where
  mro := [n!"MargoCore"]
  members := [(n!"_DEFAULT_CONTROLS", .value (.call (.name n!"MargoControls") [])),
    (n!"__init__", .method n!"MargoCore.__init__"),
    (n!"literals", .prop n!"MargoCore.literals"),
    (n!"utc_shift", .prop n!"MargoCore.utc_shift"),
    (n!"HC_EN", .prop n!"MargoCore.HC_EN"),
    (n!"LT_EN", .prop n!"MargoCore.LT_EN"),
    (n!"_MargoCore__OFILE_LT1", .value (.dict [.const (.str "G"), .const (.str "R"), .const (.str "E"), .const (.str "S"), .const (.str "Q"), .const (.str "B"), .const (.str "I")] [.const (.str "GPS"), .const (.str "GLN"), .const (.str "GAL"), .const (.str "SBS"), .const (.str "QZS"), .const (.str "BDS"), .const (.str "NAVIC")])),
    (n!"DIRNAME", .clsMethod n!"MargoCore.DIRNAME"),
    (n!"GNSSTUPLE", .clsMethod n!"MargoCore.GNSSTUPLE"),
    (n!"_MargoCore__FORMAT_COLUMNS", .value (.dict [.const (.str "C"), .const (.str "L"), .const (.str "D"), .const (.str "S"), .const (.str "T"), .const (.str "A")] [.tuple [.const (.int 15), .const (.int 3)], .tuple [.const (.int 15), .const (.int 4)], .tuple [.const (.int 15), .const (.int 3)], .tuple [.const (.int 15), .const (.int 2)], .tuple [.const (.int 10), .const (.int 3)], .tuple [.const (.int 4), .const (.int 0)]])),
    (n!"_MargoCore__MARGO_FILE_ID", .value (.dict [.const (.str "C"), .const (.str "L"), .const (.str "D"), .const (.str "S"), .const (.str "T"), .const (.str "A")] [.const (.int 0), .const (.int 1), .const (.int 2), .const (.int 3), .const (.int 4), .const (.int 5)])),
    (n!"_MargoCore__MAX_SATS", .value (.dict [.const (.str "G"), .const (.str "R"), .const (.str "E"), .const (.str "S"), .const (.str "Q"), .const (.str "B"), .const (.str "I")] [.const (.int 32), .const (.int 24), .const (.int 36), .const (.int 38), .const (.int 5), .const (.int 37), .const (.int 14)])),
    (n!"FORMAT", .clsMethod n!"MargoCore.FORMAT"),
    (n!"MARGO_FILE_ID", .clsMethod n!"MargoCore.MARGO_FILE_ID"),
    (n!"MAX_SATS", .clsMethod n!"MargoCore.MAX_SATS"),
    (n!"make_obs_file_name", .clsMethod n!"MargoCore.make_obs_file_name"),
    (n!"conv_to_gps_time", .clsMethod n!"MargoCore.conv_to_gps_time"),
    (n!"make_crr_frq", .method n!"MargoCore.make_crr_frq"),
    (n!"make_lambdas", .method n!"MargoCore.make_lambdas"),
    (n!"ObservablesMSMtoPrintBuffer", .method n!"MargoCore.ObservablesMSMtoPrintBuffer")]
  fields := []
  isData := false
  isExc := false

end Src
end PyCore
end Verif
