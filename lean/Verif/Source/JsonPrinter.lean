import Verif.PyCore.Syntax

/-!
# printers/json_printer.py

Generated by fidelity/embed.py from the text of the module. Left out:
`__OBS_M123`, `__OBS_M4567`, `JSON_SPEC`, `PrintJSON`, `JSONCore.is_json_dataclass`.
-/

namespace Verif
namespace PyCore
namespace Src

/-- `JSONControls.__init__`, printers/json_printer.py:98-101. -/
def fn_JSONControls_P_init_P : FnDef where
  params := [n!"self"]
  defaults := []
  body := [
    .assign (.attr (.name n!"self") n!"enable_hdr_data") (.const (.bool false)),
    .assign (.attr (.name n!"self") n!"enable_aux_data") (.const (.bool false)),
    .assign (.attr (.name n!"self") n!"enable_pretty_view") (.const (.bool false))]

/-- `JSONControls`, printers/json_printer.py:93-101. -/
def cls_JSONControls : ClassDef where
  mro := [n!"JSONControls"]
  members := [(n!"__slots__", .value (.tuple [.const (.str "enable_hdr_data"), .const (.str "enable_aux_data"), .const (.str "enable_pretty_view")])),
    (n!"__init__", .method n!"JSONControls.__init__")]
  fields := []
  isData := false
  isExc := false

/-- `JSONCore.__init__`, printers/json_printer.py:227-231. -/
def fn_JSONCore_P_init_P : FnDef where
  params := [n!"self", n!"controls"]
  defaults := [.none]
  body := [
    .ite (.name n!"controls") [
      .assign (.attr (.name n!"self") n!"ctrls") (.name n!"controls")] [
      .assign (.attr (.name n!"self") n!"ctrls") (.call (.name n!"JSONControls") [])]]

/-- `JSONCore.ObservablesMSMtoPrintBuffer`, printers/json_printer.py:233-277. -/
def fn_JSONCore_ObservablesMSMtoPrintBuffer : FnDef where
  params := [n!"self", n!"pdata"]
  defaults := []
  body := [
    .assign (.name n!"asStr") (.const (.str "")),
    .try [
      .assign (.name n!"time") (.bin .add (.attr (.attr (.name n!"pdata") n!"hdr") n!"time") (.bin .mul (.attr (.attr (.name n!"pdata") n!"hdr") n!"day") (.const (.int 86400000)))),
      .assign (.name n!"obs") (.dictComp (.name n!"s") (.call (.name n!"getattr") [.attr (.name n!"pdata") n!"obs", .name n!"s"]) n!"s" (.attr (.attr (.name n!"pdata") n!"obs") n!"__slots__")),
      .assign (.name n!"hdr") (.dictComp (.name n!"s") (.call (.name n!"getattr") [.attr (.name n!"pdata") n!"hdr", .name n!"s"]) n!"s" (.attr (.attr (.name n!"pdata") n!"hdr") n!"__slots__")),
      .assign (.name n!"aux") (.dictComp (.name n!"s") (.call (.name n!"getattr") [.attr (.name n!"pdata") n!"aux", .name n!"s"]) n!"s" (.attr (.attr (.name n!"pdata") n!"aux") n!"__slots__")),
      .assign (.name n!"summary") (.dict [] []),
      .ite (.attr (.attr (.name n!"self") n!"ctrls") n!"enable_hdr_data") [
        .expr (.call (.attr (.name n!"summary") n!"update") [.dict [.const (.str "hdr")] [.name n!"hdr"]])] [],
      .ite (.attr (.attr (.name n!"self") n!"ctrls") n!"enable_aux_data") [
        .expr (.call (.attr (.name n!"summary") n!"update") [.dict [.const (.str "aux")] [.name n!"aux"]])] [],
      .expr (.call (.attr (.name n!"summary") n!"update") [.dict [.const (.str "obs")] [.name n!"obs"]]),
      .assign (.name n!"indent") (.ite (.attr (.attr (.name n!"self") n!"ctrls") n!"enable_pretty_view") (.const (.int 2)) (.const (.none))),
      .assign (.name n!"asStr") (.call (.name n!"jdumps") [.dict [.name n!"time"] [.name n!"summary"], .name n!"indent"])] [
      .mk n!"AttributeError" (some n!"ke") [
        .raise (.call (.name n!"AssertionError") [.bin .add (.const (.str "'ObservablesMSM' wasn't converted to dict: ")) (.fstr [.call (.name n!"type") [.name n!"ke"], .name n!"ke"])])],
      .mk n!"TypeError" (some n!"te") [
        .raise (.call (.name n!"AssertionError") [.const (.str "JSON: can't serialize 'ObservablesMSM'")])],
      .mk n!"Exception" (some n!"ex") [
        .raise (.call (.name n!"AssertionError") [.const (.str "JSON: unexpected error in ObservablesMSMtoPrintBuffer()")])]] [],
    .ret (.name n!"asStr")]

/-- `JSONCore.BareObservablesMSMtoPrintBuffer`, printers/json_printer.py:279-325. -/
def fn_JSONCore_BareObservablesMSMtoPrintBuffer : FnDef where
  params := [n!"self", n!"pdata"]
  defaults := []
  body := [
    .assign (.name n!"asStr") (.const (.str "")),
    .try [
      .assign (.name n!"time") (.attr (.name n!"pdata") n!"time"),
      .assign (.name n!"sat") (.dictComp (.name n!"s") (.call (.name n!"getattr") [.attr (.name n!"pdata") n!"sat", .name n!"s"]) n!"s" (.attr (.attr (.name n!"pdata") n!"sat") n!"__slots__")),
      .assign (.name n!"sgn") (.dictComp (.name n!"s") (.call (.name n!"getattr") [.attr (.name n!"pdata") n!"sgn", .name n!"s"]) n!"s" (.attr (.attr (.name n!"pdata") n!"sgn") n!"__slots__")),
      .assign (.name n!"hdr") (.dictComp (.name n!"s") (.call (.name n!"getattr") [.attr (.name n!"pdata") n!"hdr", .name n!"s"]) n!"s" (.attr (.attr (.name n!"pdata") n!"hdr") n!"__slots__")),
      .assign (.name n!"atr") (.dictComp (.name n!"s") (.call (.name n!"getattr") [.attr (.name n!"pdata") n!"atr", .name n!"s"]) n!"s" (.attr (.attr (.name n!"pdata") n!"atr") n!"__slots__")),
      .assign (.name n!"summary") (.call (.name n!"dict") []),
      .ite (.attr (.attr (.name n!"self") n!"ctrls") n!"enable_hdr_data") [
        .expr (.call (.attr (.name n!"summary") n!"update") [.dict [.const (.str "hdr")] [.name n!"hdr"]])] [],
      .ite (.attr (.attr (.name n!"self") n!"ctrls") n!"enable_aux_data") [
        .expr (.call (.attr (.name n!"summary") n!"update") [.dict [.const (.str "aux")] [.name n!"atr"]])] [],
      .expr (.call (.attr (.name n!"summary") n!"update") [.dict [.const (.str "sat")] [.name n!"sat"]]),
      .expr (.call (.attr (.name n!"summary") n!"update") [.dict [.const (.str "sgn")] [.name n!"sgn"]]),
      .assign (.name n!"indent") (.ite (.attr (.attr (.name n!"self") n!"ctrls") n!"enable_pretty_view") (.const (.int 2)) (.const (.none))),
      .assign (.name n!"asStr") (.call (.name n!"jdumps") [.dict [.name n!"time"] [.name n!"summary"], .name n!"indent"])] [
      .mk n!"AttributeError" (some n!"ke") [
        .raise (.call (.name n!"AssertionError") [.bin .add (.const (.str "'BareObservablesMSM' wasn't converted to dict:")) (.fstr [.call (.name n!"type") [.name n!"ke"], .name n!"ke"])])],
      .mk n!"TypeError" (some n!"te") [
        .raise (.call (.name n!"AssertionError") [.const (.str "JSON: can't serialize 'BareObservablesMSM'")])],
      .mk n!"Exception" (some n!"ex") [
        .raise (.call (.name n!"AssertionError") [.const (.str "JSON: unexpected error in BareObservablesMSMtoPrintBuffer()")])]] [],
    .ret (.name n!"asStr")]

/-- `JSONCore.dataClassToPrintBuffer`, printers/json_printer.py:334-353. -/
def fn_JSONCore_dataClassToPrintBuffer : FnDef where
  params := [n!"self", n!"pdata"]
  defaults := []
  body := [
    .assign (.name n!"asStr") (.const (.str "")),
    .try [
      .assign (.name n!"asDictionary") (.call (.name n!"asdict") [.name n!"pdata"]),
      .assign (.name n!"indent") (.ite (.attr (.attr (.name n!"self") n!"ctrls") n!"enable_pretty_view") (.const (.int 2)) (.const (.none))),
      .assign (.name n!"asStr") (.call (.name n!"jdumps") [.name n!"asDictionary", .name n!"indent"])] [
      .mk n!"TypeError" (some n!"te") [
        .raise (.call (.name n!"AssertionError") [.fstr [.call (.name n!"type") [.name n!"pdata"]]])],
      .mk n!"Exception" (some n!"ex") [
        .raise (.call (.name n!"AssertionError") [.const (.str "JSON: unexpected error in BareObservablesMSMtoPrintBuffer()")])]] [],
    .ret (.name n!"asStr")]

/-- `JSONCore`, printers/json_printer.py:224-353. -/
def cls_JSONCore : ClassDef where
  mro := [n!"JSONCore"]
  members := [(n!"__init__", .method n!"JSONCore.__init__"),
    (n!"ObservablesMSMtoPrintBuffer", .method n!"JSONCore.ObservablesMSMtoPrintBuffer"),
    (n!"BareObservablesMSMtoPrintBuffer", .method n!"JSONCore.BareObservablesMSMtoPrintBuffer"),
    (n!"dataClassToPrintBuffer", .method n!"JSONCore.dataClassToPrintBuffer")]
  fields := []
  isData := false
  isExc := false

end Src
end PyCore
end Verif
