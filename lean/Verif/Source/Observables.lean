import Verif.PyCore.Syntax

/-!
# gnss_types/observables.py

Generated by fidelity/embed.py from the text of the module. Left out:
`_ObservablesHdrMSM._make_example`, `_ObservablesObs.__make_example`.
-/

namespace Verif
namespace PyCore
namespace Src

/-- `ObservablesMSM.__init__`, gnss_types/observables.py:28-33. -/
def fn_ObservablesMSM_P_init_P : FnDef where
  params := [n!"self"]
  defaults := []
  body := [
    .assign (.attr (.name n!"self") n!"obs") (.call (.name n!"_ObservablesObs") []),
    .assign (.attr (.name n!"self") n!"hdr") (.call (.name n!"_ObservablesHdrMSM") []),
    .assign (.attr (.name n!"self") n!"aux") (.call (.name n!"_ObservablesAuxMSM") []),
    .assign (.attr (.name n!"self") n!"atr") (.call (.name n!"Attributes") [])]

/-- `ObservablesMSM`, gnss_types/observables.py:23-33. -/
def cls_ObservablesMSM : ClassDef where
  mro := [n!"ObservablesMSM"]
  members := [(n!"__slots__", .value (.tuple [.const (.str "hdr"), .const (.str "obs"), .const (.str "aux"), .const (.str "atr")])),
    (n!"__init__", .method n!"ObservablesMSM.__init__")]
  fields := []
  isData := false
  isExc := false

/-- `Attributes.__init__`, gnss_types/observables.py:41-42. -/
def fn_Attributes_P_init_P : FnDef where
  params := [n!"self"]
  defaults := []
  body := [
    .expr (.call (.attr (.name n!"self") n!"clear") [])]

/-- `Attributes.clear`, gnss_types/observables.py:44-52. -/
def fn_Attributes_clear : FnDef where
  params := [n!"self"]
  defaults := []
  body := [
    .assign (.attr (.name n!"self") n!"gnss") (.const (.str "")),
    .assign (.attr (.name n!"self") n!"subset") (.const (.str "")),
    .assign (.attr (.name n!"self") n!"msg_number") (.const (.int 0))]

/-- `Attributes.is_msm7`, gnss_types/observables.py:55-57. -/
def fn_Attributes_is_msm7 : FnDef where
  params := [n!"self"]
  defaults := []
  body := [
    .ret (.cmp .eq (.attr (.name n!"self") n!"subset") (.const (.str "MSM7")))]

/-- `Attributes.is_msm6`, gnss_types/observables.py:60-62. -/
def fn_Attributes_is_msm6 : FnDef where
  params := [n!"self"]
  defaults := []
  body := [
    .ret (.cmp .eq (.attr (.name n!"self") n!"subset") (.const (.str "MSM6")))]

/-- `Attributes.is_msm5`, gnss_types/observables.py:65-67. -/
def fn_Attributes_is_msm5 : FnDef where
  params := [n!"self"]
  defaults := []
  body := [
    .ret (.cmp .eq (.attr (.name n!"self") n!"subset") (.const (.str "MSM5")))]

/-- `Attributes.is_msm4`, gnss_types/observables.py:70-72. -/
def fn_Attributes_is_msm4 : FnDef where
  params := [n!"self"]
  defaults := []
  body := [
    .ret (.cmp .eq (.attr (.name n!"self") n!"subset") (.const (.str "MSM4")))]

/-- `Attributes.is_msm3`, gnss_types/observables.py:75-77. -/
def fn_Attributes_is_msm3 : FnDef where
  params := [n!"self"]
  defaults := []
  body := [
    .ret (.cmp .eq (.attr (.name n!"self") n!"subset") (.const (.str "MSM3")))]

/-- `Attributes.is_msm2`, gnss_types/observables.py:80-82. -/
def fn_Attributes_is_msm2 : FnDef where
  params := [n!"self"]
  defaults := []
  body := [
    .ret (.cmp .eq (.attr (.name n!"self") n!"subset") (.const (.str "MSM2")))]

/-- `Attributes.is_msm1`, gnss_types/observables.py:85-87. -/
def fn_Attributes_is_msm1 : FnDef where
  params := [n!"self"]
  defaults := []
  body := [
    .ret (.cmp .eq (.attr (.name n!"self") n!"subset") (.const (.str "MSM1")))]

/-- `Attributes`, gnss_types/observables.py:36-87. -/
def cls_Attributes : ClassDef where
  mro := [n!"Attributes"]
  members := [(n!"__slots__", .value (.tuple [.const (.str "gnss"), .const (.str "subset"), .const (.str "msg_number")])),
    (n!"__init__", .method n!"Attributes.__init__"),
    (n!"clear", .method n!"Attributes.clear"),
    (n!"is_msm7", .prop n!"Attributes.is_msm7"),
    (n!"is_msm6", .prop n!"Attributes.is_msm6"),
    (n!"is_msm5", .prop n!"Attributes.is_msm5"),
    (n!"is_msm4", .prop n!"Attributes.is_msm4"),
    (n!"is_msm3", .prop n!"Attributes.is_msm3"),
    (n!"is_msm2", .prop n!"Attributes.is_msm2"),
    (n!"is_msm1", .prop n!"Attributes.is_msm1")]
  fields := []
  isData := false
  isExc := false

/-- `_ObservablesHdrMSM.__init__`, gnss_types/observables.py:95-104. -/
def fn_ObservablesHdrMSM_P_init_P : FnDef where
  params := [n!"self"]
  defaults := []
  body := [
    .assign (.attr (.name n!"self") n!"signals") (.dict [] []),
    .assign (.attr (.name n!"self") n!"sats") (.tuple [.call (.name n!"int") []]),
    .assign (.attr (.name n!"self") n!"time") (.const (.int 0)),
    .assign (.attr (.name n!"self") n!"day") (.const (.int 0))]

/-- `_ObservablesHdrMSM`, gnss_types/observables.py:90-110. -/
def cls_ObservablesHdrMSM : ClassDef where
  mro := [n!"_ObservablesHdrMSM"]
  members := [(n!"__slots__", .value (.tuple [.const (.str "signals"), .const (.str "sats"), .const (.str "time"), .const (.str "day")])),
    (n!"__init__", .method n!"_ObservablesHdrMSM.__init__")]
  fields := []
  isData := false
  isExc := false

/-- `_ObservablesObs.__init__`, gnss_types/observables.py:124-142. -/
def fn_ObservablesObs_P_init_P : FnDef where
  params := [n!"self"]
  defaults := []
  body := [
    .assign (.attr (.name n!"self") n!"rng") (.dict [] []),
    .assign (.attr (.name n!"self") n!"phs") (.dict [] []),
    .assign (.attr (.name n!"self") n!"ltm") (.dict [] []),
    .assign (.attr (.name n!"self") n!"hca") (.dict [] []),
    .assign (.attr (.name n!"self") n!"dpl") (.dict [] []),
    .assign (.attr (.name n!"self") n!"c2n") (.dict [] [])]

/-- `_ObservablesObs`, gnss_types/observables.py:113-158. -/
def cls_ObservablesObs : ClassDef where
  mro := [n!"_ObservablesObs"]
  members := [(n!"__slots__", .value (.tuple [.const (.str "rng"), .const (.str "phs"), .const (.str "ltm"), .const (.str "hca"), .const (.str "dpl"), .const (.str "c2n")])),
    (n!"__init__", .method n!"_ObservablesObs.__init__")]
  fields := []
  isData := false
  isExc := false

/-- `_ObservablesAuxMSM.__init__`, gnss_types/observables.py:174-188. -/
def fn_ObservablesAuxMSM_P_init_P : FnDef where
  params := [n!"self"]
  defaults := []
  body := [
    .assign (.attr (.name n!"self") n!"rs_id") (.const (.int 42)),
    .assign (.attr (.name n!"self") n!"MMB") (.const (.int 0)),
    .assign (.attr (.name n!"self") n!"IODS") (.const (.int 0)),
    .assign (.attr (.name n!"self") n!"clk_steer") (.dict [.const (.str "code"), .const (.str "val")] [.const (.int 2), .const (.str "UNDEF")]),
    .assign (.attr (.name n!"self") n!"clk_ext") (.dict [.const (.str "code"), .const (.str "val")] [.const (.int 3), .const (.str "UNDEF")]),
    .assign (.attr (.name n!"self") n!"smth_indc") (.dict [.const (.str "code"), .const (.str "val")] [.const (.int 0), .const (.str "UNDEF")]),
    .assign (.attr (.name n!"self") n!"smth_intr") (.dict [.const (.str "code"), .const (.str "val")] [.const (.int 0), .const (.str "NOSMTH")])]

/-- `_ObservablesAuxMSM`, gnss_types/observables.py:161-188. -/
def cls_ObservablesAuxMSM : ClassDef where
  mro := [n!"_ObservablesAuxMSM"]
  members := [(n!"__slots__", .value (.tuple [.const (.str "rs_id"), .const (.str "MMB"), .const (.str "IODS"), .const (.str "clk_steer"), .const (.str "clk_ext"), .const (.str "smth_indc"), .const (.str "smth_intr")])),
    (n!"__init__", .method n!"_ObservablesAuxMSM.__init__")]
  fields := []
  isData := false
  isExc := false

/-- `_ObservablesAuxLeg.__init__`, gnss_types/observables.py:196-198. -/
def fn_ObservablesAuxLeg_P_init_P : FnDef where
  params := [n!"self"]
  defaults := []
  body := [
    .assign (.attr (.name n!"self") n!"rs_id") (.const (.int 42))]

/-- `_ObservablesAuxLeg`, gnss_types/observables.py:191-198. -/
def cls_ObservablesAuxLeg : ClassDef where
  mro := [n!"_ObservablesAuxLeg"]
  members := [(n!"__slots__", .value (.tuple [.const (.str "rs_id")])),
    (n!"__init__", .method n!"_ObservablesAuxLeg.__init__")]
  fields := []
  isData := false
  isExc := false

/-- `_BareObservablesHdrMSM.__init__`, gnss_types/observables.py:221-222. -/
def fn_BareObservablesHdrMSM_P_init_P : FnDef where
  params := [n!"self"]
  defaults := []
  body := [
    .expr (.call (.attr (.name n!"self") n!"clear") [])]

/-- `_BareObservablesHdrMSM.clear`, gnss_types/observables.py:224-236. -/
def fn_BareObservablesHdrMSM_clear : FnDef where
  params := [n!"self"]
  defaults := []
  body := [
    .assign (.attr (.name n!"self") n!"rs_id") (.const (.int 0)),
    .assign (.attr (.name n!"self") n!"time") (.const (.int 0)),
    .assign (.attr (.name n!"self") n!"MMB") (.const (.int 0)),
    .assign (.attr (.name n!"self") n!"IODS") (.const (.int 0)),
    .assign (.attr (.name n!"self") n!"clk_steer") (.const (.int 0)),
    .assign (.attr (.name n!"self") n!"clk_ext") (.const (.int 0)),
    .assign (.attr (.name n!"self") n!"smth_indc") (.const (.int 0)),
    .assign (.attr (.name n!"self") n!"smth_intr") (.const (.int 0)),
    .assign (.attr (.name n!"self") n!"sat_mask") (.const (.int 0)),
    .assign (.attr (.name n!"self") n!"sgn_mask") (.const (.int 0)),
    .assign (.attr (.name n!"self") n!"cell_mask") (.const (.int 0))]

/-- `_BareObservablesHdrMSM`, gnss_types/observables.py:204-236. -/
def cls_BareObservablesHdrMSM : ClassDef where
  mro := [n!"_BareObservablesHdrMSM"]
  members := [(n!"__slots__", .value (.tuple [.const (.str "rs_id"), .const (.str "time"), .const (.str "MMB"), .const (.str "IODS"), .const (.str "clk_steer"), .const (.str "clk_ext"), .const (.str "smth_indc"), .const (.str "smth_intr"), .const (.str "sat_mask"), .const (.str "sgn_mask"), .const (.str "cell_mask")])),
    (n!"__init__", .method n!"_BareObservablesHdrMSM.__init__"),
    (n!"clear", .method n!"_BareObservablesHdrMSM.clear")]
  fields := []
  isData := false
  isExc := false

/-- `_BareObservablesSatDataMSM4567.__init__`, gnss_types/observables.py:244-245. -/
def fn_BareObservablesSatDataMSM4567_P_init_P : FnDef where
  params := [n!"self"]
  defaults := []
  body := [
    .expr (.call (.attr (.name n!"self") n!"clear") [])]

/-- `_BareObservablesSatDataMSM4567.clear`, gnss_types/observables.py:247-252. -/
def fn_BareObservablesSatDataMSM4567_clear : FnDef where
  params := [n!"self"]
  defaults := []
  body := [
    .assign (.attr (.name n!"self") n!"rng_ms") (.tuple [.call (.name n!"int") []]),
    .assign (.attr (.name n!"self") n!"ext_info") (.tuple [.call (.name n!"int") []]),
    .assign (.attr (.name n!"self") n!"rng_rough") (.tuple [.call (.name n!"int") []]),
    .assign (.attr (.name n!"self") n!"phase_rate_rough") (.tuple [.call (.name n!"int") []])]

/-- `_BareObservablesSatDataMSM4567`, gnss_types/observables.py:239-252. -/
def cls_BareObservablesSatDataMSM4567 : ClassDef where
  mro := [n!"_BareObservablesSatDataMSM4567"]
  members := [(n!"__slots__", .value (.tuple [.const (.str "rng_ms"), .const (.str "ext_info"), .const (.str "rng_rough"), .const (.str "phase_rate_rough")])),
    (n!"__init__", .method n!"_BareObservablesSatDataMSM4567.__init__"),
    (n!"clear", .method n!"_BareObservablesSatDataMSM4567.clear")]
  fields := []
  isData := false
  isExc := false

/-- `_BareObservablesSignalDataMSM4567.__init__`, gnss_types/observables.py:267-268. -/
def fn_BareObservablesSignalDataMSM4567_P_init_P : FnDef where
  params := [n!"self"]
  defaults := []
  body := [
    .expr (.call (.attr (.name n!"self") n!"clear") [])]

/-- `_BareObservablesSignalDataMSM4567.clear`, gnss_types/observables.py:270-277. -/
def fn_BareObservablesSignalDataMSM4567_clear : FnDef where
  params := [n!"self"]
  defaults := []
  body := [
    .assign (.attr (.name n!"self") n!"rng_fine") (.tuple [.call (.name n!"int") []]),
    .assign (.attr (.name n!"self") n!"phase_fine") (.tuple [.call (.name n!"int") []]),
    .assign (.attr (.name n!"self") n!"lock_time") (.tuple [.call (.name n!"int") []]),
    .assign (.attr (.name n!"self") n!"hc_indc") (.tuple [.call (.name n!"int") []]),
    .assign (.attr (.name n!"self") n!"c2n") (.tuple [.call (.name n!"int") []]),
    .assign (.attr (.name n!"self") n!"phase_rate_fine") (.tuple [.call (.name n!"int") []])]

/-- `_BareObservablesSignalDataMSM4567`, gnss_types/observables.py:255-277. -/
def cls_BareObservablesSignalDataMSM4567 : ClassDef where
  mro := [n!"_BareObservablesSignalDataMSM4567"]
  members := [(n!"__slots__", .value (.tuple [.const (.str "rng_fine"), .const (.str "phase_fine"), .const (.str "lock_time"), .const (.str "hc_indc"), .const (.str "c2n"), .const (.str "phase_rate_fine")])),
    (n!"__init__", .method n!"_BareObservablesSignalDataMSM4567.__init__"),
    (n!"clear", .method n!"_BareObservablesSignalDataMSM4567.clear")]
  fields := []
  isData := false
  isExc := false

/-- `BareObservablesMSM4567.__init__`, gnss_types/observables.py:285-289. -/
def fn_BareObservablesMSM4567_P_init_P : FnDef where
  params := [n!"self"]
  defaults := []
  body := [
    .assign (.attr (.name n!"self") n!"atr") (.call (.name n!"Attributes") []),
    .assign (.attr (.name n!"self") n!"hdr") (.call (.name n!"_BareObservablesHdrMSM") []),
    .assign (.attr (.name n!"self") n!"sat") (.call (.name n!"_BareObservablesSatDataMSM4567") []),
    .assign (.attr (.name n!"self") n!"sgn") (.call (.name n!"_BareObservablesSignalDataMSM4567") [])]

/-- `BareObservablesMSM4567.clear`, gnss_types/observables.py:291-296. -/
def fn_BareObservablesMSM4567_clear : FnDef where
  params := [n!"self"]
  defaults := []
  body := [
    .expr (.call (.attr (.attr (.name n!"self") n!"atr") n!"clear") []),
    .expr (.call (.attr (.attr (.name n!"self") n!"hdr") n!"clear") []),
    .expr (.call (.attr (.attr (.name n!"self") n!"sat") n!"clear") []),
    .expr (.call (.attr (.attr (.name n!"self") n!"sgn") n!"clear") [])]

/-- `BareObservablesMSM4567.time`, gnss_types/observables.py:299-301. -/
def fn_BareObservablesMSM4567_time : FnDef where
  params := [n!"self"]
  defaults := []
  body := [
    .ret (.ite (.cmp .eq (.attr (.attr (.name n!"self") n!"atr") n!"gnss") (.const (.str "R"))) (.bin .band (.attr (.attr (.name n!"self") n!"hdr") n!"time") (.const (.int 134217727))) (.attr (.attr (.name n!"self") n!"hdr") n!"time"))]

/-- `BareObservablesMSM4567.day`, gnss_types/observables.py:304-306. -/
def fn_BareObservablesMSM4567_day : FnDef where
  params := [n!"self"]
  defaults := []
  body := [
    .ret (.ite (.cmp .eq (.attr (.attr (.name n!"self") n!"atr") n!"gnss") (.const (.str "R"))) (.bin .band (.bin .shr (.attr (.attr (.name n!"self") n!"hdr") n!"time") (.const (.int 27))) (.const (.int 7))) (.const (.int 0)))]

/-- `BareObservablesMSM4567`, gnss_types/observables.py:280-306. -/
def cls_BareObservablesMSM4567 : ClassDef where
  mro := [n!"BareObservablesMSM4567"]
  members := [(n!"__slots__", .value (.tuple [.const (.str "hdr"), .const (.str "sat"), .const (.str "sgn"), .const (.str "atr")])),
    (n!"__init__", .method n!"BareObservablesMSM4567.__init__"),
    (n!"clear", .method n!"BareObservablesMSM4567.clear"),
    (n!"time", .prop n!"BareObservablesMSM4567.time"),
    (n!"day", .prop n!"BareObservablesMSM4567.day")]
  fields := []
  isData := false
  isExc := false

/-- `_BareObservablesSatDataMSM123.__init__`, gnss_types/observables.py:314-315. -/
def fn_BareObservablesSatDataMSM123_P_init_P : FnDef where
  params := [n!"self"]
  defaults := []
  body := [
    .expr (.call (.attr (.name n!"self") n!"clear") [])]

/-- `_BareObservablesSatDataMSM123.clear`, gnss_types/observables.py:317-319. -/
def fn_BareObservablesSatDataMSM123_clear : FnDef where
  params := [n!"self"]
  defaults := []
  body := [
    .assign (.attr (.name n!"self") n!"rng_rough") (.tuple [.call (.name n!"int") []])]

/-- `_BareObservablesSatDataMSM123`, gnss_types/observables.py:309-319. -/
def cls_BareObservablesSatDataMSM123 : ClassDef where
  mro := [n!"_BareObservablesSatDataMSM123"]
  members := [(n!"__slots__", .value (.tuple [.const (.str "rng_rough")])),
    (n!"__init__", .method n!"_BareObservablesSatDataMSM123.__init__"),
    (n!"clear", .method n!"_BareObservablesSatDataMSM123.clear")]
  fields := []
  isData := false
  isExc := false

/-- `_BareObservablesSignalDataMSM123.__init__`, gnss_types/observables.py:327-328. -/
def fn_BareObservablesSignalDataMSM123_P_init_P : FnDef where
  params := [n!"self"]
  defaults := []
  body := [
    .expr (.call (.attr (.name n!"self") n!"clear") [])]

/-- `_BareObservablesSignalDataMSM123.clear`, gnss_types/observables.py:330-335. -/
def fn_BareObservablesSignalDataMSM123_clear : FnDef where
  params := [n!"self"]
  defaults := []
  body := [
    .assign (.attr (.name n!"self") n!"rng_fine") (.tuple [.call (.name n!"int") []]),
    .assign (.attr (.name n!"self") n!"phase_fine") (.tuple [.call (.name n!"int") []]),
    .assign (.attr (.name n!"self") n!"lock_time") (.tuple [.call (.name n!"int") []]),
    .assign (.attr (.name n!"self") n!"hc_indc") (.tuple [.call (.name n!"int") []])]

/-- `_BareObservablesSignalDataMSM123`, gnss_types/observables.py:322-335. -/
def cls_BareObservablesSignalDataMSM123 : ClassDef where
  mro := [n!"_BareObservablesSignalDataMSM123"]
  members := [(n!"__slots__", .value (.tuple [.const (.str "rng_fine"), .const (.str "phase_fine"), .const (.str "lock_time"), .const (.str "hc_indc")])),
    (n!"__init__", .method n!"_BareObservablesSignalDataMSM123.__init__"),
    (n!"clear", .method n!"_BareObservablesSignalDataMSM123.clear")]
  fields := []
  isData := false
  isExc := false

/-- `BareObservablesMSM123.__init__`, gnss_types/observables.py:343-347. -/
def fn_BareObservablesMSM123_P_init_P : FnDef where
  params := [n!"self"]
  defaults := []
  body := [
    .assign (.attr (.name n!"self") n!"atr") (.call (.name n!"Attributes") []),
    .assign (.attr (.name n!"self") n!"hdr") (.call (.name n!"_BareObservablesHdrMSM") []),
    .assign (.attr (.name n!"self") n!"sat") (.call (.name n!"_BareObservablesSatDataMSM123") []),
    .assign (.attr (.name n!"self") n!"sgn") (.call (.name n!"_BareObservablesSignalDataMSM123") [])]

/-- `BareObservablesMSM123.clear`, gnss_types/observables.py:349-354. -/
def fn_BareObservablesMSM123_clear : FnDef where
  params := [n!"self"]
  defaults := []
  body := [
    .expr (.call (.attr (.attr (.name n!"self") n!"atr") n!"clear") []),
    .expr (.call (.attr (.attr (.name n!"self") n!"hdr") n!"clear") []),
    .expr (.call (.attr (.attr (.name n!"self") n!"sat") n!"clear") []),
    .expr (.call (.attr (.attr (.name n!"self") n!"sgn") n!"clear") [])]

/-- `BareObservablesMSM123.time`, gnss_types/observables.py:357-359. -/
def fn_BareObservablesMSM123_time : FnDef where
  params := [n!"self"]
  defaults := []
  body := [
    .ret (.ite (.cmp .eq (.attr (.attr (.name n!"self") n!"atr") n!"gnss") (.const (.str "R"))) (.bin .band (.attr (.attr (.name n!"self") n!"hdr") n!"time") (.const (.int 134217727))) (.attr (.attr (.name n!"self") n!"hdr") n!"time"))]

/-- `BareObservablesMSM123.day`, gnss_types/observables.py:362-364. -/
def fn_BareObservablesMSM123_day : FnDef where
  params := [n!"self"]
  defaults := []
  body := [
    .ret (.ite (.cmp .eq (.attr (.attr (.name n!"self") n!"atr") n!"gnss") (.const (.str "R"))) (.bin .band (.bin .shr (.attr (.attr (.name n!"self") n!"hdr") n!"time") (.const (.int 27))) (.const (.int 7))) (.const (.int 0)))]

/-- `BareObservablesMSM123`, gnss_types/observables.py:338-364. -/
def cls_BareObservablesMSM123 : ClassDef where
  mro := [n!"BareObservablesMSM123"]
  members := [(n!"__slots__", .value (.tuple [.const (.str "hdr"), .const (.str "sat"), .const (.str "sgn"), .const (.str "atr")])),
    (n!"__init__", .method n!"BareObservablesMSM123.__init__"),
    (n!"clear", .method n!"BareObservablesMSM123.clear"),
    (n!"time", .prop n!"BareObservablesMSM123.time"),
    (n!"day", .prop n!"BareObservablesMSM123.day")]
  fields := []
  isData := false
  isExc := false

end Src
end PyCore
end Verif
