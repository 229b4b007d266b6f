import Verif.PyCore.Syntax

/-!
# gnss_types/base_station.py

Generated by fidelity/embed.py from the text of the module.
-/

namespace Verif
namespace PyCore
namespace Src

/-- `BaseRP`, gnss_types/base_station.py:28-42. -/
def cls_BaseRP : ClassDef where
  mro := [n!"BaseRP", n!"DataClassMethods"]
  members := []
  fields := [(n!"msgNum", .const (.int 0)),
    (n!"bsID", .const (.int 0)),
    (n!"ITRF_Year", .const (.int 0)),
    (n!"GPS_OK", .const (.int 0)),
    (n!"GLO_OK", .const (.int 0)),
    (n!"GAL_OK", .const (.int 0)),
    (n!"isVirtual", .const (.int 0)),
    (n!"refPoint_X", .const (.int 0)),
    (n!"singleOsc", .const (.int 0)),
    (n!"refPoint_Y", .const (.int 0)),
    (n!"QC_bias", .const (.int 0)),
    (n!"refPoint_Z", .const (.int 0))]
  isData := true
  isExc := false

/-- `BaseRPH`, gnss_types/base_station.py:46-49. -/
def cls_BaseRPH : ClassDef where
  mro := [n!"BaseRPH", n!"BaseRP", n!"DataClassMethods"]
  members := []
  fields := [(n!"height", .const (.int 0))]
  isData := true
  isExc := false

/-- `BaseAD`, gnss_types/base_station.py:53-60. -/
def cls_BaseAD : ClassDef where
  mro := [n!"BaseAD", n!"DataClassMethods"]
  members := []
  fields := [(n!"msgNum", .const (.int 0)),
    (n!"bsID", .const (.int 0)),
    (n!"descrLength", .const (.int 0)),
    (n!"descr", .const (.str "")),
    (n!"setupID", .const (.int 0))]
  isData := true
  isExc := false

/-- `BaseADSN`, gnss_types/base_station.py:64-69. -/
def cls_BaseADSN : ClassDef where
  mro := [n!"BaseADSN", n!"BaseAD", n!"DataClassMethods"]
  members := []
  fields := [(n!"serialNumberLength", .const (.int 0)),
    (n!"serialNumber", .const (.str ""))]
  isData := true
  isExc := false

/-- `BaseADSNRC`, gnss_types/base_station.py:73-82. -/
def cls_BaseADSNRC : ClassDef where
  mro := [n!"BaseADSNRC", n!"BaseADSN", n!"BaseAD", n!"DataClassMethods"]
  members := []
  fields := [(n!"rcvDescriptorLength", .const (.int 0)),
    (n!"rcvDescriptor", .const (.str "")),
    (n!"rcvFWVersionLength", .const (.int 0)),
    (n!"rcvFWVersion", .const (.str "")),
    (n!"rcvSerNumLength", .const (.int 0)),
    (n!"rcvSerNum", .const (.str ""))]
  isData := true
  isExc := false

/-- `BaseSPitem`, gnss_types/base_station.py:86-91. -/
def cls_BaseSPitem : ClassDef where
  mro := [n!"BaseSPitem"]
  members := []
  fields := [(n!"ID", .const (.int 0)),
    (n!"isPeriodic", .const (.int 0)),
    (n!"period", .const (.int 0))]
  isData := true
  isExc := false

/-- `BaseSP`, gnss_types/base_station.py:95-112. -/
def cls_BaseSP : ClassDef where
  mro := [n!"BaseSP", n!"DataClassMethods"]
  members := []
  fields := [(n!"msgNum", .const (.int 0)),
    (n!"bsID", .const (.int 0)),
    (n!"modifiedJulianDay", .const (.int 0)),
    (n!"daySec", .const (.int 0)),
    (n!"Nm", .const (.int 0)),
    (n!"leapSec", .const (.int 0)),
    (n!"shedule", .emptyDict)]
  isData := true
  isExc := false

/-- `BaseTS`, gnss_types/base_station.py:116-125. -/
def cls_BaseTS : ClassDef where
  mro := [n!"BaseTS", n!"DataClassMethods"]
  members := []
  fields := [(n!"msgNum", .const (.int 0)),
    (n!"bsID", .const (.int 0)),
    (n!"modifiedJulianDay", .const (.int 0)),
    (n!"daySec", .const (.int 0)),
    (n!"charNum", .const (.int 0)),
    (n!"unitsNum", .const (.int 0)),
    (n!"message", .const (.str ""))]
  isData := true
  isExc := false

/-- `BaseGLBS.__post_init__`, gnss_types/base_station.py:144-149. -/
def fn_BaseGLBS_P_post_init_P : FnDef where
  params := [n!"self"]
  defaults := []
  body := [
    .ite (.cmp .ne (.attr (.name n!"self") n!"msgNum") (.const (.int 1230))) [
      .assign (.attr (.name n!"self") n!"validity") (.dict [.const (.str "1C"), .const (.str "1P"), .const (.str "2C"), .const (.str "2P")] [.const (.int 0), .const (.int 0), .const (.int 0), .const (.int 0)]),
      .assign (.attr (.name n!"self") n!"correction") (.dict [.const (.str "1C"), .const (.str "1P"), .const (.str "2C"), .const (.str "2P")] [.const (.int 0), .const (.int 0), .const (.int 0), .const (.int 0)])] []]

/-- `BaseGLBS`, gnss_types/base_station.py:129-149. -/
def cls_BaseGLBS : ClassDef where
  mro := [n!"BaseGLBS", n!"DataClassMethods"]
  members := [(n!"__post_init__", .method n!"BaseGLBS.__post_init__")]
  fields := [(n!"msgNum", .const (.int 0)),
    (n!"bsID", .const (.int 0)),
    (n!"isCorrected", .const (.int 0)),
    (n!"validity", .emptyDict),
    (n!"correction", .emptyDict)]
  isData := true
  isExc := false

end Src
end PyCore
end Verif
