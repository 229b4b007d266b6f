import Verif.Model.Dict
import Verif.Model.EphTypes

/-!
# Model of gnss_types/base_station.py

Attributes whose Python type is a union are of a parameter type: `β` for flags (`Int` in bare, `Bool` in scaled
objects), `ν` for quantities (`Int` in bare, `Rat` in scaled objects), `σ` for the quarter cycle indicator (`Int` or
text). A subclass is a structure that contains its base class part.
-/

namespace Verif

/-- gnss_types/base_station.py:27-42 `BaseRP` -/
structure BaseRP (β ν σ : Type) where
  msgNum : Int
  bsID : Int
  ITRF_Year : Int
  GPS_OK : β
  GLO_OK : β
  GAL_OK : β
  isVirtual : β
  refPoint_X : ν
  singleOsc : β
  refPoint_Y : ν
  QC_bias : σ
  refPoint_Z : ν
  deriving DecidableEq

/-- gnss_types/base_station.py:45-49 `BaseRPH(BaseRP)` -/
structure BaseRPH (β ν σ : Type) where
  rp : BaseRP β ν σ
  height : ν
  deriving DecidableEq

/-- gnss_types/base_station.py:52-60 `BaseAD` -/
structure BaseAD where
  msgNum : Int
  bsID : Int
  descrLength : Int
  descr : String
  setupID : Int
  deriving DecidableEq

/-- gnss_types/base_station.py:63-69 `BaseADSN(BaseAD)` -/
structure BaseADSN where
  ad : BaseAD
  serialNumberLength : Int
  serialNumber : String
  deriving DecidableEq

/-- gnss_types/base_station.py:72-82 `BaseADSNRC(BaseADSN)` -/
structure BaseADSNRC where
  adsn : BaseADSN
  rcvDescriptorLength : Int
  rcvDescriptor : String
  rcvFWVersionLength : Int
  rcvFWVersion : String
  rcvSerNumLength : Int
  rcvSerNum : String
  deriving DecidableEq

/-- gnss_types/base_station.py:94-112 `BaseSP` -/
structure BaseSP (β ν : Type) where
  msgNum : Int
  bsID : Int
  modifiedJulianDay : Int
  daySec : Int
  Nm : Int
  leapSec : Int
  shedule : PyDict Int (β × ν)
  deriving DecidableEq

/-- gnss_types/base_station.py:115-125 `BaseTS` -/
structure BaseTS where
  msgNum : Int
  bsID : Int
  modifiedJulianDay : Int
  daySec : Int
  charNum : Int
  unitsNum : Int
  message : String
  deriving DecidableEq

/-- gnss_types/base_station.py:128-149 `BaseGLBS` -/
structure BaseGLBS (β ν : Type) where
  msgNum : Int
  bsID : Int
  isCorrected : β
  validity : PyDict String β
  correction : PyDict String ν
  deriving DecidableEq

namespace Base

/-- The base station objects, tagged by their class.
Classes: gnss_types/base_station.py:28-149; chosen in sub_decoders/RTCM_BASE.py:375-401. -/
inductive Obj (β ν σ : Type) where
  | rp (o : BaseRP β ν σ)
  | rph (o : BaseRPH β ν σ)
  | ad (o : BaseAD)
  | adsn (o : BaseADSN)
  | adsnrc (o : BaseADSNRC)
  | sp (o : BaseSP β ν)
  | ts (o : BaseTS)
  | glbs (o : BaseGLBS β ν)
  deriving DecidableEq

/-- Bare objects. Returned by `__decode`, sub_decoders/RTCM_BASE.py:375-401. -/
abbrev BareObj := Obj Int Int Int

/-- Scaled objects. Returned by `scale`, sub_decoders/RTCM_BASE.py:402-420. -/
abbrev ScaledObj := Obj Bool Rat String

end Base
end Verif
