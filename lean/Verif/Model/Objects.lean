import Verif.Model.EphTypes
import Verif.Model.BaseTypes
import Verif.Model.MsmTypes

/-!
# The decoded objects and their classes (gnss_types)
-/

namespace Verif
namespace Decoder

/-- The classes of decoded objects.
Classes: gnss_types/observables.py:23, 280, 338, gnss_types/ephemeris.py:60-142,
gnss_types/base_station.py:28-129. -/
inductive Cls where
  | bareMSM4567 | bareMSM123 | observablesMSM
  | ephGALF | ephGALI | ephGLO | ephGPS | ephQZS | ephBDS | ephNAVIC
  | baseRP | baseRPH | baseAD | baseADSN | baseADSNRC | baseSP | baseTS | baseGLBS
  deriving DecidableEq, Repr

/-- Direct base classes among the classes above, gnss_types/base_station.py:46, 64, 73. -/
def Cls.parent : Cls → Option Cls
  | .baseRPH => some .baseRP
  | .baseADSN => some .baseAD
  | .baseADSNRC => some .baseADSN
  | _ => none

/-- Decoded objects. Ephemeris and base station objects of bare and of scaled mode belong to the same classes.
Returned by the methods `decode` of sub_decoders/RTCM_MSM.py:740-756,
sub_decoders/RTCM_EPH.py:733-765, sub_decoders/RTCM_BASE.py:442-472. -/
inductive PyObj where
  | msmBare (b : Msm.Bare)
  | msm (o : Msm.ObservablesMSM)
  | eph (e : Eph.Obj PyNum)
  | baseBare (b : Base.BareObj)
  | baseScaled (b : Base.ScaledObj)
  deriving DecidableEq

/-- Class of a base station object. Classes: gnss_types/base_station.py:28-129. -/
def baseCls {β ν σ : Type} : Base.Obj β ν σ → Cls
  | .rp _ => .baseRP
  | .rph _ => .baseRPH
  | .ad _ => .baseAD
  | .adsn _ => .baseADSN
  | .adsnrc _ => .baseADSNRC
  | .sp _ => .baseSP
  | .ts _ => .baseTS
  | .glbs _ => .baseGLBS

/-- Class of an ephemeris object. Classes: gnss_types/ephemeris.py:60-142. -/
def ephCls {ν : Type} : Eph.Obj ν → Cls
  | .gps _ => .ephGPS
  | .glo _ => .ephGLO
  | .navic _ => .ephNAVIC
  | .bds _ => .ephBDS
  | .qzs _ => .ephQZS
  | .galf _ => .ephGALF
  | .gali _ => .ephGALI

/-- `type(o)`. Used in printer_top.py:227 and printers/json_printer.py:198. -/
def PyObj.cls : PyObj → Cls
  | .msmBare (.m4567 _) => .bareMSM4567
  | .msmBare (.m123 _) => .bareMSM123
  | .msm _ => .observablesMSM
  | .eph e => ephCls e
  | .baseBare b => baseCls b
  | .baseScaled b => baseCls b

/-- `isinstance(o, c)`: the class of `o` is `c` or has `c` among its base classes (at most two levels exist).
Used in decoder_top.py:209 and printers/json_printer.py:200-205; base classes:
gnss_types/base_station.py:46, 64, 73. -/
def isInstance (o : PyObj) (c : Cls) : Bool :=
  o.cls == c || o.cls.parent == some c || (o.cls.parent.bind Cls.parent) == some c

end Decoder
end Verif
