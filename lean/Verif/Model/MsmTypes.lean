import Verif.Model.Dict

/-!
# Model of gnss_types/observables.py
-/

namespace Verif
namespace Msm

/-- gnss_types/observables.py:36-51 `Attributes`; `none` is a `msg_number` equal to `None`, which
`get_msg_num` yields for a message that is too short. -/
structure Attributes where
  gnss : String
  subset : String
  msg_number : Option Nat
  deriving DecidableEq, Repr

namespace Attributes
/-- gnss_types/observables.py:53-56 -/
def is_msm7 (a : Attributes) : Bool := a.subset == "MSM7"
/-- gnss_types/observables.py:58-61 -/
def is_msm6 (a : Attributes) : Bool := a.subset == "MSM6"
/-- gnss_types/observables.py:63-66 -/
def is_msm5 (a : Attributes) : Bool := a.subset == "MSM5"
/-- gnss_types/observables.py:68-71 -/
def is_msm4 (a : Attributes) : Bool := a.subset == "MSM4"
/-- gnss_types/observables.py:73-76 -/
def is_msm3 (a : Attributes) : Bool := a.subset == "MSM3"
/-- gnss_types/observables.py:78-81 -/
def is_msm2 (a : Attributes) : Bool := a.subset == "MSM2"
/-- gnss_types/observables.py:83-86 -/
def is_msm1 (a : Attributes) : Bool := a.subset == "MSM1"
end Attributes

/-- gnss_types/observables.py:90-104 `_ObservablesHdrMSM` (defaults as set by `__init__`). -/
structure ObsHdr where
  signals : PyDict String Rat := []
  sats : List Nat := [0]
  time : Nat := 0
  day : Nat := 0
  deriving DecidableEq, Repr

/-- gnss_types/observables.py:113-142 `_ObservablesObs`. -/
structure Obs where
  rng : PyDict String (PyDict Nat Rat) := []
  phs : PyDict String (PyDict Nat Rat) := []
  ltm : PyDict String (PyDict Nat Nat) := []
  hca : PyDict String (PyDict Nat Bool) := []
  dpl : PyDict String (PyDict Nat Rat) := []
  c2n : PyDict String (PyDict Nat Rat) := []
  deriving DecidableEq, Repr

/-- gnss_types/observables.py:161-188 `_ObservablesAuxMSM`. The dictionaries with keys `code` and `val` are pairs. -/
structure ObsAux where
  rs_id : Nat := 42
  MMB : Nat := 0
  IODS : Nat := 0
  clk_steer : Nat × String := (2, "UNDEF")
  clk_ext : Nat × String := (3, "UNDEF")
  smth_indc : Nat × String := (0, "UNDEF")
  smth_intr : Nat × String := (0, "NOSMTH")
  deriving DecidableEq, Repr

/-- gnss_types/observables.py:23-33 `ObservablesMSM`. -/
structure ObservablesMSM where
  hdr : ObsHdr := {}
  obs : Obs := {}
  aux : ObsAux := {}
  atr : Attributes
  deriving DecidableEq, Repr

/-- gnss_types/observables.py:204-236 `_BareObservablesHdrMSM`. -/
structure BareHdr where
  rs_id : Nat := 0
  time : Nat := 0
  MMB : Nat := 0
  IODS : Nat := 0
  clk_steer : Nat := 0
  clk_ext : Nat := 0
  smth_indc : Nat := 0
  smth_intr : Nat := 0
  sat_mask : Nat := 0
  sgn_mask : Nat := 0
  cell_mask : Nat := 0
  deriving DecidableEq, Repr

/-- gnss_types/observables.py:239-252 `_BareObservablesSatDataMSM4567`; the default of each tuple is `(0,)`. -/
structure BareSat4567 where
  rng_ms : List Nat := [0]
  ext_info : List Nat := [0]
  rng_rough : List Nat := [0]
  phase_rate_rough : List Int := [0]
  deriving DecidableEq, Repr

/-- gnss_types/observables.py:255-277 `_BareObservablesSignalDataMSM4567`. -/
structure BareSgn4567 where
  rng_fine : List Int := [0]
  phase_fine : List Int := [0]
  lock_time : List Nat := [0]
  hc_indc : List Nat := [0]
  c2n : List Nat := [0]
  phase_rate_fine : List Int := [0]
  deriving DecidableEq, Repr

/-- gnss_types/observables.py:280-306 `BareObservablesMSM4567`. -/
structure Bare4567 where
  atr : Attributes
  hdr : BareHdr := {}
  sat : BareSat4567 := {}
  sgn : BareSgn4567 := {}
  deriving DecidableEq, Repr

/-- gnss_types/observables.py:309-319 `_BareObservablesSatDataMSM123`. -/
structure BareSat123 where
  rng_rough : List Nat := [0]
  deriving DecidableEq, Repr

/-- gnss_types/observables.py:322-335 `_BareObservablesSignalDataMSM123`. -/
structure BareSgn123 where
  rng_fine : List Int := [0]
  phase_fine : List Int := [0]
  lock_time : List Nat := [0]
  hc_indc : List Nat := [0]
  deriving DecidableEq, Repr

/-- gnss_types/observables.py:338-364 `BareObservablesMSM123`. -/
structure Bare123 where
  atr : Attributes
  hdr : BareHdr := {}
  sat : BareSat123 := {}
  sgn : BareSgn123 := {}
  deriving DecidableEq, Repr

/-- The two classes of bare objects. Classes: gnss_types/observables.py:280-306, 338-364. -/
inductive Bare where
  | m4567 (b : Bare4567)
  | m123 (b : Bare123)
  deriving DecidableEq, Repr

namespace Bare
/-- attribute `atr` of either class. gnss_types/observables.py:286, 344. -/
def atr : Bare → Attributes
  | m4567 b => b.atr
  | m123 b => b.atr
/-- attribute `hdr` of either class. gnss_types/observables.py:287, 345. -/
def hdr : Bare → BareHdr
  | m4567 b => b.hdr
  | m123 b => b.hdr
/-- gnss_types/observables.py:298-301, 356-359 property `time` -/
def time (b : Bare) : Nat := if b.atr.gnss = "R" then b.hdr.time &&& 0x7FFFFFF else b.hdr.time
/-- gnss_types/observables.py:303-306, 361-364 property `day` -/
def day (b : Bare) : Nat := if b.atr.gnss = "R" then (b.hdr.time >>> 27) &&& 0x07 else 0
end Bare

end Msm
end Verif
