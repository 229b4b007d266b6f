import Verif.PyCore.Syntax

/-!
# gnss_types/ephemeris.py

Generated by fidelity/embed.py from the text of the module.
-/

namespace Verif
namespace PyCore
namespace Src

/-- `EphHdr`, gnss_types/ephemeris.py:17-23. -/
def cls_EphHdr : ClassDef where
  mro := [n!"EphHdr"]
  members := []
  fields := [(n!"msgNum", .const (.int 0)),
    (n!"satNum", .const (.int 0)),
    (n!"weekNum", .const (.int 0))]
  isData := true
  isExc := false

/-- `ClockBias`, gnss_types/ephemeris.py:27-34. -/
def cls_ClockBias : ClassDef where
  mro := [n!"ClockBias"]
  members := []
  fields := [(n!"tc", .const (.int 0)),
    (n!"af0", .const (.int 0)),
    (n!"af1", .const (.int 0)),
    (n!"af2", .const (.int 0))]
  isData := true
  isExc := false

/-- `Keplerians`, gnss_types/ephemeris.py:38-57. -/
def cls_Keplerians : ClassDef where
  mro := [n!"Keplerians"]
  members := []
  fields := [(n!"te", .const (.int 0)),
    (n!"delta_n", .const (.int 0)),
    (n!"m0", .const (.int 0)),
    (n!"e", .const (.int 0)),
    (n!"sqrt_a", .const (.int 0)),
    (n!"w", .const (.int 0)),
    (n!"i0", .const (.int 0)),
    (n!"i_dot", .const (.int 0)),
    (n!"omega0", .const (.int 0)),
    (n!"omega_dot", .const (.int 0)),
    (n!"crs", .const (.int 0)),
    (n!"crc", .const (.int 0)),
    (n!"cuc", .const (.int 0)),
    (n!"cus", .const (.int 0)),
    (n!"cic", .const (.int 0)),
    (n!"cis", .const (.int 0))]
  isData := true
  isExc := false

/-- `EphGALF`, gnss_types/ephemeris.py:61-69. -/
def cls_EphGALF : ClassDef where
  mro := [n!"EphGALF", n!"DataClassMethods", n!"Keplerians", n!"ClockBias", n!"EphHdr"]
  members := []
  fields := [(n!"IODnav", .const (.int 0)),
    (n!"SISA", .const (.int 0)),
    (n!"E5a_BGD", .const (.int 0)),
    (n!"E5a_SHS", .const (.int 0)),
    (n!"E5a_DVS", .const (.int 0))]
  isData := true
  isExc := false

/-- `EphGALI`, gnss_types/ephemeris.py:73-84. -/
def cls_EphGALI : ClassDef where
  mro := [n!"EphGALI", n!"DataClassMethods", n!"Keplerians", n!"ClockBias", n!"EphHdr"]
  members := []
  fields := [(n!"IODnav", .const (.int 0)),
    (n!"SISA", .const (.int 0)),
    (n!"E5a_BGD", .const (.int 0)),
    (n!"E5b_BGD", .const (.int 0)),
    (n!"E1_SHS", .const (.int 0)),
    (n!"E1_DVS", .const (.int 0)),
    (n!"E5b_SHS", .const (.int 0)),
    (n!"E5b_DVS", .const (.int 0))]
  isData := true
  isExc := false

/-- `EphQZS`, gnss_types/ephemeris.py:88-98. -/
def cls_EphQZS : ClassDef where
  mro := [n!"EphQZS", n!"DataClassMethods", n!"Keplerians", n!"ClockBias", n!"EphHdr"]
  members := []
  fields := [(n!"IODE", .const (.int 0)),
    (n!"IODC", .const (.int 0)),
    (n!"Fit", .const (.int 0)),
    (n!"L2_Codes", .const (.int 0)),
    (n!"SVH", .const (.int 0)),
    (n!"URA", .const (.int 0)),
    (n!"TGD", .const (.int 0))]
  isData := true
  isExc := false

/-- `EphBDS`, gnss_types/ephemeris.py:102-111. -/
def cls_EphBDS : ClassDef where
  mro := [n!"EphBDS", n!"DataClassMethods", n!"Keplerians", n!"ClockBias", n!"EphHdr"]
  members := []
  fields := [(n!"AODE", .const (.int 0)),
    (n!"AODC", .const (.int 0)),
    (n!"SVH", .const (.int 0)),
    (n!"URAI", .const (.int 0)),
    (n!"TGD1", .const (.int 0)),
    (n!"TGD2", .const (.int 0))]
  isData := true
  isExc := false

/-- `EphGPS`, gnss_types/ephemeris.py:115-126. -/
def cls_EphGPS : ClassDef where
  mro := [n!"EphGPS", n!"DataClassMethods", n!"Keplerians", n!"ClockBias", n!"EphHdr"]
  members := []
  fields := [(n!"IODE", .const (.int 0)),
    (n!"IODC", .const (.int 0)),
    (n!"Fit", .const (.int 0)),
    (n!"L2_Codes", .const (.int 0)),
    (n!"L2P_Data", .const (.int 0)),
    (n!"SVH", .const (.int 0)),
    (n!"URA", .const (.int 0)),
    (n!"TGD", .const (.int 0))]
  isData := true
  isExc := false

/-- `EphNAVIC`, gnss_types/ephemeris.py:130-138. -/
def cls_EphNAVIC : ClassDef where
  mro := [n!"EphNAVIC", n!"DataClassMethods", n!"Keplerians", n!"ClockBias", n!"EphHdr"]
  members := [(n!"L5_Flag", .value (.const (.int 0))),
    (n!"S_Flag", .value (.const (.int 0)))]
  fields := [(n!"URA", .const (.int 0)),
    (n!"TGD", .const (.int 0)),
    (n!"IODEC", .const (.int 0))]
  isData := true
  isExc := false

/-- `EphGLO`, gnss_types/ephemeris.py:142-181. -/
def cls_EphGLO : ClassDef where
  mro := [n!"EphGLO", n!"DataClassMethods"]
  members := []
  fields := [(n!"msgNum", .const (.int 0)),
    (n!"satNum", .const (.int 0)),
    (n!"frqSloNum", .const (.int 0)),
    (n!"tk", .const (.int 0)),
    (n!"tb", .const (.int 0)),
    (n!"xn", .const (.int 0)),
    (n!"dotXn", .const (.int 0)),
    (n!"dotDotXn", .const (.int 0)),
    (n!"yn", .const (.int 0)),
    (n!"dotYn", .const (.int 0)),
    (n!"dotDotYn", .const (.int 0)),
    (n!"zn", .const (.int 0)),
    (n!"dotZn", .const (.int 0)),
    (n!"dotDotZn", .const (.int 0)),
    (n!"gamma_n", .const (.int 0)),
    (n!"Cn", .const (.int 0)),
    (n!"BnMSB", .const (.int 0)),
    (n!"AlmHAI", .const (.int 0)),
    (n!"P", .const (.int 0)),
    (n!"P1", .const (.int 0)),
    (n!"P2", .const (.int 0)),
    (n!"P3", .const (.int 0)),
    (n!"P4", .const (.int 0)),
    (n!"ln3", .const (.int 0)),
    (n!"tauN", .const (.int 0)),
    (n!"delta_tauN", .const (.int 0)),
    (n!"En", .const (.int 0)),
    (n!"Ft", .const (.int 0)),
    (n!"Nt", .const (.int 0)),
    (n!"M", .const (.int 0)),
    (n!"auxDataOK", .const (.int 0)),
    (n!"Na", .const (.int 0)),
    (n!"tauC", .const (.int 0)),
    (n!"N4", .const (.int 0)),
    (n!"tauGPS", .const (.int 0)),
    (n!"ln5", .const (.int 0))]
  isData := true
  isExc := false

end Src
end PyCore
end Verif
