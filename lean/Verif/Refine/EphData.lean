import Verif.Refine.Fields
import Verif.Model.EphDouble

/-!
# The statements of sub_decoders/RTCM_EPH.py as lists of fields

The lists are checked against the source text in EphDecode and EphScale.
-/

namespace Verif
namespace PyCore
namespace Refine

open Rounding (rnd)
variable [Rounding]

/-- How a field is computed from a field that has been read. -/
inductive Sc where
  | id
  | mul (k : Int)
  | mul2 (k l : Int)
  | sub (k : Int)
  | pow (k : Nat)
  | dec

/-- The expression. `pow k` is the factor `2**-(k+1)`. -/
def Sc.expr (f : Ident) : Sc → Expr
  | .id => .attr (.name n!"ie") f
  | .mul k => .bin .mul (.attr (.name n!"ie") f) (.const (.int k))
  | .mul2 k l => .bin .mul (.bin .mul (.attr (.name n!"ie") f) (.const (.int k))) (.const (.int l))
  | .sub k => .bin .sub (.attr (.name n!"ie") f) (.const (.int k))
  | .pow k => .bin .mul (.attr (.name n!"ie") f) (.bin .pow (.const (.int 2)) (.neg (.const (.int ((k + 1 : Nat) : Int)))))
  | .dec => .bin .mul (.attr (.name n!"ie") f) (.const (.flt 1 10000000000))

/-- The value. -/
def Sc.val (x : Int) : Sc → Val
  | .id => .int x
  | .mul k => .int (x * k)
  | .mul2 k l => .int (x * k * l)
  | .sub k => .int (x - k)
  | .pow k => .flt (Eph.mulR rnd x (1 / 2 ^ (k + 1)))
  | .dec => .flt (Eph.mulR rnd x (1 / 10 ^ 10))

/-- The attributes of an object of the class `EphGPS`, in the order in which they are created. -/
def gpsFields {ν : Type} (f : ν → Val) (e : EphGPS ν) : List (Ident × Val) :=
  [(n!"msgNum", f e.msgNum),
   (n!"satNum", f e.satNum),
   (n!"weekNum", f e.weekNum),
   (n!"tc", f e.tc),
   (n!"af0", f e.af0),
   (n!"af1", f e.af1),
   (n!"af2", f e.af2),
   (n!"te", f e.te),
   (n!"delta_n", f e.delta_n),
   (n!"m0", f e.m0),
   (n!"e", f e.e),
   (n!"sqrt_a", f e.sqrt_a),
   (n!"w", f e.w),
   (n!"i0", f e.i0),
   (n!"i_dot", f e.i_dot),
   (n!"omega0", f e.omega0),
   (n!"omega_dot", f e.omega_dot),
   (n!"crs", f e.crs),
   (n!"crc", f e.crc),
   (n!"cuc", f e.cuc),
   (n!"cus", f e.cus),
   (n!"cic", f e.cic),
   (n!"cis", f e.cis),
   (n!"IODE", f e.IODE),
   (n!"IODC", f e.IODC),
   (n!"Fit", f e.Fit),
   (n!"L2_Codes", f e.L2_Codes),
   (n!"L2P_Data", f e.L2P_Data),
   (n!"SVH", f e.SVH),
   (n!"URA", f e.URA),
   (n!"TGD", f e.TGD)]

/-- The attributes of a new object of the class `EphGPS`. -/
def gpsNew : List (Ident × Val) :=
  [(n!"msgNum", .int 0),
   (n!"satNum", .int 0),
   (n!"weekNum", .int 0),
   (n!"tc", .int 0),
   (n!"af0", .int 0),
   (n!"af1", .int 0),
   (n!"af2", .int 0),
   (n!"te", .int 0),
   (n!"delta_n", .int 0),
   (n!"m0", .int 0),
   (n!"e", .int 0),
   (n!"sqrt_a", .int 0),
   (n!"w", .int 0),
   (n!"i0", .int 0),
   (n!"i_dot", .int 0),
   (n!"omega0", .int 0),
   (n!"omega_dot", .int 0),
   (n!"crs", .int 0),
   (n!"crc", .int 0),
   (n!"cuc", .int 0),
   (n!"cus", .int 0),
   (n!"cic", .int 0),
   (n!"cis", .int 0),
   (n!"IODE", .int 0),
   (n!"IODC", .int 0),
   (n!"Fit", .int 0),
   (n!"L2_Codes", .int 0),
   (n!"L2P_Data", .int 0),
   (n!"SVH", .int 0),
   (n!"URA", .int 0),
   (n!"TGD", .int 0)]

/-- The statements of `__decode1019` that read the fields. -/
def gpsSteps : List Step :=
  [⟨n!"msgNum", .u, 12, [12]⟩,
   ⟨n!"satNum", .u, 6, [6]⟩,
   ⟨n!"weekNum", .u, 10, [10]⟩,
   ⟨n!"URA", .u, 4, [4]⟩,
   ⟨n!"L2_Codes", .u, 2, [2]⟩,
   ⟨n!"i_dot", .s, 14, [14]⟩,
   ⟨n!"IODE", .u, 8, [8]⟩,
   ⟨n!"tc", .u, 16, [16]⟩,
   ⟨n!"af2", .s, 8, [8]⟩,
   ⟨n!"af1", .s, 16, [16]⟩,
   ⟨n!"af0", .s, 22, [22]⟩,
   ⟨n!"IODC", .u, 10, [10]⟩,
   ⟨n!"crs", .s, 16, [16]⟩,
   ⟨n!"delta_n", .s, 16, [16]⟩,
   ⟨n!"m0", .s, 32, [32]⟩,
   ⟨n!"cuc", .s, 16, [16]⟩,
   ⟨n!"e", .u, 32, [32]⟩,
   ⟨n!"cus", .s, 16, [16]⟩,
   ⟨n!"sqrt_a", .u, 32, [32]⟩,
   ⟨n!"te", .u, 16, [16]⟩,
   ⟨n!"cic", .s, 16, [16]⟩,
   ⟨n!"omega0", .s, 32, [32]⟩,
   ⟨n!"cis", .s, 16, [16]⟩,
   ⟨n!"i0", .s, 32, [32]⟩,
   ⟨n!"crc", .s, 16, [16]⟩,
   ⟨n!"w", .s, 32, [32]⟩,
   ⟨n!"omega_dot", .s, 24, [24]⟩,
   ⟨n!"TGD", .s, 8, [8]⟩,
   ⟨n!"SVH", .u, 6, [6]⟩,
   ⟨n!"L2P_Data", .u, 1, [1]⟩,
   ⟨n!"Fit", .u, 1, [1]⟩]

/-- The statements of `__scale1019` that compute fields, part 1. -/
def gpsScale1 : List (Ident × Sc) :=
  [(n!"msgNum", .id),
   (n!"satNum", .id),
   (n!"weekNum", .id),
   (n!"i_dot", .pow 42),
   (n!"IODE", .id),
   (n!"tc", .mul 16),
   (n!"af2", .pow 54),
   (n!"af1", .pow 42),
   (n!"af0", .pow 30),
   (n!"IODC", .id),
   (n!"crs", .pow 4),
   (n!"delta_n", .pow 42),
   (n!"m0", .pow 30),
   (n!"cuc", .pow 28),
   (n!"e", .pow 32),
   (n!"cus", .pow 28),
   (n!"sqrt_a", .pow 18),
   (n!"te", .mul 16),
   (n!"cic", .pow 28),
   (n!"omega0", .pow 30),
   (n!"cis", .pow 28),
   (n!"i0", .pow 30),
   (n!"crc", .pow 4),
   (n!"w", .pow 30),
   (n!"omega_dot", .pow 42),
   (n!"TGD", .pow 30)]

/-- The statements of `__scale1019` that compute fields, part 2. -/
def gpsScale2 : List (Ident × Sc) :=
  [(n!"L2_Codes", .id),
   (n!"URA", .id),
   (n!"SVH", .id),
   (n!"L2P_Data", .id),
   (n!"Fit", .id)]

/-- The attributes of an object of the class `EphGLO`, in the order in which they are created. -/
def gloFields {ν : Type} (f : ν → Val) (e : EphGLO ν) : List (Ident × Val) :=
  [(n!"msgNum", f e.msgNum),
   (n!"satNum", f e.satNum),
   (n!"frqSloNum", f e.frqSloNum),
   (n!"tk", f e.tk),
   (n!"tb", f e.tb),
   (n!"xn", f e.xn),
   (n!"dotXn", f e.dotXn),
   (n!"dotDotXn", f e.dotDotXn),
   (n!"yn", f e.yn),
   (n!"dotYn", f e.dotYn),
   (n!"dotDotYn", f e.dotDotYn),
   (n!"zn", f e.zn),
   (n!"dotZn", f e.dotZn),
   (n!"dotDotZn", f e.dotDotZn),
   (n!"gamma_n", f e.gamma_n),
   (n!"Cn", f e.Cn),
   (n!"BnMSB", f e.BnMSB),
   (n!"AlmHAI", f e.AlmHAI),
   (n!"P", f e.P),
   (n!"P1", f e.P1),
   (n!"P2", f e.P2),
   (n!"P3", f e.P3),
   (n!"P4", f e.P4),
   (n!"ln3", f e.ln3),
   (n!"tauN", f e.tauN),
   (n!"delta_tauN", f e.delta_tauN),
   (n!"En", f e.En),
   (n!"Ft", f e.Ft),
   (n!"Nt", f e.Nt),
   (n!"M", f e.M),
   (n!"auxDataOK", f e.auxDataOK),
   (n!"Na", f e.Na),
   (n!"tauC", f e.tauC),
   (n!"N4", f e.N4),
   (n!"tauGPS", f e.tauGPS),
   (n!"ln5", f e.ln5)]

/-- The attributes of a new object of the class `EphGLO`. -/
def gloNew : List (Ident × Val) :=
  [(n!"msgNum", .int 0),
   (n!"satNum", .int 0),
   (n!"frqSloNum", .int 0),
   (n!"tk", .int 0),
   (n!"tb", .int 0),
   (n!"xn", .int 0),
   (n!"dotXn", .int 0),
   (n!"dotDotXn", .int 0),
   (n!"yn", .int 0),
   (n!"dotYn", .int 0),
   (n!"dotDotYn", .int 0),
   (n!"zn", .int 0),
   (n!"dotZn", .int 0),
   (n!"dotDotZn", .int 0),
   (n!"gamma_n", .int 0),
   (n!"Cn", .int 0),
   (n!"BnMSB", .int 0),
   (n!"AlmHAI", .int 0),
   (n!"P", .int 0),
   (n!"P1", .int 0),
   (n!"P2", .int 0),
   (n!"P3", .int 0),
   (n!"P4", .int 0),
   (n!"ln3", .int 0),
   (n!"tauN", .int 0),
   (n!"delta_tauN", .int 0),
   (n!"En", .int 0),
   (n!"Ft", .int 0),
   (n!"Nt", .int 0),
   (n!"M", .int 0),
   (n!"auxDataOK", .int 0),
   (n!"Na", .int 0),
   (n!"tauC", .int 0),
   (n!"N4", .int 0),
   (n!"tauGPS", .int 0),
   (n!"ln5", .int 0)]

/-- The statements of `__decode1020` that read the fields. -/
def gloSteps : List Step :=
  [⟨n!"msgNum", .u, 12, [12]⟩,
   ⟨n!"satNum", .u, 6, [6]⟩,
   ⟨n!"frqSloNum", .u, 5, [5]⟩,
   ⟨n!"Cn", .u, 1, [1]⟩,
   ⟨n!"AlmHAI", .u, 1, [1]⟩,
   ⟨n!"P1", .u, 2, [2]⟩,
   ⟨n!"tk", .u, 12, [12]⟩,
   ⟨n!"BnMSB", .u, 1, [1]⟩,
   ⟨n!"P2", .u, 1, [1]⟩,
   ⟨n!"tb", .u, 7, [7]⟩,
   ⟨n!"dotXn", .S, 24, [24]⟩,
   ⟨n!"xn", .S, 27, [27]⟩,
   ⟨n!"dotDotXn", .S, 5, [5]⟩,
   ⟨n!"dotYn", .S, 24, [24]⟩,
   ⟨n!"yn", .S, 27, [27]⟩,
   ⟨n!"dotDotYn", .S, 5, [5]⟩,
   ⟨n!"dotZn", .S, 24, [24]⟩,
   ⟨n!"zn", .S, 27, [27]⟩,
   ⟨n!"dotDotZn", .S, 5, [5]⟩,
   ⟨n!"P3", .u, 1, [1]⟩,
   ⟨n!"gamma_n", .S, 11, [11]⟩,
   ⟨n!"P", .u, 2, [2]⟩,
   ⟨n!"ln3", .u, 1, [1]⟩,
   ⟨n!"tauN", .S, 22, [22]⟩,
   ⟨n!"delta_tauN", .S, 5, [5]⟩,
   ⟨n!"En", .u, 5, [5]⟩,
   ⟨n!"P4", .u, 1, [1]⟩,
   ⟨n!"Ft", .u, 4, [4]⟩,
   ⟨n!"Nt", .u, 11, [11]⟩,
   ⟨n!"M", .u, 2, [2]⟩,
   ⟨n!"auxDataOK", .u, 1, [1]⟩,
   ⟨n!"Na", .u, 11, [11]⟩,
   ⟨n!"tauC", .S, 32, [32]⟩,
   ⟨n!"N4", .u, 5, [5]⟩,
   ⟨n!"tauGPS", .S, 22, [22]⟩,
   ⟨n!"ln5", .u, 1, [1, 7]⟩]

/-- The statements of `__scale1020` that compute fields, part 1. -/
def gloScale1 : List (Ident × Sc) :=
  [(n!"msgNum", .id),
   (n!"satNum", .id),
   (n!"frqSloNum", .sub 7)]

/-- The statements of `__scale1020` that compute fields, part 2. -/
def gloScale2 : List (Ident × Sc) :=
  [(n!"Cn", .id),
   (n!"AlmHAI", .id),
   (n!"P1", .id),
   (n!"BnMSB", .id),
   (n!"P2", .id),
   (n!"tb", .mul2 15 60),
   (n!"dotXn", .pow 19),
   (n!"xn", .pow 10),
   (n!"dotDotXn", .pow 29),
   (n!"dotYn", .pow 19),
   (n!"yn", .pow 10),
   (n!"dotDotYn", .pow 29),
   (n!"dotZn", .pow 19),
   (n!"zn", .pow 10),
   (n!"dotDotZn", .pow 29),
   (n!"P3", .id),
   (n!"gamma_n", .pow 39),
   (n!"P", .id),
   (n!"ln3", .id),
   (n!"tauN", .pow 29),
   (n!"delta_tauN", .pow 29),
   (n!"En", .id),
   (n!"P4", .id),
   (n!"Ft", .id),
   (n!"Nt", .id),
   (n!"M", .id),
   (n!"auxDataOK", .id),
   (n!"Na", .id),
   (n!"tauC", .pow 30),
   (n!"N4", .id),
   (n!"tauGPS", .pow 29),
   (n!"ln5", .id)]

/-- The attributes of an object of the class `EphNAVIC`, in the order in which they are created. -/
def navicFields {ν : Type} (f : ν → Val) (e : EphNAVIC ν) : List (Ident × Val) :=
  [(n!"msgNum", f e.msgNum),
   (n!"satNum", f e.satNum),
   (n!"weekNum", f e.weekNum),
   (n!"tc", f e.tc),
   (n!"af0", f e.af0),
   (n!"af1", f e.af1),
   (n!"af2", f e.af2),
   (n!"te", f e.te),
   (n!"delta_n", f e.delta_n),
   (n!"m0", f e.m0),
   (n!"e", f e.e),
   (n!"sqrt_a", f e.sqrt_a),
   (n!"w", f e.w),
   (n!"i0", f e.i0),
   (n!"i_dot", f e.i_dot),
   (n!"omega0", f e.omega0),
   (n!"omega_dot", f e.omega_dot),
   (n!"crs", f e.crs),
   (n!"crc", f e.crc),
   (n!"cuc", f e.cuc),
   (n!"cus", f e.cus),
   (n!"cic", f e.cic),
   (n!"cis", f e.cis),
   (n!"URA", f e.URA),
   (n!"TGD", f e.TGD),
   (n!"IODEC", f e.IODEC),
   (n!"L5_Flag", f e.L5_Flag),
   (n!"S_Flag", f e.S_Flag)]

/-- The attributes of a new object of the class `EphNAVIC`. -/
def navicNew : List (Ident × Val) :=
  [(n!"msgNum", .int 0),
   (n!"satNum", .int 0),
   (n!"weekNum", .int 0),
   (n!"tc", .int 0),
   (n!"af0", .int 0),
   (n!"af1", .int 0),
   (n!"af2", .int 0),
   (n!"te", .int 0),
   (n!"delta_n", .int 0),
   (n!"m0", .int 0),
   (n!"e", .int 0),
   (n!"sqrt_a", .int 0),
   (n!"w", .int 0),
   (n!"i0", .int 0),
   (n!"i_dot", .int 0),
   (n!"omega0", .int 0),
   (n!"omega_dot", .int 0),
   (n!"crs", .int 0),
   (n!"crc", .int 0),
   (n!"cuc", .int 0),
   (n!"cus", .int 0),
   (n!"cic", .int 0),
   (n!"cis", .int 0),
   (n!"URA", .int 0),
   (n!"TGD", .int 0),
   (n!"IODEC", .int 0)]

/-- The statements of `__decode1041` that read the fields. -/
def navicSteps : List Step :=
  [⟨n!"msgNum", .u, 12, [12]⟩,
   ⟨n!"satNum", .u, 6, [6]⟩,
   ⟨n!"weekNum", .u, 10, [10]⟩,
   ⟨n!"af0", .s, 22, [22]⟩,
   ⟨n!"af1", .s, 16, [16]⟩,
   ⟨n!"af2", .s, 8, [8]⟩,
   ⟨n!"URA", .u, 4, [4]⟩,
   ⟨n!"tc", .u, 16, [16]⟩,
   ⟨n!"TGD", .s, 8, [8]⟩,
   ⟨n!"delta_n", .s, 22, [22]⟩,
   ⟨n!"IODEC", .u, 8, [8, 10]⟩,
   ⟨n!"L5_Flag", .u, 1, [1]⟩,
   ⟨n!"S_Flag", .u, 1, [1]⟩,
   ⟨n!"cuc", .s, 15, [15]⟩,
   ⟨n!"cus", .s, 15, [15]⟩,
   ⟨n!"cic", .s, 15, [15]⟩,
   ⟨n!"cis", .s, 15, [15]⟩,
   ⟨n!"crc", .s, 15, [15]⟩,
   ⟨n!"crs", .s, 15, [15]⟩,
   ⟨n!"i_dot", .s, 14, [14]⟩,
   ⟨n!"m0", .s, 32, [32]⟩,
   ⟨n!"te", .u, 16, [16]⟩,
   ⟨n!"e", .u, 32, [32]⟩,
   ⟨n!"sqrt_a", .u, 32, [32]⟩,
   ⟨n!"omega0", .s, 32, [32]⟩,
   ⟨n!"w", .s, 32, [32]⟩,
   ⟨n!"omega_dot", .s, 22, [22]⟩,
   ⟨n!"i0", .s, 32, [32, 2, 2]⟩]

/-- The statements of `__scale1041` that compute fields. -/
def navicScale : List (Ident × Sc) :=
  [(n!"msgNum", .id),
   (n!"satNum", .id),
   (n!"weekNum", .id),
   (n!"af0", .pow 30),
   (n!"af1", .pow 42),
   (n!"af2", .pow 54),
   (n!"URA", .id),
   (n!"tc", .mul 16),
   (n!"TGD", .pow 30),
   (n!"delta_n", .pow 40),
   (n!"IODEC", .id),
   (n!"L5_Flag", .id),
   (n!"S_Flag", .id),
   (n!"cuc", .pow 27),
   (n!"cus", .pow 27),
   (n!"cic", .pow 27),
   (n!"cis", .pow 27),
   (n!"crc", .pow 3),
   (n!"crs", .pow 3),
   (n!"i_dot", .pow 42),
   (n!"m0", .pow 30),
   (n!"te", .mul 16),
   (n!"e", .pow 32),
   (n!"sqrt_a", .pow 18),
   (n!"omega0", .pow 30),
   (n!"w", .pow 30),
   (n!"omega_dot", .pow 40),
   (n!"i0", .pow 30)]

/-- The attributes of an object of the class `EphBDS`, in the order in which they are created. -/
def bdsFields {ν : Type} (f : ν → Val) (e : EphBDS ν) : List (Ident × Val) :=
  [(n!"msgNum", f e.msgNum),
   (n!"satNum", f e.satNum),
   (n!"weekNum", f e.weekNum),
   (n!"tc", f e.tc),
   (n!"af0", f e.af0),
   (n!"af1", f e.af1),
   (n!"af2", f e.af2),
   (n!"te", f e.te),
   (n!"delta_n", f e.delta_n),
   (n!"m0", f e.m0),
   (n!"e", f e.e),
   (n!"sqrt_a", f e.sqrt_a),
   (n!"w", f e.w),
   (n!"i0", f e.i0),
   (n!"i_dot", f e.i_dot),
   (n!"omega0", f e.omega0),
   (n!"omega_dot", f e.omega_dot),
   (n!"crs", f e.crs),
   (n!"crc", f e.crc),
   (n!"cuc", f e.cuc),
   (n!"cus", f e.cus),
   (n!"cic", f e.cic),
   (n!"cis", f e.cis),
   (n!"AODE", f e.AODE),
   (n!"AODC", f e.AODC),
   (n!"SVH", f e.SVH),
   (n!"URAI", f e.URAI),
   (n!"TGD1", f e.TGD1),
   (n!"TGD2", f e.TGD2)]

/-- The attributes of a new object of the class `EphBDS`. -/
def bdsNew : List (Ident × Val) :=
  [(n!"msgNum", .int 0),
   (n!"satNum", .int 0),
   (n!"weekNum", .int 0),
   (n!"tc", .int 0),
   (n!"af0", .int 0),
   (n!"af1", .int 0),
   (n!"af2", .int 0),
   (n!"te", .int 0),
   (n!"delta_n", .int 0),
   (n!"m0", .int 0),
   (n!"e", .int 0),
   (n!"sqrt_a", .int 0),
   (n!"w", .int 0),
   (n!"i0", .int 0),
   (n!"i_dot", .int 0),
   (n!"omega0", .int 0),
   (n!"omega_dot", .int 0),
   (n!"crs", .int 0),
   (n!"crc", .int 0),
   (n!"cuc", .int 0),
   (n!"cus", .int 0),
   (n!"cic", .int 0),
   (n!"cis", .int 0),
   (n!"AODE", .int 0),
   (n!"AODC", .int 0),
   (n!"SVH", .int 0),
   (n!"URAI", .int 0),
   (n!"TGD1", .int 0),
   (n!"TGD2", .int 0)]

/-- The statements of `__decode1042` that read the fields. -/
def bdsSteps : List Step :=
  [⟨n!"msgNum", .u, 12, [12]⟩,
   ⟨n!"satNum", .u, 6, [6]⟩,
   ⟨n!"weekNum", .u, 13, [13]⟩,
   ⟨n!"URAI", .u, 4, [4]⟩,
   ⟨n!"i_dot", .s, 14, [14]⟩,
   ⟨n!"AODE", .u, 5, [5]⟩,
   ⟨n!"tc", .u, 17, [17]⟩,
   ⟨n!"af2", .s, 11, [11]⟩,
   ⟨n!"af1", .s, 22, [22]⟩,
   ⟨n!"af0", .s, 24, [24]⟩,
   ⟨n!"AODC", .u, 5, [5]⟩,
   ⟨n!"crs", .s, 18, [18]⟩,
   ⟨n!"delta_n", .s, 16, [16]⟩,
   ⟨n!"m0", .s, 32, [32]⟩,
   ⟨n!"cuc", .s, 18, [18]⟩,
   ⟨n!"e", .u, 32, [32]⟩,
   ⟨n!"cus", .s, 18, [18]⟩,
   ⟨n!"sqrt_a", .u, 32, [32]⟩,
   ⟨n!"te", .u, 17, [17]⟩,
   ⟨n!"cic", .s, 18, [18]⟩,
   ⟨n!"omega0", .s, 32, [32]⟩,
   ⟨n!"cis", .s, 18, [18]⟩,
   ⟨n!"i0", .s, 32, [32]⟩,
   ⟨n!"crc", .s, 18, [18]⟩,
   ⟨n!"w", .s, 32, [32]⟩,
   ⟨n!"omega_dot", .s, 24, [24]⟩,
   ⟨n!"TGD1", .s, 10, [10]⟩,
   ⟨n!"TGD2", .s, 10, [10]⟩,
   ⟨n!"SVH", .u, 1, [1]⟩]

/-- The statements of `__scale1042` that compute fields. -/
def bdsScale : List (Ident × Sc) :=
  [(n!"msgNum", .id),
   (n!"satNum", .id),
   (n!"weekNum", .id),
   (n!"URAI", .id),
   (n!"i_dot", .pow 42),
   (n!"AODE", .id),
   (n!"tc", .mul 8),
   (n!"af2", .pow 65),
   (n!"af1", .pow 49),
   (n!"af0", .pow 32),
   (n!"AODC", .id),
   (n!"crs", .pow 5),
   (n!"delta_n", .pow 42),
   (n!"m0", .pow 30),
   (n!"cuc", .pow 30),
   (n!"e", .pow 32),
   (n!"cus", .pow 30),
   (n!"sqrt_a", .pow 18),
   (n!"te", .mul 8),
   (n!"cic", .pow 30),
   (n!"omega0", .pow 30),
   (n!"cis", .pow 30),
   (n!"i0", .pow 30),
   (n!"crc", .pow 5),
   (n!"w", .pow 30),
   (n!"omega_dot", .pow 42),
   (n!"TGD1", .dec),
   (n!"TGD2", .dec),
   (n!"SVH", .id)]

/-- The attributes of an object of the class `EphQZS`, in the order in which they are created. -/
def qzsFields {ν : Type} (f : ν → Val) (e : EphQZS ν) : List (Ident × Val) :=
  [(n!"msgNum", f e.msgNum),
   (n!"satNum", f e.satNum),
   (n!"weekNum", f e.weekNum),
   (n!"tc", f e.tc),
   (n!"af0", f e.af0),
   (n!"af1", f e.af1),
   (n!"af2", f e.af2),
   (n!"te", f e.te),
   (n!"delta_n", f e.delta_n),
   (n!"m0", f e.m0),
   (n!"e", f e.e),
   (n!"sqrt_a", f e.sqrt_a),
   (n!"w", f e.w),
   (n!"i0", f e.i0),
   (n!"i_dot", f e.i_dot),
   (n!"omega0", f e.omega0),
   (n!"omega_dot", f e.omega_dot),
   (n!"crs", f e.crs),
   (n!"crc", f e.crc),
   (n!"cuc", f e.cuc),
   (n!"cus", f e.cus),
   (n!"cic", f e.cic),
   (n!"cis", f e.cis),
   (n!"IODE", f e.IODE),
   (n!"IODC", f e.IODC),
   (n!"Fit", f e.Fit),
   (n!"L2_Codes", f e.L2_Codes),
   (n!"SVH", f e.SVH),
   (n!"URA", f e.URA),
   (n!"TGD", f e.TGD)]

/-- The attributes of a new object of the class `EphQZS`. -/
def qzsNew : List (Ident × Val) :=
  [(n!"msgNum", .int 0),
   (n!"satNum", .int 0),
   (n!"weekNum", .int 0),
   (n!"tc", .int 0),
   (n!"af0", .int 0),
   (n!"af1", .int 0),
   (n!"af2", .int 0),
   (n!"te", .int 0),
   (n!"delta_n", .int 0),
   (n!"m0", .int 0),
   (n!"e", .int 0),
   (n!"sqrt_a", .int 0),
   (n!"w", .int 0),
   (n!"i0", .int 0),
   (n!"i_dot", .int 0),
   (n!"omega0", .int 0),
   (n!"omega_dot", .int 0),
   (n!"crs", .int 0),
   (n!"crc", .int 0),
   (n!"cuc", .int 0),
   (n!"cus", .int 0),
   (n!"cic", .int 0),
   (n!"cis", .int 0),
   (n!"IODE", .int 0),
   (n!"IODC", .int 0),
   (n!"Fit", .int 0),
   (n!"L2_Codes", .int 0),
   (n!"SVH", .int 0),
   (n!"URA", .int 0),
   (n!"TGD", .int 0)]

/-- The statements of `__decode1044` that read the fields. -/
def qzsSteps : List Step :=
  [⟨n!"msgNum", .u, 12, [12]⟩,
   ⟨n!"satNum", .u, 4, [4]⟩,
   ⟨n!"tc", .u, 16, [16]⟩,
   ⟨n!"af2", .s, 8, [8]⟩,
   ⟨n!"af1", .s, 16, [16]⟩,
   ⟨n!"af0", .s, 22, [22]⟩,
   ⟨n!"IODE", .u, 8, [8]⟩,
   ⟨n!"crs", .s, 16, [16]⟩,
   ⟨n!"delta_n", .s, 16, [16]⟩,
   ⟨n!"m0", .s, 32, [32]⟩,
   ⟨n!"cuc", .s, 16, [16]⟩,
   ⟨n!"e", .u, 32, [32]⟩,
   ⟨n!"cus", .s, 16, [16]⟩,
   ⟨n!"sqrt_a", .u, 32, [32]⟩,
   ⟨n!"te", .u, 16, [16]⟩,
   ⟨n!"cic", .s, 16, [16]⟩,
   ⟨n!"omega0", .s, 32, [32]⟩,
   ⟨n!"cis", .s, 16, [16]⟩,
   ⟨n!"i0", .s, 32, [32]⟩,
   ⟨n!"crc", .s, 16, [16]⟩,
   ⟨n!"w", .s, 32, [32]⟩,
   ⟨n!"omega_dot", .s, 24, [24]⟩,
   ⟨n!"i_dot", .s, 14, [14]⟩,
   ⟨n!"L2_Codes", .u, 2, [2]⟩,
   ⟨n!"weekNum", .u, 10, [10]⟩,
   ⟨n!"URA", .u, 4, [4]⟩,
   ⟨n!"SVH", .u, 6, [6]⟩,
   ⟨n!"TGD", .s, 8, [8]⟩,
   ⟨n!"IODC", .u, 10, [8]⟩,
   ⟨n!"Fit", .u, 1, [1]⟩]

/-- The statements of `__scale1044` that compute fields. -/
def qzsScale : List (Ident × Sc) :=
  [(n!"msgNum", .id),
   (n!"satNum", .id),
   (n!"tc", .mul 16),
   (n!"af2", .pow 54),
   (n!"af1", .pow 42),
   (n!"af0", .pow 30),
   (n!"IODE", .id),
   (n!"crs", .pow 4),
   (n!"delta_n", .pow 42),
   (n!"m0", .pow 30),
   (n!"cuc", .pow 28),
   (n!"e", .pow 32),
   (n!"cus", .pow 28),
   (n!"sqrt_a", .pow 18),
   (n!"te", .mul 16),
   (n!"cic", .pow 28),
   (n!"omega0", .pow 30),
   (n!"cis", .pow 28),
   (n!"i0", .pow 30),
   (n!"crc", .pow 4),
   (n!"w", .pow 30),
   (n!"omega_dot", .pow 42),
   (n!"i_dot", .pow 42),
   (n!"L2_Codes", .id),
   (n!"weekNum", .id),
   (n!"URA", .id),
   (n!"SVH", .id),
   (n!"TGD", .pow 30),
   (n!"IODC", .id),
   (n!"Fit", .id)]

/-- The attributes of an object of the class `EphGALF`, in the order in which they are created. -/
def galfFields {ν : Type} (f : ν → Val) (e : EphGALF ν) : List (Ident × Val) :=
  [(n!"msgNum", f e.msgNum),
   (n!"satNum", f e.satNum),
   (n!"weekNum", f e.weekNum),
   (n!"tc", f e.tc),
   (n!"af0", f e.af0),
   (n!"af1", f e.af1),
   (n!"af2", f e.af2),
   (n!"te", f e.te),
   (n!"delta_n", f e.delta_n),
   (n!"m0", f e.m0),
   (n!"e", f e.e),
   (n!"sqrt_a", f e.sqrt_a),
   (n!"w", f e.w),
   (n!"i0", f e.i0),
   (n!"i_dot", f e.i_dot),
   (n!"omega0", f e.omega0),
   (n!"omega_dot", f e.omega_dot),
   (n!"crs", f e.crs),
   (n!"crc", f e.crc),
   (n!"cuc", f e.cuc),
   (n!"cus", f e.cus),
   (n!"cic", f e.cic),
   (n!"cis", f e.cis),
   (n!"IODnav", f e.IODnav),
   (n!"SISA", f e.SISA),
   (n!"E5a_BGD", f e.E5a_BGD),
   (n!"E5a_SHS", f e.E5a_SHS),
   (n!"E5a_DVS", f e.E5a_DVS)]

/-- The attributes of a new object of the class `EphGALF`. -/
def galfNew : List (Ident × Val) :=
  [(n!"msgNum", .int 0),
   (n!"satNum", .int 0),
   (n!"weekNum", .int 0),
   (n!"tc", .int 0),
   (n!"af0", .int 0),
   (n!"af1", .int 0),
   (n!"af2", .int 0),
   (n!"te", .int 0),
   (n!"delta_n", .int 0),
   (n!"m0", .int 0),
   (n!"e", .int 0),
   (n!"sqrt_a", .int 0),
   (n!"w", .int 0),
   (n!"i0", .int 0),
   (n!"i_dot", .int 0),
   (n!"omega0", .int 0),
   (n!"omega_dot", .int 0),
   (n!"crs", .int 0),
   (n!"crc", .int 0),
   (n!"cuc", .int 0),
   (n!"cus", .int 0),
   (n!"cic", .int 0),
   (n!"cis", .int 0),
   (n!"IODnav", .int 0),
   (n!"SISA", .int 0),
   (n!"E5a_BGD", .int 0),
   (n!"E5a_SHS", .int 0),
   (n!"E5a_DVS", .int 0)]

/-- The statements of `__decode1045` that read the fields. -/
def galfSteps : List Step :=
  [⟨n!"msgNum", .u, 12, [12]⟩,
   ⟨n!"satNum", .u, 6, [6]⟩,
   ⟨n!"weekNum", .u, 12, [12]⟩,
   ⟨n!"IODnav", .u, 10, [10]⟩,
   ⟨n!"SISA", .u, 8, [8]⟩,
   ⟨n!"i_dot", .s, 14, [14]⟩,
   ⟨n!"tc", .u, 14, [14]⟩,
   ⟨n!"af2", .s, 6, [6]⟩,
   ⟨n!"af1", .s, 21, [21]⟩,
   ⟨n!"af0", .s, 31, [31]⟩,
   ⟨n!"crs", .s, 16, [16]⟩,
   ⟨n!"delta_n", .s, 16, [16]⟩,
   ⟨n!"m0", .s, 32, [32]⟩,
   ⟨n!"cuc", .s, 16, [16]⟩,
   ⟨n!"e", .u, 32, [32]⟩,
   ⟨n!"cus", .s, 16, [16]⟩,
   ⟨n!"sqrt_a", .u, 32, [32]⟩,
   ⟨n!"te", .u, 14, [14]⟩,
   ⟨n!"cic", .s, 16, [16]⟩,
   ⟨n!"omega0", .s, 32, [32]⟩,
   ⟨n!"cis", .s, 16, [16]⟩,
   ⟨n!"i0", .s, 32, [32]⟩,
   ⟨n!"crc", .s, 16, [16]⟩,
   ⟨n!"w", .s, 32, [32]⟩,
   ⟨n!"omega_dot", .s, 24, [24]⟩,
   ⟨n!"E5a_BGD", .s, 10, [10]⟩,
   ⟨n!"E5a_SHS", .u, 2, [2]⟩,
   ⟨n!"E5a_DVS", .u, 1, [1, 7]⟩]

/-- The statements of `__scale1045` that compute fields. -/
def galfScale : List (Ident × Sc) :=
  [(n!"msgNum", .id),
   (n!"satNum", .id),
   (n!"weekNum", .id),
   (n!"IODnav", .id),
   (n!"SISA", .id),
   (n!"i_dot", .pow 42),
   (n!"tc", .mul 60),
   (n!"af2", .pow 58),
   (n!"af1", .pow 45),
   (n!"af0", .pow 33),
   (n!"crs", .pow 4),
   (n!"delta_n", .pow 42),
   (n!"m0", .pow 30),
   (n!"cuc", .pow 28),
   (n!"e", .pow 32),
   (n!"cus", .pow 28),
   (n!"sqrt_a", .pow 18),
   (n!"te", .mul 60),
   (n!"cic", .pow 28),
   (n!"omega0", .pow 30),
   (n!"cis", .pow 28),
   (n!"i0", .pow 30),
   (n!"crc", .pow 4),
   (n!"w", .pow 30),
   (n!"omega_dot", .pow 42),
   (n!"E5a_BGD", .pow 31),
   (n!"E5a_SHS", .id),
   (n!"E5a_DVS", .id)]

/-- The attributes of an object of the class `EphGALI`, in the order in which they are created. -/
def galiFields {ν : Type} (f : ν → Val) (e : EphGALI ν) : List (Ident × Val) :=
  [(n!"msgNum", f e.msgNum),
   (n!"satNum", f e.satNum),
   (n!"weekNum", f e.weekNum),
   (n!"tc", f e.tc),
   (n!"af0", f e.af0),
   (n!"af1", f e.af1),
   (n!"af2", f e.af2),
   (n!"te", f e.te),
   (n!"delta_n", f e.delta_n),
   (n!"m0", f e.m0),
   (n!"e", f e.e),
   (n!"sqrt_a", f e.sqrt_a),
   (n!"w", f e.w),
   (n!"i0", f e.i0),
   (n!"i_dot", f e.i_dot),
   (n!"omega0", f e.omega0),
   (n!"omega_dot", f e.omega_dot),
   (n!"crs", f e.crs),
   (n!"crc", f e.crc),
   (n!"cuc", f e.cuc),
   (n!"cus", f e.cus),
   (n!"cic", f e.cic),
   (n!"cis", f e.cis),
   (n!"IODnav", f e.IODnav),
   (n!"SISA", f e.SISA),
   (n!"E5a_BGD", f e.E5a_BGD),
   (n!"E5b_BGD", f e.E5b_BGD),
   (n!"E1_SHS", f e.E1_SHS),
   (n!"E1_DVS", f e.E1_DVS),
   (n!"E5b_SHS", f e.E5b_SHS),
   (n!"E5b_DVS", f e.E5b_DVS)]

/-- The attributes of a new object of the class `EphGALI`. -/
def galiNew : List (Ident × Val) :=
  [(n!"msgNum", .int 0),
   (n!"satNum", .int 0),
   (n!"weekNum", .int 0),
   (n!"tc", .int 0),
   (n!"af0", .int 0),
   (n!"af1", .int 0),
   (n!"af2", .int 0),
   (n!"te", .int 0),
   (n!"delta_n", .int 0),
   (n!"m0", .int 0),
   (n!"e", .int 0),
   (n!"sqrt_a", .int 0),
   (n!"w", .int 0),
   (n!"i0", .int 0),
   (n!"i_dot", .int 0),
   (n!"omega0", .int 0),
   (n!"omega_dot", .int 0),
   (n!"crs", .int 0),
   (n!"crc", .int 0),
   (n!"cuc", .int 0),
   (n!"cus", .int 0),
   (n!"cic", .int 0),
   (n!"cis", .int 0),
   (n!"IODnav", .int 0),
   (n!"SISA", .int 0),
   (n!"E5a_BGD", .int 0),
   (n!"E5b_BGD", .int 0),
   (n!"E1_SHS", .int 0),
   (n!"E1_DVS", .int 0),
   (n!"E5b_SHS", .int 0),
   (n!"E5b_DVS", .int 0)]

/-- The statements of `__decode1046` that read the fields. -/
def galiSteps : List Step :=
  [⟨n!"msgNum", .u, 12, [12]⟩,
   ⟨n!"satNum", .u, 6, [6]⟩,
   ⟨n!"weekNum", .u, 12, [12]⟩,
   ⟨n!"IODnav", .u, 10, [10]⟩,
   ⟨n!"SISA", .u, 8, [8]⟩,
   ⟨n!"i_dot", .s, 14, [14]⟩,
   ⟨n!"tc", .u, 14, [14]⟩,
   ⟨n!"af2", .s, 6, [6]⟩,
   ⟨n!"af1", .s, 21, [21]⟩,
   ⟨n!"af0", .s, 31, [31]⟩,
   ⟨n!"crs", .s, 16, [16]⟩,
   ⟨n!"delta_n", .s, 16, [16]⟩,
   ⟨n!"m0", .s, 32, [32]⟩,
   ⟨n!"cuc", .s, 16, [16]⟩,
   ⟨n!"e", .u, 32, [32]⟩,
   ⟨n!"cus", .s, 16, [16]⟩,
   ⟨n!"sqrt_a", .u, 32, [32]⟩,
   ⟨n!"te", .u, 14, [14]⟩,
   ⟨n!"cic", .s, 16, [16]⟩,
   ⟨n!"omega0", .s, 32, [32]⟩,
   ⟨n!"cis", .s, 16, [16]⟩,
   ⟨n!"i0", .s, 32, [32]⟩,
   ⟨n!"crc", .s, 16, [16]⟩,
   ⟨n!"w", .s, 32, [32]⟩,
   ⟨n!"omega_dot", .s, 24, [24]⟩,
   ⟨n!"E5a_BGD", .s, 10, [10]⟩,
   ⟨n!"E5b_BGD", .s, 10, [10]⟩,
   ⟨n!"E5b_SHS", .u, 2, [2]⟩,
   ⟨n!"E5b_DVS", .u, 1, [1]⟩,
   ⟨n!"E1_SHS", .u, 2, [2]⟩,
   ⟨n!"E1_DVS", .u, 1, [1, 2]⟩]

/-- The statements of `__scale1046` that compute fields. -/
def galiScale : List (Ident × Sc) :=
  [(n!"msgNum", .id),
   (n!"satNum", .id),
   (n!"weekNum", .id),
   (n!"IODnav", .id),
   (n!"SISA", .id),
   (n!"i_dot", .pow 42),
   (n!"tc", .mul 60),
   (n!"af2", .pow 58),
   (n!"af1", .pow 45),
   (n!"af0", .pow 33),
   (n!"crs", .pow 4),
   (n!"delta_n", .pow 42),
   (n!"m0", .pow 30),
   (n!"cuc", .pow 28),
   (n!"e", .pow 32),
   (n!"cus", .pow 28),
   (n!"sqrt_a", .pow 18),
   (n!"te", .mul 60),
   (n!"cic", .pow 28),
   (n!"omega0", .pow 30),
   (n!"cis", .pow 28),
   (n!"i0", .pow 30),
   (n!"crc", .pow 4),
   (n!"w", .pow 30),
   (n!"omega_dot", .pow 42),
   (n!"E5a_BGD", .pow 31),
   (n!"E5b_BGD", .pow 31),
   (n!"E5b_SHS", .id),
   (n!"E5b_DVS", .id),
   (n!"E1_SHS", .id),
   (n!"E1_DVS", .id)]

end Refine
end PyCore
end Verif
