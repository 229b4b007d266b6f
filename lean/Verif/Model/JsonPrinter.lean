import Verif.Model.PyVal
import Verif.Model.Disk
import Verif.Model.Objects

/-!
# Model of printers/json_printer.py

Log output is not modelled. `json.dumps` is `Json.dumps` (Model/PyVal.lean); `fr` stands for `float.__repr__`.
-/

namespace Verif
namespace Json
open Decoder

/-! ## Decoded objects as dictionaries -/

/-- `dataclasses.fields` of `EphGPS`, gnss_types/ephemeris.py:114-126. -/
def fieldsGPS (e : EphGPS PyNum) : PyDict String PyNum :=
  [("msgNum", e.msgNum), ("satNum", e.satNum), ("weekNum", e.weekNum), ("tc", e.tc), ("af0", e.af0),
   ("af1", e.af1), ("af2", e.af2), ("te", e.te), ("delta_n", e.delta_n), ("m0", e.m0),
   ("e", e.e), ("sqrt_a", e.sqrt_a), ("w", e.w), ("i0", e.i0), ("i_dot", e.i_dot),
   ("omega0", e.omega0), ("omega_dot", e.omega_dot), ("crs", e.crs), ("crc", e.crc), ("cuc", e.cuc),
   ("cus", e.cus), ("cic", e.cic), ("cis", e.cis), ("IODE", e.IODE), ("IODC", e.IODC),
   ("Fit", e.Fit), ("L2_Codes", e.L2_Codes), ("L2P_Data", e.L2P_Data), ("SVH", e.SVH), ("URA", e.URA),
   ("TGD", e.TGD)]

/-- `dataclasses.fields` of `EphGLO`, gnss_types/ephemeris.py:141-181. -/
def fieldsGLO (e : EphGLO PyNum) : PyDict String PyNum :=
  [("msgNum", e.msgNum), ("satNum", e.satNum), ("frqSloNum", e.frqSloNum), ("tk", e.tk), ("tb", e.tb),
   ("xn", e.xn), ("dotXn", e.dotXn), ("dotDotXn", e.dotDotXn), ("yn", e.yn), ("dotYn", e.dotYn),
   ("dotDotYn", e.dotDotYn), ("zn", e.zn), ("dotZn", e.dotZn), ("dotDotZn", e.dotDotZn), ("gamma_n", e.gamma_n),
   ("Cn", e.Cn), ("BnMSB", e.BnMSB), ("AlmHAI", e.AlmHAI), ("P", e.P), ("P1", e.P1),
   ("P2", e.P2), ("P3", e.P3), ("P4", e.P4), ("ln3", e.ln3), ("tauN", e.tauN),
   ("delta_tauN", e.delta_tauN), ("En", e.En), ("Ft", e.Ft), ("Nt", e.Nt), ("M", e.M),
   ("auxDataOK", e.auxDataOK), ("Na", e.Na), ("tauC", e.tauC), ("N4", e.N4), ("tauGPS", e.tauGPS),
   ("ln5", e.ln5)]

/-- `dataclasses.fields` of `EphNAVIC`, gnss_types/ephemeris.py:129-138 (`L5_Flag` and `S_Flag` have no annotation and are not fields). -/
def fieldsNAVIC (e : EphNAVIC PyNum) : PyDict String PyNum :=
  [("msgNum", e.msgNum), ("satNum", e.satNum), ("weekNum", e.weekNum), ("tc", e.tc), ("af0", e.af0),
   ("af1", e.af1), ("af2", e.af2), ("te", e.te), ("delta_n", e.delta_n), ("m0", e.m0),
   ("e", e.e), ("sqrt_a", e.sqrt_a), ("w", e.w), ("i0", e.i0), ("i_dot", e.i_dot),
   ("omega0", e.omega0), ("omega_dot", e.omega_dot), ("crs", e.crs), ("crc", e.crc), ("cuc", e.cuc),
   ("cus", e.cus), ("cic", e.cic), ("cis", e.cis), ("URA", e.URA), ("TGD", e.TGD),
   ("IODEC", e.IODEC)]

/-- `dataclasses.fields` of `EphBDS`, gnss_types/ephemeris.py:101-111. -/
def fieldsBDS (e : EphBDS PyNum) : PyDict String PyNum :=
  [("msgNum", e.msgNum), ("satNum", e.satNum), ("weekNum", e.weekNum), ("tc", e.tc), ("af0", e.af0),
   ("af1", e.af1), ("af2", e.af2), ("te", e.te), ("delta_n", e.delta_n), ("m0", e.m0),
   ("e", e.e), ("sqrt_a", e.sqrt_a), ("w", e.w), ("i0", e.i0), ("i_dot", e.i_dot),
   ("omega0", e.omega0), ("omega_dot", e.omega_dot), ("crs", e.crs), ("crc", e.crc), ("cuc", e.cuc),
   ("cus", e.cus), ("cic", e.cic), ("cis", e.cis), ("AODE", e.AODE), ("AODC", e.AODC),
   ("SVH", e.SVH), ("URAI", e.URAI), ("TGD1", e.TGD1), ("TGD2", e.TGD2)]

/-- `dataclasses.fields` of `EphQZS`, gnss_types/ephemeris.py:87-98. -/
def fieldsQZS (e : EphQZS PyNum) : PyDict String PyNum :=
  [("msgNum", e.msgNum), ("satNum", e.satNum), ("weekNum", e.weekNum), ("tc", e.tc), ("af0", e.af0),
   ("af1", e.af1), ("af2", e.af2), ("te", e.te), ("delta_n", e.delta_n), ("m0", e.m0),
   ("e", e.e), ("sqrt_a", e.sqrt_a), ("w", e.w), ("i0", e.i0), ("i_dot", e.i_dot),
   ("omega0", e.omega0), ("omega_dot", e.omega_dot), ("crs", e.crs), ("crc", e.crc), ("cuc", e.cuc),
   ("cus", e.cus), ("cic", e.cic), ("cis", e.cis), ("IODE", e.IODE), ("IODC", e.IODC),
   ("Fit", e.Fit), ("L2_Codes", e.L2_Codes), ("SVH", e.SVH), ("URA", e.URA), ("TGD", e.TGD)]

/-- `dataclasses.fields` of `EphGALF`, gnss_types/ephemeris.py:60-69. -/
def fieldsGALF (e : EphGALF PyNum) : PyDict String PyNum :=
  [("msgNum", e.msgNum), ("satNum", e.satNum), ("weekNum", e.weekNum), ("tc", e.tc), ("af0", e.af0),
   ("af1", e.af1), ("af2", e.af2), ("te", e.te), ("delta_n", e.delta_n), ("m0", e.m0),
   ("e", e.e), ("sqrt_a", e.sqrt_a), ("w", e.w), ("i0", e.i0), ("i_dot", e.i_dot),
   ("omega0", e.omega0), ("omega_dot", e.omega_dot), ("crs", e.crs), ("crc", e.crc), ("cuc", e.cuc),
   ("cus", e.cus), ("cic", e.cic), ("cis", e.cis), ("IODnav", e.IODnav), ("SISA", e.SISA),
   ("E5a_BGD", e.E5a_BGD), ("E5a_SHS", e.E5a_SHS), ("E5a_DVS", e.E5a_DVS)]

/-- `dataclasses.fields` of `EphGALI`, gnss_types/ephemeris.py:72-84. -/
def fieldsGALI (e : EphGALI PyNum) : PyDict String PyNum :=
  [("msgNum", e.msgNum), ("satNum", e.satNum), ("weekNum", e.weekNum), ("tc", e.tc), ("af0", e.af0),
   ("af1", e.af1), ("af2", e.af2), ("te", e.te), ("delta_n", e.delta_n), ("m0", e.m0),
   ("e", e.e), ("sqrt_a", e.sqrt_a), ("w", e.w), ("i0", e.i0), ("i_dot", e.i_dot),
   ("omega0", e.omega0), ("omega_dot", e.omega_dot), ("crs", e.crs), ("crc", e.crc), ("cuc", e.cuc),
   ("cus", e.cus), ("cic", e.cic), ("cis", e.cis), ("IODnav", e.IODnav), ("SISA", e.SISA),
   ("E5a_BGD", e.E5a_BGD), ("E5b_BGD", e.E5b_BGD), ("E1_SHS", e.E1_SHS), ("E1_DVS", e.E1_DVS), ("E5b_SHS", e.E5b_SHS),
   ("E5b_DVS", e.E5b_DVS)]

/-- A number. Fields `int | float` of gnss_types/ephemeris.py:17-181. -/
def ofNum : PyNum → PyVal
  | .int i => .int i
  | .flt x => .flt x

/-- `dataclasses.asdict` of an ephemeris object (gnss_types/ephemeris.py). -/
def ephFields : Eph.Obj PyNum → PyDict String PyNum
  | .gps e => fieldsGPS e
  | .glo e => fieldsGLO e
  | .navic e => fieldsNAVIC e
  | .bds e => fieldsBDS e
  | .qzs e => fieldsQZS e
  | .galf e => fieldsGALF e
  | .gali e => fieldsGALI e

/-- A dictionary with string keys. Built in printers/json_printer.py:240-252, 288-300, 339. -/
def strDict (d : PyDict String PyVal) : PyVal := .dict (d.map (fun p => (.str p.1, p.2)))

/-- A dictionary with string keys and values of one type.
Built in printers/json_printer.py:240-242, 288-291. -/
def strDictOf {α : Type} (f : α → PyVal) (d : PyDict String α) : PyVal := .dict (d.map (fun p => (.str p.1, f p.2)))

/-- A dictionary with integer keys.
Values of `obs`, gnss_types/observables.py:124-142; printed by printers/json_printer.py:240,
256. -/
def natDictOf {α : Type} (f : α → PyVal) (d : PyDict Nat α) : PyVal := .dict (d.map (fun p => (.int p.1, f p.2)))

/-- A tuple of ints. Printed by printers/json_printer.py:256, 304, 341. -/
def natSeq (l : List Nat) : PyVal := .seq (l.map (fun n : Nat => .int n))

/-- A tuple of ints. Printed by printers/json_printer.py:304. -/
def intSeq (l : List Int) : PyVal := .seq (l.map .int)

/-- How the parameter types of base station objects are represented.
printers/json_printer.py:334-343. -/
structure BaseRepr (β ν σ : Type) where
  flag : β → PyVal
  num : ν → PyVal
  txt : σ → PyVal

/-- Representation of bare objects. printers/json_printer.py:334-343. -/
def bareRepr : BaseRepr Int Int Int := ⟨.int, .int, .int⟩
/-- Representation of scaled objects. printers/json_printer.py:334-343. -/
def scaledRepr : BaseRepr Bool Rat String := ⟨.bool, .flt, .str⟩

section
variable {β ν σ : Type} (r : BaseRepr β ν σ)

/-- `dataclasses.asdict` of `BaseRP`, gnss_types/base_station.py:27-42. -/
def fieldsRP (o : BaseRP β ν σ) : PyDict String PyVal :=
  [("msgNum", .int o.msgNum), ("bsID", .int o.bsID), ("ITRF_Year", .int o.ITRF_Year), ("GPS_OK", r.flag o.GPS_OK),
   ("GLO_OK", r.flag o.GLO_OK), ("GAL_OK", r.flag o.GAL_OK), ("isVirtual", r.flag o.isVirtual), ("refPoint_X", r.num o.refPoint_X),
   ("singleOsc", r.flag o.singleOsc), ("refPoint_Y", r.num o.refPoint_Y), ("QC_bias", r.txt o.QC_bias),
   ("refPoint_Z", r.num o.refPoint_Z)]

/-- `dataclasses.asdict` of `BaseAD`, gnss_types/base_station.py:52-60. -/
def fieldsAD (o : BaseAD) : PyDict String PyVal :=
  [("msgNum", .int o.msgNum), ("bsID", .int o.bsID), ("descrLength", .int o.descrLength), ("descr", .str o.descr),
   ("setupID", .int o.setupID)]

/-- `dataclasses.asdict` of `BaseADSN`, gnss_types/base_station.py:63-69. -/
def fieldsADSN (o : BaseADSN) : PyDict String PyVal :=
  fieldsAD o.ad ++ [("serialNumberLength", .int o.serialNumberLength), ("serialNumber", .str o.serialNumber)]

/-- `dataclasses.asdict` of a base station object, gnss_types/base_station.py; inherited fields come first. -/
def baseFields : Base.Obj β ν σ → PyDict String PyVal
  | .rp o => fieldsRP r o
  | .rph o => fieldsRP r o.rp ++ [("height", r.num o.height)]
  | .ad o => fieldsAD o
  | .adsn o => fieldsADSN o
  | .adsnrc o => fieldsADSN o.adsn ++
      [("rcvDescriptorLength", .int o.rcvDescriptorLength), ("rcvDescriptor", .str o.rcvDescriptor),
       ("rcvFWVersionLength", .int o.rcvFWVersionLength), ("rcvFWVersion", .str o.rcvFWVersion),
       ("rcvSerNumLength", .int o.rcvSerNumLength), ("rcvSerNum", .str o.rcvSerNum)]
  | .sp o =>
      [("msgNum", .int o.msgNum), ("bsID", .int o.bsID), ("modifiedJulianDay", .int o.modifiedJulianDay), ("daySec", .int o.daySec),
       ("Nm", .int o.Nm), ("leapSec", .int o.leapSec),
       ("shedule", .dict (o.shedule.map (fun p => (.int p.1, .seq [r.flag p.2.1, r.num p.2.2]))))]
  | .ts o =>
      [("msgNum", .int o.msgNum), ("bsID", .int o.bsID), ("modifiedJulianDay", .int o.modifiedJulianDay), ("daySec", .int o.daySec),
       ("charNum", .int o.charNum), ("unitsNum", .int o.unitsNum), ("message", .str o.message)]
  | .glbs o =>
      [("msgNum", .int o.msgNum), ("bsID", .int o.bsID), ("isCorrected", r.flag o.isCorrected),
       ("validity", strDictOf r.flag o.validity), ("correction", strDictOf r.num o.correction)]
end

/-- `None` or a number. printers/json_printer.py:288-291. -/
def ofOptNat : Option Nat → PyVal
  | none => .none
  | some n => .int n

/-- `{s: getattr(atr, s) for s in atr.__slots__}`, gnss_types/observables.py:39. -/
def slotsAtr (a : Msm.Attributes) : PyVal :=
  strDict [("gnss", .str a.gnss), ("subset", .str a.subset), ("msg_number", ofOptNat a.msg_number)]

/-- `{s: getattr(hdr, s) for s in hdr.__slots__}`, gnss_types/observables.py:93. -/
def slotsHdr (h : Msm.ObsHdr) : PyVal :=
  strDict [("signals", strDictOf .flt h.signals), ("sats", natSeq h.sats), ("time", .int h.time), ("day", .int h.day)]

/-- `{s: getattr(obs, s) for s in obs.__slots__}`, gnss_types/observables.py:122. -/
def slotsObs (o : Msm.Obs) : PyVal :=
  strDict [("rng", strDictOf (natDictOf .flt) o.rng), ("phs", strDictOf (natDictOf .flt) o.phs),
    ("ltm", strDictOf (natDictOf (fun n : Nat => .int n)) o.ltm), ("hca", strDictOf (natDictOf .bool) o.hca),
    ("dpl", strDictOf (natDictOf .flt) o.dpl), ("c2n", strDictOf (natDictOf .flt) o.c2n)]

/-- A dictionary with keys `code` and `val`.
gnss_types/observables.py:174-188, sub_decoders/RTCM_MSM.py:403-410. -/
def codeVal (p : Nat × String) : PyVal := strDict [("code", .int p.1), ("val", .str p.2)]

/-- `{s: getattr(aux, s) for s in aux.__slots__}`, gnss_types/observables.py:164-172. -/
def slotsAux (a : Msm.ObsAux) : PyVal :=
  strDict [("rs_id", .int a.rs_id), ("MMB", .int a.MMB), ("IODS", .int a.IODS), ("clk_steer", codeVal a.clk_steer),
    ("clk_ext", codeVal a.clk_ext), ("smth_indc", codeVal a.smth_indc), ("smth_intr", codeVal a.smth_intr)]

/-- `{s: getattr(hdr, s) for s in hdr.__slots__}`, gnss_types/observables.py:207-219. -/
def slotsBareHdr (h : Msm.BareHdr) : PyVal :=
  strDict [("rs_id", .int h.rs_id), ("time", .int h.time), ("MMB", .int h.MMB), ("IODS", .int h.IODS), ("clk_steer", .int h.clk_steer),
    ("clk_ext", .int h.clk_ext), ("smth_indc", .int h.smth_indc), ("smth_intr", .int h.smth_intr), ("sat_mask", .int h.sat_mask),
    ("sgn_mask", .int h.sgn_mask), ("cell_mask", .int h.cell_mask)]

/-- `{s: getattr(sat, s) for s in sat.__slots__}`, gnss_types/observables.py:242, 312. -/
def slotsSat : Msm.Bare → PyVal
  | .m4567 b => strDict [("rng_ms", natSeq b.sat.rng_ms), ("ext_info", natSeq b.sat.ext_info), ("rng_rough", natSeq b.sat.rng_rough),
      ("phase_rate_rough", intSeq b.sat.phase_rate_rough)]
  | .m123 b => strDict [("rng_rough", natSeq b.sat.rng_rough)]

/-- `{s: getattr(sgn, s) for s in sgn.__slots__}`, gnss_types/observables.py:258-265, 325. -/
def slotsSgn : Msm.Bare → PyVal
  | .m4567 b => strDict [("rng_fine", intSeq b.sgn.rng_fine), ("phase_fine", intSeq b.sgn.phase_fine),
      ("lock_time", natSeq b.sgn.lock_time), ("hc_indc", natSeq b.sgn.hc_indc), ("c2n", natSeq b.sgn.c2n),
      ("phase_rate_fine", intSeq b.sgn.phase_rate_fine)]
  | .m123 b => strDict [("rng_fine", intSeq b.sgn.rng_fine), ("phase_fine", intSeq b.sgn.phase_fine),
      ("lock_time", natSeq b.sgn.lock_time), ("hc_indc", natSeq b.sgn.hc_indc)]

/-- printers/json_printer.py:93-101 `JSONControls`. -/
structure Controls where
  enable_hdr_data : Bool := false
  enable_aux_data : Bool := false
  enable_pretty_view : Bool := false
  deriving DecidableEq, Repr

/-- printers/json_printer.py:239-257: the dictionary that is serialised for an `ObservablesMSM`. -/
def msmVal (c : Controls) (p : Msm.ObservablesMSM) : PyVal :=
  let time : Nat := p.hdr.time + p.hdr.day * 86400000
  let summary : PyDict String PyVal :=
    (if c.enable_hdr_data then [("hdr", slotsHdr p.hdr)] else []) ++ (if c.enable_aux_data then [("aux", slotsAux p.aux)] else []) ++
      [("obs", slotsObs p.obs)]
  .dict [(.int time, strDict summary)]

/-- printers/json_printer.py:287-305: the dictionary that is serialised for a bare MSM object. -/
def bareVal (c : Controls) (p : Msm.Bare) : PyVal :=
  let summary : PyDict String PyVal :=
    (if c.enable_hdr_data then [("hdr", slotsBareHdr p.hdr)] else []) ++
      (if c.enable_aux_data then [("aux", slotsAtr p.atr)] else []) ++ [("sat", slotsSat p), ("sgn", slotsSgn p)]
  .dict [(.int p.time, strDict summary)]

/-- The value that is serialised for an object, printers/json_printer.py:200-214. Every class of the model is one of the
supported classes, and every dataclass among them has a field `msgNum`; serialisation of these values does not raise. -/
def objVal (c : Controls) : PyObj → PyVal
  | .msm o => msmVal c o
  | .msmBare b => bareVal c b
  | .eph e => strDictOf ofNum (ephFields e)
  | .baseBare b => strDict (baseFields bareRepr b)
  | .baseScaled b => strDict (baseFields scaledRepr b)

/-- `msgNum` in printers/json_printer.py:202, 207, 210; `none` is a value that equals no int. -/
def objNum : PyObj → Option Int
  | .msm o => o.atr.msg_number.map Int.ofNat
  | .msmBare b => b.atr.msg_number.map Int.ofNat
  | .eph e => match (ephFields e).get? "msgNum" with
    | some (.int i) => some i
    | some (.flt x) => if x.den = 1 then some x.num else none
    | none => none
  | .baseBare b => match (baseFields bareRepr b).get? "msgNum" with
    | some (.int i) => some i
    | _ => none
  | .baseScaled b => match (baseFields scaledRepr b).get? "msgNum" with
    | some (.int i) => some i
    | _ => none

/-- `indent = 2 if self.ctrls.enable_pretty_view else None`.
printers/json_printer.py:255, 303, 340. -/
def Controls.indent (c : Controls) : Option Nat := if c.enable_pretty_view then some 2 else none

/-- printers/json_printer.py:233-353: the text of one element. -/
def objText (fr : Rat → Txt) (c : Controls) (o : PyObj) : Txt := dumps fr c.indent (objVal c o)

/-! ## `PrintJSON` -/

/-- printers/json_printer.py:21 -/
def obsM123 : List Cls := [.observablesMSM, .bareMSM123]
/-- printers/json_printer.py:22 -/
def obsM4567 : List Cls := [.observablesMSM, .bareMSM4567]

/-- One row of `JSON_SPEC`. printers/json_printer.py:25-90. -/
structure SpecRow where
  gnss : String
  dir : String
  classes : List Cls
  file : String
  deriving DecidableEq, Repr

/-- printers/json_printer.py:25-90 `JSON_SPEC`. -/
def JSON_SPEC : PyDict Int SpecRow :=
  [(1071, ⟨"GPS", "MSM1", obsM123, "GPS-MSM1-1071.json"⟩),
   (1072, ⟨"GPS", "MSM2", obsM123, "GPS-MSM2-1072.json"⟩),
   (1073, ⟨"GPS", "MSM3", obsM123, "GPS-MSM3-1073.json"⟩),
   (1074, ⟨"GPS", "MSM4", obsM4567, "GPS-MSM4-1074.json"⟩),
   (1075, ⟨"GPS", "MSM5", obsM4567, "GPS-MSM5-1075.json"⟩),
   (1076, ⟨"GPS", "MSM6", obsM4567, "GPS-MSM6-1076.json"⟩),
   (1077, ⟨"GPS", "MSM7", obsM4567, "GPS-MSM7-1077.json"⟩),
   (1081, ⟨"GLN", "MSM1", obsM123, "GLN-MSM1-1081.json"⟩),
   (1082, ⟨"GLN", "MSM2", obsM123, "GLN-MSM2-1082.json"⟩),
   (1083, ⟨"GLN", "MSM3", obsM123, "GLN-MSM3-1083.json"⟩),
   (1084, ⟨"GLN", "MSM4", obsM4567, "GLN-MSM4-1084.json"⟩),
   (1085, ⟨"GLN", "MSM5", obsM4567, "GLN-MSM5-1085.json"⟩),
   (1086, ⟨"GLN", "MSM6", obsM4567, "GLN-MSM6-1086.json"⟩),
   (1087, ⟨"GLN", "MSM7", obsM4567, "GLN-MSM7-1087.json"⟩),
   (1091, ⟨"GAL", "MSM1", obsM123, "GAL-MSM1-1091.json"⟩),
   (1092, ⟨"GAL", "MSM2", obsM123, "GAL-MSM2-1092.json"⟩),
   (1093, ⟨"GAL", "MSM3", obsM123, "GAL-MSM3-1093.json"⟩),
   (1094, ⟨"GAL", "MSM4", obsM4567, "GAL-MSM4-1094.json"⟩),
   (1095, ⟨"GAL", "MSM5", obsM4567, "GAL-MSM5-1095.json"⟩),
   (1096, ⟨"GAL", "MSM6", obsM4567, "GAL-MSM6-1096.json"⟩),
   (1097, ⟨"GAL", "MSM7", obsM4567, "GAL-MSM7-1097.json"⟩),
   (1101, ⟨"SBS", "MSM1", obsM123, "SBS-MSM1-1101.json"⟩),
   (1102, ⟨"SBS", "MSM2", obsM123, "SBS-MSM2-1102.json"⟩),
   (1103, ⟨"SBS", "MSM3", obsM123, "SBS-MSM3-1103.json"⟩),
   (1104, ⟨"SBS", "MSM4", obsM4567, "SBS-MSM4-1104.json"⟩),
   (1105, ⟨"SBS", "MSM5", obsM4567, "SBS-MSM5-1105.json"⟩),
   (1106, ⟨"SBS", "MSM6", obsM4567, "SBS-MSM6-1106.json"⟩),
   (1107, ⟨"SBS", "MSM7", obsM4567, "SBS-MSM7-1107.json"⟩),
   (1111, ⟨"QZS", "MSM1", obsM123, "QZS-MSM1-1111.json"⟩),
   (1112, ⟨"QZS", "MSM2", obsM123, "QZS-MSM2-1112.json"⟩),
   (1113, ⟨"QZS", "MSM3", obsM123, "QZS-MSM3-1113.json"⟩),
   (1114, ⟨"QZS", "MSM4", obsM4567, "QZS-MSM4-1114.json"⟩),
   (1115, ⟨"QZS", "MSM5", obsM4567, "QZS-MSM5-1115.json"⟩),
   (1116, ⟨"QZS", "MSM6", obsM4567, "QZS-MSM6-1116.json"⟩),
   (1117, ⟨"QZS", "MSM7", obsM4567, "QZS-MSM7-1117.json"⟩),
   (1121, ⟨"BDS", "MSM1", obsM123, "BDS-MSM1-1121.json"⟩),
   (1122, ⟨"BDS", "MSM2", obsM123, "BDS-MSM2-1122.json"⟩),
   (1123, ⟨"BDS", "MSM3", obsM123, "BDS-MSM3-1123.json"⟩),
   (1124, ⟨"BDS", "MSM4", obsM4567, "BDS-MSM4-1124.json"⟩),
   (1125, ⟨"BDS", "MSM5", obsM4567, "BDS-MSM5-1125.json"⟩),
   (1126, ⟨"BDS", "MSM6", obsM4567, "BDS-MSM6-1126.json"⟩),
   (1127, ⟨"BDS", "MSM7", obsM4567, "BDS-MSM7-1127.json"⟩),
   (1131, ⟨"NAVIC", "MSM1", obsM123, "NAVIC-MSM1-1131.json"⟩),
   (1132, ⟨"NAVIC", "MSM2", obsM123, "NAVIC-MSM2-1132.json"⟩),
   (1133, ⟨"NAVIC", "MSM3", obsM123, "NAVIC-MSM3-1133.json"⟩),
   (1134, ⟨"NAVIC", "MSM4", obsM4567, "NAVIC-MSM4-1134.json"⟩),
   (1135, ⟨"NAVIC", "MSM5", obsM4567, "NAVIC-MSM5-1135.json"⟩),
   (1136, ⟨"NAVIC", "MSM6", obsM4567, "NAVIC-MSM6-1136.json"⟩),
   (1137, ⟨"NAVIC", "MSM7", obsM4567, "NAVIC-MSM7-1137.json"⟩),
   (1019, ⟨"GPS", "EPH", [.ephGPS], "GPS-EPH-1019.json"⟩),
   (1020, ⟨"GLN", "EPH", [.ephGLO], "GLN-EPH-1020.json"⟩),
   (1041, ⟨"NAVIC", "EPH", [.ephNAVIC], "NAVIC-EPH-1041.json"⟩),
   (1042, ⟨"BDS", "EPH", [.ephBDS], "BDS-EPH-1042.json"⟩),
   (1044, ⟨"QZS", "EPH", [.ephQZS], "QZS-EPH-1044.json"⟩),
   (1045, ⟨"GAL", "EPH", [.ephGALF], "GAL-EPH-1045.json"⟩),
   (1046, ⟨"GAL", "EPH", [.ephGALI], "GAL-EPH-1046.json"⟩),
   (1005, ⟨"X", "BASE", [.baseRP], "RefPoint-1005.json"⟩),
   (1006, ⟨"X", "BASE", [.baseRPH], "RefPointHeight-1006.json"⟩),
   (1007, ⟨"X", "BASE", [.baseAD], "AntDesc-1007.json"⟩),
   (1008, ⟨"X", "BASE", [.baseADSN], "AntDescSer-1008.json"⟩),
   (1013, ⟨"X", "BASE", [.baseSP], "SysPar-1013.json"⟩),
   (1029, ⟨"X", "BASE", [.baseTS], "TextStr-1029.json"⟩),
   (1033, ⟨"X", "BASE", [.baseADSNRC], "AntAndRcvDesc-1033.json"⟩),
   (1230, ⟨"X", "BASE", [.baseGLBS], "GloBias-1230.json"⟩)]

/-- `type(o).__name__`. printers/json_printer.py:188, 198. -/
def clsName : Cls → String
  | .bareMSM4567 => "BareObservablesMSM4567"
  | .bareMSM123 => "BareObservablesMSM123"
  | .observablesMSM => "ObservablesMSM"
  | .ephGALF => "EphGALF"
  | .ephGALI => "EphGALI"
  | .ephGLO => "EphGLO"
  | .ephGPS => "EphGPS"
  | .ephQZS => "EphQZS"
  | .ephBDS => "EphBDS"
  | .ephNAVIC => "EphNAVIC"
  | .baseRP => "BaseRP"
  | .baseRPH => "BaseRPH"
  | .baseAD => "BaseAD"
  | .baseADSN => "BaseADSN"
  | .baseADSNRC => "BaseADSNRC"
  | .baseSP => "BaseSP"
  | .baseTS => "BaseTS"
  | .baseGLBS => "BaseGLBS"

/-- Attributes of a `PrintJSON` object, printers/json_printer.py:116-121. -/
structure Printer where
  ctrls : Controls
  wd : Txt
  /-- `__ofiles`: path of the open file by message number -/
  ofiles : PyDict Int Txt := []

/-- printers/json_printer.py:156-163 `__close`. -/
def Printer.close (p : Printer) (w : Disk) : Printer × Disk :=
  ({ p with ofiles := [] }, p.ofiles.foldl (fun w f => w.write f.2 ['\r', ']']) w)

/-- printers/json_printer.py:165-179 `__create_ofile`. `JSON_SPEC[msg_num]` exists when it is called. -/
def Printer.createOfile (p : Printer) (w : Disk) (num : Int) (row : SpecRow) : (Printer × Disk) × Py Unit :=
  let dir := Disk.join p.wd row.dir.toList
  let path := Disk.join dir row.file.toList
  let (w, ok) := if w.isdir dir then (w, true) else w.makedirs dir
  if ok then
    let (w, ok) := w.openW path
    if ok then (({ p with ofiles := p.ofiles.set num path }, w), .ok ()) else ((p, w), .error .assertionError)
  else ((p, w), .error .assertionError)

/-- `self.__ofiles[num].write(text)`. printers/json_printer.py:190, 192. -/
def Printer.writeTo (p : Printer) (w : Disk) (num : Int) (text : Txt) : (Printer × Disk) × Py Unit :=
  match p.ofiles.get? num with
  | none => ((p, w), .error .keyError)
  | some path => ((p, w.write path text), .ok ())

/-- printers/json_printer.py:181-192 `__append`. -/
def Printer.append (fr : Rat → Txt) (p : Printer) (w : Disk) (cls : Cls) (num : Int) (row : SpecRow) (line : Txt) :
    (Printer × Disk) × Py Unit :=
  if p.ofiles.mem num then p.writeTo w num line
  else
    match p.createOfile w num row with
    | (s, .error e) => (s, .error e)
    | ((p, w), .ok ()) =>
      match p.writeTo w num (['[', '\r'] ++ dumps fr none (.dict [(.str "source_type", .str (clsName cls))])) with
      | (s, .error e) => (s, .error e)
      | ((p, w), .ok ()) => p.writeTo w num line

/-- printers/json_printer.py:195-221 `__print`. -/
def Printer.print (fr : Rat → Txt) (p : Printer) (w : Disk) (o : PyObj) : (Printer × Disk) × Py Unit :=
  let text := objText fr p.ctrls o
  match (objNum o).bind (fun n => (JSON_SPEC.get? n).map (fun row => (n, row))) with
  | none => ((p, w), .error .assertionError)
  | some (num, row) => p.append fr w o.cls num row ([',', '\r'] ++ text)

end Json
end Verif
