import Verif.Spec.EphNames
import Verif.Spec.JsonVal
import Verif.Spec.Message

/-!
# The JSON value that is written for the content of a message

Names of the members and where the values come from, from the transmitted values only.
-/

namespace Verif
namespace Spec

/-- An object. -/
def jObj (l : List (String × JV)) : JV := .obj (l.map (fun p => (p.1.toList, p.2)))

/-- An integer. -/
def jInt (i : Int) : JV := .num (decText i)

/-- A natural number. -/
def jNat (n : Nat) : JV := jInt n

/-- A text. -/
def jText (s : String) : JV := .str s.toList

/-- How the units of a message are written. -/
structure Style where
  /-- a flag, transmitted as 0 or 1 -/
  flag : Int → JV
  /-- a number of parts of a unit: `num 10000 x` are `x` ten-thousandths -/
  num : Int → Int → JV
  /-- the quarter cycle indicator -/
  quarter : Int → JV
  /-- a text, transmitted as bytes -/
  text : List UInt8 → JV

/-- As transmitted. -/
def bareStyle : Style := ⟨jInt, fun _ => jInt, jInt, fun t => jText (hexText t)⟩

/-- In physical units, with texts decoded by `f`. -/
def scaledStyle (fr : Rat → List Char) (f : List UInt8 → String) : Style :=
  ⟨fun x => .bool (x = 1), fun u x => .num (fr ((x : Rat) / u)), fun q => jText (quarterText q), fun t => jText (f t)⟩

/-- Members for a reference point. -/
def refJson (y : Style) (num : Int) (p : RefPoint) : List (String × JV) :=
  [("msgNum", jInt num), ("bsID", jInt p.station), ("ITRF_Year", jInt p.year), ("GPS_OK", y.flag p.gps), ("GLO_OK", y.flag p.glo),
   ("GAL_OK", y.flag p.gal), ("isVirtual", y.flag p.virtual), ("refPoint_X", y.num 10000 p.x), ("singleOsc", y.flag p.osc),
   ("refPoint_Y", y.num 10000 p.y), ("QC_bias", y.quarter p.quarter), ("refPoint_Z", y.num 10000 p.z)]

/-- Members for an antenna. -/
def antJson (y : Style) (num station : Int) (d : List UInt8) (setup : Int) : List (String × JV) :=
  [("msgNum", jInt num), ("bsID", jInt station), ("descrLength", jNat d.length), ("descr", y.text d), ("setupID", jInt setup)]

/-- Members for a serial number. -/
def serialJson (y : Style) (s : List UInt8) : List (String × JV) := [("serialNumberLength", jNat s.length), ("serialNumber", y.text s)]

/-- Values for the four GLONASS signals. -/
def gloJson (a b c d : JV) : JV := jObj [("1C", a), ("1P", b), ("2C", c), ("2P", d)]

/-- The JSON value of a base station message. -/
def BaseMsg.json (y : Style) : BaseMsg → JV
  | .m1005 p => jObj (refJson y 1005 p)
  | .m1006 p h => jObj (refJson y 1006 p ++ [("height", y.num 10000 h)])
  | .m1007 id d u => jObj (antJson y 1007 id d u)
  | .m1008 id d u s => jObj (antJson y 1008 id d u ++ serialJson y s)
  | .m1033 id d u s r f n => jObj (antJson y 1033 id d u ++ serialJson y s ++
      [("rcvDescriptorLength", jNat r.length), ("rcvDescriptor", y.text r), ("rcvFWVersionLength", jNat f.length),
       ("rcvFWVersion", y.text f), ("rcvSerNumLength", jNat n.length), ("rcvSerNum", y.text n)])
  | .m1013 id mjd sec leap ann => jObj
      [("msgNum", jInt 1013), ("bsID", jInt id), ("modifiedJulianDay", jInt mjd), ("daySec", jInt sec), ("Nm", jNat ann.length),
       ("leapSec", jInt leap),
       ("shedule", .obj (ann.map (fun a => (decText a.1, .arr [y.flag a.2.1, y.num 10 a.2.2]))))]
  | .m1029 id mjd sec n t => jObj
      [("msgNum", jInt 1029), ("bsID", jInt id), ("modifiedJulianDay", jInt mjd), ("daySec", jInt sec), ("charNum", jInt n),
       ("unitsNum", jNat t.length), ("message", y.text t)]
  | .m1230 id al a b c d => jObj
      [("msgNum", jInt 1230), ("bsID", jInt id), ("isCorrected", y.flag al),
       ("validity", gloJson (y.flag (biasBit a)) (y.flag (biasBit b)) (y.flag (biasBit c)) (y.flag (biasBit d))),
       ("correction", gloJson (y.num 5 (a.getD 0)) (y.num 5 (b.getD 0)) (y.num 5 (c.getD 0)) (y.num 5 (d.getD 0)))]

/-- Members for ephemeris data that are not written: see C55. -/
def unwritten (name : String) : Bool := name == "L5_Flag" || name == "S_Flag"

/-- The JSON value of ephemeris data: the names of the message table with their values, in any order. -/
def EphJson (names : List String) (vals : List JV) (v : JV) : Prop :=
  ∃ l, v = jObj l ∧ l.Perm ((names.zip vals).filter (fun p => !unwritten p.1))

/-- A number of a scaled ephemeris. -/
def jNum (fr : Rat → List Char) : PyNum → JV
  | .int i => jInt i
  | .flt x => .num (fr x)

/-- A list of numbers. -/
def jNats (l : List Nat) : JV := .arr (l.map jNat)
/-- A list of numbers. -/
def jInts (l : List Int) : JV := .arr (l.map jInt)

/-- The columns of data of an MSM that are written; `[0]` for a column that the type does not have. -/
def colNats (w : Nat) (l : List Nat) : JV := jNats (if w = 0 then [0] else l)
/-- The same with signed numbers. -/
def colInts (w : Nat) (l : List Int) : JV := jInts (if w = 0 then [0] else l)

/-- A code and what it means. -/
def jCode (n : Nat) (meaning : String) : JV := jObj [("code", jNat n), ("val", jText meaning)]

/-- A table of values by signal and satellite. -/
def jTable {α : Type} (f : α → JV) (t : PyDict String (PyDict Nat α)) : JV :=
  jObj (t.map (fun p => (p.1, .obj (p.2.map (fun q => (decText (q.1 : Int), f q.2))))))

namespace MsmData

/-- Members of the header of an MSM. -/
def hdrJson (d : MsmData) : JV := jObj
  [("rs_id", jNat d.station), ("time", jNat d.time), ("MMB", jNat d.multiple), ("IODS", jNat d.iods), ("clk_steer", jNat d.steering),
   ("clk_ext", jNat d.external), ("smth_indc", jNat d.smoothing), ("smth_intr", jNat d.interval), ("sat_mask", jNat (maskInt d.sats)),
   ("sgn_mask", jNat (maskInt d.sigs)), ("cell_mask", jNat (maskInt d.cells))]

/-- Members of the attributes. -/
def atrJson (d : MsmData) : JV := jObj
  [("gnss", jText (gnssLetter d.g)), ("subset", jText (msmName d.k)), ("msg_number", jNat d.number)]

/-- Columns of the satellites. -/
def satJson (d : MsmData) : JV :=
  let w := msmWidths d.k
  if d.k ≤ 3 then jObj [("rng_rough", colNats w.rough d.rngRough)]
  else jObj [("rng_ms", colNats w.ms d.rngMs), ("ext_info", colNats w.ext d.extInfo), ("rng_rough", colNats w.rough d.rngRough),
    ("phase_rate_rough", colInts w.rate d.rateRough)]

/-- Columns of the cells. -/
def sgnJson (d : MsmData) : JV :=
  let w := msmWidths d.k
  jObj ([("rng_fine", colInts w.fine d.rngFine), ("phase_fine", colInts w.phs d.phsFine), ("lock_time", colNats w.lock d.lock),
      ("hc_indc", colNats w.half d.half)] ++
    if d.k ≤ 3 then [] else [("c2n", colNats w.cnr d.cnr), ("phase_rate_fine", colInts w.fineRate d.rateFine)])

/-- The time under which a message is written as transmitted; GLONASS: without the day in the upper bits. -/
def timeKey (d : MsmData) : Nat := if d.g = 1 then d.time % 2 ^ 27 else d.time

/-- As transmitted, under the time; header and attributes on request. -/
def bareJson (hdr aux : Bool) (d : MsmData) : JV := .obj [(decText d.timeKey, jObj
  ((if hdr then [("hdr", d.hdrJson)] else []) ++ (if aux then [("aux", d.atrJson)] else []) ++ [("sat", d.satJson), ("sgn", d.sgnJson)]))]

/-- The time of an MSM in ms of the week; GLONASS: days in the upper bits. -/
def timeMs (d : MsmData) : Nat := if d.g = 1 then d.time % 2 ^ 27 + d.time / 2 ^ 27 * 86400000 else d.time

/-- In physical units. -/
def scaledJson (fr : Rat → List Char) (hdr aux : Bool) (d : MsmData) : JV :=
  let flt : Rat → JV := fun x => .num (fr x)
  .obj [(decText d.timeMs, jObj
    ((if hdr then [("hdr", jObj
        [("signals", jObj (d.sigList.filterMap (fun t => (d.sigName t).map (fun n => (n, flt (d.sigFreq n)))))),
         ("sats", jNats d.satList), ("time", jNat (if d.g = 1 then d.time % 2 ^ 27 else d.time)),
         ("day", jNat (if d.g = 1 then d.time / 2 ^ 27 else 0))])] else []) ++
     (if aux then [("aux", jObj
        [("rs_id", jNat d.station), ("MMB", jNat d.multiple), ("IODS", jNat d.iods), ("clk_steer", jCode d.steering (steerName d.steering)),
         ("clk_ext", jCode d.external (extClockName d.external)), ("smth_indc", jCode d.smoothing (smoothName d.smoothing)),
         ("smth_intr", jCode d.interval (intervalName d.interval))])] else []) ++
     [("obs", jObj
        [("rng", jTable flt (d.table d.rngVal)), ("phs", jTable flt (d.table d.phsVal)), ("ltm", jTable jNat (d.table d.ltmVal)),
         ("hca", jTable JV.bool (d.table d.hcaVal)), ("dpl", jTable flt (d.table d.dplVal)), ("c2n", jTable flt (d.table d.c2nVal))])]))]

end MsmData

/-- The value `v` holds the content as transmitted. -/
def Content.BareJson (hdr aux : Bool) (c : Content) (v : JV) : Prop :=
  match c with
  | .eph e => EphJson (namesOf e) ((valsOf e).map jInt) v
  | .base m => v = m.json bareStyle
  | .msm d => v = d.bareJson hdr aux

/-- The value `v` holds the content in physical units; texts are decoded. -/
def Content.ScaledJson (fr : Rat → List Char) (hdr aux : Bool) (c : Content) (v : JV) : Prop :=
  match c with
  | .eph e => EphJson (namesOf e) ((scaledVals (tableOf e) (valsOf e)).map (jNum fr)) v
  | .base m => ∃ f : List UInt8 → String, (∀ t ∈ m.texts, IsUtf8Of t (f t)) ∧ v = m.json (scaledStyle fr f)
  | .msm d => v = d.scaledJson fr hdr aux

/-! ## Files -/

/-- Names of the constellations in file names. -/
def gnssFileName : Nat → String
  | 0 => "GPS" | 1 => "GLN" | 2 => "GAL" | 3 => "SBS" | 4 => "QZS" | 5 => "BDS" | 6 => "NAVIC" | _ => ""

/-- Names for the ephemeris messages. -/
def ephFileName (n : Nat) : Option String :=
  [(1019, "GPS"), (1020, "GLN"), (1041, "NAVIC"), (1042, "BDS"), (1044, "QZS"), (1045, "GAL"), (1046, "GAL")].lookup n

/-- Names for the base station messages. -/
def baseFileName (n : Nat) : Option String :=
  [(1005, "RefPoint"), (1006, "RefPointHeight"), (1007, "AntDesc"), (1008, "AntDescSer"), (1013, "SysPar"), (1029, "TextStr"),
   (1033, "AntAndRcvDesc"), (1230, "GloBias")].lookup n

/-- Path of the file of a message number inside of the work folder. -/
def jsonFile (n : Nat) : String :=
  match ephFileName n, baseFileName n with
  | some s, _ => "EPH/" ++ s ++ "-EPH-" ++ toString n ++ ".json"
  | _, some s => "BASE/" ++ s ++ "-" ++ toString n ++ ".json"
  | _, _ => msmName (n % 10) ++ "/" ++ gnssFileName (n / 10 - 107) ++ "-" ++ msmName (n % 10) ++ "-" ++ toString n ++ ".json"

/-- Class that is named in the header of the file of a message number. -/
def className (bare : Bool) (n : Nat) : String :=
  match [(1019, "EphGPS"), (1020, "EphGLO"), (1041, "EphNAVIC"), (1042, "EphBDS"), (1044, "EphQZS"), (1045, "EphGALF"), (1046, "EphGALI"),
      (1005, "BaseRP"), (1006, "BaseRPH"), (1007, "BaseAD"), (1008, "BaseADSN"), (1033, "BaseADSNRC"), (1013, "BaseSP"), (1029, "BaseTS"),
      (1230, "BaseGLBS")].lookup n with
  | some s => s
  | none => if bare then (if n % 10 ≤ 3 then "BareObservablesMSM123" else "BareObservablesMSM4567") else "ObservablesMSM"

/-- The value of a file: an array of a header that names the class and of the elements. -/
def fileJson (cls : String) (elems : List JV) : JV := .arr (jObj [("source_type", jText cls)] :: elems)

end Spec
end Verif
