import Verif.Spec.BaseObj
import Verif.Spec.ScaledNames

/-!
# Names of the base station data in the output
-/

namespace Verif
namespace Spec
open PyCore

/-- `v` is a reference to an object of the class with the given name. -/
def IsOfClass (h : Heap) (v : Val) (c : String) : Prop := ∃ a fs, v = .ref a ∧ h[a]? = some (.inst (identOf c) fs)

/-- The class of the object of a message. -/
def BaseMsg.className : BaseMsg → String
  | .m1005 _ => "BaseRP"
  | .m1006 _ _ => "BaseRPH"
  | .m1007 _ _ _ => "BaseAD"
  | .m1008 _ _ _ _ => "BaseADSN"
  | .m1033 _ _ _ _ _ _ _ => "BaseADSNRC"
  | .m1013 _ _ _ _ _ => "BaseSP"
  | .m1029 _ _ _ _ _ => "BaseTS"
  | .m1230 _ _ _ _ _ _ => "BaseGLBS"

/-- Attributes of an antenna; a text is shown by `f`. -/
def antennaAttrs (f : List UInt8 → String) (num station : Int) (d : List UInt8) (setup : Int) : List (String × Val) :=
  [("msgNum", .int num), ("bsID", .int station), ("descrLength", .int d.length), ("descr", .str (f d)), ("setupID", .int setup)]

/-- A text with its length. -/
def textAttrs (f : List UInt8 → String) (name : String) (t : List UInt8) : List (String × Val) :=
  [(name ++ "Length", .int t.length), (name, .str (f t))]

/-- Attributes of the messages with texts and of the head of those with tables. -/
def BaseMsg.plainAttrs (f : List UInt8 → String) : BaseMsg → List (String × Val)
  | .m1007 id d u => antennaAttrs f 1007 id d u
  | .m1008 id d u s => antennaAttrs f 1008 id d u ++ textAttrs f "serialNumber" s
  | .m1033 id d u s r fw n => antennaAttrs f 1033 id d u ++ textAttrs f "serialNumber" s ++ textAttrs f "rcvDescriptor" r ++
      textAttrs f "rcvFWVersion" fw ++ textAttrs f "rcvSerNum" n
  | .m1013 id mjd sec leap ann =>
      [("msgNum", .int 1013), ("bsID", .int id), ("modifiedJulianDay", .int mjd), ("daySec", .int sec), ("Nm", .int ann.length), ("leapSec", .int leap)]
  | .m1029 id mjd sec n t =>
      [("msgNum", .int 1029), ("bsID", .int id), ("modifiedJulianDay", .int mjd), ("daySec", .int sec), ("charNum", .int n),
       ("unitsNum", .int t.length), ("message", .str (f t))]
  | .m1230 id _ _ _ _ _ => [("msgNum", .int 1230), ("bsID", .int id)]
  | .m1005 _ => []
  | .m1006 _ _ => []

/-- Attributes of a reference point; flags, coordinates and the quarter cycle indicator are shown by the functions. -/
def refAttrs (fb fc fq : Int → Val) (num : Int) (p : RefPoint) : List (String × Val) :=
  [("msgNum", .int num), ("bsID", .int p.station), ("ITRF_Year", .int p.year), ("GPS_OK", fb p.gps), ("GLO_OK", fb p.glo), ("GAL_OK", fb p.gal),
   ("isVirtual", fb p.virtual), ("refPoint_X", fc p.x), ("singleOsc", fb p.osc), ("refPoint_Y", fc p.y), ("QC_bias", fq p.quarter), ("refPoint_Z", fc p.z)]

/-- Attributes of a message: `fb` shows a flag, `fc` a coordinate, `fq` the quarter cycle indicator, `f` a text. -/
def BaseMsg.attrs (fb fc fq : Int → Val) (f : List UInt8 → String) : BaseMsg → List (String × Val)
  | .m1005 p => refAttrs fb fc fq 1005 p
  | .m1006 p x => refAttrs fb fc fq 1006 p ++ [("height", fc x)]
  | .m1230 id al a b c d => (BaseMsg.m1230 id al a b c d).plainAttrs f ++ [("isCorrected", fb al)]
  | m => m.plainAttrs f

/-- `v.name[k]` -/
def entryOf (h : Heap) (v : Val) (name : String) (k : Val) : Option Val := (pathVal h v [name]).bind (itemVal h · k)

/-- The four signals with a GLONASS bias. -/
def biasOf (k : String) (a b c d : Option Int) : Option Int := if k = "1C" then a else if k = "1P" then b else if k = "2C" then c else d

/-- The tables: the schedule of 1013 has for each message the last announcement of it, with flag and interval shown by `fb` and `ft`; the
tables of 1230 have for each signal whether there is a bias (`fv`), and the bias, 0 if there is none (`fx`). -/
def BaseMsg.Tables (fb ft fv fx : Int → Val) (h : Heap) (v : Val) : BaseMsg → Prop
  | .m1013 _ _ _ _ ann => ∀ k : Int, entryOf h v "shedule" (.int k) = ((ann.filter (fun x => x.1 == k)).getLast?).map (fun x => .tup [fb x.2.1, ft x.2.2])
  | .m1230 _ _ a b c d => ∀ k ∈ ["1C", "1P", "2C", "2P"], entryOf h v "validity" (.str k) = some (fv (biasBit (biasOf k a b c d))) ∧
      entryOf h v "correction" (.str k) = some (fx ((biasOf k a b c d).getD 0))
  | _ => True

/-- `v` is an object that holds the content of the message in bare form: every number as it is transmitted, texts in hexadecimal form. -/
def BaseMsg.HeldBare (m : BaseMsg) (h : Heap) (v : Val) : Prop :=
  IsOfClass h v m.className ∧ (∀ p ∈ m.attrs .int .int .int hexText, pathVal h v [p.1] = some p.2) ∧ m.Tables .int .int .int .int h v

/-- A flag as truth value. -/
def flagVal (x : Int) : Val := .bool (decide (x = 1))

/-- `v` is an object that holds the content of the message in scaled form: flags are truth values, coordinates and heights are metres, intervals seconds,
biases metres, the quarter cycle indicator is spelled out, texts are shown by `f`. -/
def BaseMsg.HeldScaled (f : List UInt8 → String) (m : BaseMsg) (h : Heap) (v : Val) : Prop :=
  IsOfClass h v m.className ∧ (∀ p ∈ m.attrs flagVal (fun x => .flt (x / 10000)) (fun x => .str (quarterText x)) f, pathVal h v [p.1] = some p.2) ∧
    m.Tables flagVal (fun x => .flt (x / 10)) flagVal (fun x => .flt (x / 5)) h v

/-- A schedule message that announces nothing. -/
def BaseMsg.isEmptySchedule : BaseMsg → Bool
  | .m1013 _ _ _ _ [] => true
  | _ => false

end Spec
end Verif
