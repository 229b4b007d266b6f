import Verif.Spec.Base
import Verif.Model.BaseTypes

/-!
# The object that denotes the content of a base station message
-/

namespace Verif
namespace Spec

/-- Attributes of a reference point message in bare mode. -/
def refObj (num : Int) (p : RefPoint) : BaseRP Int Int Int :=
  { msgNum := num, bsID := p.station, ITRF_Year := p.year, GPS_OK := p.gps, GLO_OK := p.glo, GAL_OK := p.gal,
    isVirtual := p.virtual, refPoint_X := p.x, singleOsc := p.osc, refPoint_Y := p.y, QC_bias := p.quarter,
    refPoint_Z := p.z }

/-- Antenna attributes with texts rendered by `f`. -/
def adObj (f : List UInt8 → String) (num station : Int) (d : List UInt8) (setup : Int) : BaseAD :=
  { msgNum := num, bsID := station, descrLength := d.length, descr := f d, setupID := setup }

/-- Antenna attributes with serial number. -/
def adsnObj (f : List UInt8 → String) (num station : Int) (d : List UInt8) (setup : Int) (s : List UInt8) : BaseADSN :=
  { ad := adObj f num station d setup, serialNumberLength := s.length, serialNumber := f s }

/-- Antenna and receiver attributes. -/
def adsnrcObj (f : List UInt8 → String) (num station : Int) (d : List UInt8) (setup : Int) (s r fw n : List UInt8) :
    BaseADSNRC :=
  { adsn := adsnObj f num station d setup s, rcvDescriptorLength := r.length, rcvDescriptor := f r,
    rcvFWVersionLength := fw.length, rcvFWVersion := f fw, rcvSerNumLength := n.length, rcvSerNum := f n }

/-- Unicode text attributes. -/
def tsObj (f : List UInt8 → String) (station mjd sec chars : Int) (t : List UInt8) : BaseTS :=
  { msgNum := 1029, bsID := station, modifiedJulianDay := mjd, daySec := sec, charNum := chars, unitsNum := t.length,
    message := f t }

/-- A table with the entries of the four GLONASS signals. -/
def gloTable {α : Type} (a b c d : α) : PyDict String α := [("1C", a), ("1P", b), ("2C", c), ("2P", d)]

/-- The object of a message in bare mode: the transmitted integers, texts in hexadecimal form. The schedule of 1013 is a
dictionary: of two announcements for one message the later one counts. -/
def bareObj : BaseMsg → Base.BareObj
  | .m1005 p => .rp (refObj 1005 p)
  | .m1006 p h => .rph ⟨refObj 1006 p, h⟩
  | .m1007 id d u => .ad (adObj hexText 1007 id d u)
  | .m1008 id d u s => .adsn (adsnObj hexText 1008 id d u s)
  | .m1033 id d u s r f n => .adsnrc (adsnrcObj hexText 1033 id d u s r f n)
  | .m1013 id mjd sec leap ann => .sp
      { msgNum := 1013, bsID := id, modifiedJulianDay := mjd, daySec := sec, Nm := ann.length, leapSec := leap,
        shedule := ann.foldl (fun d a => d.set a.1 (a.2.1, a.2.2)) [] }
  | .m1029 id mjd sec n t => .ts (tsObj hexText id mjd sec n t)
  | .m1230 id al a b c d => .glbs
      { msgNum := 1230, bsID := id, isCorrected := al,
        validity := gloTable (biasBit a) (biasBit b) (biasBit c) (biasBit d),
        correction := gloTable (a.getD 0) (b.getD 0) (c.getD 0) (d.getD 0) }

/-- Text of the quarter cycle indicator. -/
def quarterText (q : Int) : String :=
  if q = 0 then "UNDEF" else if q = 1 then "CORRECTED" else if q = 2 then "NOT CORRECTED" else "RESERVED"

/-- Reference point in physical units: coordinates in metres (unit 0.1 mm). -/
def refScaled (num : Int) (p : RefPoint) : BaseRP Bool Rat String :=
  { msgNum := num, bsID := p.station, ITRF_Year := p.year, GPS_OK := p.gps = 1, GLO_OK := p.glo = 1, GAL_OK := p.gal = 1,
    isVirtual := p.virtual = 1, refPoint_X := (p.x : Rat) / 10000, singleOsc := p.osc = 1,
    refPoint_Y := (p.y : Rat) / 10000, QC_bias := quarterText p.quarter, refPoint_Z := (p.z : Rat) / 10000 }

/-- The texts of a message. -/
def BaseMsg.texts : BaseMsg → List (List UInt8)
  | m1007 _ d _ => [d]
  | m1008 _ d _ s => [d, s]
  | m1033 _ d _ s r f n => [d, s, r, f, n]
  | m1029 _ _ _ _ t => [t]
  | _ => []

/-- The object of a message in scaled mode with texts rendered by `f`. Units: heights 0.1 mm, announcement intervals
0.1 s, GLONASS biases 0.2 m (the code's unit). -/
def scaledObj (f : List UInt8 → String) : BaseMsg → Base.ScaledObj
  | .m1005 p => .rp (refScaled 1005 p)
  | .m1006 p h => .rph ⟨refScaled 1006 p, (h : Rat) / 10000⟩
  | .m1007 id d u => .ad (adObj f 1007 id d u)
  | .m1008 id d u s => .adsn (adsnObj f 1008 id d u s)
  | .m1033 id d u s r fw n => .adsnrc (adsnrcObj f 1033 id d u s r fw n)
  | .m1013 id mjd sec leap ann => .sp
      { msgNum := 1013, bsID := id, modifiedJulianDay := mjd, daySec := sec, Nm := ann.length, leapSec := leap,
        shedule := ann.foldl (fun d a => d.set a.1 (decide (a.2.1 = 1), (a.2.2 : Rat) / 10)) [] }
  | .m1029 id mjd sec n t => .ts (tsObj f id mjd sec n t)
  | .m1230 id al a b c d => .glbs
      { msgNum := 1230, bsID := id, isCorrected := al = 1,
        validity := gloTable a.isSome b.isSome c.isSome d.isSome,
        correction := gloTable ((a.getD 0 : Int) * (1 / 5) : Rat) ((b.getD 0 : Int) * (1 / 5)) ((c.getD 0 : Int) * (1 / 5))
          ((d.getD 0 : Int) * (1 / 5)) }

end Spec
end Verif
