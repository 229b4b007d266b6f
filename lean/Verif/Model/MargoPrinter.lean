import Verif.Model.Disk
import Verif.Model.Objects
import Verif.Model.RtcmUtil

/-!
# Model of printers/margo_printer.py

Floats are exact rationals (Model/Text.lean for their text). Log output is not modelled.
-/

namespace Verif
namespace Margo
open Decoder RtcmUtil Text

/-- printers/margo_printer.py:24-63 `MargoControls`, with the values set by `__init__`. -/
structure Controls where
  half_cycle_enable : Bool := false
  lock_time_enable : Bool := false
  gps_utc_shift : Int := 18
  glo_lit_tab : PyDict Nat Int :=
    [(1, 1), (2, -4), (3, 5), (4, 6), (5, 1), (6, -4), (7, 5), (8, 6), (9, -2), (10, -7), (11, 0), (12, -1), (13, -2), (14, -7),
     (15, 0), (16, -1), (17, 4), (18, -3), (19, 3), (20, 2), (21, 4), (22, -3), (23, 3), (24, 2)]
  deriving DecidableEq, Repr

/-- printers/margo_printer.py:95-103 `__OFILE_LT1` -/
def ofileLt1 : PyDict String String :=
  [("G", "GPS"), ("R", "GLN"), ("E", "GAL"), ("S", "SBS"), ("Q", "QZS"), ("B", "BDS"), ("I", "NAVIC")]

/-- `d.get(k)` followed by `assert rv is not None`.
printers/margo_printer.py:108-109, 136-139, 145-148, 154-155. -/
def getAssert {κ α : Type} [BEq κ] (d : PyDict κ α) (k : κ) : Py α :=
  match d.get? k with
  | none => .error .assertionError
  | some v => .ok v

/-- printers/margo_printer.py:105-110 `DIRNAME` -/
def dirName (gnss : String) : Py String := getAssert ofileLt1 gnss

/-- printers/margo_printer.py:118-125 `__FORMAT_COLUMNS` -/
def formatColumns : PyDict String (Nat × Nat) :=
  [("C", (15, 3)), ("L", (15, 4)), ("D", (15, 3)), ("S", (15, 2)), ("T", (10, 3)), ("A", (4, 0))]

/-- printers/margo_printer.py:128 `__MARGO_FILE_ID` -/
def margoFileIdTab : PyDict String Nat := [("C", 0), ("L", 1), ("D", 2), ("S", 3), ("T", 4), ("A", 5)]

/-- printers/margo_printer.py:131 `__MAX_SATS` -/
def maxSatsTab : PyDict String Nat := [("G", 32), ("R", 24), ("E", 36), ("S", 38), ("Q", 5), ("B", 37), ("I", 14)]

/-- printers/margo_printer.py:133-140 `FORMAT` -/
def format (param : String) : Py (Nat × Nat) := getAssert formatColumns param

/-- printers/margo_printer.py:142-149 `MARGO_FILE_ID` -/
def margoFileId (param : String) : Py Nat := getAssert margoFileIdTab param

/-- printers/margo_printer.py:151-156 `MAX_SATS` -/
def maxSats (gnss : String) : Py Nat := getAssert maxSatsTab gnss

/-- printers/margo_printer.py:158-174 `make_obs_file_name`. -/
def makeObsFileName (gnss param sgn postf : String) : Txt :=
  if !ofileLt1.mem gnss then []
  else if sgn.toList.length ≠ 2 ∨ param.toList.length ≠ 1 then []
  else gnss.toList ++ param.toList ++ sgn.toList ++ ['_'] ++ postf.toList.take 5 ++ ['.', 'o', 'b', 's']

/-- printers/margo_printer.py:176-189 `conv_to_gps_time`. -/
def convToGpsTime (time day utc_shift : Int) (src_gnss : String) : Int :=
  if src_gnss = "B" then
    let rv := time + 14000
    if rv ≥ 604800000 then rv - 604800000 else rv
  else if src_gnss = "R" then
    let rv := time + day * 86400000 - (10800 - utc_shift) * 1000
    if rv < 0 then rv + 604800000 else rv
  else time

/-- printers/margo_printer.py:191-202 `make_crr_frq`. -/
def makeCrrFrq (c : Controls) (gnss sgn : String) : Py (List Rat) := do
  let fc ← crrFrq gnss (some sgn)
  let n ← maxSats gnss
  let frq := List.replicate n fc
  if gnss ≠ "R" then pure frq
  else if sgn ∉ ["1C", "1P", "2C", "2P"] then pure frq
  else
    let df : Rat := if sgn ∈ ["1C", "1P"] then 5625 / 10000 else 4375 / 10000
    frq.zipIdx 1 |>.mapM (fun p => match c.glo_lit_tab.get? p.2 with
      | none => .error .keyError
      | some lt => pure (p.1 + df * lt))

/-- printers/margo_printer.py:204-210 `make_lambdas`; `1e-3` is taken as the rational 1/1000. -/
def makeLambdas (c : Controls) (gnss sgn : String) : Py (List Rat) := do
  let frequencies ← makeCrrFrq c gnss sgn
  frequencies.mapM (fun f => if f = 0 then .error .zeroDivision else pure (CRNG_1MS * (1 / 1000) / f))

/-- A value in a row: a number, the number `-0.0`, or the text `"NaN"`.
printers/margo_printer.py:243-246, 280-281, 294-295. -/
inductive Cell where
  | num (x : Rat)
  | negZero
  | nan
  deriving DecidableEq, Repr

/-- A row: time and columns. printers/margo_printer.py:235, 243-246. -/
abbrev Row := Int × List Cell

/-- `for sat in range(1, max_sats + 1): values.append(f(sat))`.
printers/margo_printer.py:244-246, 257-281, 293-295. -/
def columns (max_sats : Nat) (f : Nat → Py Cell) : Py (List Cell) := (List.range max_sats).mapM (fun i => f (i + 1))

/-- The loop over the slots of one observable, e.g. printers/margo_printer.py:238-248: a row for each slot with a file name.
`cell slot` prepares a slot (e.g. computes the wave lengths) and yields the cell for each satellite number. -/
def slotLoop {α : Type} (gnss param subset : String) (time : Int) (max_sats : Nat)
    (cell : String → PyDict Nat α → Py (Nat → Py Cell)) (rv : PyDict Txt Row) (obs : PyDict String (PyDict Nat α)) :
    Py (PyDict Txt Row) :=
  obs.foldlM (fun rv p => do
    let fn := makeObsFileName gnss param p.1 subset
    if fn = [] then pure rv
    else
      let f ← cell p.1 p.2
      let values ← columns max_sats f
      pure (rv.set fn (time, values))) rv

/-- `lam[sat - 1]`. printers/margo_printer.py:280, 294. -/
def lamAt (lam : List Rat) (sat : Nat) : Py Rat :=
  match lam[sat - 1]? with
  | some x => .ok x
  | none => .error .indexError

/-- `x / y`. printers/margo_printer.py:209, 280, 294. -/
def divide (x y : Rat) : Py Rat := if y = 0 then .error .zeroDivision else .ok (x / y)

/-- printers/margo_printer.py:265-278: `amb_ok`. -/
def ambOk (c : Controls) (hca : PyDict String (PyDict Nat Bool)) (slot : String) (sat : Nat) : Bool :=
  if c.half_cycle_enable then true
  else match hca.get? slot with
    | some d => match d.get? sat with
      | some h => !h
      | none => false
    | none => true

/-- Code range and carrier-to-noise cells, printers/margo_printer.py:245, 307. -/
def cellPlain (_slot : String) (obs : PyDict Nat Rat) : Py (Nat → Py Cell) :=
  pure (fun sat => match obs.get? sat with
    | some v => pure (.num v)
    | none => pure .nan)

/-- Carrier phase cells, printers/margo_printer.py:256-281. -/
def cellPhase (c : Controls) (gnss : String) (hca : PyDict String (PyDict Nat Bool)) (slot : String) (obs : PyDict Nat Rat) :
    Py (Nat → Py Cell) := do
  let lam ← makeLambdas c gnss slot
  pure (fun sat => match obs.get? sat with
    | none => pure .nan
    | some v => if ambOk c hca slot sat then do
        let l ← lamAt lam sat
        return .num (← divide v l)
      else pure .nan)

/-- `-v / l` is the float `-0.0`: `v` is `0.0` and `l` is positive. A Doppler of zero in a decoded object is always `0.0`, never `-0.0`, as it
is a sum of two floats. printers/margo_printer.py:294. -/
def isNegZero (v l : Rat) : Bool := v = 0 ∧ 0 < l

/-- Doppler cells, printers/margo_printer.py:292-295. -/
def cellDoppler (c : Controls) (gnss : String) (slot : String) (obs : PyDict Nat Rat) : Py (Nat → Py Cell) := do
  let lam ← makeLambdas c gnss slot
  pure (fun sat => match obs.get? sat with
    | none => pure .nan
    | some v => do
      let l ← lamAt lam sat
      let q ← divide (-v) l
      return if isNegZero v l then .negZero else .num q)

/-- Lock time cells, printers/margo_printer.py:321; `0.001` is taken as the rational 1/1000. -/
def cellLock (_slot : String) (obs : PyDict Nat Nat) : Py (Nat → Py Cell) :=
  pure (fun sat => match obs.get? sat with
    | some v => pure (.num ((v : Rat) * (1 / 1000)))
    | none => pure .nan)

/-- Half cycle ambiguity cells, printers/margo_printer.py:335-338. -/
def cellHca (_slot : String) (obs : PyDict Nat Bool) : Py (Nat → Py Cell) :=
  pure (fun sat => match obs.get? sat with
    | some v => pure (.num (if v then 1 else 0))
    | none => pure .nan)

/-- printers/margo_printer.py:212-343 `ObservablesMSMtoPrintBuffer`. -/
def printBuffer (c : Controls) (p : Msm.ObservablesMSM) : Py (PyDict Txt Row) := do
  let gnss := p.atr.gnss
  if !ofileLt1.mem gnss then .error .assertionError
  else
    let time : Int := if gnss ≠ "G" then convToGpsTime p.hdr.time p.hdr.day c.gps_utc_shift gnss else p.hdr.time
    let max_sats ← maxSats gnss
    let rv ← slotLoop gnss "C" p.atr.subset time max_sats cellPlain [] p.obs.rng
    let rv ← slotLoop gnss "L" p.atr.subset time max_sats (cellPhase c gnss p.obs.hca) rv p.obs.phs
    let rv ← slotLoop gnss "D" p.atr.subset time max_sats (cellDoppler c gnss) rv p.obs.dpl
    let rv ← slotLoop gnss "S" p.atr.subset time max_sats cellPlain rv p.obs.c2n
    let rv ← if c.lock_time_enable then slotLoop gnss "T" p.atr.subset time max_sats cellLock rv p.obs.ltm else pure rv
    if c.half_cycle_enable then slotLoop gnss "A" p.atr.subset time max_sats cellHca rv p.obs.hca else pure rv

/-- `f"{float(x):{width}.{frc}f}"`. printers/margo_printer.py:352. -/
def formatCell (width frc : Nat) : Cell → Txt
  | .num x => rjust width (fixedRepr frc x)
  | .negZero => rjust width ('-' :: fixedRepr frc 0)
  | .nan => rjust width ['n', 'a', 'n']

/-- printers/margo_printer.py:345-355 `format_obs_string`. -/
def formatObsString (row : Row) (width frc : Nat) : Txt :=
  rjust 10 (intRepr row.1) ++ [','] ++ Text.join [','] (row.2.map (formatCell width frc)) ++ ['\n']

/-- A text of one character: `s[i]`. printers/margo_printer.py:359-360, 413, 449. -/
def charAt (s : Txt) (i : Nat) : Py String :=
  match s[i]? with
  | some c => .ok (String.ofList [c])
  | none => .error .indexError

/-- printers/margo_printer.py:357-377 `make_header`. -/
def makeHeader (c : Controls) (ofile_name : Txt) : Py (Txt × Txt) := do
  let gnss ← charAt ofile_name 0
  let param ← charAt ofile_name 1
  let (width, frc) ← format param
  let n ← maxSats gnss
  let line1 := Text.join [','] ((List.range n).map (fun sat : Nat => rjust width (intRepr (sat + 1))))
  let id ← margoFileId param
  let line1 := Text.join [','] [rjust 10 (intRepr id), line1] ++ ['\n']
  let width := if width < 9 then 9 else width
  let frc := if frc < 4 then 4 else frc
  let sgn := String.ofList ((ofile_name.drop 2).take 2)
  let frequencies ← makeCrrFrq c gnss sgn
  let cf ← crrFrq gnss (some sgn)
  let line2 := Text.join [','] (frequencies.map (fun x => rjust width (fixedRepr frc x)))
  let line2 := Text.join [','] [rjust 10 (fixedRepr frc cf), line2] ++ ['\n']
  pure (line1, line2)

/-- Attributes of a `PrintMARGO` object, printers/margo_printer.py:389-393. -/
structure Printer where
  ctrl : Controls
  wd : Txt
  /-- `__ofiles`: path of the open file by file name -/
  ofiles : PyDict Txt Txt := []

/-- printers/margo_printer.py:402-408 `__close`. -/
def Printer.close (p : Printer) (w : Disk) : Printer × Disk := ({ p with ofiles := [] }, w)

/-- printers/margo_printer.py:410-424 `__create_ofile`. -/
def Printer.createOfile (p : Printer) (w : Disk) (oname : Txt) : (Printer × Disk) × Py Bool :=
  match (do dirName (← charAt oname 0)) with
  | .error e => ((p, w), .error e)
  | .ok dir =>
    let path := Disk.join p.wd dir.toList
    let (w, ok) := if w.isdir path then (w, true) else w.makedirs path
    if ok then
      let path := Disk.join path oname
      let (w, ok) := w.openW path
      if ok then (({ p with ofiles := p.ofiles.set oname path }, w), .ok true) else ((p, w), .ok false)
    else ((p, w), .ok false)

/-- `self.__ofiles[ofile].write(text)`. printers/margo_printer.py:432-433, 437. -/
def Printer.writeTo (p : Printer) (w : Disk) (ofile : Txt) (text : Txt) : (Printer × Disk) × Py Unit :=
  match p.ofiles.get? ofile with
  | none => ((p, w), .error .keyError)
  | some path => ((p, w.write path text), .ok ())

/-- printers/margo_printer.py:426-438 `__append`; its result is not used by the caller. -/
def Printer.append (p : Printer) (w : Disk) (ofile line : Txt) : (Printer × Disk) × Py Unit :=
  if p.ofiles.mem ofile then p.writeTo w ofile line
  else
    match p.createOfile w ofile with
    | (s, .error e) => (s, .error e)
    | (s, .ok false) => (s, .ok ())
    | ((p, w), .ok true) =>
      match makeHeader p.ctrl ofile with
      | .error e => ((p, w), .error e)
      | .ok (h1, h2) =>
        match p.writeTo w ofile h1 with
        | (s, .error e) => (s, .error e)
        | ((p, w), .ok ()) =>
          match p.writeTo w ofile h2 with
          | (s, .error e) => (s, .error e)
          | ((p, w), .ok ()) => p.writeTo w ofile line

/-- The loop printers/margo_printer.py:448-455. -/
def Printer.printRows (p : Printer) (w : Disk) : PyDict Txt Row → (Printer × Disk) × Py Unit
  | [] => ((p, w), .ok ())
  | (f, row) :: rest =>
    match (do format (← charAt f 1)) with
    | .error e => ((p, w), .error e)
    | .ok (width, frc) =>
      match p.append w f (formatObsString row width frc) with
      | (s, .error e) => (s, .error e)
      | ((p, w), .ok ()) => Printer.printRows p w rest

/-- printers/margo_printer.py:440-470 `__print` and `__print_ObservablesMSM`. -/
def Printer.print (p : Printer) (w : Disk) (o : PyObj) : (Printer × Disk) × Py Unit :=
  match o with
  | .msm obs =>
    match printBuffer p.ctrl obs with
    | .error e => ((p, w), .error e)
    | .ok pbuf => p.printRows w pbuf
  | _ => ((p, w), .error .assertionError)

end Margo
end Verif
