import Verif.Model.Decoder
import Verif.Model.JsonPrinter
import Verif.Model.MargoPrinter

/-!
# Model of printer_top.py and of converter_top.py

Log output is not modelled.
-/

namespace Verif
namespace Conv
open Decoder

/-! ## printer_top.py -/

/-- printer_top.py:23-33 `_MARGO_SPECS` -/
def margoSpecs : PyDict String (List Cls) :=
  [("LEGO", []), ("MSM13O", [.observablesMSM]), ("MSM47O", [.observablesMSM]), ("EPH", []), ("BASE", [])]

/-- printer_top.py:39, 56 -/
def ephClasses : List Cls := [.ephGPS, .ephGLO, .ephBDS, .ephGALF, .ephGALI, .ephNAVIC, .ephQZS]

/-- printer_top.py:40-49, 57-66 -/
def baseClasses : List Cls := [.baseRP, .baseRPH, .baseAD, .baseADSN, .baseADSNRC, .baseSP, .baseTS, .baseGLBS]

/-- printer_top.py:35-50 `_JSON_SPECS` -/
def jsonSpecs : PyDict String (List Cls) :=
  [("LEGO", []), ("MSM13O", [.bareMSM123, .observablesMSM]), ("MSM47O", [.bareMSM4567, .observablesMSM]), ("EPH", ephClasses),
   ("BASE", baseClasses)]

/-- printer_top.py:52-67 `_JARGO_SPECS` -/
def jargoSpecs : PyDict String (List Cls) :=
  [("LEGO", []), ("MSM13O", []), ("MSM47O", []), ("EPH", ephClasses), ("BASE", baseClasses)]

/-- printer_top.py:70-74 `_SPECS_LIST` -/
def specsList : PyDict String (PyDict String (List Cls)) := [("MARGO", margoSpecs), ("JSON", jsonSpecs), ("JARGO", jargoSpecs)]

/-- printer_top.py:98-112 `make_specs`; a set is a list here. -/
def makeSpecs (oformat : String) : Py (List Cls) :=
  match specsList.get? oformat with
  | none => .error .assertionError
  | some specs => .ok (specs.flatMap (·.2))

/-- The object behind the methods `print` and `close` of a sub-printer.
printers/json_printer.py:104-132, printers/margo_printer.py:380-400. -/
inductive Impl where
  | json (p : Json.Printer)
  | margo (p : Margo.Printer)

/-- A `SubPrinterInterface` object together with the object that implements it. `print` and `close` are always set by the two
printers of the program. printer_top.py:77-96. -/
structure SubPrinter where
  dataSpec : List Cls
  actualSpec : List Cls
  impl : Impl

/-- printers/json_printer.py:107-132 `PrintJSON.__init__`: the attribute `io`. -/
def newJson (w : Disk) (wd : Txt) (ctrls : Json.Controls) (mode : String) : Py SubPrinter :=
  if !w.isdir wd then .error .assertionError
  else do
    let spec ← makeSpecs mode
    pure { dataSpec := spec, actualSpec := Json.JSON_SPEC.flatMap (·.2.classes), impl := .json { ctrls := ctrls, wd := wd } }

/-- printers/margo_printer.py:383-400 `PrintMARGO.__init__`: the attribute `io`. -/
def newMargo (w : Disk) (wd : Txt) (ctrl : Margo.Controls) (mode : String) : Py SubPrinter :=
  if !w.isdir wd then .error .assertionError
  else do
    let spec ← makeSpecs mode
    pure { dataSpec := spec, actualSpec := [.observablesMSM], impl := .margo { ctrl := ctrl, wd := wd } }

/-- `printer.print(dblock)`. printer_top.py:232. -/
def Impl.print (fr : Rat → Txt) (i : Impl) (w : Disk) (o : PyObj) : (Impl × Disk) × Py Unit :=
  match i with
  | .json p => let ((p, w), r) := p.print fr w o; ((.json p, w), r)
  | .margo p => let ((p, w), r) := p.print w o; ((.margo p, w), r)

/-- `p.close()`. printer_top.py:242. -/
def Impl.close (i : Impl) (w : Disk) : Impl × Disk :=
  match i with
  | .json p => let (p, w) := p.close w; (.json p, w)
  | .margo p => let (p, w) := p.close w; (.margo p, w)

/-- `(tp in printer.data_spec) and (tp in printer.actual_spec)`. printer_top.py:230. -/
def SubPrinter.handles (s : SubPrinter) (c : Cls) : Bool := s.dataSpec.contains c && s.actualSpec.contains c

/-- Attributes of a `PrinterTop` object, printer_top.py:140-145. The set `printers` is a list in the order of its iteration. -/
structure PrinterTop where
  format : String := "UNDEF"
  printers : List SubPrinter := []
  attempts : Nat := 0
  succeeded : Nat := 0

/-- printer_top.py:152-160, the setter of `format`. -/
def PrinterTop.setFormat (t : PrinterTop) (f : String) : PrinterTop :=
  if specsList.mem f then { t with format := f } else { t with format := "" }

/-- printer_top.py:187-222 `add_subprinter`; the position of the new element in the iteration order is not specified by Python,
here it is the last. -/
def PrinterTop.add (t : PrinterTop) (io : SubPrinter) : PrinterTop × Bool :=
  if t.format = "" ∨ t.format = "UNDEF" then (t, false)
  else if io.actualSpec.length = 0 then (t, false)
  else ({ t with printers := t.printers ++ [io] }, true)

/-- printer_top.py:182-185 `errors` -/
def PrinterTop.errors (t : PrinterTop) : Int := (t.attempts : Int) - t.succeeded

/-- The loop printer_top.py:229-236: counters, printers, file system and exception. -/
def printLoop (fr : Rat → Txt) (o : PyObj) (a s : Nat) (w : Disk) :
    List SubPrinter → (Nat × Nat × List SubPrinter × Disk) × Py Unit
  | [] => ((a, s, [], w), .ok ())
  | p :: rest =>
    if p.handles o.cls then
      match p.impl.print fr w o with
      | ((i, w), .ok ()) => ((a + 1, s + 1, { p with impl := i } :: rest, w), .ok ())
      | ((i, w), .error e) => ((a + 1, s, { p with impl := i } :: rest, w), .error e)
    else
      let ((a, s, ps, w), r) := printLoop fr o a s w rest
      ((a, s, p :: ps, w), r)

/-- printer_top.py:125-134 `catch_printer_asserts`: only `AssertionError` is caught. -/
def catchAsserts (r : Py Unit) : Py Unit :=
  match r with
  | .error .assertionError => .ok ()
  | r => r

/-- printer_top.py:224-236 `print`, with the decorator. -/
def PrinterTop.print (fr : Rat → Txt) (t : PrinterTop) (w : Disk) (o : PyObj) : (PrinterTop × Disk) × Py Unit :=
  let ((a, s, ps, w), r) := printLoop fr o t.attempts t.succeeded w t.printers
  (({ t with attempts := a, succeeded := s, printers := ps }, w), catchAsserts r)

/-- printer_top.py:238-242 `close` -/
def closeLoop (w : Disk) : List SubPrinter → List SubPrinter × Disk
  | [] => ([], w)
  | p :: rest =>
    let (i, w) := p.impl.close w
    let (ps, w) := closeLoop w rest
    ({ p with impl := i } :: ps, w)

/-- printer_top.py:238-242 `close` -/
def PrinterTop.close (t : PrinterTop) (w : Disk) : PrinterTop × Disk :=
  let (ps, w) := closeLoop w t.printers
  ({ t with printers := ps }, w)

/-! ## converter_top.py -/

/-- converter_top.py:72-80 `ConverterStatistics` -/
structure Stats where
  decoding_attempts : Nat
  parsing_errors : Nat
  decoding_errors : Int
  printing_attempts : Nat
  printing_errors : Int
  deriving DecidableEq, Repr

/-- Attributes of a `Converter` object, converter_top.py:110-112. -/
structure Converter where
  decoder : DecoderTop := {}
  printer : PrinterTop := {}

/-- controls.py:15-30 `BoxWithConverterControls` -/
structure Box where
  margo : Margo.Controls
  json : Json.Controls
  deriving DecidableEq, Repr

/-- The printer part of the strategies: constructed sub-printers are added in order; `None` if one is refused.
converter_top.py:150-155, 184-189, 218-223, 252-260. -/
def addAll (t : PrinterTop) : List SubPrinter → Option PrinterTop
  | [] => some t
  | io :: rest =>
    let (t, ok) := t.add io
    if ok then addAll t rest else none

/-- converter_top.py:149-153, 183-187, 217-221, 251-258. -/
def strategyPrinter (mode : Mode) (w : Disk) (wfld : Txt) (controls : Box) : Py (Option PrinterTop) :=
  match mode with
  | .margo => do
    let m ← newMargo w wfld controls.margo "MARGO"
    pure (addAll (({} : PrinterTop).setFormat "MARGO") [m])
  | .json | .jsonB => do
    let j ← newJson w wfld controls.json "JSON"
    pure (addAll (({} : PrinterTop).setFormat "JSON") [j])
  | .jargo => do
    let j ← newJson w wfld controls.json "JARGO"
    match addAll (({} : PrinterTop).setFormat "JARGO") [j] with
    | none => pure none
    | some t =>
      let m ← newMargo w wfld controls.margo "MARGO"
      pure (addAll t [m])

/-- converter_top.py:136-260: the four strategies. -/
def strategy (mode : Mode) (w : Disk) (wfld : Txt) (controls : Box) : Py (Option Converter) := do
  match ← strategyDecoder mode with
  | none => pure none
  | some d =>
    match ← strategyPrinter mode w wfld controls with
    | none => pure none
    | some t => pure (some { decoder := d, printer := t })

/-- converter_top.py:273-292 `ConverterFactory`: the mode of a format name. -/
def modeOf (format : String) : Option Mode :=
  PyDict.get? [("MARGO", .margo), ("JSON", .json), ("JSON-B", .jsonB), ("JARGO", .jargo)] format

/-- converter_top.py:280-292 `ConverterFactory(mode)(wfld, controls)`. -/
def factory (format : String) (w : Disk) (wfld : Txt) (controls : Box) : Py (Option Converter) :=
  match modeOf format with
  | none => pure none
  | some mode => strategy mode w wfld controls

/-- converter_top.py:114-115 `parse_bytes` -/
def Converter.parseBytes (c : Converter) (buf : Bytes) : PyD (Converter × List Bytes) := do
  let (d, ms) ← c.decoder.catchMessage buf
  pure ({ c with decoder := d }, ms)

/-- converter_top.py:117-118 `decode` -/
def Converter.decode (c : Converter) (msg : Bytes) : Converter × Option PyObj :=
  let (d, o) := c.decoder.decode msg
  ({ c with decoder := d }, o)

/-- converter_top.py:120-121 `print` -/
def Converter.print (fr : Rat → Txt) (c : Converter) (w : Disk) (o : PyObj) : (Converter × Disk) × Py Unit :=
  let ((t, w), r) := c.printer.print fr w o
  (({ c with printer := t }, w), r)

/-- converter_top.py:123-124 `release` -/
def Converter.release (c : Converter) (w : Disk) : Converter × Disk :=
  let (t, w) := c.printer.close w
  ({ c with printer := t }, w)

/-- converter_top.py:126-133 `get_statistics` -/
def Converter.statistics (c : Converter) : Stats :=
  { decoding_attempts := c.decoder.attempts, decoding_errors := c.decoder.decErrors, parsing_errors := c.decoder.parser.parsErrCnt,
    printing_attempts := c.printer.attempts, printing_errors := c.printer.errors }

end Conv
end Verif
