import Verif.Model.Args
import Verif.Model.BaseDouble
import Verif.Model.EphDouble
import Verif.Model.MargoDouble
import Verif.Model.Sources

/-!
# Model of the whole program with rounded arithmetic

The functions of Model/Decoder.lean, Model/Converter.lean, Model/Run.lean, Model/Sources.lean and Model/Args.lean that reach arithmetic with floats, once more,
with a rounding `rnd` handed to the places where Python rounds: the sub-decoders (Model/MsmDouble.lean, Model/EphDouble.lean,
Model/BaseDouble.lean) and the MARGO printer (Model/MargoDouble.lean). The JSON printer does not compute. With `rnd = id` the program is that
of Model/Args.lean up to `math.floor` of a quotient of integers (Model/BaseDouble.lean).
-/

namespace Verif
namespace Decoder

/-- sub_decoders/RTCM_MSM.py:734-743 `SubdecoderMSM4567`: the attribute `io`. -/
def subMSM4567R (rnd : Rat → Rat) (bare : Bool) : Py SubDecoder := do
  let io ← SubDecoder.new "MSM47O" bare
  pure { io with
    decode := some (fun buf => pure ((Msm.decodeMsm17R rnd bare buf).map msmObj))
    actualMessages := io.ioSpec.keys
    details := Msm.msmDetails bare }

/-- sub_decoders/RTCM_MSM.py:746-756 `SubdecoderMSM123`: the attribute `io`. -/
def subMSM123R (rnd : Rat → Rat) (bare : Bool) : Py SubDecoder := do
  let io ← SubDecoder.new "MSM13O" bare
  pure { io with
    decode := some (fun buf => pure ((Msm.decodeMsm17R rnd bare buf).map msmObj))
    actualMessages := io.ioSpec.keys
    details := Msm.msmDetails bare }

/-- sub_decoders/RTCM_EPH.py:723-731 `SubdecoderEph.__init__`: the attribute `io`. -/
def subEphR (rnd : Rat → Rat) (bare : Bool) : Py SubDecoder := do
  let io ← SubDecoder.new "EPH" bare
  pure { io with decode := some (fun buf => pure ((Eph.subDecodeR rnd bare buf).map PyObj.eph)), actualMessages := Eph.msgList }

/-- sub_decoders/RTCM_BASE.py:432-440 `SubdecoderBaseStationData.__init__`: the attribute `io`. -/
def subBaseR (rnd : Rat → Rat) (bare : Bool) : Py SubDecoder := do
  let io ← SubDecoder.new "BASE" bare
  pure { io with
    decode := some (fun buf => do return (← Base.subDecodeR rnd bare buf).map baseObj)
    actualMessages := Base.msgList
    details := Base.baseDetails }

/-- The decoder part of the four strategies, converter_top.py:140-147, 167-181, 201-215, 235-249. -/
def strategyDecoderR (rnd : Rat → Rat) (mode : Mode) : Py (Option DecoderTop) :=
  match mode with
  | .margo => do
    let msm123 ← subMSM123R rnd false
    let msm4567 ← subMSM4567R rnd false
    pure (registerAll {} [msm4567, msm123])
  | .json | .jargo => do
    let msm123 ← subMSM123R rnd false
    let msm4567 ← subMSM4567R rnd false
    let eph ← subEphR rnd false
    let base ← subBaseR rnd false
    pure (registerAll {} [msm4567, msm123, eph, base])
  | .jsonB => do
    let msm123 ← subMSM123R rnd true
    let msm4567 ← subMSM4567R rnd true
    let eph ← subEphR rnd true
    let base ← subBaseR rnd true
    pure (registerAll {} [msm4567, msm123, eph, base])

end Decoder

namespace Conv
open Decoder

/-- `printer.print(dblock)`. printer_top.py:232. -/
def Impl.printR (rnd : Rat → Rat) (fr : Rat → Txt) (i : Impl) (w : Disk) (o : PyObj) : (Impl × Disk) × Py Unit :=
  match i with
  | .json p => let ((p, w), r) := p.print fr w o; ((.json p, w), r)
  | .margo p => let ((p, w), r) := p.printR rnd w o; ((.margo p, w), r)

/-- The loop printer_top.py:229-236: counters, printers, file system and exception. -/
def printLoopR (rnd : Rat → Rat) (fr : Rat → Txt) (o : PyObj) (a s : Nat) (w : Disk) :
    List SubPrinter → (Nat × Nat × List SubPrinter × Disk) × Py Unit
  | [] => ((a, s, [], w), .ok ())
  | p :: rest =>
    if p.handles o.cls then
      match p.impl.printR rnd fr w o with
      | ((i, w), .ok ()) => ((a + 1, s + 1, { p with impl := i } :: rest, w), .ok ())
      | ((i, w), .error e) => ((a + 1, s, { p with impl := i } :: rest, w), .error e)
    else
      let ((a, s, ps, w), r) := printLoopR rnd fr o a s w rest
      ((a, s, p :: ps, w), r)

/-- printer_top.py:224-236 `print`, with the decorator. -/
def PrinterTop.printR (rnd : Rat → Rat) (fr : Rat → Txt) (t : PrinterTop) (w : Disk) (o : PyObj) : (PrinterTop × Disk) × Py Unit :=
  let ((a, s, ps, w), r) := printLoopR rnd fr o t.attempts t.succeeded w t.printers
  (({ t with attempts := a, succeeded := s, printers := ps }, w), catchAsserts r)

/-- converter_top.py:136-260: the four strategies. -/
def strategyR (rnd : Rat → Rat) (mode : Mode) (w : Disk) (wfld : Txt) (controls : Box) : Py (Option Converter) := do
  match ← strategyDecoderR rnd mode with
  | none => pure none
  | some d =>
    match ← strategyPrinter mode w wfld controls with
    | none => pure none
    | some t => pure (some { decoder := d, printer := t })

/-- converter_top.py:280-292 `ConverterFactory(mode)(wfld, controls)`. -/
def factoryR (rnd : Rat → Rat) (format : String) (w : Disk) (wfld : Txt) (controls : Box) : Py (Option Converter) :=
  match modeOf format with
  | none => pure none
  | some mode => strategyR rnd mode w wfld controls

/-- converter_top.py:120-121 `print` -/
def Converter.printR (rnd : Rat → Rat) (fr : Rat → Txt) (c : Converter) (w : Disk) (o : PyObj) : (Converter × Disk) × Py Unit :=
  let ((t, w), r) := c.printer.printR rnd fr w o
  (({ c with printer := t }, w), r)

end Conv

namespace Run
open Conv Decoder

/-- The loop run_conversion.py:118-121. -/
def processMsgsR (rnd : Rat → Rat) (fr : Rat → Txt) (c : Converter) (w : Disk) : List Bytes → (Converter × Disk) × Py Unit
  | [] => ((c, w), .ok ())
  | msg :: rest =>
    match c.decode msg with
    | (c, none) => processMsgsR rnd fr c w rest
    | (c, some o) =>
      match c.printR rnd fr w o with
      | ((c, w), .error e) => ((c, w), .error e)
      | ((c, w), .ok ()) => processMsgsR rnd fr c w rest

/-- The loop run_conversion.py:112-134 with `FILE_CHUNCK_LEN = n`; `none` means that it never ends. -/
def readLoopR (rnd : Rat → Rat) (fr : Rat → Txt) (n : Nat) (c : Converter) (w : Disk) (rest : Bytes) : Option ((Converter × Disk) × Py Unit) :=
  if h : rest.take n = [] then some ((c, w), .ok ())
  else
    match (c.parseBytes (rest.take n)).run with
    | none => none
    | some (.error e) => some ((c, w), .error e)
    | some (.ok (c, ms)) =>
      match processMsgsR rnd fr c w ms with
      | ((c, w), .error e) => some ((c, w), .error e)
      | ((c, w), .ok ()) => readLoopR rnd fr n c w (rest.drop n)
termination_by rest.length
decreasing_by
  rw [List.length_drop]
  have h1 : n ≠ 0 := by intro h0; subst h0; simp at h
  have h2 : rest ≠ [] := by intro h0; subst h0; simp at h
  have := List.length_pos_iff.2 h2
  omega

/-- run_conversion.py:100-156 `decode_rtcm_file`; `content` is `none` if the source file cannot be opened. -/
def decodeRtcmFileR (rnd : Rat → Rat) (fr : Rat → Txt) (n : Nat) (content : Option Bytes) (c : Converter) (w : Disk) :
    Option ((Converter × Disk) × Bool) :=
  match content with
  | none => some (c.release w, false)
  | some bytes =>
    (readLoopR rnd fr n c w bytes).map (fun r =>
      (r.1.1.release r.1.2, match r.2 with
        | .ok () => true
        | .error _ => false))

/-- The body of the loop run_conversion.py:308-350 for one file: new file system, logger state, and verdict or exception. -/
def convertFileR (rnd : Rat → Rat) (fr : Rat → Txt) (src : Txt → Option Bytes) (format : String) (controls : Option Box) (w : Disk) (ready : Bool)
    (fpath : Txt) : Option ((Disk × Bool) × Py Verdict) :=
  match createWorkFolder w fpath format.toList with
  | (w, none) => some ((w, ready), .ok .noFolder)
  | (w, some wfld) =>
    match initLogger w ready (Disk.join wfld (makeLogFileName fpath)) with
    | (s, .error e) => some (s, .error e)
    | ((w, ready), .ok ()) =>
      match controls with
      | none => some ((w, deinit ready), .ok .noControls)
      | some box =>
        match factoryR rnd format w wfld box with
        | .error e => some ((w, ready), .error e)
        | .ok none => some ((w, deinit ready), .ok .noConverter)
        | .ok (some c) =>
          match decodeRtcmFileR rnd fr FILE_CHUNK_LEN (src fpath) c w with
          | none => none
          | some ((c, w), ok) =>
            some ((w, deinit ready), .ok (if ok then verdictOf c.statistics else .terminated))

/-- The loop run_conversion.py:308-350: verdicts of the files in order, or an exception that ends the program. -/
def mainLoopR (rnd : Rat → Rat) (fr : Rat → Txt) (src : Txt → Option Bytes) (format : String) (controls : Option Box) (w : Disk) (ready : Bool) :
    List Txt → Option ((Disk × Bool) × Py (List Verdict))
  | [] => some ((w, ready), .ok [])
  | f :: rest =>
    match convertFileR rnd fr src format controls w ready f with
    | none => none
    | some (s, .error e) => some (s, .error e)
    | some ((w, ready), .ok v) =>
      match mainLoopR rnd fr src format controls w ready rest with
      | none => none
      | some (s, .error e) => some (s, .error e)
      | some (s, .ok vs) => some (s, .ok (v :: vs))

/-- The loop run_conversion.py:308-350 with source files that can be deleted. -/
def liveLoopR (rnd : Rat → Rat) (fr : Rat → Txt) (src : Txt → Option Bytes) (format : String) (controls : Option Box) (w : Disk) (ready : Bool) :
    List Txt → Option ((Disk × Bool × (Txt → Option Bytes)) × Py (List Verdict))
  | [] => some ((w, ready, src), .ok [])
  | f :: rest =>
    let src := leftSources w src f format.toList
    match convertFileR rnd fr src format controls w ready f with
    | none => none
    | some ((w, ready), .error e) => some ((w, ready, src), .error e)
    | some ((w, ready), .ok v) =>
      match liveLoopR rnd fr src format controls w ready rest with
      | none => none
      | some (s, .error e) => some (s, .error e)
      | some (s, .ok vs) => some (s, .ok (v :: vs))

end Run

namespace Args
open Conv Run Ctl

/-- run_conversion.py:282-350 `main`. -/
def commandR (rnd : Rat → Rat) (fr : Rat → Txt) (sh : Shell) (src : Txt → Option Bytes) (ini : Txt → IniFile)
    (order1 order2 : List Txt → List Txt) (prompt : List Txt) (localArgs : Option Txt) (w : Disk) (ready : Bool) :
    Option ((Disk × Bool) × Ending) :=
  match ({} : Manager).initFromFile order1 (ini "defaults.ini".toList) with
  | (_, .error e) => some ((w, ready), .raised e)
  | (m, .ok ()) =>
    match parseArgs (argv prompt localArgs) with
    | .error x => some ((w, ready), .exited x.code)
    | .ok r =>
      match (match r.ini with
        | none => (m, (.ok () : Py Unit))
        | some p => m.updateFromFile order2 (ini p)) with
      | (_, .error e) => some ((w, ready), .raised e)
      | (m, .ok ()) =>
        match mainLoopR rnd fr src (String.ofList r.format) m.boxed w ready (makeListOfSourceFiles sh r.source r.ext) with
        | none => none
        | some (s, .error e) => some (s, .raised e)
        | some (s, .ok vs) => some (s, .finished vs)

end Args
end Verif
