import Verif.Model.Run

/-!
# Model of the records that a conversion sends to the logger

logger.py hands every record to the log file (level INFO and above) as one line `RTCMDEC:LEVEL: text`, provided that the logger is ready.
The functions below give the records in order; they accompany the functions of Model/Run.lean and Model/Decoder.lean and call them for the
state. The records about single observables and fields come from Model/Details.lean. Texts of exceptions are not modelled.
-/

namespace Verif
namespace Run
open Conv Decoder Text

/-- Severity levels in use; `progress` is the level that logger.py:31-32 defines. -/
inductive Level where
  | info | warning | error | progress
  deriving DecidableEq, Repr

/-- Kinds of records.
Calls of the logger in run_conversion.py:100-156, 324-350, decoder_top.py:145-148, 216,
utilities/bits.py:33-34, sub_decoders/RTCM_MSM.py:683-726, sub_decoders/RTCM_EPH.py:739-763,
sub_decoders/RTCM_BASE.py:448-470, printers/margo_printer.py:422-423, printer_top.py:131-132,
236. -/
inductive Record where
  /-- run_conversion.py:108 -/
  | opened (path : Txt)
  /-- run_conversion.py:124-132 -/
  | progress (done size : Nat) (st : Stats)
  /-- run_conversion.py:140, 144 -/
  | gotException
  /-- run_conversion.py:141, 145 -/
  | exceptionText
  /-- run_conversion.py:151 -/
  | closing (path : Txt)
  /-- run_conversion.py:154 -/
  | notOpened (path : Txt)
  /-- decoder_top.py:216 -/
  | noDecoder (num : Option Nat)
  /-- Records about single observables and fields, Model/Details.lean -/
  | detail (d : Msm.Detail)
  /-- sub_decoders/RTCM_MSM.py:704-706, 722-724, sub_decoders/RTCM_BASE.py:450, sub_decoders/RTCM_EPH.py:742 -/
  | succeeded (num : Option Nat) (o : PyObj)
  /-- sub_decoders/RTCM_MSM.py:686-696, 715-719, 726, sub_decoders/RTCM_BASE.py:453-468, sub_decoders/RTCM_EPH.py:745-761 -/
  | failed (num : Option Nat)
  /-- decoder_top.py:146, 210-212 -/
  | wrongResult (subset : String) (num : Option Nat)
  /-- decoder_top.py:148 -/
  | raised
  /-- printer_top.py:132 -/
  | printFailed
  /-- printer_top.py:236 -/
  | noPrinter (cls : Cls)
  /-- printers/margo_printer.py:422 -/
  | notCreated (path : Txt)
  /-- printers/margo_printer.py:423 -/
  | notCreatedText
  /-- run_conversion.py:325 -/
  | noControls
  /-- run_conversion.py:333 -/
  | noConverter
  /-- run_conversion.py:344 -/
  | finishedWithErrors
  /-- run_conversion.py:346 -/
  | finishedWithoutErrors
  /-- run_conversion.py:348 -/
  | terminated
  deriving DecidableEq

/-- The method of the logger that is called: sub_decoders/RTCM_MSM.py:490, 499, 526, 538, 551, 632, 640, sub_decoders/RTCM_BASE.py:316, 327,
338, 349. -/
def detailLevel : Msm.Detail → Level
  | .noCoarseRange .. | .noCoarseDoppler .. | .biasUndefined .. => .warning
  | .noFineRange .. | .noFinePhase .. | .noFineDoppler .. => .info

/-- Text of a record about an observable or a field, sub_decoders/RTCM_MSM.py:490-553, 632-642, sub_decoders/RTCM_BASE.py:316-351. The
signal names are shown by `repr`, which puts them between apostrophes. -/
def detailText : Msm.Detail → Txt
  | .noCoarseRange g sat i => "No coarse range:gnss=".toList ++ g.toList ++ ",(sat=".toList ++ natRepr sat ++ ",sgn_idx=".toList ++ natRepr i ++ [')']
  | .noCoarseDoppler g sat i => "No coarse doppler:gnss=".toList ++ g.toList ++ ",(sat=".toList ++ natRepr sat ++ ",sgn_idx=".toList ++ natRepr i ++ [')']
  | .noFineRange g sat s => "No fine range:gnss=".toList ++ g.toList ++ ",(sat=".toList ++ natRepr sat ++ ",sgn='".toList ++ s.toList ++ "')".toList
  | .noFinePhase g sat s => "No fine phase:gnss=".toList ++ g.toList ++ ",(sat=".toList ++ natRepr sat ++ ",sgn='".toList ++ s.toList ++ "')".toList
  | .noFineDoppler g sat s => "No fine doppler:gnss=".toList ++ g.toList ++ ",(sat=".toList ++ natRepr sat ++ ",sgn='".toList ++ s.toList ++ "')".toList
  | .biasUndefined n field => "Msg ".toList ++ natRepr n ++ ". Field ".toList ++ field.toList ++ " marked as undefined (0x8000)".toList

/-- The method of the logger that is called. logger.py:67-95. -/
def Record.level : Record → Level
  | .opened _ | .closing _ | .notOpened _ | .noDecoder _ | .succeeded _ _ => .info
  | .progress .. | .finishedWithErrors | .finishedWithoutErrors => .progress
  | .wrongResult .. | .noPrinter _ => .warning
  | .detail d => detailLevel d
  | .gotException | .exceptionText | .failed _ | .raised | .printFailed | .notCreated _ | .notCreatedText | .noControls | .noConverter
  | .terminated => .error

/-- `"{0:2.2%}".format(float(done) / float(size))`: the quotient times 100, both in floating point arithmetic.
run_conversion.py:125-126. -/
def percentText (rnd : Rat → Rat) (done size : Nat) : Txt :=
  rjust 2 (fixedRepr 2 (rnd (rnd (rnd done / rnd size) * 100)) ++ ['%'])

/-- Text of a progress record, run_conversion.py:125-131. -/
def progressText (rnd : Rat → Rat) (done size : Nat) (st : Stats) : Txt :=
  percentText rnd done size ++ ", ".toList ++ natRepr st.decoding_attempts ++ " messages, prs-dec-prnt errors ".toList ++
    natRepr st.parsing_errors ++ ['-'] ++ intRepr st.decoding_errors ++ ['-'] ++ intRepr st.printing_errors ++ ['.']

/-- Text of a message number; `None` for messages that are too short.
sub_decoders/RTCM_MSM.py:686-723, sub_decoders/RTCM_EPH.py:742,
sub_decoders/RTCM_BASE.py:451. -/
def numText (num : Option Nat) : Txt := (num.map natRepr).getD "None".toList

/-- Text of the record of a decoded message.
sub_decoders/RTCM_MSM.py:704-706, 722-724, sub_decoders/RTCM_EPH.py:742,
sub_decoders/RTCM_BASE.py:451. -/
def succeededText (num : Option Nat) : PyObj → Txt
  | .msmBare b => "Msg ".toList ++ numText num ++ ". Decoding succeeded. t = ".toList ++ natRepr b.time ++ ", sats = ".toList ++
      natRepr ((List.range 64).countP b.hdr.sat_mask.testBit) ++ ['.']
  | .msm o => "Msg ".toList ++ numText num ++ ". Decoding succeeded. t = ".toList ++ natRepr o.hdr.time ++ ", sats = ".toList ++
      natRepr o.hdr.sats.length ++ ['.']
  | .eph _ => "Msg ".toList ++ numText num ++ ". Decoding succeeded.".toList
  | .baseBare _ | .baseScaled _ => "Msg ".toList ++ numText num ++ ". Decoding succeeded".toList

/-- The text of a record, if it does not contain a text of Python.
run_conversion.py:108, 124-132, 137, 151, 325, 333, 344-348, decoder_top.py:210-216,
printer_top.py:236. -/
def Record.text (rnd : Rat → Rat) : Record → Option Txt
  | .opened p => some ("Opened file ".toList ++ p ++ ['.'])
  | .progress done size st => some (progressText rnd done size st)
  | .closing p => some ("Closing file ".toList ++ p ++ ['.'])
  | .notOpened p => some ("Source file ".toList ++ p ++ " wasn't opened.".toList)
  | .noDecoder num => some ("Decoder not found, message ".toList ++ numText num)
  | .succeeded num o => some (succeededText num o)
  | .detail d => some (detailText d)
  | .wrongResult subset num => some ("Decoder ".toList ++ subset.toList ++ " returned unexpected result for msg ".toList ++ numText num)
  | .notCreated p => some ("Failed to create target file '".toList ++ p ++ "'.".toList)
  | .noControls => some "Conversion aborted. No valid controls.".toList
  | .noConverter => some "Conversion aborted. Converter hasn't been created.".toList
  | .finishedWithErrors => some "Finished with errors.".toList
  | .finishedWithoutErrors => some "Finished without errors.".toList
  | .terminated => some "Decoding was terminated.".toList
  | .gotException | .exceptionText | .failed _ | .raised | .printFailed | .noPrinter _ | .notCreatedText => none

/-- Records of a sub-decoder: it reports success if and only if it returns an object; an exception that leaves it is not reported here.
sub_decoders/RTCM_MSM.py:683-726, sub_decoders/RTCM_EPH.py:739-763,
sub_decoders/RTCM_BASE.py:448-470. -/
def subLog (num : Option Nat) : Py (Option PyObj) → List Record
  | .ok (some o) => [.succeeded num o]
  | .ok none => [.failed num]
  | .error _ => []

/-- Records of the loop decoder_top.py:204-216 and of the decorator, decoder_top.py:138-152. -/
def decodeLoopLog (num : Option Nat) (msg : Bytes) : List SubDecoder → List Record
  | [] => [.noDecoder num]
  | dec :: rest =>
    match num.bind (fun n => if dec.actualMessages.contains n then dec.ioSpec.get? n else none) with
    | none => decodeLoopLog num msg rest
    | some cls =>
      (dec.details msg).map .detail ++ subLog num (dec.run msg) ++
        (match dec.run msg with
        | .error _ => [.raised]
        | .ok none => [.wrongResult dec.subset num]
        | .ok (some rv) => if isInstance rv cls then [] else [.wrongResult dec.subset num])

/-- Records of `decode`, decoder_top.py:192-218. -/
def decodeLog (d : DecoderTop) (msg : Bytes) : List Record := decodeLoopLog (Framer.mnum msg) msg (d.decoders.map (·.2))

/-- Records of `__create_ofile`, printers/margo_printer.py:410-424. -/
def createLog (p : Margo.Printer) (w : Disk) (oname : Txt) : List Record :=
  match (do Margo.dirName (← Margo.charAt oname 0)) with
  | .error _ => []
  | .ok dir =>
    let path := Disk.join p.wd dir.toList
    let (w, ok) := if w.isdir path then (w, true) else w.makedirs path
    if ok then
      let path := Disk.join path oname
      if (w.openW path).2 then [] else [.notCreated path, .notCreatedText]
    else [.notCreated path, .notCreatedText]

/-- Records of the loop printers/margo_printer.py:448-455 and of `__append`, lines 426-438. -/
def rowsLog (p : Margo.Printer) (w : Disk) : PyDict Txt Margo.Row → List Record
  | [] => []
  | (f, row) :: rest =>
    match (do Margo.format (← Margo.charAt f 1)) with
    | .error _ => []
    | .ok (width, frc) =>
      (if p.ofiles.mem f then [] else createLog p w f) ++
        (match p.append w f (Margo.formatObsString row width frc) with
        | (_, .error _) => []
        | ((p, w), .ok ()) => rowsLog p w rest)

/-- Records of the method `print` of a sub-printer. printers/margo_printer.py:421-424. -/
def implLog (w : Disk) (o : PyObj) : Impl → List Record
  | .json _ => []
  | .margo p =>
    match o with
    | .msm obs =>
      match Margo.printBuffer p.ctrl obs with
      | .error _ => []
      | .ok pbuf => rowsLog p w pbuf
    | _ => []

/-- Records of `print`, printer_top.py:224-236 with the decorator of lines 125-134: the first printer that handles the object is called. -/
def printLog (fr : Rat → Txt) (t : PrinterTop) (w : Disk) (o : PyObj) : List Record :=
  match t.printers.find? (fun p => p.handles o.cls) with
  | none => [.noPrinter o.cls]
  | some p =>
    implLog w o p.impl ++
    (match (p.impl.print fr w o).2 with
    | .error .assertionError => [.printFailed]
    | _ => [])

/-- Records of the loop run_conversion.py:118-121. -/
def processLog (fr : Rat → Txt) (c : Converter) (w : Disk) : List Bytes → List Record
  | [] => []
  | msg :: rest =>
    decodeLog c.decoder msg ++
    (match c.decode msg with
    | (c, none) => processLog fr c w rest
    | (c, some o) =>
      printLog fr c.printer w o ++
      (match c.print fr w o with
      | (_, .error _) => []
      | ((c, w), .ok ()) => processLog fr c w rest))

/-- Records of the loop run_conversion.py:112-134; `done` is `bytes_processed`, `size` is `file_size`. -/
def readLog (fr : Rat → Txt) (n size done : Nat) (c : Converter) (w : Disk) (rest : Bytes) : List Record :=
  if h : rest.take n = [] then []
  else
    match (c.parseBytes (rest.take n)).run with
    | some (.ok (c, ms)) =>
      processLog fr c w ms ++
      (match processMsgs fr c w ms with
      | (_, .error _) => []
      | ((c, w), .ok ()) =>
        .progress (done + (rest.take n).length) size c.statistics :: readLog fr n size (done + (rest.take n).length) c w (rest.drop n))
    | _ => []
termination_by rest.length
decreasing_by
  rw [List.length_drop]
  have h1 : n ≠ 0 := by intro h0; subst h0; simp at h
  have h2 : rest ≠ [] := by intro h0; subst h0; simp at h
  have := List.length_pos_iff.2 h2
  omega

/-- Records of `decode_rtcm_file`, run_conversion.py:100-156. -/
def decodeRtcmFileLog (fr : Rat → Txt) (n : Nat) (path : Txt) (content : Option Bytes) (c : Converter) (w : Disk) : List Record :=
  match content with
  | none => [.gotException, .exceptionText, .notOpened path]
  | some bytes =>
    .opened path :: readLog fr n bytes.length 0 c w bytes ++
    (match readLoop fr n c w bytes with
    | some (_, .error _) => [.gotException, .exceptionText]
    | _ => []) ++ [.closing path]

/-- The record of a verdict, run_conversion.py:338-348. -/
def verdictRecord : Verdict → Record
  | .finishedWithoutErrors => .finishedWithoutErrors
  | .finishedWithErrors => .finishedWithErrors
  | _ => .terminated

/-- The records about one file, run_conversion.py:308-350; without log file there are none. -/
def convertFileLog (fr : Rat → Txt) (src : Txt → Option Bytes) (format : String) (controls : Option Box) (w : Disk) (ready : Bool)
    (fpath : Txt) : List Record :=
  match createWorkFolder w fpath format.toList with
  | (_, none) => []
  | (w, some wfld) =>
    match initLogger w ready (Disk.join wfld (makeLogFileName fpath)) with
    | ((w, true), .ok ()) =>
      (match controls with
      | none => [.noControls]
      | some box =>
        match factory format w wfld box with
        | .error _ => []
        | .ok none => [.noConverter]
        | .ok (some c) =>
          match decodeRtcmFile fr FILE_CHUNK_LEN (src fpath) c w with
          | none => decodeRtcmFileLog fr FILE_CHUNK_LEN fpath (src fpath) c w
          | some ((c', _), ok) =>
            decodeRtcmFileLog fr FILE_CHUNK_LEN fpath (src fpath) c w ++
              [verdictRecord (if ok then verdictOf c'.statistics else .terminated)])
    | _ => []

end Run
end Verif
