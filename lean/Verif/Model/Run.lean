import Verif.Model.Converter

/-!
# Model of run_conversion.py and of logger.py

Source files are given by a function that is not changed by the run; Model/Sources.lean has the loop with source files that can be
deleted. The texts that are appended to the log file are in Model/Log.lean, the command line in Model/Args.lean. Console output is not
modelled. `KeyboardInterrupt` and errors while reading an open source file are not modelled (both end in `return False`
of `decode_rtcm_file` like other exceptions).
-/

namespace Verif
namespace Run
open Conv Decoder

/-! ## Paths -/

/-- Part of a path up to and including the last `/`, and the rest.
Used for run_conversion.py:38, 66-67. -/
def splitSlash (p : Txt) : Txt × Txt :=
  let base := (p.reverse.takeWhile (· ≠ '/')).reverse
  (p.take (p.length - base.length), base)

/-- `os.path.splitext(p)` (POSIX): the extension starts at the last dot of the last component; leading dots of the component do not
count. run_conversion.py:38, 67. -/
def splitext (p : Txt) : Txt × Txt :=
  let base := (splitSlash p).2
  let ext := (base.reverse.takeWhile (· ≠ '.')).reverse
  if ext.length < base.length ∧ (base.take (base.length - ext.length - 1)).any (· ≠ '.') then
    (p.take (p.length - ext.length - 1), p.drop (p.length - ext.length - 1))
  else (p, [])

/-- The second component of `os.path.split(p)`. run_conversion.py:66. -/
def baseName (p : Txt) : Txt := (splitSlash p).2

/-! ## One file -/

/-- run_conversion.py:38-39: path of the work folder. -/
def workFolder (src pfx : Txt) : Txt := (splitext src).1 ++ ['-'] ++ pfx

/-- run_conversion.py:32-57 `create_work_folder`. -/
def createWorkFolder (w : Disk) (src pfx : Txt) : Disk × Option Txt :=
  let fld := workFolder src pfx
  let (w, ok) := if w.isdir fld then w.rmtree fld else (w, true)
  if ok then
    let (w, ok) := w.makedirs fld
    if ok then (w, some fld) else (w, none)
  else (w, none)

/-- run_conversion.py:63-69 `make_log_file_name`. -/
def makeLogFileName (src : Txt) : Txt := (splitext (baseName src)).1 ++ "-log.txt".toList

/-- run_conversion.py:88-90: the first two lines of a log file. -/
def logHead : Txt := "New log file was created.".toList ++ ['\n'] ++ List.replicate 25 '-' ++ ['\n']

/-- logger.py:23-56 `init_2CH`: the attribute `ready`; opening the log file may fail. -/
def init2CH (w : Disk) (ready : Bool) : (Disk × Bool) × Py Unit :=
  if ready then ((w, ready), .error .assertionError)
  else if w.fault w.calls then (({ w with calls := w.calls + 1 }, ready), .error .osError)
  else (({ w with calls := w.calls + 1 }, true), .ok ())

/-- logger.py:58-65 `deinit`; `self.logger` is not `None` whenever `ready` is set. -/
def deinit (_ready : Bool) : Bool := false

/-- run_conversion.py:75-94 `init_logger`. -/
def initLogger (w : Disk) (ready : Bool) (path : Txt) : (Disk × Bool) × Py Unit :=
  match w.openW path with
  | (w, false) => ((w, ready), .ok ())
  | (w, true) => init2CH (w.write path logHead) ready

/-- The loop run_conversion.py:118-121. -/
def processMsgs (fr : Rat → Txt) (c : Converter) (w : Disk) : List Bytes → (Converter × Disk) × Py Unit
  | [] => ((c, w), .ok ())
  | msg :: rest =>
    match c.decode msg with
    | (c, none) => processMsgs fr c w rest
    | (c, some o) =>
      match c.print fr w o with
      | ((c, w), .error e) => ((c, w), .error e)
      | ((c, w), .ok ()) => processMsgs fr c w rest

/-- The loop run_conversion.py:112-134 with `FILE_CHUNCK_LEN = n`; `none` means that it never ends. If `parse_bytes` raised, the
changes it had made to the parser are not modelled. -/
def readLoop (fr : Rat → Txt) (n : Nat) (c : Converter) (w : Disk) (rest : Bytes) : Option ((Converter × Disk) × Py Unit) :=
  if h : rest.take n = [] then some ((c, w), .ok ())
  else
    match (c.parseBytes (rest.take n)).run with
    | none => none
    | some (.error e) => some ((c, w), .error e)
    | some (.ok (c, ms)) =>
      match processMsgs fr c w ms with
      | ((c, w), .error e) => some ((c, w), .error e)
      | ((c, w), .ok ()) => readLoop fr n c w (rest.drop n)
termination_by rest.length
decreasing_by
  rw [List.length_drop]
  have h1 : n ≠ 0 := by intro h0; subst h0; simp at h
  have h2 : rest ≠ [] := by intro h0; subst h0; simp at h
  have := List.length_pos_iff.2 h2
  omega

/-- run_conversion.py:100-156 `decode_rtcm_file`; `content` is `none` if the source file cannot be opened. -/
def decodeRtcmFile (fr : Rat → Txt) (n : Nat) (content : Option Bytes) (c : Converter) (w : Disk) :
    Option ((Converter × Disk) × Bool) :=
  match content with
  | none => some (c.release w, false)
  | some bytes =>
    (readLoop fr n c w bytes).map (fun r =>
      (r.1.1.release r.1.2, match r.2 with
        | .ok () => true
        | .error _ => false))

/-- What `main` reports about a file, run_conversion.py:316-348. -/
inductive Verdict where
  | noFolder | noControls | noConverter | finishedWithoutErrors | finishedWithErrors | terminated
  deriving DecidableEq, Repr

/-- run_conversion.py:339-346 -/
def verdictOf (err : Stats) : Verdict :=
  if err.printing_errors ≠ 0 ∨ err.decoding_errors ≠ 0 ∨ err.printing_errors ≠ 0 then .finishedWithErrors else .finishedWithoutErrors

/-- `FILE_CHUNCK_LEN`, run_conversion.py:24. -/
def FILE_CHUNK_LEN : Nat := 4096

/-- The body of the loop run_conversion.py:308-350 for one file: new file system, logger state, and verdict or exception. -/
def convertFile (fr : Rat → Txt) (src : Txt → Option Bytes) (format : String) (controls : Option Box) (w : Disk) (ready : Bool)
    (fpath : Txt) : Option ((Disk × Bool) × Py Verdict) :=
  match createWorkFolder w fpath format.toList with
  | (w, none) => some ((w, ready), .ok .noFolder)
  | (w, some wfld) =>
    match initLogger w ready (Disk.join wfld (makeLogFileName fpath)) with
    | (s, .error e) => some (s, .error e)
    | ((w, ready), .ok ()) =>
      match controls with
      | none => some ((w, deinit ready), .ok .noControls)
      | some box =>
        match factory format w wfld box with
        | .error e => some ((w, ready), .error e)
        | .ok none => some ((w, deinit ready), .ok .noConverter)
        | .ok (some c) =>
          match decodeRtcmFile fr FILE_CHUNK_LEN (src fpath) c w with
          | none => none
          | some ((c, w), ok) =>
            some ((w, deinit ready), .ok (if ok then verdictOf c.statistics else .terminated))

/-- The loop run_conversion.py:308-350: verdicts of the files in order, or an exception that ends the program. -/
def mainLoop (fr : Rat → Txt) (src : Txt → Option Bytes) (format : String) (controls : Option Box) (w : Disk) (ready : Bool) :
    List Txt → Option ((Disk × Bool) × Py (List Verdict))
  | [] => some ((w, ready), .ok [])
  | f :: rest =>
    match convertFile fr src format controls w ready f with
    | none => none
    | some (s, .error e) => some (s, .error e)
    | some ((w, ready), .ok v) =>
      match mainLoop fr src format controls w ready rest with
      | none => none
      | some (s, .error e) => some (s, .error e)
      | some (s, .ok vs) => some (s, .ok (v :: vs))

/-! ## Selection of source files -/

/-- What `make_list_of_source_files` asks of the operating system and of the user.
run_conversion.py:239-258, 266. -/
structure Shell where
  abspath : Txt → Txt
  isfile : Txt → Bool
  isdir : Txt → Bool
  /-- `glob.glob(os.path.join(dir, "*." + ext))` -/
  glob : Txt → Txt → List Txt
  /-- the line typed by the user -/
  input : Txt

/-- `line.split(sep)` with one separator character. run_conversion.py:266-268, 296. -/
def splitOn (sep : Char) (line : Txt) : List Txt :=
  line.foldr (fun c acc => if c = sep then [] :: acc else match acc with
    | [] => [[c]]
    | t :: ts => (c :: t) :: ts) [[]]

/-- White space that `int` strips, ASCII only. Used for `int(i)`, run_conversion.py:270. -/
def isSpace (c : Char) : Bool := c = ' ' ∨ (9 ≤ c.toNat ∧ c.toNat ≤ 13) ∨ (28 ≤ c.toNat ∧ c.toNat ≤ 31)

/-- `str.strip()`. Used for `int(i)`, run_conversion.py:270. -/
def strip (t : Txt) : Txt := ((t.dropWhile isSpace).reverse.dropWhile isSpace).reverse

/-- Digits with single underscores between them; `some` gives the number.
Used for `int(i)`, run_conversion.py:270. -/
def digitsVal : Txt → Option Nat
  | t => if t.isEmpty then none else go none t
where
  /-- `acc`: value of the digits read so far, `none` if the previous character was not a digit. -/
  go (acc : Option Nat) : Txt → Option Nat
    | [] => acc
    | c :: cs =>
      if c.isDigit then go (some ((acc.getD 0) * 10 + (c.toNat - 48))) cs
      else if c = '_' then
        match acc, cs with
        | some v, d :: ds => if d.isDigit then go (some (v * 10 + (d.toNat - 48))) ds else none
        | _, _ => none
      else none

/-- `int(text)`, `none` is `ValueError`. Only ASCII digits and spaces are modelled.
run_conversion.py:270. -/
def pyInt (t : Txt) : Option Int :=
  match strip t with
  | '-' :: ds => (digitsVal ds).map (fun n : Nat => -(n : Int))
  | '+' :: ds => (digitsVal ds).map (fun n : Nat => (n : Int))
  | ds => (digitsVal ds).map (fun n : Nat => (n : Int))

/-- run_conversion.py:234-238: the directory, if `src_is_dir`. -/
def srcDir (sh : Shell) (args : List Txt) : Option Txt :=
  match args with
  | [a] => if !sh.isfile (sh.abspath a) && sh.isdir (sh.abspath a) then some (sh.abspath a) else none
  | _ => none

/-- run_conversion.py:223-276 `make_list_of_source_files`. -/
def makeListOfSourceFiles (sh : Shell) (args : List Txt) (ext : Txt) : List Txt :=
  match srcDir sh args with
  | none => (args.map sh.abspath).filter sh.isfile
  | some dir =>
    let fileList := sh.glob dir ext
    if fileList.length = 0 then []
    else
      match (splitOn ' ' sh.input).mapM pyInt with
      | none => []
      | some idx => (idx.filter (fun i : Int => 0 < i ∧ i ≤ fileList.length)).filterMap (fun i : Int => fileList[(i - 1).toNat]?)

end Run
end Verif
