import Verif.Model.Py
import Verif.Model.Dict
import Verif.Model.Text

/-!
# The file system as seen by the printers

Creating a directory or opening a file may raise `OSError`; which of these calls fail is given by an arbitrary function of the
number of the call. Writing to an open file and closing it are assumed to succeed (an exception there would end the conversion
through `except Exception` of `decode_rtcm_file`). Buffering and translation of line ends are not modelled. A file object is
represented by its path.
-/

namespace Verif

/-- File system.
Used in run_conversion.py:38-57, 78-94, 106-152, printers/json_printer.py:168-192,
printers/margo_printer.py:413-437. -/
structure Disk where
  dirs : List Txt := []
  /-- contents by path -/
  files : PyDict Txt Txt := []
  /-- whether the n-th call of `makedirs`, `rmtree` or `open` raises `OSError` -/
  fault : Nat → Bool := fun _ => false
  calls : Nat := 0

namespace Disk

/-- `os.path.join(a, b)` (POSIX).
Used in run_conversion.py:320, printers/json_printer.py:146-152, 168, 174,
printers/margo_printer.py:413, 418. -/
def join (a b : Txt) : Txt :=
  if b.head? = some '/' then b
  else if a = [] ∨ a.getLast? = some '/' then a ++ b
  else a ++ '/' :: b

/-- `os.path.isdir(path)`.
Used in run_conversion.py:41, printers/json_printer.py:114, 172,
printers/margo_printer.py:387, 416. -/
def isdir (w : Disk) (path : Txt) : Bool := w.dirs.contains path

/-- `os.makedirs(path)`; `false` is an `OSError`.
Used in run_conversion.py:51, printers/json_printer.py:173, printers/margo_printer.py:417. -/
def makedirs (w : Disk) (path : Txt) : Disk × Bool :=
  if w.fault w.calls then ({ w with calls := w.calls + 1 }, false)
  else ({ w with calls := w.calls + 1, dirs := path :: w.dirs }, true)

/-- `shutil.rmtree(path)`: deletes the directory with everything below it; `false` is an `OSError` (nothing is deleted then; a
partial deletion is not modelled). Used in run_conversion.py:43. -/
def rmtree (w : Disk) (path : Txt) : Disk × Bool :=
  if w.fault w.calls then ({ w with calls := w.calls + 1 }, false)
  else
    let gone (q : Txt) : Bool := q == path || (path ++ ['/']).isPrefixOf q
    ({ w with calls := w.calls + 1, dirs := w.dirs.filter (fun q => !gone q), files := w.files.filter (fun f => !gone f.1) }, true)

/-- `open(path, "w")`: creates the file or deletes its contents; `false` is an `OSError`.
Used in run_conversion.py:79, printers/json_printer.py:175, printers/margo_printer.py:419. -/
def openW (w : Disk) (path : Txt) : Disk × Bool :=
  if w.fault w.calls then ({ w with calls := w.calls + 1 }, false)
  else ({ w with calls := w.calls + 1, files := w.files.set path [] }, true)

/-- `f.write(text)` on an open file.
Used in run_conversion.py:89-90, printers/json_printer.py:161, 190-192,
printers/margo_printer.py:432-437. -/
def write (w : Disk) (path text : Txt) : Disk :=
  { w with files := w.files.set path ((w.files.get? path).getD [] ++ text) }

/-- Contents of a file. Used in run_conversion.py:106-134 and controls.py:46. -/
def read (w : Disk) (path : Txt) : Option Txt := w.files.get? path

end Disk
end Verif
