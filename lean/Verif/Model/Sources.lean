import Verif.Model.Run

/-!
# Source files during a run

In Model/Run.lean the source files are given by a function that is not changed by the run. Here they lie in the same directory tree as the
products: `shutil.rmtree` deletes them too. Everything else that the program writes goes to files of folders that it has just created, so no
other call changes a source file.
-/

namespace Verif
namespace Run
open Conv

/-- run_conversion.py:38-49, the part of `create_work_folder` that deletes an existing folder: source files that are left. -/
def leftSources (w : Disk) (src : Txt → Option Bytes) (fpath pfx : Txt) : Txt → Option Bytes :=
  let fld := workFolder fpath pfx
  if w.isdir fld && (w.rmtree fld).2 then fun q => if q == fld || (fld ++ ['/']).isPrefixOf q then none else src q
  else src

/-- The loop run_conversion.py:308-350 with source files that can be deleted: file system, logger state and source files, and verdicts of the
files in order or an exception that ends the program. -/
def liveLoop (fr : Rat → Txt) (src : Txt → Option Bytes) (format : String) (controls : Option Box) (w : Disk) (ready : Bool) :
    List Txt → Option ((Disk × Bool × (Txt → Option Bytes)) × Py (List Verdict))
  | [] => some ((w, ready, src), .ok [])
  | f :: rest =>
    let src := leftSources w src f format.toList
    match convertFile fr src format controls w ready f with
    | none => none
    | some ((w, ready), .error e) => some ((w, ready, src), .error e)
    | some ((w, ready), .ok v) =>
      match liveLoop fr src format controls w ready rest with
      | none => none
      | some (s, .error e) => some (s, .error e)
      | some (s, .ok vs) => some (s, .ok (v :: vs))

end Run
end Verif
