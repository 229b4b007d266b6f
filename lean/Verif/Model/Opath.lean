import Verif.Model.Run

/-!
# Model of `PrintJSON.make_opath`

A utility of printers/json_printer.py that tells where the products of a source file are. It is used by the checks of the repository.
-/

namespace Verif
namespace Json
open Run

/-- `p.rstrip("/")`. Used by `os.path.split` in printers/json_printer.py:143. -/
def rstripSlash (p : Txt) : Txt := (p.reverse.dropWhile (· = '/')).reverse

/-- `os.path.split(p)` (POSIX): slashes at the end of the head are removed unless there is nothing else in it.
printers/json_printer.py:143. -/
def pathSplit (p : Txt) : Txt × Txt :=
  let s := splitSlash p
  (if s.1.all (· = '/') then s.1 else rstripSlash s.1, s.2)

/-- printers/json_printer.py:135-154 `make_opath`: file, folder, log. -/
def makeOpath (base : Txt) (msgNum : Int) (mode : Txt) : Txt × Txt × Txt :=
  let s := pathSplit base
  let fname := (splitext s.2).1
  let odir := Disk.join s.1 (fname ++ '-' :: mode)
  let olog := Disk.join odir (fname ++ '-' :: "log.txt".toList)
  let ofile := match JSON_SPEC.get? msgNum with
    | some row => Disk.join (Disk.join odir row.dir.toList) row.file.toList
    | none => Disk.join (Disk.join odir "UNDEF".toList) ("msg".toList ++ (toString msgNum).toList ++ ".json".toList)
  (ofile, odir, olog)

end Json
end Verif
