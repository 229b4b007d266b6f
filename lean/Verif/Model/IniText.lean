import Verif.Model.Controls

/-!
# Model of `ConfigParser.read`: from the text of a configuration file to its contents

controls.py:46 calls `self.__ini.read(ini_file)` of a `ConfigParser()` with the default settings: delimiters `=` and `:`, comment lines
with `#` and `;`, no comments at the end of lines, `strict=True`, empty lines allowed in values, interpolation on demand (modelled in
Model/Controls.lean). References are to configparser.py of Python 3.11.

Simplifications: a file is its decoded text (a file that is not valid in the encoding of the system ends the program with an exception,
like a file with syntax errors). White space and letters outside ASCII are not modelled. The texts of error messages are not modelled;
all exceptions of configparser are one.
-/

namespace Verif
namespace Ctl
open Conv Run

/-- A value while a file is read: a text from an earlier file, or the lines of this file.
Library: configparser.py; call: controls.py:46. -/
inductive Val where
  | text (t : Txt)
  | lines (l : List Txt)
  deriving DecidableEq, Repr

/-- State of the loop of `_read` (configparser.py:1012-1134): the contents of the parser and the local variables. -/
structure Reader where
  /-- `self._sections` -/
  sects : PyDict Txt (PyDict Txt Val) := []
  /-- `self._defaults` -/
  defaults : PyDict Txt Val := []
  /-- names of sections in `elements_added` -/
  addedS : List Txt := []
  /-- options in `elements_added` -/
  addedO : List (Txt × Txt) := []
  /-- `sectname`; `cursect` is the dictionary of this section -/
  cur : Option Txt := none
  /-- `optname` -/
  opt : Option Txt := none
  /-- `indent_level` -/
  indent : Nat := 0
  /-- `e` is an exception -/
  bad : Bool := false
  deriving DecidableEq, Repr

/-- Name of the section of defaults. Library: configparser.py; call: controls.py:46. -/
def defaultName : Txt := "DEFAULT".toList

/-- Change `cursect`, which is a reference to the dictionary of section `s` (that exists).
Library: configparser.py; call: controls.py:46. -/
def Reader.modify (r : Reader) (s : Txt) (f : PyDict Txt Val → PyDict Txt Val) : Reader :=
  if s = defaultName then { r with defaults := f r.defaults }
  else
    match r.sects.get? s with
    | some d => { r with sects := r.sects.set s (f d) }
    | none => r

/-- `v.append(line)`. The value of `optname` is always a list of lines, because it has been assigned in this file.
Library: configparser.py; call: controls.py:46. -/
def Val.append (line : Txt) : Val → Val
  | .lines l => .lines (l ++ [line])
  | .text t => .text t

/-- `cursect[optname].append(line)`. Library: configparser.py; call: controls.py:46. -/
def appendLine (o line : Txt) (d : PyDict Txt Val) : PyDict Txt Val :=
  match d.get? o with
  | some v => d.set o (v.append line)
  | none => d

/-- `cursect is not None and optname`: there is a value that can be continued; section and option.
Library: configparser.py; call: controls.py:46. -/
def Reader.open_ (r : Reader) : Option (Txt × Txt) :=
  match r.cur, r.opt with
  | some s, some (c :: cs) => some (s, c :: cs)
  | _, _ => none

/-- `SECTCRE.match(value)` (configparser.py:574-578, 599): the text between `[` and the last `]`, which must not be empty. -/
def matchSection : Txt → Option Txt
  | [] => none
  | c :: rest =>
    if c = '[' then
      match rest.reverse.dropWhile (· ≠ ']') with
      | _ :: x :: xs => some ((x :: xs).reverse)
      | _ => none
    else none

/-- A delimiter. Library: configparser.py; call: controls.py:46. -/
def isDelim (c : Char) : Bool := c = '=' ∨ c = ':'

/-- `str.rstrip()`. Library: configparser.py; call: controls.py:46. -/
def rstrip (t : Txt) : Txt := (t.reverse.dropWhile isSpace).reverse

/-- `OPTCRE.match(value)` (configparser.py:579-586, 601): the text before the first delimiter without the white space at its end, and the text
after it without the white space at its beginning. -/
def matchOption (value : Txt) : Option (Txt × Txt) :=
  match value.dropWhile (fun c => !isDelim c) with
  | [] => none
  | _ :: v => some (rstrip (value.takeWhile (fun c => !isDelim c)), v.dropWhile isSpace)

/-- Lines that are comments begin with `#` or `;` after white space.
Library: configparser.py; call: controls.py:46. -/
def isComment (line : Txt) : Bool :=
  match strip line with
  | c :: _ => c = '#' ∨ c = ';'
  | [] => false

/-- configparser.py:1075-1128: a line that is a section header or an option; `none` if an exception is raised. -/
def Reader.header (r : Reader) (value : Txt) : Option Reader :=
  match matchSection value with
  | some s =>
    if r.sects.mem s then
      if s ∈ r.addedS then none
      else some { r with cur := some s, addedS := r.addedS ++ [s], opt := none }
    else if s = defaultName then some { r with cur := some s, opt := none }
    else some { r with cur := some s, sects := r.sects.set s [], addedS := r.addedS ++ [s], opt := none }
  | none =>
    match r.cur with
    | none => none
    | some s =>
      match matchOption value with
      | none => some { r with bad := true }
      | some (name, v) =>
        let o := (rstrip name).map Char.toLower
        if (s, o) ∈ r.addedO then none
        else
          some { r.modify s (fun d => d.set o (.lines [strip v])) with
            addedO := r.addedO ++ [(s, o)], opt := some o, bad := r.bad || name.isEmpty }

/-- configparser.py:1036-1128: one line; `none` if an exception is raised. -/
def Reader.step (r : Reader) (line : Txt) : Option Reader :=
  if isComment line then some r
  else if strip line = [] then
    match r.open_ with
    | some (s, o) => some (r.modify s (appendLine o []))
    | none => some r
  else
    let level := (line.takeWhile isSpace).length
    match (if r.indent < level then r.open_ else none) with
    | some (s, o) => some (r.modify s (appendLine o (strip line)))
    | none => Reader.header { r with indent := level } (strip line)

/-- configparser.py:1035: the loop over the lines; the second component says whether an exception ended it. -/
def Reader.run (r : Reader) : List Txt → Reader × Bool
  | [] => (r, false)
  | line :: rest =>
    match r.step line with
    | none => (r, true)
    | some r => r.run rest

/-- Joins lines with line feeds. Library: configparser.py; call: controls.py:46. -/
def joinLines : List Txt → Txt
  | [] => []
  | [l] => l
  | l :: rest => l ++ '\n' :: joinLines rest

/-- configparser.py:1136-1146 `_join_multiline_values`: one value. -/
def Val.join : Val → Txt
  | .text t => t
  | .lines l => rstrip (joinLines l)

/-- `_join_multiline_values` for a section. Library: configparser.py; call: controls.py:46. -/
def joinSect (d : PyDict Txt Val) : PyDict Txt Txt := d.map (fun p => (p.1, p.2.join))

/-- Files are opened in text mode: `\r\n` and `\r` are read as `\n`.
Library: configparser.py; call: controls.py:46. -/
def newlines : Txt → Txt := go false
where
  /-- `cr`: the character before was `\r`. -/
  go (cr : Bool) : Txt → Txt
    | [] => []
    | c :: t =>
      if c = '\r' then '\n' :: go true t
      else if c = '\n' ∧ cr = true then go false t
      else c :: go false t

/-- The lines of a text, without the line feeds (which are white space and do not matter to the loop).
Library: configparser.py; call: controls.py:46. -/
def splitLines : Txt → List Txt
  | [] => []
  | c :: t =>
    if c = '\n' then [] :: splitLines t
    else
      match splitLines t with
      | [] => [[c]]
      | l :: ls => (c :: l) :: ls

/-- The state before the first line, in a parser with contents `a`.
Library: configparser.py; call: controls.py:46. -/
def Reader.start (a : Ini) : Reader where
  sects := a.sects.map (fun s => (s.1, s.2.map (fun o => (o.1, .text o.2))))
  defaults := a.defaults.map (fun o => (o.1, .text o.2))

/-- The contents of the parser afterwards. Library: configparser.py; call: controls.py:46. -/
def Reader.contents (r : Reader) : Ini where
  sects := r.sects.map (fun s => (s.1, joinSect s.2))
  defaults := joinSect r.defaults

/-- configparser.py:694-719, 1012-1146 `read` of a file that can be opened, by a parser with contents `a`: the contents afterwards, and
whether an exception is raised. -/
def Ini.readText (a : Ini) (text : Txt) : Ini × Py Unit :=
  let r := (Reader.start a).run (splitLines (newlines text))
  (r.1.contents, if r.2 || r.1.bad then .error .configError else .ok ())

/-- A configuration file by its text, `none` if it cannot be opened: what it means to a parser that is still empty.
Library: configparser.py; call: controls.py:46. -/
def iniFile : Option Txt → IniFile
  | none => .missing
  | some t =>
    match ({} : Ini).readText t with
    | (a, .ok ()) => .parsed a
    | (a, .error _) => .broken a

/-- run_conversion.py:282-350 `main` with parsed arguments and with the configuration files given by their texts. `dflt` is the file
`defaults.ini` next to the program, `extra` the file of option `-i` if it is used. -/
def mainText (fr : Rat → Txt) (sh : Shell) (src : Txt → Option Bytes) (order1 order2 : List Txt → List Txt) (dflt : Option Txt)
    (extra : Option (Option Txt)) (format : String) (args : List Txt) (ext : Txt) (w : Disk) (ready : Bool) :
    Option ((Disk × Bool) × Py (List Verdict)) :=
  main fr sh src order1 order2 (iniFile dflt) (extra.map iniFile) format args ext w ready

end Ctl
end Verif
