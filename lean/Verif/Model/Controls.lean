import Verif.Model.Run

/-!
# Model of controls.py

The library class `ConfigParser` is represented by what its methods return: the sections that have been read so far, each a dictionary
from option names (in lower case) to texts, and the options of the section `DEFAULT`. Here a file is given by what `ConfigParser.read`
makes of it; Model/IniText.lean models how the text of a file is read. Messages on the console are not modelled. References are to
configparser.py of Python 3.11, as far as the library is concerned.
-/

namespace Verif
namespace Ctl
open Conv Run

/-- The contents of a `ConfigParser`. controls.py:39. -/
structure Ini where
  /-- the sections except `DEFAULT`, in order -/
  sects : PyDict Txt (PyDict Txt Txt) := []
  defaults : PyDict Txt Txt := []
  deriving DecidableEq, Repr

/-- A file as `ConfigParser.read` sees it. controls.py:46. -/
inductive IniFile where
  /-- the file cannot be opened: it is skipped -/
  | missing
  /-- the file has these contents -/
  | parsed (ini : Ini)
  /-- `configparser.Error` is raised, after these contents have been taken over -/
  | broken (ini : Ini)
  deriving DecidableEq, Repr

/-- Sections of a file are added to the sections that are there already; options are overwritten.
controls.py:46; library: configparser.py. -/
def Ini.merge (a b : Ini) : Ini where
  sects := b.sects.foldl (fun d s => d.set s.1 (((d.get? s.1).getD []).update s.2)) a.sects
  defaults := a.defaults.update b.defaults

/-- `ConfigParser.read(file)`. controls.py:46; library: configparser.py. -/
def Ini.read (a : Ini) : IniFile → Ini × Py Unit
  | .missing => (a, .ok ())
  | .parsed b => (a.merge b, .ok ())
  | .broken b => (a.merge b, .error .configError)

/-- `name in ini.sections()`; `sections()` does not contain `DEFAULT`. controls.py:58-64, 72, 108. -/
def Ini.hasSection (a : Ini) (name : Txt) : Bool := a.sects.mem name

/-- The options of a section: its own ones, and those of `DEFAULT`; the first one counts.
controls.py:70; library: configparser.py. -/
def Ini.options (a : Ini) (name : Txt) : PyDict Txt Txt := ((a.sects.get? name).getD []) ++ a.defaults

/-- `parser.get(name, option, raw=True)`; option names are not case sensitive (`optionxform`). Only ASCII letters are modelled.
Used for controls.py:79, 88-121; library: configparser.py. -/
def Ini.raw (a : Ini) (name option : Txt) : Option Txt := (a.options name).get? (option.map Char.toLower)

/-- `BasicInterpolation._KEYCRE.match(rest)` (configparser.py:392) after `%(`: the name and what follows it. -/
def refName (r : Txt) : Option (Txt × Txt) :=
  match r.takeWhile (· ≠ ')'), r.dropWhile (· ≠ ')') with
  | c :: cs, ')' :: 's' :: rest => some (c :: cs, rest)
  | _, _ => none

/-- configparser.py:436-440: the text of an option that is referred to; `sub` is the recursive call. -/
def refText (sub : Txt → Py Txt) (v : Txt) : Py Txt := if '%' ∈ v then sub v else .ok v

/-- configparser.py:412-446, the loop `while rest` of `_interpolate_some`. `look` is the mapping of names to texts, `sub` is the recursive
call for a text with further references. The pieces are put together here; in the code `accum` collects them. Every error is an
exception of configparser. `n` bounds the number of rounds by the length of the text. -/
def interpLoop (look : Txt → Option Txt) (sub : Txt → Py Txt) : Nat → Txt → Py Txt
  | _, [] => .ok []
  | 0, _ :: _ => .error .configError
  | n + 1, c :: rest =>
    if c = '%' then
      match rest with
      | [] => .error .configError
      | x :: rest =>
        if x = '%' then do
          let t ← interpLoop look sub n rest
          .ok ('%' :: t)
        else if x = '(' then
          match refName rest with
          | none => .error .configError
          | some (var, rest) =>
            match look (var.map Char.toLower) with
            | none => .error .configError
            | some v => do
              let v ← refText sub v
              let t ← interpLoop look sub n rest
              .ok (v ++ t)
        else .error .configError
    else do
      let t ← interpLoop look sub n rest
      .ok (c :: t)

/-- configparser.py:407-446 `_interpolate_some`; the first argument is the number of nested calls that are still allowed
(`MAX_INTERPOLATION_DEPTH` is 10). -/
def interpolate (look : Txt → Option Txt) : Nat → Txt → Py Txt
  | 0, _ => .error .configError
  | d + 1, t => interpLoop look (interpolate look d) t.length t

/-- `ini[name].get(option)`: configparser.py:781-817 and `before_get` (394-397). -/
def Ini.get (a : Ini) (name option : Txt) : Py (Option Txt) :=
  match a.raw name option with
  | none => .ok none
  | some t => do
    let t ← interpolate (a.options name).get? 10 t
    .ok (some t)

/-- `ini[name].getint(option)`, `None` if there is no such option. controls.py:79, 88. -/
def Ini.getInt (a : Ini) (name option : Txt) : Py (Option Int) :=
  match a.get name option with
  | .error e => .error e
  | .ok none => .ok none
  | .ok (some t) =>
    match pyInt t with
    | some i => .ok (some i)
    | none => .error .valueError

/-- `ConfigParser.BOOLEAN_STATES`. Used for controls.py:92, 96, 113-121; library: configparser.py. -/
def booleanStates : PyDict Txt Bool :=
  [("1".toList, true), ("yes".toList, true), ("true".toList, true), ("on".toList, true), ("0".toList, false), ("no".toList, false),
   ("false".toList, false), ("off".toList, false)]

/-- `ini[name].getboolean(option)`. controls.py:92, 96, 113, 117, 121. -/
def Ini.getBoolean (a : Ini) (name option : Txt) : Py (Option Bool) :=
  match a.get name option with
  | .error e => .error e
  | .ok none => .ok none
  | .ok (some t) =>
    match booleanStates.get? (t.map Char.toLower) with
    | some b => .ok (some b)
    | none => .error .valueError

/-- `key.strip("rR")`. controls.py:76. -/
def stripR (t : Txt) : Txt :=
  ((t.dropWhile (fun c => c = 'r' ∨ c = 'R')).reverse.dropWhile (fun c => c = 'r' ∨ c = 'R')).reverse

/-- controls.py:75-79: the loop over the keys, with `mask` and `lt`. -/
def literalLoop (ini : Ini) : List Txt → Nat → PyDict Nat Int → Py (Nat × PyDict Nat Int)
  | [], mask, lt => .ok (mask, lt)
  | key :: rest, mask, lt =>
    match pyInt (stripR key) with
    | none => .error .valueError
    | some sat =>
      if 0 < sat ∧ sat ≤ 24 then
        match ini.getInt "LITERALS".toList key with
        | .error e => .error e
        -- a key of the section has a value, so the result is never `None`
        | .ok none => .error .typeError
        | .ok (some v) => literalLoop ini rest (mask ||| (1 <<< (sat.toNat - 1))) (lt.set sat.toNat v)
      else literalLoop ini rest mask lt

/-- controls.py:53-101 `_make_MARGO`: the new controls, `none` if it returns `False`. `order` gives the order in which the `set` of keys
is enumerated. Lines 72-73 are never executed, because `sections()` does not list `DEFAULT`. -/
def makeMargo (order : List Txt → List Txt) (iniOk : Bool) (ini : Ini) : Py (Option Margo.Controls) :=
  if !iniOk then .ok none
  else if !ini.hasSection "LITERALS".toList then .ok none
  else if !ini.hasSection "TIME".toList then .ok none
  else if !ini.hasSection "MARGO".toList then .ok none
  else do
    let (mask, lt) ← literalLoop ini (order (ini.options "LITERALS".toList).keys) 0 []
    if mask = 0xFFFFFF then
      match ← ini.getInt "TIME".toList "GPS2UTC".toList with
      | none => .ok none
      | some shift =>
        match ← ini.getBoolean "MARGO".toList "HCA".toList with
        | none => .ok none
        | some hca =>
          match ← ini.getBoolean "MARGO".toList "LOCK_TIME".toList with
          | none => .ok none
          | some ltm => .ok (some { half_cycle_enable := hca, lock_time_enable := ltm, gps_utc_shift := shift, glo_lit_tab := lt })
    else .ok none

/-- controls.py:103-126 `_make_JSON` -/
def makeJson (iniOk : Bool) (ini : Ini) : Py (Option Json.Controls) :=
  if !iniOk then .ok none
  else if !ini.hasSection "JSON".toList then .ok none
  else do
    match ← ini.getBoolean "JSON".toList "ENABLE_HDR_DATA".toList with
    | none => .ok none
    | some hdr =>
      match ← ini.getBoolean "JSON".toList "ENABLE_AUX_DATA".toList with
      | none => .ok none
      | some aux =>
        match ← ini.getBoolean "JSON".toList "ENABLE_PRETTY_VIEW".toList with
        | none => .ok none
        | some pretty => .ok (some { enable_hdr_data := hdr, enable_aux_data := aux, enable_pretty_view := pretty })

/-- controls.py:33-42 `ConverterControls` -/
structure Manager where
  margo : Margo.Controls := {}
  json : Json.Controls := {}
  ini : Ini := {}
  iniOk : Bool := false
  margoOk : Bool := false
  jsonOk : Bool := false
  deriving DecidableEq, Repr

/-- controls.py:44-51 `_read_ini` -/
def Manager.readIni (m : Manager) (f : IniFile) : Manager × Py Bool :=
  let r := m.ini.read f
  let m := { m with ini := r.1 }
  match r.2 with
  | .error e => (m, .error e)
  | .ok () => (m, .ok (m.ini.sects.length != 0))

/-- `_make_MARGO` as a method: `self.__MARGO` is assigned at the end only. controls.py:53-101. -/
def Manager.makeMARGO (order : List Txt → List Txt) (m : Manager) : Manager × Py Bool :=
  match makeMargo order m.iniOk m.ini with
  | .error e => (m, .error e)
  | .ok none => (m, .ok false)
  | .ok (some c) => ({ m with margo := c }, .ok true)

/-- `_make_JSON` as a method. controls.py:103-126. -/
def Manager.makeJSON (m : Manager) : Manager × Py Bool :=
  match makeJson m.iniOk m.ini with
  | .error e => (m, .error e)
  | .ok none => (m, .ok false)
  | .ok (some c) => ({ m with json := c }, .ok true)

/-- controls.py:128-133 `init_from_file` -/
def Manager.initFromFile (order : List Txt → List Txt) (m : Manager) (f : IniFile) : Manager × Py Unit :=
  match m.readIni f with
  | (m, .error e) => (m, .error e)
  | (m, .ok ok) =>
    let m := { m with iniOk := ok }
    if ok then
      match m.makeMARGO order with
      | (m, .error e) => (m, .error e)
      | (m, .ok b) =>
        let m := { m with margoOk := b }
        match m.makeJSON with
        | (m, .error e) => (m, .error e)
        | (m, .ok b) => ({ m with jsonOk := b }, .ok ())
    else (m, .ok ())

/-- controls.py:135-149 `update_from_file` -/
def Manager.updateFromFile (order : List Txt → List Txt) (m : Manager) (f : IniFile) : Manager × Py Unit :=
  if !m.iniOk then (m, .ok ())
  else
    match m.readIni f with
    | (m, .error e) => (m, .error e)
    | (m, .ok false) => (m, .ok ())
    | (m, .ok true) =>
      match (if m.margoOk then m.makeMARGO order else (m, .ok false)) with
      | (m, .error e) => (m, .error e)
      | (m, .ok _) =>
        match (if m.jsonOk then m.makeJSON else (m, .ok false)) with
        | (m, .error e) => (m, .error e)
        | (m, .ok _) => (m, .ok ())

/-- controls.py:151-154 `MARGO` -/
def Manager.MARGO (m : Manager) : Option Margo.Controls := if m.margoOk then some m.margo else none

/-- controls.py:156-159 `JSON` -/
def Manager.JSON (m : Manager) : Option Json.Controls := if m.jsonOk then some m.json else none

/-- controls.py:161-167 `boxed_controls` -/
def Manager.boxed (m : Manager) : Option Box := if m.jsonOk && m.margoOk then some ⟨m.margo, m.json⟩ else none

/-- run_conversion.py:282-350 `main` with parsed arguments: source arguments, extension, format, and the configuration file of option
`-i`. The configuration files are given as `ConfigParser.read` sees them; `order1` and `order2` are the enumeration orders of the set of
literal keys in the first and in the second call. -/
def main (fr : Rat → Txt) (sh : Shell) (src : Txt → Option Bytes) (order1 order2 : List Txt → List Txt) (dflt : IniFile)
    (extra : Option IniFile) (format : String) (args : List Txt) (ext : Txt) (w : Disk) (ready : Bool) :
    Option ((Disk × Bool) × Py (List Verdict)) :=
  match ({} : Manager).initFromFile order1 dflt with
  | (_, .error e) => some ((w, ready), .error e)
  | (m, .ok ()) =>
    match (match extra with
      | none => (m, (.ok () : Py Unit))
      | some f => m.updateFromFile order2 f) with
    | (_, .error e) => some ((w, ready), .error e)
    | (m, .ok ()) => mainLoop fr src format m.boxed w ready (makeListOfSourceFiles sh args ext)

end Ctl
end Verif
