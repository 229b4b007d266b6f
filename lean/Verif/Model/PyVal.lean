import Verif.Model.Text

/-!
# Python values that are handed to `json.dumps`, and `json.dumps`
-/

namespace Verif

/-- Keys of a dictionary.
Call: printers/json_printer.py:189, 256-261, 304-309, 341-343; library: json/encoder.py. -/
inductive PyKey where
  | int (i : Int)
  | str (s : String)
  deriving DecidableEq

/-- Python values built from `None`, `bool`, `int`, `float`, `str`, tuples and lists (`seq`) and `dict`.
Call: printers/json_printer.py:189, 256-261, 304-309, 341-343; library: json/encoder.py. -/
inductive PyVal where
  | none
  | bool (b : Bool)
  | int (i : Int)
  | flt (x : Rat)
  | str (s : String)
  | seq (l : List PyVal)
  | dict (d : List (PyKey × PyVal))

namespace Json
open Text

/-- Lower case hexadecimal digit.
Call: printers/json_printer.py:189, 256-261, 304-309, 341-343; library: json/encoder.py. -/
def hexDigit (n : Nat) : Char := Nat.digitChar n

/-- `json.encoder.py_encode_basestring`: escapes of one character (`ensure_ascii=False`). -/
def escChar (c : Char) : Txt :=
  if c = '"' then ['\\', '"']
  else if c = '\\' then ['\\', '\\']
  else if c = '\n' then ['\\', 'n']
  else if c = '\r' then ['\\', 'r']
  else if c = '\t' then ['\\', 't']
  else if c.toNat = 8 then ['\\', 'b']
  else if c.toNat = 12 then ['\\', 'f']
  else if c.toNat < 32 then ['\\', 'u', '0', '0', hexDigit (c.toNat / 16), hexDigit (c.toNat % 16)]
  else [c]

/-- A text as a JSON string.
Call: printers/json_printer.py:189, 256-261, 304-309, 341-343; library: json/encoder.py. -/
def encStr (s : Txt) : Txt := '"' :: s.flatMap escChar ++ ['"']

/-- A dictionary key: an int is converted by `int.__repr__` (json/encoder.py `_iterencode_dict`). -/
def encKey : PyKey → Txt
  | .int i => encStr (intRepr i)
  | .str s => encStr s.toList

/-- New line and indentation; nothing if `indent` is `None`.
Call: printers/json_printer.py:189, 256-261, 304-309, 341-343; library: json/encoder.py. -/
def nl (indent : Option Nat) (level : Nat) : Txt :=
  match indent with
  | .none => []
  | some k => '\n' :: List.replicate (k * level) ' '

/-- `item_separator`: `", "` without and `","` with indentation.
Call: printers/json_printer.py:189, 256-261, 304-309, 341-343; library: json/encoder.py. -/
def itemSep (indent : Option Nat) : Txt :=
  match indent with
  | .none => [',', ' ']
  | some _ => [',']

/-- The texts `ts` of the elements inside brackets; nothing between the brackets if there are none.
Call: printers/json_printer.py:189, 256-261, 304-309, 341-343; library: json/encoder.py. -/
def brackets (indent : Option Nat) (level : Nat) (l r : Char) (ts : List Txt) : Txt :=
  if ts = [] then [l, r]
  else l :: nl indent (level + 1) ++ join (itemSep indent ++ nl indent (level + 1)) ts ++ nl indent level ++ [r]

mutual
/-- `json.dumps(v, indent=indent, allow_nan=True, ensure_ascii=False)` at nesting depth `level`; `fr` is `float.__repr__`.
Call: printers/json_printer.py:189, 256-261, 304-309, 341-343; library: json/encoder.py. -/
def dumpsAt (fr : Rat → Txt) (indent : Option Nat) (level : Nat) : PyVal → Txt
  | .none => ['n', 'u', 'l', 'l']
  | .bool true => ['t', 'r', 'u', 'e']
  | .bool false => ['f', 'a', 'l', 's', 'e']
  | .int i => intRepr i
  | .flt x => fr x
  | .str s => encStr s.toList
  | .seq l => brackets indent level '[' ']' (dumpsSeq fr indent (level + 1) l)
  | .dict d => brackets indent level '{' '}' (dumpsDict fr indent (level + 1) d)
/-- The texts of the elements of a sequence.
Call: printers/json_printer.py:189, 256-261, 304-309, 341-343; library: json/encoder.py. -/
def dumpsSeq (fr : Rat → Txt) (indent : Option Nat) (level : Nat) : List PyVal → List Txt
  | [] => []
  | v :: vs => dumpsAt fr indent level v :: dumpsSeq fr indent level vs
/-- The texts of the items of a dictionary.
Call: printers/json_printer.py:189, 256-261, 304-309, 341-343; library: json/encoder.py. -/
def dumpsDict (fr : Rat → Txt) (indent : Option Nat) (level : Nat) : List (PyKey × PyVal) → List Txt
  | [] => []
  | p :: ps => dumpsItem fr indent level p :: dumpsDict fr indent level ps
/-- The text of one item.
Call: printers/json_printer.py:189, 256-261, 304-309, 341-343; library: json/encoder.py. -/
def dumpsItem (fr : Rat → Txt) (indent : Option Nat) (level : Nat) : PyKey × PyVal → Txt
  | (k, v) => encKey k ++ [':', ' '] ++ dumpsAt fr indent level v
end

/-- `json.dumps(v, indent=indent, ...)`.
Call: printers/json_printer.py:189, 256-261, 304-309, 341-343; library: json/encoder.py. -/
def dumps (fr : Rat → Txt) (indent : Option Nat) (v : PyVal) : Txt := dumpsAt fr indent 0 v

end Json
end Verif
