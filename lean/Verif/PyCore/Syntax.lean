import Verif.PyCore.Ident

/-!
# Syntax of the part of Python in which the decoders are written

Programs in this syntax are generated from the text of /repo by fidelity/embed.py, see Verif/Source.
-/

namespace Verif
namespace PyCore

/-- Literals. A float literal is the rational number it denotes. -/
inductive Const where
  | none
  | bool (b : Bool)
  | int (i : Int)
  | flt (num : Int) (den : Nat)
  | str (s : String)
  | bytes (b : List Nat)

/-- Binary operators. -/
inductive BinOp where
  | add | sub | mul | div | pow | shl | shr | band | bor | bxor

/-- Comparison operators. -/
inductive CmpOp where
  | eq | ne | lt | le | gt | ge | is | isNot | mem | notMem

/-- Expressions. `fstr` is a formatted string with the expressions in it; `gen` and `listComp` are comprehensions with one `for` and at
most one `if` (`cond` is `True` if there is none); `slice` has `None` for a bound that is missing; `callStar` is `f(*args, **kwargs)`. -/
inductive Expr where
  | const (c : Const)
  | name (x : Ident)
  | attr (e : Expr) (a : Ident)
  | call (f : Expr) (args : List Expr)
  | callStar (f : Expr) (args : Ident)
  | bin (op : BinOp) (l r : Expr)
  | neg (e : Expr)
  | not (e : Expr)
  | cmp (op : CmpOp) (l r : Expr)
  | and (l r : Expr)
  | or (l r : Expr)
  | ite (c a b : Expr)
  | tuple (es : List Expr)
  | list (es : List Expr)
  | dict (ks vs : List Expr)
  | index (e i : Expr)
  | slice (e lo hi : Expr)
  | gen (elt : Expr) (x : Ident) (iter cond : Expr)
  | listComp (elt : Expr) (x : Ident) (iter cond : Expr)
  | dictComp (k v : Expr) (x : Ident) (iter : Expr)
  | fstr (es : List Expr)

/-- Targets of assignments. -/
inductive Target where
  | name (x : Ident)
  | attr (e : Expr) (a : Ident)
  | index (e i : Expr)

mutual
/-- Statements. `assign` has more than one target for `a, b = e`. -/
inductive Stmt where
  | expr (e : Expr)
  | assign (t : Target) (e : Expr)
  | unpack (ts : List Target) (e : Expr)
  | aug (t : Target) (op : BinOp) (e : Expr)
  | ret (e : Expr)
  | raise (e : Expr)
  | ite (c : Expr) (a b : List Stmt)
  | for (x : Target) (it : Expr) (body orelse : List Stmt)
  | while (c : Expr) (body orelse : List Stmt)
  | try (body : List Stmt) (handlers : List Handler) (orelse : List Stmt)
  | del (e i : Expr)
  | pass
  | brk
  | cont
/-- `except cls as name: body`. -/
inductive Handler where
  | mk (cls : Ident) (name : Option Ident) (body : List Stmt)
end

/-- A function: parameters, the values of the last ones of them if they have defaults, body. With `star` all arguments are bound to the
one parameter as a tuple. -/
structure FnDef where
  params : List Ident
  defaults : List Const
  star : Bool := false
  body : List Stmt

/-- What a name in a class body is bound to. -/
inductive Member where
  | method (f : Ident)
  | clsMethod (f : Ident)
  | static (f : Ident)
  | prop (f : Ident)
  | value (e : Expr)

/-- Default of a field of a dataclass. -/
inductive Default where
  | const (c : Const)
  | emptyDict

/-- A class: method resolution order (the class first), names in its body, own fields if it is a dataclass, whether it is an exception. -/
structure ClassDef where
  mro : List Ident
  members : List (Ident × Member)
  fields : List (Ident × Default)
  isData : Bool
  isExc : Bool

/-- What a global name is bound to. -/
inductive Global where
  | cls (c : Ident)
  | fn (f : Ident)
  | builtin (b : Ident)
  | modul (names : List Ident)
  | logger
  | const (c : Const)

/-- A program. -/
structure Prog where
  fns : List (Ident × FnDef)
  classes : List (Ident × ClassDef)
  globals : List (Ident × Global)

end PyCore
end Verif
