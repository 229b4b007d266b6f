import Verif.PyCore.Syntax
import Verif.Model.PyStr
import Verif.Model.PyVal
import Mathlib.Data.Int.Bitwise
import Mathlib.Data.Nat.Digits.Defs
import Mathlib.Data.Rat.Defs

/-!
# Semantics of the part of Python in which the decoders are written

Objects live on a heap and are shared by reference. Whatever is outside of the part of Python that is described here is `Exc.stuck`,
which no `except` catches; a theorem that a call has a result other than `stuck` shows that the call stays inside.

Simplifications, all of them visible below:
* floats are rational numbers; a rounding is applied to every float literal and every result of a float operation (`Rounding`), there are no
  infinities and no negative zero;
* the contents of formatted strings and of exceptions are not modelled (`Val.text`), nor is what the logger does;
* generators are evaluated when they are created, generator functions when they are called (as by a consumer that takes all elements
  before it does anything else);
* `range(…)`, `enumerate(…)`, `d.keys()`, `d.values()` and `d.items()` are tuples;
* a name that is not local is global;
* dictionaries and lists that are created in class bodies cannot be changed (`Val.stat`; a change is `stuck`).
-/

namespace Verif
namespace PyCore

/-- Python values. `ref` is the address of an object on the heap, `stat c a` the dictionary or list that the class body of `c` binds to
`a`, `ident` a `str` that is the name of a field, `text` a `str` whose contents are not modelled, `bmeth v m` a method `m` of a value of
a builtin type, `bound f v` a function with its first argument, `json j i` the `str` that is `json.dumps` of `j` with indentation `i`. -/
inductive Val where
  | none
  | bool (b : Bool)
  | int (i : Int)
  | flt (q : Rat)
  | str (s : String)
  | ident (n : Ident)
  | text
  | bytes (b : List UInt8)
  | tup (vs : List Val)
  | ref (a : Nat)
  | stat (c a : Ident)
  | cls (c : Ident)
  | fn (f : Ident)
  | bound (f : Ident) (v : Val)
  | bmeth (v : Val) (m : Ident)
  | builtin (b : Ident)
  | exc (c : Ident)
  | field (n : Ident)
  | modul (names : List Ident)
  | logger
  | super
  | json (j : PyVal) (indent : Option Nat)

/-- Objects on the heap; `iter` is a generator with the elements that are still to come. -/
inductive Obj where
  | inst (c : Ident) (fields : List (Ident × Val))
  | dict (kvs : List (Val × Val))
  | list (vs : List Val)
  | iter (vs : List Val)
  | set (vs : List Val)

/-- What is raised: an exception of a class; or the program is not in the part of Python described here; or it has run out of fuel. -/
inductive Exc where
  | py (c : Ident)
  | stuck
  | diverge
  deriving DecidableEq

/-- The heap. -/
abbrev Heap := List Obj

/-- Local variables and heap. -/
structure St where
  loc : List (Ident × Val)
  heap : Heap

/-- Computations: what has been done to the state stays done if an exception is raised. -/
def M (α : Type) : Type := St → Except Exc α × St

namespace M

/-- No effect. -/
def pure {α : Type} (a : α) : M α := fun s => (.ok a, s)

/-- One after the other. -/
def bind {α β : Type} (m : M α) (f : α → M β) : M β := fun s =>
  match m s with
  | (.ok a, s') => f a s'
  | (.error e, s') => (.error e, s')

instance : Monad M where
  pure := M.pure
  bind := M.bind

/-- Raise. -/
def raise {α : Type} (e : Exc) : M α := fun s => (.error e, s)

/-- Outside of the part of Python described here. -/
def stuck {α : Type} : M α := raise .stuck

/-- Raise an exception of a class. -/
def throw {α : Type} (c : Ident) : M α := raise (.py c)

/-- New object. -/
def alloc (o : Obj) : M Nat := fun s => (.ok s.heap.length, { s with heap := s.heap ++ [o] })

/-- The object at an address. -/
def read (a : Nat) : M Obj := fun s =>
  match s.heap[a]? with
  | some o => (.ok o, s)
  | none => (.error .stuck, s)

/-- Replace the object at an address. -/
def write (a : Nat) (o : Obj) : M Unit := fun s => (.ok (), { s with heap := s.heap.set a o })

/-- Value of a local variable. -/
def getLoc (x : Ident) : M (Option Val) := fun s => (.ok (s.loc.lookup x), s)

/-- Bind a key in an association list: in place if it is there, else at the end. -/
def bindKey (l : List (Ident × Val)) (x : Ident) (v : Val) : List (Ident × Val) :=
  match l with
  | [] => [(x, v)]
  | (y, u) :: l => if y == x then (y, v) :: l else (y, u) :: bindKey l x v

/-- Assign to a local variable. -/
def setLoc (x : Ident) (v : Val) : M Unit := fun s => (.ok (), { s with loc := bindKey s.loc x v })

/-- Run a computation and give the local variables their old values afterwards: scope of a comprehension. -/
def inScope {α : Type} (m : M α) : M α := fun s =>
  match m s with
  | (r, s') => (r, { s' with loc := s.loc })

/-- A result that is given or missing. -/
def ofOption {α : Type} (o : Option α) : M α :=
  match o with
  | some a => M.pure a
  | none => stuck

/-- A result or an exception of the functions that are taken from the model of the library. -/
def ofPy {α : Type} (cls : PyErr → Ident) (r : Py α) : M α :=
  match r with
  | .ok a => M.pure a
  | .error e => throw (cls e)

/-- The list of the results. -/
def mapList {α β : Type} (f : α → M β) : List α → M (List β)
  | [] => M.pure []
  | a :: as => M.bind (f a) fun b => M.bind (mapList f as) fun bs => M.pure (b :: bs)

end M

/-- Calls of functions: name, arguments, heap. -/
abbrev CallT := Ident → List Val → Heap → Except Exc Val × Heap

/-- A call as a computation. -/
def M.call (call : CallT) (f : Ident) (args : List Val) : M Val := fun s =>
  match call f args s.heap with
  | (r, h) => (r, { s with heap := h })

/-! ## Values -/

/-- What a float operation does with its exact result: nothing (`Spec.exactArith`), or a rounding as in double precision (`Spec.doubleArith`). Zero and 1024 are
left as they are. -/
class Rounding where
  rnd : Rat → Rat
  zero : rnd 0 = 0
  k1024 : rnd 1024 = 1024

open Rounding (rnd)

variable [Rounding]

/-- The value of a literal. -/
def Const.val : Const → Val
  | .none => .none
  | .bool b => .bool b
  | .int i => .int i
  | .flt n d => .flt (rnd (mkRat n d))
  | .str s => .str s
  | .bytes b => .bytes (b.map UInt8.ofNat)

/-- The names of the exceptions of the library functions in Verif/Model. -/
def errName : PyErr → Ident
  | .bitsError => n!"ExceptionBitsError"
  | .bareData => n!"ExceptionBareDataStructure"
  | .ephDecoder => n!"ExceptionEphemerisDecoder"
  | .baseDecoder => n!"ExceptionBaseStationDataDecoder"
  | .decoderDecode => n!"ExceptionDecoderDecode"
  | .indexError => n!"IndexError"
  | .keyError => n!"KeyError"
  | .typeError => n!"TypeError"
  | .valueError => n!"ValueError"
  | .unicodeError => n!"UnicodeDecodeError"
  | .assertionError => n!"AssertionError"
  | .notImplemented => n!"NotImplementedError"
  | .osError => n!"OSError"
  | .zeroDivision => n!"ZeroDivisionError"
  | .attributeError => n!"AttributeError"
  | .configError => n!"ConfigError"

/-- `a == b` for values that are numbers, texts, `bytes`, `None`, classes or functions; a function with its first argument is not a
function. -/
def pyEq : Val → Val → Option Bool
  | .int a, .int b => some (a == b)
  | .str a, .str b => some (a == b)
  | .bytes a, .bytes b => some (a == b)
  | .none, .none => some true
  | .bool a, .bool b => some (a == b)
  | .cls a, .cls b => some (a == b)
  | .flt a, .flt b => some (a == b)
  | .int a, .flt b => some ((a : Rat) == b)
  | .flt a, .int b => some (a == (b : Rat))
  | .none, .int _ => some false
  | .int _, .none => some false
  | .none, .str _ => some false
  | .str _, .none => some false
  | .str _, .int _ => some false
  | .int _, .str _ => some false
  | .fn a, .fn b => some (a == b)
  | .bound _ _, .fn _ => some false
  | .fn _, .bound _ _ => some false
  | _, _ => none


/-- `+`, `-`, `*` on numbers: an int if both are, else a float; an int is converted. -/
def arith (f : Int → Int → Int) (g : Rat → Rat → Rat) (a b : Val) : M Val :=
  match a, b with
  | .int a, .int b => M.pure (.int (f a b))
  | .int a, .flt b => M.pure (.flt (rnd (g (rnd a) b)))
  | .flt a, .int b => M.pure (.flt (rnd (g a (rnd b))))
  | .flt a, .flt b => M.pure (.flt (rnd (g a b)))
  | .none, .int _ => M.throw n!"TypeError"
  | _, _ => M.stuck

/-- Binary operators. -/
def binOp (op : BinOp) (a b : Val) : M Val :=
  match op with
  | .add =>
    match a, b with
    | .str a, .str b => M.pure (.str (a ++ b))
    | .text, .text => M.pure .text
    | .text, .str _ => M.pure .text
    | .str _, .text => M.pure .text
    | .bytes a, .bytes b => M.pure (.bytes (a ++ b))
    | a, b => arith (· + ·) (· + ·) a b
  | .sub => arith (· - ·) (· - ·) a b
  | .mul =>
    match a, b with
    | .tup vs, .int n => M.pure (.tup (List.replicate n.toNat vs).flatten)
    | a, b => arith (· * ·) (· * ·) a b
  | .div =>
    match a, b with
    | .int a, .int b => if b = 0 then M.throw n!"ZeroDivisionError" else M.pure (.flt (rnd ((a : Rat) / (b : Rat))))
    | .flt a, .int b => if b = 0 then M.throw n!"ZeroDivisionError" else M.pure (.flt (rnd (a / rnd b)))
    | .int a, .flt b => if b = 0 then M.throw n!"ZeroDivisionError" else M.pure (.flt (rnd (rnd a / b)))
    | .flt a, .flt b => if b = 0 then M.throw n!"ZeroDivisionError" else M.pure (.flt (rnd (a / b)))
    | _, _ => M.stuck
  | .pow =>
    match a, b with
    | .int a, .int (.ofNat n) => M.pure (.int (a ^ n))
    | .int a, .int (.negSucc n) => if a = 0 then M.throw n!"ZeroDivisionError" else M.pure (.flt (rnd (1 / (a : Rat) ^ (n + 1))))
    | _, _ => M.stuck
  | .shl =>
    match a, b with
    | .int a, .int (.ofNat n) => M.pure (.int (a * 2 ^ n))
    | .int _, .int (.negSucc _) => M.throw n!"ValueError"
    | _, _ => M.stuck
  | .shr =>
    match a, b with
    | .int a, .int (.ofNat n) => M.pure (.int (a / 2 ^ n))
    | .int _, .int (.negSucc _) => M.throw n!"ValueError"
    | _, _ => M.stuck
  | .band =>
    match a, b with
    | .int a, .int b => M.pure (.int (Int.land a b))
    | _, _ => M.stuck
  | .bor =>
    match a, b with
    | .int a, .int b => M.pure (.int (Int.lor a b))
    | _, _ => M.stuck
  | .bxor =>
    match a, b with
    | .int a, .int b => M.pure (.int (Int.xor a b))
    | _, _ => M.stuck

/-- Order of numbers; `None` cannot be compared. -/
def ordOp (f : Int → Int → Bool) (g : Rat → Rat → Bool) (a b : Val) : M Val :=
  match a, b with
  | .int a, .int b => M.pure (.bool (f a b))
  | .flt a, .flt b => M.pure (.bool (g a b))
  | .int a, .flt b => M.pure (.bool (g a b))
  | .flt a, .int b => M.pure (.bool (g a b))
  | .none, .int _ => M.throw n!"TypeError"
  | .int _, .none => M.throw n!"TypeError"
  | _, _ => M.stuck

/-! ## Dictionaries with keys that are numbers or texts -/

/-- Equality of keys. -/
def keyEq (a b : Val) : Bool := (pyEq a b).getD false

/-- `d.get(k)`. -/
def dictGet (d : List (Val × Val)) (k : Val) : Option Val :=
  match d with
  | [] => none
  | (x, v) :: d => if keyEq x k then some v else dictGet d k

/-- `d[k] = v`. -/
def dictSet (d : List (Val × Val)) (k v : Val) : List (Val × Val) :=
  match d with
  | [] => [(k, v)]
  | (x, u) :: d => if keyEq x k then (x, v) :: d else (x, u) :: dictSet d k v

/-- `del d[k]`. -/
def dictDel (d : List (Val × Val)) (k : Val) : List (Val × Val) :=
  match d with
  | [] => []
  | (x, u) :: d => if keyEq x k then d else (x, u) :: dictDel d k

/-! ## Classes -/

/-- A name in the body of a class or of the classes it inherits from. -/
def findMember (P : Prog) (c a : Ident) : Option (Ident × Member) :=
  match P.classes.lookup c with
  | none => none
  | some d => d.mro.findSome? (fun b => (P.classes.lookup b).bind (fun bd => (bd.members.lookup a).map (fun m => (b, m))))

/-- Whether a class is another one or inherits from it. -/
def subclass (P : Prog) (c b : Ident) : Bool :=
  match P.classes.lookup c with
  | none => c == b
  | some d => d.mro.contains b

/-- Bind a name of a field: in place if it is there, else at the end. -/
def bindField (l : List (Ident × Default)) (x : Ident) (v : Default) : List (Ident × Default) :=
  match l with
  | [] => [(x, v)]
  | (y, u) :: l => if y == x then (y, v) :: l else (y, u) :: bindField l x v

/-- The fields of a dataclass: those of the classes it inherits from, from the last one, and its own. -/
def dataFields (P : Prog) (c : Ident) : List (Ident × Default) :=
  match P.classes.lookup c with
  | none => []
  | some d =>
    d.mro.reverse.foldl
      (fun l b => match P.classes.lookup b with
        | none => l
        | some bd => bd.fields.foldl (fun l f => bindField l f.1 f.2) l) []

/-- The value of an expression in the body of class `c`: no effects; a name refers to the body. -/
def staticVal (P : Prog) (c : Ident) : Expr → Option Val
  | .const k => some k.val
  | .neg e =>
    match staticVal P c e with
    | some (.int i) => some (.int (-i))
    | _ => none
  | .bin op a b =>
    match staticVal P c a, staticVal P c b with
    | some a, some b =>
      match binOp op a b ⟨[], []⟩ with
      | (.ok v, _) => some v
      | _ => none
    | _, _ => none
  | .name x =>
    match findMember P c x with
    | some (b, .value (.dict _ _)) => some (.stat b x)
    | some (b, .value (.list _)) => some (.stat b x)
    | some (_, .static f) => some (.fn f)
    | _ => none
  | .attr (.name d) m =>
    match findMember P d m with
    | some (_, .static f) => some (.fn f)
    | some (_, .clsMethod f) => some (.bound f (.cls d))
    | _ => none
  | .tuple es => (staticVals P c es).map .tup
  | _ => none
where
  /-- The same for several expressions. -/
  staticVals (P : Prog) (c : Ident) : List Expr → Option (List Val)
    | [] => some []
    | e :: es =>
      match staticVal P c e, staticVals P c es with
      | some v, some vs => some (v :: vs)
      | _, _ => none

/-- The dictionary or list that the body of class `c` binds to `a`. -/
def staticObj (P : Prog) (c a : Ident) : Option Obj :=
  match findMember P c a with
  | some (b, .value (.dict ks vs)) =>
    match staticVal.staticVals P b ks, staticVal.staticVals P b vs with
    | some ks, some vs => some (.dict (ks.zip vs))
    | _, _ => none
  | some (b, .value (.list es)) => (staticVal.staticVals P b es).map .list
  | _ => none

/-- The object a value refers to. -/
def objOf (P : Prog) (v : Val) : M Obj :=
  match v with
  | .ref a => M.read a
  | .stat c a => M.ofOption (staticObj P c a)
  | _ => M.stuck

/-- Truth value. -/
def truth (P : Prog) (v : Val) : M Bool :=
  match v with
  | .none => M.pure false
  | .bool b => M.pure b
  | .int i => M.pure (i != 0)
  | .flt q => M.pure (q != 0)
  | .str s => M.pure (s != "")
  | .bytes b => M.pure (!b.isEmpty)
  | .tup vs => M.pure (!vs.isEmpty)
  | .ref a => do
    match ← M.read a with
    | .inst _ _ => M.pure true
    | .dict d => M.pure (!d.isEmpty)
    | .list l => M.pure (!l.isEmpty)
    | .iter _ => M.pure true
    | .set l => M.pure (!l.isEmpty)
  | .stat c a => do
    match ← M.ofOption (staticObj P c a) with
    | .dict d => M.pure (!d.isEmpty)
    | .list l => M.pure (!l.isEmpty)
    | _ => M.stuck
  | _ => M.stuck

/-- The elements over which `for` goes; a generator is used up. The order of a set is not known. -/
def elements (P : Prog) (v : Val) : M (List Val) :=
  match v with
  | .tup vs => M.pure vs
  | .bytes b => M.pure (b.map (fun x => .int x.toNat))
  | .ref a => do
    match ← M.read a with
    | .list vs => M.pure vs
    | .dict d => M.pure (d.map (·.1))
    | .iter vs => do
      M.write a (.iter [])
      M.pure vs
    | .inst _ _ => M.stuck
    | .set _ => M.stuck
  | .stat c a => do
    match ← M.ofOption (staticObj P c a) with
    | .list vs => M.pure vs
    | .dict d => M.pure (d.map (·.1))
    | _ => M.stuck
  | _ => M.stuck

/-- The elements that `in` looks at. -/
def memberVals (P : Prog) (v : Val) : M (List Val) :=
  match v with
  | .ref a => do
    match ← M.read a with
    | .set vs => M.pure vs
    | _ => elements P v
  | _ => elements P v

/-- The elements of `set(…)`. -/
def setOf (vs : List Val) : List Val := vs.foldl (fun l v => if l.any (fun x => keyEq x v) then l else l ++ [v]) []

/-- `x in v` for a list of elements. -/
def memList (x : Val) : List Val → M Bool
  | [] => M.pure false
  | y :: ys =>
    match pyEq y x with
    | some true => M.pure true
    | some false => memList x ys
    | none => M.stuck

/-- `l[i]` for a sequence: negative indexes count from the end. -/
def seqIndex {α : Type} (l : List α) (i : Int) : M α :=
  let j := if i < 0 then i + l.length else i
  if j < 0 then M.throw n!"IndexError"
  else match l[j.toNat]? with
    | some x => M.pure x
    | none => M.throw n!"IndexError"

/-- `v[i]`. -/
def indexVal (P : Prog) (v i : Val) : M Val :=
  match v, i with
  | .tup vs, .int i => seqIndex vs i
  | .bytes b, .int i => do
    let x ← seqIndex b i
    M.pure (.int x.toNat)
  | v, i => do
    match ← objOf P v, i with
    | .list vs, .int i => seqIndex vs i
    | .dict d, i =>
      match dictGet d i with
      | some x => M.pure x
      | none => M.throw n!"KeyError"
    | _, _ => M.stuck

/-- `v[lo:hi]` of `bytes` and texts with bounds that are missing or not negative, and `v[:]` of a list. -/
def sliceVal (v lo hi : Val) : M Val :=
  match v with
  | .bytes b =>
    match lo, hi with
    | .int (.ofNat l), .int (.ofNat h) => M.pure (.bytes ((b.take h).drop l))
    | .int (.ofNat l), .none => M.pure (.bytes (b.drop l))
    | .none, .int (.ofNat h) => M.pure (.bytes (b.take h))
    | _, _ => M.stuck
  | .str s =>
    match lo, hi with
    | .int (.ofNat l), .int (.ofNat h) => M.pure (.str (String.ofList ((s.toList.take h).drop l)))
    | _, _ => M.stuck
  | .ref a =>
    match lo, hi with
    | .none, .none => do
      match ← M.read a with
      | .list vs => do
        let b ← M.alloc (.list vs)
        M.pure (.ref b)
      | _ => M.stuck
    | _, _ => M.stuck
  | _ => M.stuck

/-- Comparisons. -/
def cmpOp (P : Prog) (op : CmpOp) (a b : Val) : M Val :=
  match op with
  | .eq => do
    let r ← M.ofOption (pyEq a b)
    M.pure (.bool r)
  | .ne => do
    let r ← M.ofOption (pyEq a b)
    M.pure (.bool (!r))
  | .lt => ordOp (fun a b => decide (a < b)) (fun a b => decide (a < b)) a b
  | .le => ordOp (fun a b => decide (a ≤ b)) (fun a b => decide (a ≤ b)) a b
  | .gt => ordOp (fun a b => decide (b < a)) (fun a b => decide (b < a)) a b
  | .ge => ordOp (fun a b => decide (b ≤ a)) (fun a b => decide (b ≤ a)) a b
  | .is =>
    match b with
    | .none => M.pure (.bool (match a with | .none => true | _ => false))
    | _ => M.stuck
  | .isNot =>
    match b with
    | .none => M.pure (.bool (match a with | .none => false | _ => true))
    | _ => M.stuck
  | .mem => do
    let vs ← memberVals P b
    let r ← memList a vs
    M.pure (.bool r)
  | .notMem => do
    let vs ← memberVals P b
    let r ← memList a vs
    M.pure (.bool (!r))

/-! ## Attributes and calls -/

/-- Attribute of a class, or of an instance that does not have it itself; `self` is what a method is bound to. -/
def classAttr (P : Prog) (call : CallT) (c a : Ident) (self : Val) : M Val :=
  match findMember P c a with
  | some (_, .method f) => M.pure (.bound f self)
  | some (_, .clsMethod f) => M.pure (.bound f (.cls c))
  | some (_, .static f) => M.pure (.fn f)
  | some (_, .prop f) => M.call call f [self]
  | some (b, .value (.dict _ _)) => M.pure (.stat b a)
  | some (b, .value (.list _)) => M.pure (.stat b a)
  | some (b, .value e) => M.ofOption (staticVal P b e)
  | none => M.throw n!"AttributeError"

/-- Value of a global name. -/
def globalVal : Global → Val
  | .cls c => .cls c
  | .fn f => .fn f
  | .builtin b => .builtin b
  | .modul names => .modul names
  | .logger => .logger
  | .const c => c.val

/-- `v.a`. -/
def getAttr (P : Prog) (call : CallT) (v : Val) (a : Ident) : M Val :=
  match v with
  | .ref r => do
    match ← M.read r with
    | .inst c fs =>
      match fs.lookup a with
      | some x => M.pure x
      | none => if a = n!"__class__" then M.pure (.cls c) else classAttr P call c a v
    | _ => M.pure (.bmeth v a)
  | .cls c =>
    match findMember P c a with
    | some (_, .method f) => M.pure (.fn f)
    | _ => classAttr P call c a v
  | .modul names =>
    if names.contains a then
      match P.globals.lookup a with
      | some g => M.pure (globalVal g)
      | none => M.stuck
    else M.stuck
  | .field n => if a = n!"name" then M.pure (.ident n) else M.stuck
  | .exc _ => if a = n!"args" then M.pure (.tup [.text]) else M.pure (.bmeth v a)
  | .stat _ _ => M.pure (.bmeth v a)
  | .logger => M.pure (.bmeth v a)
  | .super => M.pure (.bmeth v a)
  | .builtin b =>
    match b, a with
    | n!"math", n!"floor" => M.pure (.builtin n!"math.floor")
    | n!"copy", n!"deepcopy" => M.pure (.builtin n!"copy.deepcopy")
    | n!"bytes", n!"fromhex" => M.pure (.builtin n!"bytes.fromhex")
    | _, _ => M.stuck
  | .int _ => M.pure (.bmeth v a)
  | .str _ => M.pure (.bmeth v a)
  | .bytes _ => M.pure (.bmeth v a)
  | _ => M.stuck

/-- `v.a = x`; the object must be an instance. -/
def setAttr (v : Val) (a : Ident) (x : Val) : M Unit :=
  match v with
  | .ref r => do
    match ← M.read r with
    | .inst c fs => M.write r (.inst c (M.bindKey fs a x))
    | _ => M.stuck
  | _ => M.stuck

/-- `v[i] = x` for a dictionary, and for a list with an index in it. -/
def setIndex (v i x : Val) : M Unit :=
  match v with
  | .ref r => do
    match ← M.read r with
    | .dict d => M.write r (.dict (dictSet d i x))
    | _ => M.stuck
  | _ => M.stuck

/-- `del v[i]` for a dictionary. -/
def delIndex (v i : Val) : M Unit :=
  match v with
  | .ref r => do
    match ← M.read r with
    | .dict d =>
      match dictGet d i with
      | some _ => M.write r (.dict (dictDel d i))
      | none => M.throw n!"KeyError"
    | _ => M.stuck
  | _ => M.stuck

/-- Whether a value is an instance of one of the classes. -/
def isInstance (P : Prog) (v : Val) (cs : List Val) : M Bool :=
  match v with
  | .ref a => do
    match ← M.read a with
    | .inst c _ => M.pure (cs.any (fun x => match x with | .cls b => subclass P c b | _ => false))
    | _ => M.stuck
  | .none => M.pure false
  | _ => M.stuck

/-- Whether a value is a number, a text, `bytes` or `None`, which `deepcopy` does not copy; a tuple of such values is not copied either. -/
def immediate : Val → Bool
  | .none => true
  | .bool _ => true
  | .int _ => true
  | .flt _ => true
  | .str _ => true
  | .bytes _ => true
  | .tup vs => vs.all (fun v => match v with
    | .none => true
    | .bool _ => true
    | .int _ => true
    | .flt _ => true
    | .str _ => true
    | .bytes _ => true
    | _ => false)
  | _ => false

/-- The addresses in the fields of an object. -/
def refsOf (fs : List (Ident × Val)) : List Nat := fs.filterMap (fun f => match f.2 with | .ref a => some a | _ => none)

/-- A field for the copy made by `deepcopy`: dictionaries of immediate values are copied. -/
def copyField (f : Ident × Val) : M (Ident × Val) :=
  match f.2 with
  | .ref a => do
    match ← M.read a with
    | .dict d =>
      if d.all (fun p => immediate p.1 && immediate p.2) then do
        let b ← M.alloc (.dict d)
        M.pure (f.1, .ref b)
      else M.stuck
    | _ => M.stuck
  | v => if immediate v then M.pure f else M.stuck

/-- `copy.deepcopy(v)` of an instance whose fields are immediate values or different dictionaries of such values. -/
def deepCopy (v : Val) : M Val :=
  match v with
  | .ref a => do
    match ← M.read a with
    | .inst c fs =>
      if (refsOf fs).Nodup then do
        let fs ← M.mapList copyField fs
        let b ← M.alloc (.inst c fs)
        M.pure (.ref b)
      else M.stuck
    | _ => M.stuck
  | _ => M.stuck

/-- The name of an identifier, from the last character on. -/
def nameChars : Nat → Nat → List Char → List Char
  | 0, _, acc => acc
  | fuel + 1, k, acc => if k = 0 then acc else nameChars fuel (k / 256) (Char.ofNat (k % 256) :: acc)

/-- The name of an identifier. -/
def nameOf (n : Ident) : String := String.ofList (nameChars 64 n.code [])

/-- Whether a class is a dataclass. -/
def isDataclass (P : Prog) (c : Ident) : Bool :=
  match P.classes.lookup c with
  | some d => d.isData
  | none => false

/-- An entry of `dataclasses.asdict` of an object with fields `fs`. -/
def dictEntry (fs : List (Ident × Val)) (f : Ident × Default) : M (Val × Val) :=
  match fs.lookup f.1 with
  | some v => do
    let w ← copyField (f.1, v)
    M.pure (.str (nameOf f.1), w.2)
  | none => M.throw n!"AttributeError"

/-- `dataclasses.asdict(v)` of a dataclass whose fields are immediate values or dictionaries of such values. -/
def asDict (P : Prog) (v : Val) : M Val :=
  match v with
  | .ref a => do
    match ← M.read a with
    | .inst c fs =>
      if isDataclass P c then do
        let kvs ← M.mapList (dictEntry fs) (dataFields P c)
        let b ← M.alloc (.dict kvs)
        M.pure (.ref b)
      else M.throw n!"TypeError"
    | _ => M.throw n!"TypeError"
  | _ => M.throw n!"TypeError"

/-- A key of a dictionary that is handed to `json.dumps`. -/
def jsonKey : Val → Option PyKey
  | .int i => some (.int i)
  | .str s => some (.str s)
  | _ => none

/-- What `json.dumps` is handed: the value with everything it refers to, at most `n` levels deep. -/
def jsonVal (h : Heap) : Nat → Val → Option PyVal
  | 0, _ => none
  | n + 1, v =>
    match v with
    | .none => some .none
    | .bool b => some (.bool b)
    | .int i => some (.int i)
    | .flt q => some (.flt q)
    | .str s => some (.str s)
    | .tup vs => (vs.mapM (jsonVal h n)).map .seq
    | .ref a =>
      match h[a]? with
      | some (.list vs) => (vs.mapM (jsonVal h n)).map .seq
      | some (.dict d) =>
        (d.mapM (fun p => (jsonKey p.1).bind (fun k => (jsonVal h n p.2).map (fun v => (k, v))))).map .dict
      | _ => none
    | _ => none

/-- `json.dumps(v, indent=i, allow_nan=True, ensure_ascii=False)` of a value that is made of numbers, texts, sequences and dictionaries. -/
def dumpJson (v i : Val) : M Val := fun s =>
  match jsonVal s.heap 8 v, i with
  | some j, .none => (.ok (.json j none), s)
  | some j, .int (.ofNat n) => (.ok (.json j (some n)), s)
  | _, _ => (.error .stuck, s)

/-- The elements of `range(a, b)`. -/
def rangeVals (a b : Int) : List Val := (List.range (b - a).toNat).map (fun (i : Nat) => .int (a + (i : Int)))

/-- `int(x)` and similar ones that are called with values of simple types. -/
def builtinFn (P : Prog) (b : Ident) (args : List Val) : M Val :=
  match b, args with
  | n!"int", [] => M.pure (.int 0)
  | n!"int", [.int i] => M.pure (.int i)
  | n!"int", [.str s, .int 16] => do
    let n ← M.ofPy errName (PyStr.int16 s.toList)
    M.pure (.int n)
  | n!"str", [] => M.pure (.str "")
  | n!"float", [.int i] => M.pure (.flt (rnd i))
  | n!"float", [.flt q] => M.pure (.flt q)
  | n!"len", [.bytes b] => M.pure (.int b.length)
  | n!"len", [.tup vs] => M.pure (.int vs.length)
  | n!"len", [.str s] => M.pure (.int s.toList.length)
  | n!"len", [v] => do
    match ← objOf P v with
    | .list vs => M.pure (.int vs.length)
    | .dict d => M.pure (.int d.length)
    | .set l => M.pure (.int l.length)
    | _ => M.stuck
  | n!"dict", [] => do
    let a ← M.alloc (.dict [])
    M.pure (.ref a)
  | n!"set", [] => do
    let a ← M.alloc (.set [])
    M.pure (.ref a)
  | n!"set", [v] => do
    let vs ← elements P v
    let a ← M.alloc (.set (setOf vs))
    M.pure (.ref a)
  | n!"range", [.int n] => M.pure (.tup (rangeVals 0 n))
  | n!"range", [.int a, .int b] => M.pure (.tup (rangeVals a b))
  | n!"tuple", [v] => do
    let vs ← elements P v
    M.pure (.tup vs)
  | n!"enumerate", [v, .int k] => do
    let vs ← elements P v
    M.pure (.tup ((vs.zipIdx).map (fun p => .tup [.int (k + (p.2 : Int)), p.1])))
  | n!"hex", [.int (.ofNat n)] => M.pure (.str (PyStr.hex n))
  | n!"bytes", [v] => do
    let vs ← elements P v
    let ns ← M.mapList (fun v => match v with | .int (.ofNat n) => M.pure n | _ => M.stuck) vs
    let b ← M.ofPy errName (PyStr.toBytes ns)
    M.pure (.bytes b)
  | n!"bytes.fromhex", [.str "D3"] => M.pure (.bytes [0xD3])
  | n!"next", [.ref a] => do
    match ← M.read a with
    | .iter (v :: vs) => do
      M.write a (.iter vs)
      M.pure v
    | .iter [] => M.throw n!"StopIteration"
    | _ => M.stuck
  | n!"isinstance", [v, .tup cs] => do
    let r ← isInstance P v cs
    M.pure (.bool r)
  | n!"isinstance", [v, c] => do
    let r ← isInstance P v [c]
    M.pure (.bool r)
  | n!"type", [.ref a] => do
    match ← M.read a with
    | .inst c _ => M.pure (.cls c)
    | _ => M.stuck
  | n!"type", [.exc c] => M.pure (.cls c)
  | n!"super", [] => M.pure .super
  | n!"math.floor", [.flt q] => M.pure (.int q.floor)
  | n!"copy.deepcopy", [v] => deepCopy v
  | n!"asdict", [v] => asDict P v
  | n!"json.dumps", [v, i] => dumpJson v i
  | n!"fields", [.cls c] => M.pure (.tup ((dataFields P c).map (fun f => .field f.1)))
  | n!"setattr", [v, .ident a, x] => do
    setAttr v a x
    M.pure .none
  | _, _ => M.stuck

/-- Position of the first element that satisfies a condition, from a position on. -/
def findFrom (p : UInt8 → Bool) (b : List UInt8) (i : Nat) : Int :=
  match (b.drop i).findIdx? p with
  | some j => ((i + j : Nat) : Int)
  | none => -1

/-- Methods of builtin types. -/
def builtinMeth (P : Prog) (v : Val) (m : Ident) (args : List Val) : M Val :=
  match v, m, args with
  | .logger, _, _ => M.pure .none
  | .super, n!"__init__", [] => M.pure .none
  | .exc _, n!"process", [] => M.pure .none
  | .int (.ofNat n), n!"bit_count", [] => M.pure (.int (Nat.digits 2 n).sum)
  | .str s, n!"strip", [] => M.pure (.str (PyStr.strip s))
  | .str s, n!"split", [.str " "] => do
    let a ← M.alloc (.list ((PyStr.splitBlank s.toList).map (fun w => .str (String.ofList w))))
    M.pure (.ref a)
  | .bytes b, n!"decode", [.str "utf-8"] => do
    let s ← M.ofPy errName (PyStr.utf8Decode b)
    M.pure (.str s)
  | .bytes b, n!"find", [.bytes [x], .int (.ofNat i)] => M.pure (.int (findFrom (· == x) b i))
  | .bytes [], n!"join", [l] => do
    let vs ← elements P l
    let bs ← M.mapList (fun v => match v with | .bytes b => M.pure b | _ => M.stuck) vs
    M.pure (.bytes bs.flatten)
  | .ref a, m, args => do
    match ← M.read a, m, args with
    | .dict d, n!"update", [.ref b] => do
      match ← M.read b with
      | .dict e => do
        M.write a (.dict (e.foldl (fun d p => dictSet d p.1 p.2) d))
        M.pure .none
      | _ => M.stuck
    | .dict d, n!"keys", [] => M.pure (.tup (d.map (·.1)))
    | .dict d, n!"values", [] => M.pure (.tup (d.map (·.2)))
    | .dict d, n!"items", [] => M.pure (.tup (d.map (fun p => .tup [p.1, p.2])))
    | .dict d, n!"get", [k] => M.pure ((dictGet d k).getD .none)
    | .dict _, n!"fromkeys", [l, v] => do
      let ks ← elements P l
      let b ← M.alloc (.dict (ks.foldl (fun d k => dictSet d k v) []))
      M.pure (.ref b)
    | .list l, n!"append", [x] => do
      M.write a (.list (l ++ [x]))
      M.pure .none
    | _, _, _ => M.stuck
  | .stat c a, m, args => do
    match ← M.ofOption (staticObj P c a), m, args with
    | .dict d, n!"get", [k] => M.pure ((dictGet d k).getD .none)
    | .dict d, n!"keys", [] => M.pure (.tup (d.map (·.1)))
    | _, _, _ => M.stuck
  | _, _, _ => M.stuck

/-- The value of a field of a new object of a dataclass. -/
def fieldVal (f : Ident × Default) : M (Ident × Val) :=
  match f.2 with
  | .const c => M.pure (f.1, c.val)
  | .emptyDict => do
    let a ← M.alloc (.dict [])
    M.pure (f.1, .ref a)

/-- `C(…)`. -/
def construct (P : Prog) (call : CallT) (c : Ident) (args : List Val) : M Val :=
  match P.classes.lookup c with
  | none => M.stuck
  | some d =>
    if d.isExc then M.pure (.exc c)
    else if d.isData then
      match args with
      | [] => do
        let a ← M.alloc (.inst c [])
        let fs ← M.mapList fieldVal (dataFields P c)
        M.write a (.inst c fs)
        match findMember P c n!"__post_init__" with
        | some (_, .method f) => do
          let _ ← M.call call f [.ref a]
          M.pure (.ref a)
        | _ => M.pure (.ref a)
      | _ => M.stuck
    else do
      let a ← M.alloc (.inst c [])
      match findMember P c n!"__init__" with
      | some (_, .method f) => do
        let _ ← M.call call f (.ref a :: args)
        M.pure (.ref a)
      | _ => if args.isEmpty then M.pure (.ref a) else M.stuck

/-- `v(…)`. -/
def callVal (P : Prog) (call : CallT) (v : Val) (args : List Val) : M Val :=
  match v with
  | .fn f => M.call call f args
  | .bound f self => M.call call f (self :: args)
  | .cls c => construct P call c args
  | .builtin b =>
    if b == n!"getattr" then
      match args with
      | [v, .ident a] => getAttr P call v a
      | [v, .str a] => getAttr P call v ⟨codeOf a⟩
      | _ => M.stuck
    else builtinFn P b args
  | .bmeth self m => builtinMeth P self m args
  | _ => M.stuck

/-- A dictionary from keys and values: later values replace earlier ones. -/
def makeDict (ks vs : List Val) : List (Val × Val) := (ks.zip vs).foldl (fun d p => dictSet d p.1 p.2) []

/-! ## Expressions -/

/-- The elements of a comprehension. -/
def compLoop (x : Ident) (cond : M Bool) (elt : M Val) : List Val → M (List Val)
  | [] => M.pure []
  | v :: vs => do
    M.setLoc x v
    if ← cond then do
      let r ← elt
      let rs ← compLoop x cond elt vs
      M.pure (r :: rs)
    else compLoop x cond elt vs

mutual
/-- The value of an expression. -/
def eval (P : Prog) (call : CallT) : Expr → M Val
  | .const c => M.pure c.val
  | .name x => do
    match ← M.getLoc x with
    | some v => M.pure v
    | none =>
      match P.globals.lookup x with
      | some g => M.pure (globalVal g)
      | none => M.throw n!"NameError"
  | .attr e a => do
    let v ← eval P call e
    getAttr P call v a
  | .call f args => do
    let v ← eval P call f
    let vs ← evalList P call args
    callVal P call v vs
  | .callStar f x => do
    let v ← eval P call f
    match ← M.getLoc x with
    | some (.tup vs) => callVal P call v vs
    | _ => M.stuck
  | .bin op l r => do
    let a ← eval P call l
    let b ← eval P call r
    binOp op a b
  | .neg e => do
    match ← eval P call e with
    | .int i => M.pure (.int (-i))
    | .flt q => M.pure (.flt (-q))
    | _ => M.stuck
  | .not e => do
    let v ← eval P call e
    let b ← truth P v
    M.pure (.bool (!b))
  | .cmp op l r => do
    let a ← eval P call l
    let b ← eval P call r
    cmpOp P op a b
  | .and l r => do
    let a ← eval P call l
    if ← truth P a then eval P call r else M.pure a
  | .or l r => do
    let a ← eval P call l
    if ← truth P a then M.pure a else eval P call r
  | .ite c a b => do
    let v ← eval P call c
    if ← truth P v then eval P call a else eval P call b
  | .tuple es => do
    let vs ← evalList P call es
    M.pure (.tup vs)
  | .list es => do
    let vs ← evalList P call es
    let a ← M.alloc (.list vs)
    M.pure (.ref a)
  | .dict ks vs => do
    let ks ← evalList P call ks
    let vs ← evalList P call vs
    let a ← M.alloc (.dict (makeDict ks vs))
    M.pure (.ref a)
  | .index e i => do
    let v ← eval P call e
    let i ← eval P call i
    indexVal P v i
  | .slice e lo hi => do
    let v ← eval P call e
    let lo ← eval P call lo
    let hi ← eval P call hi
    sliceVal v lo hi
  | .gen elt x iter cond => do
    let v ← eval P call iter
    let vs ← elements P v
    let rs ← M.inScope (compLoop x (do let c ← eval P call cond; truth P c) (eval P call elt) vs)
    let a ← M.alloc (.iter rs)
    M.pure (.ref a)
  | .listComp elt x iter cond => do
    let v ← eval P call iter
    let vs ← elements P v
    let rs ← M.inScope (compLoop x (do let c ← eval P call cond; truth P c) (eval P call elt) vs)
    let a ← M.alloc (.list rs)
    M.pure (.ref a)
  | .dictComp k v x iter => do
    let it ← eval P call iter
    let vs ← elements P it
    let rs ← M.inScope (compLoop x (M.pure true)
      (do
        let a ← eval P call k
        let b ← eval P call v
        M.pure (.tup [a, b])) vs)
    let kvs ← M.mapList (fun v => match v with | .tup [a, b] => M.pure (a, b) | _ => M.stuck) rs
    let a ← M.alloc (.dict (kvs.foldl (fun d p => dictSet d p.1 p.2) []))
    M.pure (.ref a)
  | .fstr es => do
    let _ ← evalList P call es
    M.pure .text
/-- The values of expressions, from left to right. -/
def evalList (P : Prog) (call : CallT) : List Expr → M (List Val)
  | [] => M.pure []
  | e :: es => do
    let v ← eval P call e
    let vs ← evalList P call es
    M.pure (v :: vs)
end

/-! ## Statements -/

/-- How a statement ends if it does not raise. -/
inductive Flow where
  | next
  | brk
  | cont
  | ret (v : Val)

/-- Assignment to a target. -/
def assign (P : Prog) (call : CallT) (t : Target) (x : Val) : M Unit :=
  match t with
  | .name y => M.setLoc y x
  | .attr e a => do
    let v ← eval P call e
    setAttr v a x
  | .index e i => do
    let v ← eval P call e
    let i ← eval P call i
    setIndex v i x

/-- Assignments one after the other. -/
def assignAll (P : Prog) (call : CallT) : List Target → List Val → M Unit
  | [], [] => M.pure ()
  | t :: ts, v :: vs => do
    assign P call t v
    assignAll P call ts vs
  | _, _ => M.throw n!"ValueError"

/-- `t op= e`: the parts of the target are evaluated once; `value` is the right side. -/
def augAssign (P : Prog) (call : CallT) (t : Target) (op : BinOp) (value : M Val) : M Unit :=
  match t with
  | .name y => do
    match ← M.getLoc y with
    | some v => do
      let x ← value
      let r ← binOp op v x
      M.setLoc y r
    | none => M.throw n!"UnboundLocalError"
  | .attr e a => do
    let v ← eval P call e
    let old ← getAttr P call v a
    let x ← value
    let r ← binOp op old x
    setAttr v a r
  | .index e i => do
    let v ← eval P call e
    let i ← eval P call i
    let old ← indexVal P v i
    let x ← value
    let r ← binOp op old x
    setIndex v i r

/-- `for`: the body for each element, then the `else` branch unless the loop is left. -/
def forLoop (set : Val → M Unit) (body orelse : M Flow) : List Val → M Flow
  | [] => orelse
  | v :: vs => do
    set v
    match ← body with
    | .next => forLoop set body orelse vs
    | .cont => forLoop set body orelse vs
    | .brk => M.pure .next
    | .ret r => M.pure (.ret r)

/-- `while`, at most `n` rounds. -/
def whileLoop (cond : M Bool) (body orelse : M Flow) : Nat → M Flow
  | 0 => M.raise .diverge
  | n + 1 => do
    if ← cond then
      match ← body with
      | .next => whileLoop cond body orelse n
      | .cont => whileLoop cond body orelse n
      | .brk => M.pure .next
      | .ret r => M.pure (.ret r)
    else orelse

/-- The classes of the library that an exception of the library is an instance of. -/
def libraryMro (c : Ident) : List Ident :=
  match c with
  | n!"IndexError" => [n!"IndexError", n!"LookupError", n!"Exception"]
  | n!"KeyError" => [n!"KeyError", n!"LookupError", n!"Exception"]
  | n!"ZeroDivisionError" => [n!"ZeroDivisionError", n!"ArithmeticError", n!"Exception"]
  | n!"UnicodeDecodeError" => [n!"UnicodeDecodeError", n!"UnicodeError", n!"ValueError", n!"Exception"]
  | n!"UnboundLocalError" => [n!"UnboundLocalError", n!"NameError", n!"Exception"]
  | n!"NotImplementedError" => [n!"NotImplementedError", n!"RuntimeError", n!"Exception"]
  | c => [c, n!"Exception"]

/-- Whether `except b` catches an exception of class `c`. -/
def catches (P : Prog) (c b : Ident) : Bool :=
  match P.classes.lookup c with
  | some d => d.mro.contains b || b == n!"Exception"
  | none => (libraryMro c).contains b

mutual
/-- The effect of a statement; `n` bounds the rounds of `while`. -/
def exec (P : Prog) (n : Nat) (call : CallT) : Stmt → M Flow
  | .expr e => do
    let _ ← eval P call e
    M.pure .next
  | .assign t e => do
    let v ← eval P call e
    assign P call t v
    M.pure .next
  | .unpack ts e => do
    match ← eval P call e with
    | .tup vs => do
      assignAll P call ts vs
      M.pure .next
    | _ => M.stuck
  | .aug t op e => do
    augAssign P call t op (eval P call e)
    M.pure .next
  | .ret e => do
    let v ← eval P call e
    M.pure (.ret v)
  | .raise e => do
    match ← eval P call e with
    | .exc c => M.throw c
    | _ => M.stuck
  | .ite c a b => do
    let v ← eval P call c
    if ← truth P v then execBlock P n call a else execBlock P n call b
  | .for x it body orelse => do
    let v ← eval P call it
    let vs ← elements P v
    forLoop (assign P call x) (execBlock P n call body) (execBlock P n call orelse) vs
  | .while c body orelse =>
    whileLoop (do let v ← eval P call c; truth P v) (execBlock P n call body) (execBlock P n call orelse) n
  | .try body handlers orelse => fun s =>
    match execBlock P n call body s with
    | (.ok .next, s) => execBlock P n call orelse s
    | (.error (.py c), s) => handle P n call handlers c s
    | r => r
  | .del e i => do
    let v ← eval P call e
    let i ← eval P call i
    delIndex v i
    M.pure .next
  | .pass => M.pure .next
  | .brk => M.pure .brk
  | .cont => M.pure .cont
/-- Statements one after the other. -/
def execBlock (P : Prog) (n : Nat) (call : CallT) : List Stmt → M Flow
  | [] => M.pure .next
  | st :: sts => do
    match ← exec P n call st with
    | .next => execBlock P n call sts
    | f => M.pure f
/-- The first handler that catches an exception of class `c`; without one it is raised again. -/
def handle (P : Prog) (n : Nat) (call : CallT) : List Handler → Ident → M Flow
  | [], c => M.throw c
  | .mk b x body :: hs, c =>
    if catches P c b then do
      match x with
      | some x => M.setLoc x (.exc c)
      | none => M.pure ()
      execBlock P n call body
    else handle P n call hs c
end

/-! ## Functions -/

/-- The local variables at the beginning of a call. -/
def bindArgs (d : FnDef) (args : List Val) : Option (List (Ident × Val)) :=
  if d.star then
    match d.params with
    | [p] => some [(p, .tup args)]
    | _ => none
  else
    let missing := d.params.length - args.length
    if args.length ≤ d.params.length ∧ missing ≤ d.defaults.length then
      some (d.params.zip (args ++ (d.defaults.drop (d.defaults.length - missing)).map (fun c => c.val)))
    else none

/-- Calls with fuel: `n` bounds the depth of calls and the number of rounds of `while`. -/
def callFn (P : Prog) : Nat → CallT
  | 0 => fun _ _ h => (.error .diverge, h)
  | n + 1 => fun f args h =>
    match P.fns.lookup f with
    | none => (.error .stuck, h)
    | some d =>
      match bindArgs d args with
      | none => (.error (.py n!"TypeError"), h)
      | some loc =>
        match execBlock P n (callFn P n) d.body ⟨loc, h⟩ with
        | (.ok (.ret v), s) => (.ok v, s.heap)
        | (.ok .next, s) => (.ok .none, s.heap)
        | (.ok _, s) => (.error .stuck, s.heap)
        | (.error e, s) => (.error e, s.heap)

/-- The call of a function with arguments in a heap ends with a result and a heap: it does with all fuel that is large enough. -/
def Runs (P : Prog) (f : Ident) (args : List Val) (h : Heap) (r : Except Exc Val × Heap) : Prop :=
  ∃ N, ∀ n, N ≤ n → callFn P n f args h = r

end PyCore
end Verif
