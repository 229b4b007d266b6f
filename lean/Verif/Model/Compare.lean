import Verif.Model.Dict
import Verif.Model.Py
import Verif.Model.PyVal
import Mathlib.Data.Rat.Defs
import Mathlib.Algebra.Order.Ring.Rat

/-!
# Model of gnss_types/data_class_methods.py

Values are trees: no object contains itself. Every object is an instance of a dataclass, and its fields are listed in the order of
`dataclasses.fields`. Floats are exact: the subtraction and the division of `__compare` are not rounded.
-/

namespace Verif
namespace Cmp

/-- A Python float. Cases: gnss_types/data_class_methods.py:66-78. -/
inductive Fl where
  | nan
  | inf (negative : Bool)
  | fin (x : Rat)
  deriving DecidableEq

/-- Python values. An object is given by the name of its class and by its fields.
Cases: gnss_types/data_class_methods.py:56-96. -/
inductive Val where
  | none
  | bool (b : Bool)
  | int (i : Int)
  | flt (x : Fl)
  | str (s : String)
  | list (l : List Val)
  | tuple (l : List Val)
  | dict (d : List (PyKey × Val))
  | obj (cls : String) (fields : List (String × Val))

/-- The classes of a program: proper base classes of a class, and whether it is derived from `DataClassMethods`.
Used in gnss_types/data_class_methods.py:56, 106, 116. -/
structure Classes where
  bases : String → List String
  methods : String → Bool

/-- `isinstance(a, type(b))`; `bool` is a subclass of `int`.
gnss_types/data_class_methods.py:56, 106. -/
def isInstanceOf (K : Classes) : Val → Val → Bool
  | .none, .none => true
  | .bool _, .bool _ => true
  | .bool _, .int _ => true
  | .int _, .int _ => true
  | .flt _, .flt _ => true
  | .str _, .str _ => true
  | .list _, .list _ => true
  | .tuple _, .tuple _ => true
  | .dict _, .dict _ => true
  | .obj c _, .obj d _ => c == d || (K.bases c).contains d
  | _, _ => false

/-- `is_dataclass(a)`. gnss_types/data_class_methods.py:59, 115. -/
def isDataclass : Val → Bool
  | .obj _ _ => true
  | _ => false

mutual
/-- `dataclasses.asdict` applied to a value inside an object.
gnss_types/data_class_methods.py:60-61. -/
def asdict : Val → Val
  | .obj _ fs => .dict (asdictFields fs)
  | .list l => .list (asdictList l)
  | .tuple l => .tuple (asdictList l)
  | .dict d => .dict (asdictDict d)
  | .none => .none
  | .bool b => .bool b
  | .int i => .int i
  | .flt x => .flt x
  | .str s => .str s
/-- The elements of a list or tuple. gnss_types/data_class_methods.py:60-61. -/
def asdictList : List Val → List Val
  | [] => []
  | v :: vs => asdict v :: asdictList vs
/-- The items of a dictionary; the keys are numbers or texts and stay as they are.
gnss_types/data_class_methods.py:60-61. -/
def asdictDict : List (PyKey × Val) → List (PyKey × Val)
  | [] => []
  | (k, v) :: vs => (k, asdict v) :: asdictDict vs
/-- The fields of an object. gnss_types/data_class_methods.py:60-61. -/
def asdictFields : List (String × Val) → List (PyKey × Val)
  | [] => []
  | (k, v) :: vs => (.str k, asdict v) :: asdictFields vs
end

mutual
/-- Number of nodes, used for termination only. Recursion: gnss_types/data_class_methods.py:86, 92. -/
def size : Val → Nat
  | .obj _ fs => 1 + sizeFields fs
  | .list l => 1 + sizeList l
  | .tuple l => 1 + sizeList l
  | .dict d => 1 + sizeDict d
  | .none => 1
  | .bool _ => 1
  | .int _ => 1
  | .flt _ => 1
  | .str _ => 1
/-- Number of nodes. Recursion: gnss_types/data_class_methods.py:86, 92. -/
def sizeList : List Val → Nat
  | [] => 0
  | v :: vs => 2 + size v + sizeList vs
/-- Number of nodes. Recursion: gnss_types/data_class_methods.py:86, 92. -/
def sizeDict : List (PyKey × Val) → Nat
  | [] => 0
  | (_, v) :: vs => 2 + size v + sizeDict vs
/-- Number of nodes. Recursion: gnss_types/data_class_methods.py:86, 92. -/
def sizeFields : List (String × Val) → Nat
  | [] => 0
  | (_, v) :: vs => 2 + size v + sizeFields vs
end

mutual
theorem size_asdict : ∀ v, size (asdict v) = size v
  | .obj _ fs => by rw [asdict, size, size, size_fields fs]
  | .list l => by rw [asdict, size, size, size_list l]
  | .tuple l => by rw [asdict, size, size, size_list l]
  | .dict d => by rw [asdict, size, size, size_dict d]
  | .none => by rw [asdict]
  | .bool _ => by rw [asdict]
  | .int _ => by rw [asdict]
  | .flt _ => by rw [asdict]
  | .str _ => by rw [asdict]
theorem size_list : ∀ l, sizeList (asdictList l) = sizeList l
  | [] => by rw [asdictList]
  | v :: vs => by rw [asdictList, sizeList, sizeList, size_asdict v, size_list vs]
theorem size_dict : ∀ d, sizeDict (asdictDict d) = sizeDict d
  | [] => by rw [asdictDict]
  | (_, v) :: vs => by rw [asdictDict, sizeDict, sizeDict, size_asdict v, size_dict vs]
theorem size_fields : ∀ d, sizeDict (asdictFields d) = sizeFields d
  | [] => by rw [asdictFields, sizeDict, sizeFields]
  | (_, v) :: vs => by rw [asdictFields, sizeDict, sizeFields, size_asdict v, size_fields vs]
end

theorem size_get : ∀ (e : List (PyKey × Val)) (k : PyKey) (w : Val), PyDict.get? e k = some w → size w ≤ sizeDict e
  | [], k, w, h => by simp [PyDict.get?] at h
  | (k', v) :: vs, k, w, h => by
    rw [sizeDict]
    unfold PyDict.get? at h
    rw [List.lookup_cons] at h
    split at h
    · have : v = w := Option.some.inj h
      subst this
      omega
    · have := size_get vs k w h
      omega

/-- gnss_types/data_class_methods.py:67-80, floats. `math.fabs(B > f_tolerance)` is 1.0 or 0.0, so the condition is `B > f_tolerance`.
If one of the numbers is infinite then `diff` is infinite or not a number, and the result is false. -/
def compareFloat (tol : Rat) : Fl → Fl → Bool
  | .nan, .nan => true
  | .nan, _ => false
  | _, .nan => false
  | .fin a, .fin b => if b > tol then decide (|(b - a) / b| < tol) else decide (|b - a| < tol)
  | _, _ => false

/-- `A.keys() == B.keys()`. gnss_types/data_class_methods.py:82. -/
def sameKeys (d e : List (PyKey × Val)) : Bool :=
  d.all (fun p => PyDict.mem e p.1) && e.all (fun p => PyDict.mem d p.1)

mutual
/-- gnss_types/data_class_methods.py:47-98 `__compare`. -/
def compareVal (K : Classes) (tol : Rat) (A B : Val) : Py Bool :=
  if !isInstanceOf K A B then .ok false
  else
    match A, B with
    | .obj _ fa, .obj _ fb => compareDict K tol (asdictFields fa) (asdictFields fb)
    | .int i, .int j => .ok (decide (i = j))
    | .bool b, .bool c => .ok (decide (b = c))
    | .bool b, .int j => .ok (decide ((if b then 1 else 0) = j))
    | .str s, .str t => .ok (decide (s = t))
    | .flt x, .flt y => .ok (compareFloat tol x y)
    | .dict d, .dict e => compareDict K tol d e
    | .list l, .list m => compareSeq K tol l m
    | .tuple l, .tuple m => compareSeq K tol l m
    | _, _ => .error .typeError
termination_by size A + size B
decreasing_by all_goals simp only [size, size_fields]; omega
/-- The branch for dictionaries. gnss_types/data_class_methods.py:80-87. -/
def compareDict (K : Classes) (tol : Rat) (d e : List (PyKey × Val)) : Py Bool :=
  if !sameKeys d e then .ok false else compareItems K tol d e
termination_by sizeDict d + sizeDict e + 1
decreasing_by all_goals omega
/-- The loop over the keys. gnss_types/data_class_methods.py:85-87. -/
def compareItems (K : Classes) (tol : Rat) (d e : List (PyKey × Val)) : Py Bool :=
  match d with
  | [] => .ok true
  | (k, v) :: rest =>
    match he : PyDict.get? e k with
    | none => .error .keyError
    | some w => do
      let eq ← compareVal K tol v w
      if !eq then pure false else compareItems K tol rest e
termination_by sizeDict d + sizeDict e
decreasing_by
  · have := size_get _ _ _ he
    simp only [sizeDict]; omega
  · simp only [sizeDict]; omega
/-- `zip_longest` with `fillvalue=None`. gnss_types/data_class_methods.py:89-93. -/
def compareSeq (K : Classes) (tol : Rat) (l m : List Val) : Py Bool :=
  match l, m with
  | [], [] => .ok true
  | a :: as, b :: bs => do
    let eq ← compareVal K tol a b
    if !eq then pure false else compareSeq K tol as bs
  | a :: as, [] => do
    let eq ← compareVal K tol a .none
    if !eq then pure false else compareSeq K tol as []
  | [], b :: bs => do
    let eq ← compareVal K tol .none b
    if !eq then pure false else compareSeq K tol [] bs
termination_by sizeList l + sizeList m
decreasing_by all_goals simp only [sizeList, size]; omega
end

/-- gnss_types/data_class_methods.py:19 `DEF_FLOAT_CMP_TOLR` -/
def DEF_FLOAT_CMP_TOLR : Rat := 1 / 10 ^ 15

/-- `getattr(refs, key)`; only fields of dataclass objects are modelled.
gnss_types/data_class_methods.py:111. -/
def getattr (refs : Val) (key : String) : Py Val :=
  match refs with
  | .obj _ fs =>
    match PyDict.get? fs key with
    | some v => .ok v
    | none => .error .attributeError
  | _ => .error .attributeError

mutual
/-- gnss_types/data_class_methods.py:100-126 `compare`. The `except IndexError` of line 112 does not catch an `AttributeError`. -/
def compare (K : Classes) (self refs : Val) (tol : Rat := DEF_FLOAT_CMP_TOLR) : Py Bool :=
  if !isInstanceOf K self refs then .ok false
  else
    match self with
    | .obj _ fs => compareFields K fs refs tol
    | _ => .error .attributeError
/-- The loop over the fields. An attribute that is an object is compared by its own `compare`, with the default tolerance.
gnss_types/data_class_methods.py:109-126. -/
def compareFields (K : Classes) (fs : List (String × Val)) (refs : Val) (tol : Rat) : Py Bool :=
  match fs with
  | [] => .ok true
  | (key, value) :: rest =>
    getattr refs key >>= fun ref =>
      (match value with
        | .obj c fs' => if K.methods c then compare K (.obj c fs') ref DEF_FLOAT_CMP_TOLR else pure false
        | value => compareVal K tol value ref) >>= fun eq =>
        if !eq then pure false else compareFields K rest refs tol
end

end Cmp
end Verif
