import Verif.Model.Compare

/-!
# When two Python values agree

The specification looks at values node by node: a path of list positions and dictionary keys (names of fields count as keys) leads to
a node, and two values agree if on every path they have nodes of the same kind, with equal numbers and texts and floats that are close.
-/

namespace Verif
namespace Spec
open Cmp

/-- One step into a value. -/
inductive Step where
  | index (n : Nat)
  | key (k : PyKey)

/-- The node that a step leads to. -/
def child : Val → Step → Option Val
  | .list l, .index n => l[n]?
  | .tuple l, .index n => l[n]?
  | .dict d, .key k => List.lookup k d
  | .obj _ fs, .key (.str s) => List.lookup s fs
  | _, _ => none

/-- The node that a path leads to. -/
def nodeAt (v : Val) : List Step → Option Val
  | [] => some v
  | s :: p => (child v s).bind (fun w => nodeAt w p)

/-- The same kind of node, with the same content if it is a leaf; `close` is the relation required of floats. A truth value agrees
with the number 0 or 1 as well, as `True == 1` in Python. -/
def SameNode (close : Fl → Fl → Prop) : Option Val → Option Val → Prop
  | none, none => True
  | some (.int i), some (.int j) => i = j
  | some (.bool b), some (.bool c) => b = c
  | some (.bool b), some (.int j) => j = if b then 1 else 0
  | some (.str s), some (.str t) => s = t
  | some (.flt x), some (.flt y) => close x y
  | some (.list _), some (.list _) => True
  | some (.tuple _), some (.tuple _) => True
  | some (.dict _), some (.dict _) => True
  | some (.obj _ _), some (.obj _ _) => True
  | some (.dict _), some (.obj _ _) => True
  | some (.obj _ _), some (.dict _) => True
  | _, _ => False

/-- `x` agrees with `y` on every path. In particular the same paths exist in both, so lists have the same length and dictionaries the
same keys. -/
def Agree (close : Fl → Fl → Prop) (x y : Val) : Prop := ∀ p, SameNode close (nodeAt x p) (nodeAt y p)

/-- Relative tolerance with respect to the second number; absolute tolerance if that number is as small as the tolerance itself. Two
undefined numbers are close. -/
def RelClose (tol : Rat) : Fl → Fl → Prop
  | .nan, .nan => True
  | .fin a, .fin b => if |b| > tol then |b - a| < tol * |b| else |b - a| < tol
  | _, _ => False

/-- A float occurs in `v`. -/
def Occurs (x : Rat) (v : Val) : Prop := ∃ p, nodeAt v p = some (.flt (.fin x))

/-- Properties of the values of a program: no `None`, no infinite number, and every dictionary has each key once. -/
structure Plain (v : Val) : Prop where
  noNone : ∀ p, nodeAt v p ≠ some .none
  noInf : ∀ p s, nodeAt v p ≠ some (.flt (.inf s))
  keys : ∀ p d, nodeAt v p = some (.dict d) → (d.map Prod.fst).Nodup
  names : ∀ p c fs, nodeAt v p = some (.obj c fs) → (fs.map Prod.fst).Nodup

/-- No attribute of the object is an object itself. -/
def NoNested : Val → Prop
  | .obj _ fs => ∀ q ∈ fs, isDataclass q.2 = false
  | _ => True

/-- The names of the attributes of `y` are attributes of `x`: so it is for objects of the same class, and if the class of `x` is
derived from the class of `y`. -/
def Inherits : Val → Val → Prop
  | .obj _ fs, .obj _ gs => ∀ s, (List.lookup s gs).isSome → (List.lookup s fs).isSome
  | _, _ => True

end Spec
end Verif
