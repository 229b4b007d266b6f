import Verif.Model.PyVal
import Verif.Spec.Json

/-!
# The JSON value of a Python value
-/

namespace Verif
namespace Spec

/-- Decimal text of an integer. -/
def decText (i : Int) : List Char := if i < 0 then '-' :: Nat.toDigits 10 i.natAbs else Nat.toDigits 10 i.natAbs

/-- Keys are strings in JSON. -/
def keyText : PyKey → List Char
  | .int i => decText i
  | .str s => s.toList

mutual
/-- The JSON value of a Python value; `fr` gives the text of a float. -/
def jv (fr : Rat → List Char) : PyVal → JV
  | .none => .null
  | .bool b => .bool b
  | .int i => .num (decText i)
  | .flt x => .num (fr x)
  | .str s => .str s.toList
  | .seq l => .arr (jvSeq fr l)
  | .dict d => .obj (jvDict fr d)
/-- elementwise -/
def jvSeq (fr : Rat → List Char) : List PyVal → List JV
  | [] => []
  | v :: vs => jv fr v :: jvSeq fr vs
/-- elementwise -/
def jvDict (fr : Rat → List Char) : List (PyKey × PyVal) → List (List Char × JV)
  | [] => []
  | p :: ps => jvItem fr p :: jvDict fr ps
/-- one item -/
def jvItem (fr : Rat → List Char) : PyKey × PyVal → List Char × JV
  | (k, v) => (keyText k, jv fr v)
end

end Spec
end Verif
