import Verif.Spec.CRC
import Mathlib.Algebra.Polynomial.Div
import Mathlib.Algebra.Field.ZMod

/-!
# CRC-24Q as a polynomial remainder over GF(2)
-/

namespace Verif
namespace Spec
open Polynomial

/-- The polynomial of a bit string, most significant coefficient first. -/
noncomputable def bitsPoly : List Bool → (ZMod 2)[X]
  | [] => 0
  | b :: bs => (if b then X ^ bs.length else 0) + bitsPoly bs

/-- The CRC-24Q generator
x^24+x^23+x^18+x^17+x^14+x^11+x^10+x^7+x^6+x^5+x^4+x^3+x+1. -/
noncomputable def genPoly : (ZMod 2)[X] :=
  X ^ 24 + X ^ 23 + X ^ 18 + X ^ 17 + X ^ 14 + X ^ 11 + X ^ 10 + X ^ 7 + X ^ 6 + X ^ 5 + X ^ 4
    + X ^ 3 + X + 1

end Spec
end Verif
