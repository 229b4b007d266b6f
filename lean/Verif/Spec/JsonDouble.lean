import Verif.Spec.ContentJson
import Verif.Spec.Double

/-!
# JSON values in double precision
-/

namespace Verif
namespace Spec

/-- Largest error of the numbers in a member with a name; `none` if the name says nothing about it. Ranges [m]: 0.1 µm, rates [m/s] and
frequencies [MHz]: 1e-12, coordinates [m]: 20 nm, intervals [s] and code phase biases [m]: 2e-11, group delays of BeiDou [s]: 2^-51 of the
value. -/
def memberTolerance (name : List Char) : Option (Rat → Rat) :=
  if name = "rng".toList ∨ name = "phs".toList then some (fun _ => 1 / 10 ^ 7)
  else if name = "dpl".toList ∨ name = "signals".toList then some (fun _ => 1 / 10 ^ 12)
  else if name = "refPoint_X".toList ∨ name = "refPoint_Y".toList ∨ name = "refPoint_Z".toList ∨ name = "height".toList then
    some (fun _ => 2 / 10 ^ 8)
  else if name = "shedule".toList ∨ name = "correction".toList then some (fun _ => 2 / 10 ^ 11)
  else if name = "TGD1".toList ∨ name = "TGD2".toList then some (fun x => |x| / 2 ^ 51)
  else none

/-- `v'` is the JSON value `v` with numbers replaced by doubles that differ by at most the tolerance of the outermost member they are in that
has one. Everything else is the same: members and their order, texts, flags, integers, numbers in members without tolerance. -/
inductive NearJson (fr : Rat → List Char) : Option (Rat → Rat) → JV → JV → Prop
  | same {tol} (v : JV) : NearJson fr tol v v
  | num {tol : Rat → Rat} {x y : Rat} (h : Within (tol x) x y) : NearJson fr (some tol) (.num (fr x)) (.num (fr y))
  | item {tol} {v v' : JV} {l l' : List JV} (h : NearJson fr tol v v') (hl : NearJson fr tol (.arr l) (.arr l')) :
      NearJson fr tol (.arr (v :: l)) (.arr (v' :: l'))
  | member {tol} {k : List Char} {v v' : JV} {l l' : List (List Char × JV)} (h : NearJson fr (tol.or (memberTolerance k)) v v')
      (hl : NearJson fr tol (.obj l) (.obj l')) : NearJson fr tol (.obj ((k, v) :: l)) (.obj ((k, v') :: l'))

/-- The value holds the content in physical units, in double precision. -/
def Content.DoubleJson (fr : Rat → List Char) (hdr aux : Bool) (c : Content) (v : JV) : Prop :=
  ∃ v0, c.ScaledJson fr hdr aux v0 ∧ NearJson fr none v0 v

end Spec
end Verif
