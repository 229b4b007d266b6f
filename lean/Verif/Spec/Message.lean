import Verif.Spec.Base
import Verif.Spec.BaseObj
import Verif.Spec.Eph
import Verif.Spec.MsmObj
import Verif.Spec.MsmScaled
import Verif.Model.Objects

/-!
# Messages of all kinds
-/

namespace Verif
namespace Spec
open Decoder

/-- Content of a message. -/
inductive Content where
  | eph (e : Eph.Obj Int)
  | base (m : BaseMsg)
  | msm (d : MsmData)

/-- Layout of the fields. -/
def Content.layout : Content → List Field
  | .eph e => fieldsOf (tableOf e)
  | .base m => m.layout
  | .msm d => d.layout

/-- Values of the fields. -/
def Content.vals : Content → List Int
  | .eph e => valsOf e
  | .base m => m.vals
  | .msm d => d.vals

/-- A content that can be sent: the number belongs to the type of the message, the values are in the range of their fields, masks and
columns of an MSM fit together, no message is announced twice in 1013, the message fits into a frame. -/
def Content.WellFormed (c : Content) : Prop :=
  FitsAll c.layout c.vals ∧ layoutWidth c.layout ≤ 8184 ∧
  match c with
  | .eph e => NumOk e
  | .base (.m1013 _ _ _ _ ann) => (ann.map (·.1)).Nodup
  | .base _ => True
  | .msm d => d.WF

/-- The frame of a content. -/
def Content.frame (c : Content) : List UInt8 := messageFrame c.layout c.vals

/-- Message number. -/
def Content.number : Content → Nat
  | .eph e => ephNum e
  | .base m => match m with
    | .m1005 .. => 1005
    | .m1006 .. => 1006
    | .m1007 .. => 1007
    | .m1008 .. => 1008
    | .m1033 .. => 1033
    | .m1013 .. => 1013
    | .m1029 .. => 1029
    | .m1230 .. => 1230
  | .msm d => d.number

/-- The object that holds the transmitted integers and bytes. -/
def Content.bareObj : Content → PyObj
  | .eph e => .eph (e.map .int)
  | .base m => .baseBare (Spec.bareObj m)
  | .msm d => .msmBare d.bareObj

/-- The object holds the content in physical units; texts are decoded. -/
def Content.Scaled (c : Content) (o : PyObj) : Prop :=
  match c with
  | .eph e => ∃ e' : Eph.Obj PyNum, ephNum e' = ephNum e ∧ valsOf e' = scaledVals (tableOf e) (valsOf e) ∧ o = .eph e'
  | .base m => ∃ f : List UInt8 → String, (∀ t ∈ m.texts, t ≠ [] ∧ IsUtf8Of t (f t)) ∧ o = .baseScaled (scaledObj f m)
  | .msm d => o = .msm d.scaledObj

end Spec
end Verif
