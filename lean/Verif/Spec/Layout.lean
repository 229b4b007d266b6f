import Verif.Spec.Bits

/-!
# Specification of fixed field layouts

A message layout is a list of fields. A field has a kind and a width; reserved fields carry no value.
-/

namespace Verif
namespace Spec

/-- How the bits of a field denote a number. -/
inductive Kind where
  /-- unsigned -/
  | u
  /-- two's complement -/
  | s
  /-- sign-magnitude -/
  | sm
  /-- reserved, no value -/
  | res
  deriving DecidableEq

/-- A field: kind and width in bits. -/
structure Field where
  kind : Kind
  width : Nat
  deriving DecidableEq

/-- unsigned field -/
abbrev U (w : Nat) : Field := ⟨.u, w⟩
/-- two's complement field -/
abbrev S (w : Nat) : Field := ⟨.s, w⟩
/-- sign-magnitude field -/
abbrev M (w : Nat) : Field := ⟨.sm, w⟩
/-- reserved bits -/
abbrev R (w : Nat) : Field := ⟨.res, w⟩

/-- The number denoted by the bits of a field. -/
def Field.value (f : Field) (bits : List Bool) : Int :=
  match f.kind with
  | .u => natOfBits bits
  | .s => intOfBits bits
  | .sm => smOfBits bits
  | .res => 0

/-- The values representable in a field. -/
def Field.Fits (f : Field) (v : Int) : Prop :=
  match f.kind with
  | .u => 0 ≤ v ∧ v < 2 ^ f.width
  | .s => 0 < f.width ∧ -(2 ^ (f.width - 1)) ≤ v ∧ v < 2 ^ (f.width - 1)
  | .sm => 0 < f.width ∧ -(2 ^ (f.width - 1)) < v ∧ v < 2 ^ (f.width - 1)
  | .res => False

instance (f : Field) (v : Int) : Decidable (f.Fits v) := by
  unfold Field.Fits; split <;> infer_instance

/-- The code of a value. -/
def Field.code (f : Field) (v : Int) : List Bool :=
  match f.kind with
  | .u => bitsOfNat f.width v.toNat
  | .s => bitsOfNat f.width (twosCode f.width v)
  | .sm => bitsOfNat f.width (smCode f.width v)
  | .res => []

/-- Total width of a layout. -/
def layoutWidth : List Field → Nat
  | [] => 0
  | f :: L => f.width + layoutWidth L

/-- The values denoted by a bit string that starts with the fields of a layout. -/
def readAll : List Field → List Bool → List Int
  | [], _ => []
  | f :: L, bits =>
    if f.kind = .res then readAll L (bits.drop f.width)
    else f.value (bits.take f.width) :: readAll L (bits.drop f.width)

/-- `Encodes L vs bits`: `bits` is an encoding of the values `vs` with layout `L` (with any reserved bits). -/
def Encodes : List Field → List Int → List Bool → Prop
  | [], vs, bits => vs = [] ∧ bits = []
  | f :: L, vs, bits =>
    if f.kind = .res then ∃ p rest, p.length = f.width ∧ bits = p ++ rest ∧ Encodes L vs rest
    else ∃ v vs' rest, vs = v :: vs' ∧ f.Fits v ∧ bits = f.code v ++ rest ∧ Encodes L vs' rest

/-- Every value is in the range of its field. -/
def FitsAll : List Field → List Int → Prop
  | [], vs => vs = []
  | f :: L, vs => if f.kind = .res then FitsAll L vs else ∃ v vs', vs = v :: vs' ∧ f.Fits v ∧ FitsAll L vs'

/-- The encoding with reserved bits zero. -/
def encode : List Field → List Int → List Bool
  | [], _ => []
  | f :: L, vs =>
    if f.kind = .res then List.replicate f.width false ++ encode L vs
    else match vs with
      | [] => []
      | v :: vs => f.code v ++ encode L vs

end Spec
end Verif
