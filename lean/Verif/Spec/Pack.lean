import Verif.Spec.Frame
import Verif.Spec.Layout

/-!
# Specification of an encoder

Bits are packed into bytes, the last byte is filled up with zeros; the bytes are the payload of a frame.
-/

namespace Verif
namespace Spec

/-- The first `n` bytes of a bit string. -/
def bytesOfBits : Nat → List Bool → List UInt8
  | 0, _ => []
  | n + 1, bits => UInt8.ofNat (natOfBits (bits.take 8)) :: bytesOfBits n (bits.drop 8)

/-- Bits as bytes, filled up with zeros. -/
def packBits (bits : List Bool) : List UInt8 :=
  bytesOfBits ((bits.length + 7) / 8) (bits ++ List.replicate (8 * ((bits.length + 7) / 8) - bits.length) false)

/-- The frame that carries the given field values. -/
def messageFrame (L : List Field) (vs : List Int) : List UInt8 := frame (packBits (encode L vs))

end Spec
end Verif
