import Verif.Spec.CRC

/-!
# Specification of an RTCM3 transport frame

`0xD3`, six zero bits, ten bits payload length, payload, 24 bits CRC-24Q over everything before.
-/

namespace Verif
namespace Spec

/-- The ten-bit length field (of a frame whose reserved bits are zero). -/
def payloadLen (f : List UInt8) : Nat := 256 * (f.getD 1 0).toNat + (f.getD 2 0).toNat

/-- A complete valid RTCM3 frame. -/
structure ValidFrame (f : List UInt8) : Prop where
  sync : f[0]? = some 0xD3
  reserved : (f.getD 1 0).toNat < 4
  length : f.length = payloadLen f + 6
  crc : natOfBits (bitsOf (f.drop (f.length - 3))) = crc24q (f.take (f.length - 3))

instance (f : List UInt8) : Decidable (ValidFrame f) :=
  decidable_of_iff (f[0]? = some 0xD3 ∧ (f.getD 1 0).toNat < 4 ∧ f.length = payloadLen f + 6 ∧
    natOfBits (bitsOf (f.drop (f.length - 3))) = crc24q (f.take (f.length - 3)))
    ⟨fun ⟨a, b, c, d⟩ => ⟨a, b, c, d⟩, fun ⟨a, b, c, d⟩ => ⟨a, b, c, d⟩⟩

/-- The three CRC bytes, most significant first. -/
def crcBytes (c : Nat) : List UInt8 :=
  [UInt8.ofNat (c / 65536), UInt8.ofNat (c / 256), UInt8.ofNat c]

/-- The frame that carries the given payload. -/
def frame (payload : List UInt8) : List UInt8 :=
  let body := 0xD3 :: UInt8.ofNat (payload.length / 256) :: UInt8.ofNat payload.length :: payload
  body ++ crcBytes (crc24q body)

/-- Error pattern between two byte strings of equal length, as a bit string. -/
def diffBits (f g : List UInt8) : List Bool := List.zipWith (fun a b => a != b) (bitsOf f) (bitsOf g)

/-- All errors lie within `n` consecutive bits. -/
def IsBurst (n : Nat) (e : List Bool) : Prop :=
  ∃ i, ∀ j, e[j]? = some true → i ≤ j ∧ j < i + n

end Spec
end Verif
