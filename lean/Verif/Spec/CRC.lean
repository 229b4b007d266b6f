import Verif.Spec.Bits

/-!
# Specification of CRC-24Q

Generator polynomial `0x1864CFB` (Qualcomm), initial value zero, bits most significant first.
`crcBit` is one clock of the usual shift register. In `Verif.Spec.CRCPoly` the same is stated with
polynomials over GF(2).
-/

namespace Verif
namespace Spec

/-- Generator polynomial of CRC-24Q, including the `x^24` term. -/
def crcGen : Nat := 0x1864CFB

/-- One clock of the 24-bit shift register: shift in a zero, feed back the generator if the
outgoing bit differs from the message bit. -/
def crcBit (r : Nat) (b : Bool) : Nat :=
  if (r.testBit 23 != b) then (2 * r) % 2 ^ 24 ^^^ (crcGen % 2 ^ 24) else (2 * r) % 2 ^ 24

/-- CRC-24Q of a bit string. -/
def crcOfBits (bits : List Bool) : Nat := bits.foldl crcBit 0

/-- CRC-24Q of a byte string. -/
def crc24q (data : List UInt8) : Nat := crcOfBits (bitsOf data)

end Spec
end Verif
