/-!
# Specification of bit fields

A byte string is a string of bits, most significant bit of each byte first.
-/

namespace Verif
namespace Spec

/-- The eight bits of a byte, most significant first. -/
def byteBits (b : UInt8) : List Bool :=
  [b.toNat.testBit 7, b.toNat.testBit 6, b.toNat.testBit 5, b.toNat.testBit 4,
   b.toNat.testBit 3, b.toNat.testBit 2, b.toNat.testBit 1, b.toNat.testBit 0]

/-- All bits of a byte string in transmission order. -/
def bitsOf (buf : List UInt8) : List Bool := buf.flatMap byteBits

/-- Value of a bit string, most significant bit first. -/
def natOfBits : List Bool → Nat
  | [] => 0
  | b :: bs => b.toNat * 2 ^ bs.length + natOfBits bs

/-- The `w`-bit big-endian representation of `v`. -/
def bitsOfNat : Nat → Nat → List Bool
  | 0, _ => []
  | w + 1, v => v.testBit w :: bitsOfNat w v

/-- Bits `start .. start+len-1`. -/
def slice (bits : List Bool) (start len : Nat) : List Bool := (bits.drop start).take len

/-- Two's complement value of an `w`-bit string. -/
def intOfBits (bs : List Bool) : Int :=
  if bs.head? = some true then (natOfBits bs : Int) - 2 ^ bs.length else natOfBits bs

/-- Two's complement code of `x` in `w` bits. -/
def twosCode (w : Nat) (x : Int) : Nat := (x % 2 ^ w).toNat

/-- Sign-magnitude code of `x` in `w` bits (sign bit first). -/
def smCode (w : Nat) (x : Int) : Nat := (if x < 0 then 2 ^ (w - 1) else 0) + x.natAbs

/-- Sign-magnitude value of a bit string. -/
def smOfBits : List Bool → Int
  | [] => 0
  | true :: bs => -(natOfBits bs : Int)
  | false :: bs => natOfBits bs

end Spec
end Verif
