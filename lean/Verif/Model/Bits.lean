import Verif.Model.Py

/-!
# Model of utilities/bits.py
-/

namespace Verif
namespace Bits

/-- utilities/bits.py:47 `MAX_BIT_WIDTH = 128` -/
def MAX_BIT_WIDTH : Int := 128

/-- utilities/bits.py:49-71 `Bits.getbitu`. Python ints are `Int`; the loop of lines 66-67 is a
fold over `range(start_byte, finish_byte)` where each access `buf[i]` could raise `IndexError`. -/
def getbitu (buf : Bytes) (startPos length : Int) : Py Nat :=
  if length < 1 ∨ length > MAX_BIT_WIDTH ∨ startPos < 0 then
    .error .bitsError
  else
    let finishPos : Nat := (startPos + length).toNat
    let finishByte : Nat := (finishPos + 7) >>> 3
    let startByte : Nat := startPos.toNat >>> 3
    if finishByte > buf.length then
      .error .bitsError
    else do
      let acc ← (List.range' startByte (finishByte - startByte)).foldlM
        (fun (acc : Nat) i => do
          let b ← byteAt buf i
          pure (acc * 256 + b)) 0
      let acc := acc >>> (finishByte * 8 - finishPos)
      let mask := (1 <<< length.toNat) - 1
      pure (acc &&& mask)

/-- utilities/bits.py:79-81: `mask = 1 << (length-1)`, `(acc ^ mask) - mask`. -/
def extendSign (acc length : Nat) : Int :=
  let mask : Nat := 1 <<< (length - 1)
  ((acc ^^^ mask : Nat) : Int) - (mask : Int)

/-- utilities/bits.py:73-81 `Bits.getbits`. -/
def getbits (buf : Bytes) (startPos length : Int) : Py Int := do
  let acc ← getbitu buf startPos length
  pure (extendSign acc length.toNat)

/-- The loop utilities/bits.py:93-96: `n` iterations on `(rv, src)`, returning `rv`. -/
def revLoop : Nat → Nat → Nat → Nat
  | 0, rv, _ => rv
  | n + 1, rv, src => revLoop n ((rv <<< 1) ||| (src &&& 1)) (src >>> 1)

/-- utilities/bits.py:83-98 `Bits.revbitu` for non-negative arguments. -/
def revbitu (a length : Nat) (ofs : Nat := 0) : Py Nat :=
  if ((length + ofs : Nat) : Int) > MAX_BIT_WIDTH then
    .error .bitsError
  else
    .ok (revLoop length 0 (a >>> ofs))

/-- utilities/bits.py:100-108 `Bits.revbits`. A negative shift count raises `ValueError`. -/
def revbits (a length : Nat) (ofs : Nat := 0) : Py Int := do
  let rv ← revbitu a length ofs
  if length = 0 then .error .valueError
  else pure (extendSign rv length)

/-- Call-site form of `getbitu`: every caller passes non-negative ints. utilities/bits.py:49-71. -/
def gbu (buf : Bytes) (startPos length : Nat) : Py Nat := getbitu buf startPos length

/-- Call-site form of `getbits`. utilities/bits.py:73-81. -/
def gbs (buf : Bytes) (startPos length : Nat) : Py Int := getbits buf startPos length

/-- sub_decoders/RTCM_EPH.py:160-166 `EphemerisDecoder.getbitS`. The shift `1 << (length - 1)` raises
`ValueError` for `length < 1` before `getbitu` is reached. -/
def getbitS (buf : Bytes) (offset length : Int) : Py Int :=
  if length < 1 then .error .valueError
  else do
    let sgnMask : Nat := 1 <<< (length - 1).toNat
    let magnMask : Nat := sgnMask - 1
    let d ← getbitu buf offset length
    let magn : Nat := d &&& magnMask
    pure (if (d &&& sgnMask) = 0 then (magn : Int) else -(magn : Int))

/-- Call-site form of `getbitS`. sub_decoders/RTCM_EPH.py:160-166. -/
def gbS (buf : Bytes) (startPos length : Nat) : Py Int := getbitS buf startPos length

/-- utilities/bits.py:25-38 `catch_bits_exceptions`: any exception is logged, the wrapper then
falls through and returns `None`. -/
def catchBits {α : Type} (x : Py α) : Option α :=
  match x with
  | .ok v => some v
  | .error _ => none

end Bits
end Verif
