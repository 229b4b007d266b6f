import Verif.Model.Py

/-!
# Python text functions used by the code
-/

namespace Verif
namespace PyStr

/-- `hex(n)` of a non-negative int. sub_decoders/RTCM_BASE.py:132, 148-182, 281. -/
def hex (n : Nat) : String := "0x" ++ String.ofList (Nat.toDigits 16 n)

/-- `s.strip()`. sub_decoders/RTCM_BASE.py:134, 150, 167, 177, 184, 284. -/
def strip (s : String) : String :=
  String.ofList ((s.toList.dropWhile Char.isWhitespace).reverse.dropWhile Char.isWhitespace).reverse

/-- `s.split(" ")` on characters; the empty text gives one empty word.
sub_decoders/RTCM_BASE.py:198, 205-218, 294. -/
def splitBlank : List Char → List (List Char)
  | [] => [[]]
  | c :: cs =>
    if c = ' ' then [] :: splitBlank cs
    else match splitBlank cs with
      | w :: ws => (c :: w) :: ws
      | [] => [[c]]

/-- Value of a hexadecimal digit. Used for `int(s, 16)`, sub_decoders/RTCM_BASE.py:199. -/
def hexVal (c : Char) : Option Nat :=
  if '0' ≤ c ∧ c ≤ '9' then some (c.toNat - '0'.toNat)
  else if 'a' ≤ c ∧ c ≤ 'f' then some (c.toNat - 'a'.toNat + 10)
  else if 'A' ≤ c ∧ c ≤ 'F' then some (c.toNat - 'A'.toNat + 10)
  else none

/-- Value of a non-empty string of hexadecimal digits.
Used for `int(s, 16)`, sub_decoders/RTCM_BASE.py:199. -/
def hexDigits (ds : List Char) : Py Nat :=
  if ds = [] then .error .valueError
  else ds.foldlM (fun acc c => match hexVal c with
    | some d => .ok (16 * acc + d)
    | none => .error .valueError) 0

/-- `int(s, 16)`. Signs, underscores, surrounding blanks and the prefix `0X`, which Python also accepts, are not
modelled (they are treated as errors); the code only applies it to results of `hex`.
sub_decoders/RTCM_BASE.py:199, 206-219, 295. -/
def int16 (s : List Char) : Py Nat :=
  match s with
  | '0' :: 'x' :: ds => hexDigits ds
  | ds => hexDigits ds

/-- `bytes([...])`. sub_decoders/RTCM_BASE.py:199, 206-219, 295. -/
def toBytes (xs : List Nat) : Py Bytes :=
  if xs.all (· < 256) then .ok (xs.map UInt8.ofNat) else .error .valueError

/-- `b.decode("utf-8")` (strict). The decoder of Lean's standard library.
sub_decoders/RTCM_BASE.py:199, 206-219, 295. -/
def utf8Decode (b : Bytes) : Py String :=
  match String.fromUTF8? b.toByteArray with
  | some s => .ok s
  | none => .error .unicodeError

/-- `bytes([int(s, 16) for s in text.split(" ")]).decode("utf-8")`.
sub_decoders/RTCM_BASE.py:198-199, 205-219, 294-295. -/
def hexTextDecode (text : String) : Py String := do
  let xs ← (splitBlank text.toList).mapM int16
  let b ← toBytes xs
  utf8Decode b

end PyStr
end Verif
