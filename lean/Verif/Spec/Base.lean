import Verif.Spec.Layout

/-!
# Specification of the RTCM base station messages 1005, 1006, 1007, 1008, 1013, 1029, 1033, 1230

Contents of the messages and, for each content, its field layout and the values of its fields.
-/

namespace Verif
namespace Spec

/-- Reference point data common to 1005 and 1006. -/
structure RefPoint where
  station : Int
  year : Int
  gps : Int
  glo : Int
  gal : Int
  virtual : Int
  x : Int
  osc : Int
  y : Int
  quarter : Int
  z : Int
  deriving DecidableEq

/-- Contents of the base station messages. Texts are byte strings. -/
inductive BaseMsg where
  | m1005 (p : RefPoint)
  | m1006 (p : RefPoint) (height : Int)
  | m1007 (station : Int) (descr : List UInt8) (setup : Int)
  | m1008 (station : Int) (descr : List UInt8) (setup : Int) (serial : List UInt8)
  | m1033 (station : Int) (descr : List UInt8) (setup : Int) (serial rcv fw rcvSerial : List UInt8)
  /-- announcements: message id, synchronisation flag, transmission interval -/
  | m1013 (station mjd sec leap : Int) (ann : List (Int × Int × Int))
  | m1029 (station mjd sec chars : Int) (text : List UInt8)
  /-- biases of L1 C/A, L1 P, L2 C/A, L2 P, as far as present -/
  | m1230 (station aligned : Int) (c1 p1 c2 p2 : Option Int)
  deriving DecidableEq

/-- Layout of a text: length byte, then the bytes. -/
def textLayout (t : List UInt8) : List Field := U 8 :: t.map (fun _ => U 8)

/-- Values of a text. -/
def textVals (t : List UInt8) : List Int := (t.length : Int) :: t.map (fun b => (b.toNat : Int))

/-- Layout of 1005. -/
def layout1005 : List Field := [U 12, U 12, U 6, U 1, U 1, U 1, U 1, S 38, U 1, R 1, S 38, U 2, S 38]

/-- Values of a reference point message in the order of `layout1005`. -/
def refVals (num : Int) (p : RefPoint) : List Int :=
  [num, p.station, p.year, p.gps, p.glo, p.gal, p.virtual, p.x, p.osc, p.y, p.quarter, p.z]

/-- An optional 16-bit bias is transmitted only if present. -/
def biasLayout (b : Option Int) : List Field := match b with | some _ => [S 16] | none => []

/-- Value of an optional bias. -/
def biasVals (b : Option Int) : List Int := match b with | some x => [x] | none => []

/-- Mask bit of an optional bias. -/
def biasBit (b : Option Int) : Int := match b with | some _ => 1 | none => 0

/-- Layout of a message. -/
def BaseMsg.layout : BaseMsg → List Field
  | m1005 _ => layout1005
  | m1006 _ _ => layout1005 ++ [U 16]
  | m1007 _ d _ => [U 12, U 12] ++ textLayout d ++ [U 8]
  | m1008 _ d _ s => [U 12, U 12] ++ textLayout d ++ [U 8] ++ textLayout s
  | m1033 _ d _ s r f n => [U 12, U 12] ++ textLayout d ++ [U 8] ++ textLayout s ++ textLayout r ++ textLayout f ++
      textLayout n
  | m1013 _ _ _ _ ann => [U 12, U 12, U 16, U 17, U 5, U 8] ++ ann.flatMap (fun _ => [U 12, U 1, U 16])
  | m1029 _ _ _ _ t => [U 12, U 12, U 16, U 17, U 7] ++ textLayout t
  | m1230 _ _ a b c d => [U 12, U 12, U 1, R 3, U 1, U 1, U 1, U 1] ++ biasLayout a ++ biasLayout b ++ biasLayout c ++
      biasLayout d

/-- Values of a message in the order of its layout. -/
def BaseMsg.vals : BaseMsg → List Int
  | m1005 p => refVals 1005 p
  | m1006 p h => refVals 1006 p ++ [h]
  | m1007 id d u => [1007, id] ++ textVals d ++ [u]
  | m1008 id d u s => [1008, id] ++ textVals d ++ [u] ++ textVals s
  | m1033 id d u s r f n => [1033, id] ++ textVals d ++ [u] ++ textVals s ++ textVals r ++ textVals f ++ textVals n
  | m1013 id mjd sec leap ann => [1013, id, mjd, sec, (ann.length : Int), leap] ++
      ann.flatMap (fun a => [a.1, a.2.1, a.2.2])
  | m1029 id mjd sec n t => [1029, id, mjd, sec, n] ++ textVals t
  | m1230 id al a b c d => [1230, id, al, biasBit a, biasBit b, biasBit c, biasBit d] ++ biasVals a ++ biasVals b ++
      biasVals c ++ biasVals d

/-- The frame consists of 3 bytes, the payload and 3 bytes; the payload carries the encoded fields and is filled up to a
byte boundary. -/
def CarriesExact (buf : List UInt8) (L : List Field) (vs : List Int) : Prop :=
  ∃ hdr payload crc : List UInt8, ∃ bits pad : List Bool, hdr.length = 3 ∧ crc.length = 3 ∧
    buf = hdr ++ payload ++ crc ∧ bitsOf payload = bits ++ pad ∧ pad.length < 8 ∧ Encodes L vs bits

/-- The frame carries the message. -/
def BaseMsg.CarriedBy (m : BaseMsg) (buf : List UInt8) : Prop := CarriesExact buf m.layout m.vals

/-- Hexadecimal form of a byte string: `0x..` words separated by blanks. -/
def hexText (t : List UInt8) : String :=
  " ".intercalate (t.map (fun b => "0x" ++ String.ofList (Nat.toDigits 16 b.toNat)))

/-- `s` is the Unicode text with UTF-8 code `t`. -/
def IsUtf8Of (t : List UInt8) (s : String) : Prop := s.toUTF8 = t.toByteArray

/-- UTF-8 code of a Unicode text. -/
def utf8 (s : String) : List UInt8 := s.toUTF8.data.toList

end Spec
end Verif
