import Verif.Spec.Pack
import Verif.Spec.Base
import Verif.Lemmas.Layout
import Verif.Lemmas.CRC

/-!
# The encoder produces valid frames that carry their content
-/

namespace Verif
open Spec Bits

theorem byteBits_eq (b : UInt8) : byteBits b = bitsOfNat 8 b.toNat := rfl

theorem byteBits_ofNat (bits : List Bool) (h : bits.length = 8) : byteBits (UInt8.ofNat (natOfBits bits)) = bits := by
  have hlt := natOfBits_lt bits
  rw [h] at hlt
  rw [byteBits_eq, UInt8.toNat_ofNat', Nat.mod_eq_of_lt (by simpa using hlt)]
  conv_rhs => rw [← bitsOfNat_natOfBits bits]
  rw [h]

theorem bitsOf_bytesOfBits (n : Nat) (bits : List Bool) (h : bits.length = 8 * n) :
    bitsOf (bytesOfBits n bits) = bits := by
  induction n generalizing bits with
  | zero => simp at h; subst h; rfl
  | succ n ih =>
    rw [bytesOfBits, bitsOf_cons, ih _ (by simp; omega), byteBits_ofNat _ (by simp; omega), List.take_append_drop]

theorem bitsOf_packBits (bits : List Bool) :
    bitsOf (packBits bits) = bits ++ List.replicate (8 * ((bits.length + 7) / 8) - bits.length) false := by
  unfold packBits
  rw [bitsOf_bytesOfBits _ _ (by simp; omega)]

theorem bytesOfBits_length (n : Nat) (bits : List Bool) : (bytesOfBits n bits).length = n := by
  induction n generalizing bits with
  | zero => rfl
  | succ n ih => simp [bytesOfBits, ih]

theorem packBits_length (bits : List Bool) : (packBits bits).length = (bits.length + 7) / 8 :=
  bytesOfBits_length _ _

/-- A frame is three header bytes, the payload and three bytes. -/
theorem frame_parts (p : List UInt8) : ∃ hdr crc : List UInt8, hdr.length = 3 ∧ crc.length = 3 ∧
    frame p = hdr ++ p ++ crc :=
  ⟨[0xD3, UInt8.ofNat (p.length / 256), UInt8.ofNat p.length], _, rfl, rfl, rfl⟩

theorem frame_length (p : List UInt8) : (frame p).length = p.length + 6 := by
  simp [frame, crcBytes]

/-- Encoding values that fit gives a frame that carries them. -/
theorem carries_messageFrame {L : List Spec.Field} {vs : List Int} (h : FitsAll L vs) :
    CarriesExact (messageFrame L vs) L vs := by
  obtain ⟨hdr, crc, h1, h2, h3⟩ := frame_parts (packBits (encode L vs))
  refine ⟨hdr, packBits (encode L vs), crc, encode L vs, _, h1, h2, h3, bitsOf_packBits _, ?_, encodes_encode h⟩
  simp; omega

theorem crcBytes_value (c : Nat) (h : c < 2 ^ 24) : natOfBits (bitsOf (crcBytes c)) = c := by
  have e : bitsOf (crcBytes c) = bitsOfNat 24 c := by
    simp only [crcBytes, bitsOf_cons, bitsOf_nil, byteBits_eq, UInt8.toNat_ofNat', List.append_nil]
    apply bitsOfNat_ext (by simp)
    intro i hi
    have h8 : ∀ v, bitsOfNat 8 (v % 2 ^ 8) = bitsOfNat 8 v := bitsOfNat_mod 8
    rw [h8, h8, h8]
    rw [List.getElem?_append, List.getElem?_append]
    simp only [bitsOfNat_length]
    split_ifs with h1 h2
    · rw [bitsOfNat_getElem? _ _ _ h1, show 65536 = 2 ^ 16 from rfl, Nat.testBit_div_two_pow]
      congr 2; omega
    · rw [bitsOfNat_getElem? _ _ _ h2, show 256 = 2 ^ 8 from rfl, Nat.testBit_div_two_pow]
      congr 2; omega
    · rw [bitsOfNat_getElem? _ _ _ (by omega)]
      congr 2; omega
  rw [e, natOfBits_bitsOfNat, Nat.mod_eq_of_lt h]

/-- A frame with at most 1023 payload bytes is valid. -/
theorem validFrame_frame (p : List UInt8) (h : p.length ≤ 1023) : ValidFrame (frame p) := by
  have hl := frame_length p
  refine ⟨rfl, ?_, ?_, ?_⟩
  · simp only [frame, List.cons_append, List.getD_cons_succ, List.getD_cons_zero, UInt8.toNat_ofNat']; omega
  · rw [hl]
    simp only [payloadLen, frame, List.cons_append, List.getD_cons_succ, List.getD_cons_zero, UInt8.toNat_ofNat']
    omega
  · have e : frame p = (0xD3 :: UInt8.ofNat (p.length / 256) :: UInt8.ofNat p.length :: p) ++
        crcBytes (crc24q (0xD3 :: UInt8.ofNat (p.length / 256) :: UInt8.ofNat p.length :: p)) := rfl
    have hb : (0xD3 :: UInt8.ofNat (p.length / 256) :: UInt8.ofNat p.length :: p).length = (frame p).length - 3 := by
      rw [hl]; simp
    rw [← hb, e, List.drop_left, List.take_left, crcBytes_value _ (crc24q_lt _)]

theorem encode_length {L : List Spec.Field} {vs : List Int} (h : FitsAll L vs) : (encode L vs).length = layoutWidth L :=
  (encodes_encode h).length

theorem validFrame_messageFrame {L : List Spec.Field} {vs : List Int} (h : FitsAll L vs) (hw : layoutWidth L ≤ 8184) :
    ValidFrame (messageFrame L vs) := by
  apply validFrame_frame
  rw [packBits_length, encode_length h]; omega

end Verif
