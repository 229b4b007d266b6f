import Verif.Spec.Base
import Verif.Lemmas.Layout

/-!
# Frames that carry exactly the encoding of some fields
-/

namespace Verif
open Spec Bits

/-- For unsigned and two's complement fields the code is determined by the value. -/
theorem code_value (f : Spec.Field) (bits : List Bool) (hl : bits.length = f.width) (hk : f.kind = .u ∨ f.kind = .s) :
    f.code (f.value bits) = bits := by
  obtain ⟨k, w⟩ := f
  simp only at hl hk
  subst hl
  rcases hk with rfl | rfl
  · simp only [Field.code, Field.value, Int.toNat_natCast, bitsOfNat_natOfBits]
  · simp only [Field.code, Field.value, bits_of_intOfBits]

/-- A bit string of the right length encodes the values read from it. -/
theorem encodes_of_read : ∀ (L : List Spec.Field) (bits : List Bool), (∀ f ∈ L, 0 < f.width ∧ f.kind ≠ .sm) →
    bits.length = layoutWidth L → Encodes L (readAll L bits) bits
  | [], bits, _, hl => ⟨rfl, by simpa [layoutWidth] using hl⟩
  | f :: L, bits, hw, hl => by
    unfold layoutWidth at hl
    have ih := encodes_of_read L (bits.drop f.width) (fun g hg => hw g (List.mem_cons_of_mem _ hg)) (by simp; omega)
    unfold Encodes readAll
    have hft := hw f (by simp)
    split
    · rename_i hk
      exact ⟨bits.take f.width, bits.drop f.width, by simp; omega, by simp, ih⟩
    · rename_i hk
      have hl' : (bits.take f.width).length = f.width := by simp; omega
      refine ⟨_, _, bits.drop f.width, rfl, value_fits f _ hft.1 hk hl', ?_, ih⟩
      rw [code_value f _ hl', List.take_append_drop]
      cases h : f.kind <;> simp_all

/-- Reading does not look behind the layout. -/
theorem readAll_take (L : List Spec.Field) (bits : List Bool) :
    readAll L (bits.take (layoutWidth L)) = readAll L bits := by
  induction L generalizing bits with
  | nil => rfl
  | cons f L ih =>
    unfold readAll
    have h1 : (bits.take (layoutWidth (f :: L))).drop f.width = (bits.drop f.width).take (layoutWidth L) := by
      simp [layoutWidth, List.drop_take]
    have h2 : (bits.take (layoutWidth (f :: L))).take f.width = bits.take f.width := by
      simp [layoutWidth, List.take_take]
    rw [h1, h2, ih]

theorem carriesExact_iff (buf : Bytes) (L : List Spec.Field) (vs : List Int)
    (hL : ∀ f ∈ L, 0 < f.width ∧ f.kind ≠ .sm) :
    CarriesExact buf L vs ↔ buf.length = 6 + (layoutWidth L + 7) / 8 ∧ readAll L ((bitsOf buf).drop 24) = vs := by
  constructor
  · rintro ⟨hdr, payload, crc, bits, pad, h1, h2, rfl, h3, h4, h5⟩
    have hlen := congrArg List.length h3
    rw [bitsOf_length, List.length_append, h5.length] at hlen
    constructor
    · simp only [List.length_append, h1, h2]; omega
    · rw [bitsOf_append, bitsOf_append, h3, List.append_assoc, List.drop_left' (by rw [bitsOf_length, h1]),
        List.append_assoc]
      exact h5.read _
  · rintro ⟨hlen, hr⟩
    refine ⟨buf.take 3, (buf.drop 3).take (buf.length - 6), buf.drop (buf.length - 3),
      (bitsOf ((buf.drop 3).take (buf.length - 6))).take (layoutWidth L),
      (bitsOf ((buf.drop 3).take (buf.length - 6))).drop (layoutWidth L), by simp; omega, by simp; omega, ?_,
      by rw [List.take_append_drop], ?_, ?_⟩
    · have e1 : buf = buf.take 3 ++ buf.drop 3 := by simp
      have e2 : buf.drop 3 = (buf.drop 3).take (buf.length - 6) ++ (buf.drop 3).drop (buf.length - 6) :=
        (List.take_append_drop _ _).symm
      have e3 : (buf.drop 3).drop (buf.length - 6) = buf.drop (buf.length - 3) := by
        rw [List.drop_drop]; congr 1; omega
      rw [e3] at e2
      rw [List.append_assoc, ← e2, ← e1]
    · rw [List.length_drop, bitsOf_length, List.length_take, List.length_drop]; omega
    · have e1 : (bitsOf ((buf.drop 3).take (buf.length - 6))).take (layoutWidth L)
          = ((bitsOf buf).drop 24).take (layoutWidth L) := by
        rw [bitsOf_take, bitsOf_drop, List.take_take, Nat.min_eq_left (by omega)]
      rw [e1]
      have := encodes_of_read L (((bitsOf buf).drop 24).take (layoutWidth L)) hL (by
        rw [List.length_take, List.length_drop, bitsOf_length]; omega)
      rwa [readAll_take, hr] at this

theorem readAll_append (A B : List Spec.Field) (bits : List Bool) :
    readAll (A ++ B) bits = readAll A bits ++ readAll B (bits.drop (layoutWidth A)) := by
  induction A generalizing bits with
  | nil => rfl
  | cons f A ih =>
    simp only [List.cons_append, readAll, ih, layoutWidth, List.drop_drop]
    split <;> simp

theorem layoutWidth_append (A B : List Spec.Field) : layoutWidth (A ++ B) = layoutWidth A + layoutWidth B := by
  induction A with
  | nil => simp [layoutWidth]
  | cons f A ih => simp [layoutWidth, ih]; omega

theorem readAt_append (A B : List Spec.Field) (bits : List Bool) (off : Nat) :
    readAt (A ++ B) bits off = readAt A bits off ++ readAt B bits (off + layoutWidth A) := by
  rw [readAt_eq, readAt_eq, readAt_eq, readAll_append, List.drop_drop]

/-- Number of value-carrying fields. -/
theorem readAll_length (L : List Spec.Field) (bits : List Bool) :
    (readAll L bits).length = (L.filter (fun f => f.kind ≠ .res)).length := by
  induction L generalizing bits with
  | nil => rfl
  | cons f L ih =>
    unfold readAll
    by_cases h : f.kind = .res <;> simp [h, ih]

end Verif
