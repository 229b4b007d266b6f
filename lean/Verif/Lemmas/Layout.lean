import Verif.Spec.Layout
import Verif.Lemmas.Bits

/-!
# Lemmas about field layouts
-/

namespace Verif
open Spec Bits

theorem code_length (f : Field) (v : Int) (h : f.Fits v) : (f.code v).length = f.width := by
  obtain ⟨k, w⟩ := f
  cases k <;> simp [Field.code, Field.Fits] at h ⊢

theorem value_code (f : Field) (v : Int) (h : f.Fits v) : f.value (f.code v) = v := by
  obtain ⟨k, w⟩ := f
  cases k <;> simp only [Field.code, Field.Fits, Field.value] at h ⊢
  · rw [natOfBits_bitsOfNat, Nat.mod_eq_of_lt]
    · omega
    · have h2 : ((2 ^ w : Nat) : Int) = 2 ^ w := by simp
      omega
  · exact intOfBits_twos w v h.1 h.2.1 h.2.2
  · exact smOfBits_smCode w v h.1 h.2.1 h.2.2

theorem Fits.not_res {f : Field} {v : Int} (h : f.Fits v) : f.kind ≠ .res := by
  intro hk; simp [Field.Fits, hk] at h

theorem value_fits (f : Field) (bits : List Bool) (hw : 0 < f.width) (hk : f.kind ≠ .res)
    (hl : bits.length = f.width) : f.Fits (f.value bits) := by
  obtain ⟨k, w⟩ := f
  simp only at hl hw hk
  cases k <;> simp only [Field.Fits, Field.value]
  · have := natOfBits_lt bits
    rw [hl] at this
    constructor
    · omega
    · exact_mod_cast this
  · have := intOfBits_range bits (by omega)
    rw [hl] at this
    exact ⟨hw, this⟩
  · have := smOfBits_range bits (by omega)
    rw [hl] at this
    exact ⟨hw, this⟩
  · simp at hk

theorem Spec.Encodes.length : ∀ {L : List Field} {vs : List Int} {bits : List Bool}, Encodes L vs bits →
    bits.length = layoutWidth L
  | [], _, _, h => by obtain ⟨rfl, rfl⟩ := h; rfl
  | f :: L, vs, bits, h => by
    unfold Encodes at h
    split at h
    · obtain ⟨p, rest, hp, rfl, h⟩ := h
      simp [layoutWidth, hp, h.length]
    · obtain ⟨v, vs', rest, rfl, hf, rfl, h⟩ := h
      simp [layoutWidth, code_length f v hf, h.length]

/-- Reading inverts encoding. -/
theorem Spec.Encodes.read : ∀ {L : List Field} {vs : List Int} {bits : List Bool}, Encodes L vs bits →
    ∀ tail, readAll L (bits ++ tail) = vs
  | [], _, _, h => by obtain ⟨rfl, rfl⟩ := h; intro _; rfl
  | f :: L, vs, bits, h => by
    intro tail
    unfold Encodes at h
    unfold readAll
    split at h
    · rename_i hk
      obtain ⟨p, rest, hp, rfl, h⟩ := h
      rw [if_pos hk, List.append_assoc, List.drop_left' hp, h.read]
    · rename_i hk
      obtain ⟨v, vs', rest, rfl, hf, rfl, h⟩ := h
      rw [if_neg hk, List.append_assoc, List.drop_left' (code_length f v hf), h.read,
        List.take_left' (code_length f v hf), value_code f v hf]

theorem encodes_encode : ∀ {L : List Field} {vs : List Int}, FitsAll L vs → Encodes L vs (encode L vs)
  | [], _, h => ⟨h, rfl⟩
  | f :: L, vs, h => by
    unfold FitsAll at h
    unfold Encodes encode
    split at h
    · rename_i hk
      rw [if_pos hk, if_pos hk]
      exact ⟨_, _, by simp, rfl, encodes_encode h⟩
    · rename_i hk
      obtain ⟨v, vs', rfl, hf, h⟩ := h
      rw [if_neg hk, if_neg hk]
      exact ⟨v, vs', _, rfl, hf, rfl, encodes_encode h⟩

theorem Spec.Encodes.fits : ∀ {L : List Field} {vs : List Int} {bits : List Bool}, Encodes L vs bits →
    FitsAll L vs
  | [], _, _, h => h.1
  | f :: L, vs, bits, h => by
    unfold Encodes at h
    unfold FitsAll
    split at h
    · rename_i hk
      obtain ⟨p, rest, hp, rfl, h⟩ := h
      rw [if_pos hk]; exact h.fits
    · rename_i hk
      obtain ⟨v, vs', rest, rfl, hf, rfl, h⟩ := h
      rw [if_neg hk]; exact ⟨v, vs', rfl, hf, h.fits⟩

/-- Values read from sufficiently many bits are in range. -/
theorem readAll_fits : ∀ (L : List Field) (bits : List Bool), (∀ f ∈ L, 0 < f.width) →
    layoutWidth L ≤ bits.length → FitsAll L (readAll L bits)
  | [], _, _, _ => rfl
  | f :: L, bits, hw, hl => by
    unfold FitsAll readAll
    unfold layoutWidth at hl
    have ih := readAll_fits L (bits.drop f.width) (fun g hg => hw g (List.mem_cons_of_mem _ hg))
      (by simp; omega)
    split
    · exact ih
    · rename_i hk
      exact ⟨_, _, rfl, value_fits f _ (hw f (by simp)) hk (by simp; omega), ih⟩

/-- `readAll` with an explicit start position. -/
def readAt : List Field → List Bool → Nat → List Int
  | [], _, _ => []
  | f :: L, bits, off =>
    if f.kind = .res then readAt L bits (off + f.width)
    else f.value (slice bits off f.width) :: readAt L bits (off + f.width)

theorem readAt_eq (L : List Field) (bits : List Bool) (off : Nat) :
    readAt L bits off = readAll L (bits.drop off) := by
  induction L generalizing off with
  | nil => rfl
  | cons f L ih => simp only [readAt, readAll, ih, slice, List.drop_drop]

/-! ## Successful reads -/

theorem gbu_ok {buf : Bytes} {s l : Nat} (h1 : 1 ≤ l) (h2 : l ≤ 128) (h3 : s + l ≤ 8 * buf.length) :
    gbu buf s l = .ok (natOfBits (slice (bitsOf buf) s l)) := by
  rw [gbu_eq, if_pos ⟨h1, h2, h3⟩]

theorem gbs_ok {buf : Bytes} {s l : Nat} (h1 : 1 ≤ l) (h2 : l ≤ 128) (h3 : s + l ≤ 8 * buf.length) :
    gbs buf s l = .ok (intOfBits (slice (bitsOf buf) s l)) := by
  rw [gbs_eq, if_pos ⟨h1, h2, h3⟩]

theorem gbS_ok {buf : Bytes} {s l : Nat} (h1 : 1 ≤ l) (h2 : l ≤ 128) (h3 : s + l ≤ 8 * buf.length) :
    gbS buf s l = .ok (smOfBits (slice (bitsOf buf) s l)) := by
  rw [gbS_eq _ _ _ h1, if_pos ⟨h2, h3⟩]

theorem ok_bind {α β : Type} (a : α) (f : α → Py β) : ((Except.ok a : Py α) >>= f) = f a := rfl

theorem err_bind {α β : Type} (e : PyErr) (f : α → Py β) : ((Except.error e : Py α) >>= f) = .error e := rfl

theorem pure_ok {α : Type} (a : α) : (pure a : Py α) = .ok a := rfl

theorem bind_ok {α β : Type} {x : Py α} {f : α → Py β} {b : β} (h : x >>= f = .ok b) :
    ∃ a, x = .ok a ∧ f a = .ok b := by
  cases x with
  | error e => cases h
  | ok a => exact ⟨a, rfl, h⟩

end Verif
