import Verif.Lemmas.MsmDecode

/-!
# Bare decoding of multiple signal messages: satellite and signal data
-/

namespace Verif
open Spec Bits Msm RtcmUtil

/-- Bits per cell assumed by the length estimate of the decoder. -/
def estWidth (k : Nat) : Nat := if k = 2 then 28 else if k = 3 then 43 else cellWidth k

/-- The attributes of message number 1070+10g+k. -/
def attrOf (g k : Nat) : Attributes :=
  { gnss := gnssLetter g, subset := msmName k, msg_number := some (1070 + 10 * g + k) }

theorem hdrObj_counts (g k : Nat) (bits : List Bool) :
    bitCount (dataAt g k bits).hdrObj.sat_mask = nsatAt bits ∧ bitCount (dataAt g k bits).hdrObj.sgn_mask = nsigAt bits ∧
    bitCount (dataAt g k bits).hdrObj.cell_mask = ncellAt bits :=
  ⟨bitCount_maskInt _, bitCount_maskInt _, bitCount_maskInt _⟩

theorem shift3 (n : Nat) : n >>> 3 = n / 8 := by rw [Nat.shiftRight_eq_div_pow]

theorem colU_pos {w n : Nat} (bits : List Bool) (o : Nat) (h : w ≠ 0) : colU bits o w n = natCol bits o w n := by
  unfold colU MsmData.colLen; rw [if_neg h]

theorem colS_pos {w n : Nat} (bits : List Bool) (o : Nat) (h : w ≠ 0) : colS bits o w n = intCol bits o w n := by
  unfold colS MsmData.colLen; rw [if_neg h]

theorem extract4567_ok {buf : Bytes} {g k : Nat} (hk : 4 ≤ k ∧ k ≤ 7) (hN : 0 < nsatAt (bitsOf buf))
    (hM : 0 < nsigAt (bitsOf buf)) (hC : 0 < ncellAt (bitsOf buf))
    (hl : buf.length = 6 + (169 + nsatAt (bitsOf buf) * nsigAt (bitsOf buf) + satWidth k * nsatAt (bitsOf buf) +
      cellWidth k * ncellAt (bitsOf buf) + 7) / 8) :
    ∃ b o, extract4567 buf (attrOf g k) (dataAt g k (bitsOf buf)).hdrObj
      (193 + nsatAt (bitsOf buf) * nsigAt (bitsOf buf)) = .ok (b, o) ∧ .m4567 b = (dataAt g k (bitsOf buf)).bareObj := by
  obtain ⟨c1, c2, c3⟩ := hdrObj_counts g k (bitsOf buf)
  unfold extract4567
  dsimp only
  rw [c1, c2, c3, if_neg (by omega)]
  have : k = 4 ∨ k = 5 ∨ k = 6 ∨ k = 7 := by omega
  rcases this with rfl | rfl | rfl | rfl
  · have e7 : (attrOf g 4).is_msm7 = false := by rfl
    have e6 : (attrOf g 4).is_msm6 = false := by rfl
    have e5 : (attrOf g 4).is_msm5 = false := by rfl
    simp only [plan4567, e7, e6, e5, BIT_WIDTH_4, shift3, satWidth, cellWidth, msmWidths] at hl ⊢
    simp only [Bool.false_eq_true, if_false, Bool.or_self]
    rw [if_neg (by omega)]
    simp (disch := omega) only [nextW, ok_bind, pure_ok, tupleU_ok, tupleS_ok]
    rw [if_neg (by omega)]
    refine ⟨_, _, rfl, ?_⟩
    simp only [MsmData.bareObj, msmWidths, dataAt, colObj]
    simp (decide := true) only [if_false, if_true, colU_pos, colS_pos, ne_eq, not_false_iff]
    simp only [Nat.zero_mul, Nat.add_zero]
    rfl
  · have e7 : (attrOf g 5).is_msm7 = false := by rfl
    have e6 : (attrOf g 5).is_msm6 = false := by rfl
    have e5 : (attrOf g 5).is_msm5 = true := by rfl
    simp only [plan4567, e7, e6, e5, BIT_WIDTH_5, shift3, satWidth, cellWidth, msmWidths] at hl ⊢
    simp only [Bool.false_eq_true, if_false, if_true, Bool.true_or]
    rw [if_neg (by omega)]
    simp (disch := omega) only [nextW, ok_bind, pure_ok, tupleU_ok, tupleS_ok]
    rw [if_neg (by omega)]
    refine ⟨_, _, rfl, ?_⟩
    simp only [MsmData.bareObj, msmWidths, dataAt, colObj]
    simp (decide := true) only [if_false, colU_pos, colS_pos, ne_eq, not_false_iff]
    rfl
  · have e7 : (attrOf g 6).is_msm7 = false := by rfl
    have e6 : (attrOf g 6).is_msm6 = true := by rfl
    have e5 : (attrOf g 6).is_msm5 = false := by rfl
    simp only [plan4567, e7, e6, e5, BIT_WIDTH_6, shift3, satWidth, cellWidth, msmWidths] at hl ⊢
    simp only [Bool.false_eq_true, if_false, if_true, Bool.or_self]
    rw [if_neg (by omega)]
    simp (disch := omega) only [nextW, ok_bind, pure_ok, tupleU_ok, tupleS_ok]
    rw [if_neg (by omega)]
    refine ⟨_, _, rfl, ?_⟩
    simp only [MsmData.bareObj, msmWidths, dataAt, colObj]
    simp (decide := true) only [if_false, if_true, colU_pos, colS_pos, ne_eq, not_false_iff]
    simp only [Nat.zero_mul, Nat.add_zero]
    rfl
  · have e7 : (attrOf g 7).is_msm7 = true := by rfl
    have e5 : (attrOf g 7).is_msm5 = false := by rfl
    simp only [plan4567, e7, e5, BIT_WIDTH_7, shift3, satWidth, cellWidth, msmWidths] at hl ⊢
    simp only [if_true, Bool.or_true]
    rw [if_neg (by omega)]
    simp (disch := omega) only [nextW, ok_bind, pure_ok, tupleU_ok, tupleS_ok]
    rw [if_neg (by omega)]
    refine ⟨_, _, rfl, ?_⟩
    simp only [MsmData.bareObj, msmWidths, dataAt, colObj]
    simp (decide := true) only [if_false, colU_pos, colS_pos, ne_eq, not_false_iff]
    rfl

theorem extract4567_inv {buf : Bytes} {g k : Nat} (hk : 4 ≤ k ∧ k ≤ 7) {r : Bare4567 × Nat}
    (h : extract4567 buf (attrOf g k) (dataAt g k (bitsOf buf)).hdrObj
      (193 + nsatAt (bitsOf buf) * nsigAt (bitsOf buf)) = .ok r) :
    0 < ncellAt (bitsOf buf) ∧
    buf.length = 6 + (169 + nsatAt (bitsOf buf) * nsigAt (bitsOf buf) + satWidth k * nsatAt (bitsOf buf) +
      cellWidth k * ncellAt (bitsOf buf) + 7) / 8 := by
  obtain ⟨c1, c2, c3⟩ := hdrObj_counts g k (bitsOf buf)
  unfold extract4567 at h
  dsimp only at h
  rw [c1, c2, c3] at h
  split at h
  · cases h
  rename_i h0
  split at h
  · cases h
  rename_i he
  refine ⟨by omega, ?_⟩
  clear h
  have : k = 4 ∨ k = 5 ∨ k = 6 ∨ k = 7 := by omega
  rcases this with rfl | rfl | rfl | rfl
  · have e7 : (attrOf g 4).is_msm7 = false := by rfl
    have e6 : (attrOf g 4).is_msm6 = false := by rfl
    have e5 : (attrOf g 4).is_msm5 = false := by rfl
    simp only [plan4567, e7, e6, e5, shift3, satWidth, cellWidth, msmWidths] at he ⊢
    simp only [Bool.false_eq_true, if_false] at he
    omega
  · have e7 : (attrOf g 5).is_msm7 = false := by rfl
    have e6 : (attrOf g 5).is_msm6 = false := by rfl
    have e5 : (attrOf g 5).is_msm5 = true := by rfl
    simp only [plan4567, e7, e6, e5, shift3, satWidth, cellWidth, msmWidths] at he ⊢
    simp only [Bool.false_eq_true, if_false, if_true] at he
    omega
  · have e7 : (attrOf g 6).is_msm7 = false := by rfl
    have e6 : (attrOf g 6).is_msm6 = true := by rfl
    simp only [plan4567, e7, e6, shift3, satWidth, cellWidth, msmWidths] at he ⊢
    simp only [Bool.false_eq_true, if_false, if_true] at he
    omega
  · have e7 : (attrOf g 7).is_msm7 = true := by rfl
    simp only [plan4567, e7, shift3, satWidth, cellWidth, msmWidths] at he ⊢
    simp only [if_true] at he
    omega

theorem extract123_ok {buf : Bytes} {g k : Nat} (hk : 1 ≤ k ∧ k ≤ 3) (hN : 0 < nsatAt (bitsOf buf))
    (hM : 0 < nsigAt (bitsOf buf)) (hC : 0 < ncellAt (bitsOf buf))
    (hl : buf.length = 6 + (169 + nsatAt (bitsOf buf) * nsigAt (bitsOf buf) + satWidth k * nsatAt (bitsOf buf) +
      cellWidth k * ncellAt (bitsOf buf) + 7) / 8)
    (hl' : buf.length = 6 + (169 + nsatAt (bitsOf buf) * nsigAt (bitsOf buf) + satWidth k * nsatAt (bitsOf buf) +
      estWidth k * ncellAt (bitsOf buf) + 7) / 8) :
    ∃ b o, extract123 buf (attrOf g k) (dataAt g k (bitsOf buf)).hdrObj
      (193 + nsatAt (bitsOf buf) * nsigAt (bitsOf buf)) = .ok (b, o) ∧ .m123 b = (dataAt g k (bitsOf buf)).bareObj := by
  obtain ⟨c1, c2, c3⟩ := hdrObj_counts g k (bitsOf buf)
  unfold extract123
  dsimp only
  rw [c1, c2, c3, if_neg (by omega)]
  have : k = 1 ∨ k = 2 ∨ k = 3 := by omega
  rcases this with rfl | rfl | rfl
  · have e1 : (attrOf g 1).is_msm1 = true := by rfl
    simp only [plan123, e1, BIT_WIDTH_1, shift3, satWidth, cellWidth, msmWidths] at hl ⊢
    simp only [if_true]
    rw [if_neg (by omega)]
    simp (disch := omega) only [nextW, ok_bind, pure_ok, tupleU_ok, tupleS_ok]
    rw [if_neg (by omega)]
    refine ⟨_, _, rfl, ?_⟩
    simp only [MsmData.bareObj, msmWidths, dataAt, colObj]
    simp (decide := true) only [if_true, if_false, colU_pos, colS_pos, ne_eq, not_false_iff]
    simp only [Nat.zero_mul, Nat.add_zero]
    rfl
  · have e1 : (attrOf g 2).is_msm1 = false := by rfl
    have e2 : (attrOf g 2).is_msm2 = true := by rfl
    have e3 : (attrOf g 2).is_msm3 = false := by rfl
    simp (decide := true) only [estWidth, if_true] at hl'
    simp only [plan123, e1, e2, e3, BIT_WIDTH_2, shift3, satWidth, cellWidth, msmWidths] at hl hl' ⊢
    simp only [Bool.false_eq_true, if_false, if_true]
    rw [if_neg (by omega)]
    simp (disch := omega) only [nextW, ok_bind, pure_ok, tupleU_ok, tupleS_ok]
    rw [if_neg (by omega)]
    refine ⟨_, _, rfl, ?_⟩
    simp only [MsmData.bareObj, msmWidths, dataAt, colObj]
    simp (decide := true) only [if_true, if_false, colU_pos, colS_pos, ne_eq, not_false_iff]
    simp only [Nat.zero_mul, Nat.add_zero]
    rfl
  · have e1 : (attrOf g 3).is_msm1 = false := by rfl
    have e2 : (attrOf g 3).is_msm2 = false := by rfl
    have e3 : (attrOf g 3).is_msm3 = true := by rfl
    simp (decide := true) only [estWidth, if_true, if_false] at hl'
    simp only [plan123, e1, e2, e3, BIT_WIDTH_3, shift3, satWidth, cellWidth, msmWidths] at hl hl' ⊢
    simp only [Bool.false_eq_true, if_false, if_true]
    rw [if_neg (by omega)]
    simp (disch := omega) only [nextW, ok_bind, pure_ok, tupleU_ok, tupleS_ok]
    rw [if_neg (by omega)]
    refine ⟨_, _, rfl, ?_⟩
    simp only [MsmData.bareObj, msmWidths, dataAt, colObj]
    simp (decide := true) only [if_true, if_false, colU_pos, colS_pos, ne_eq, not_false_iff]
    simp only [Nat.zero_mul, Nat.add_zero]
    rfl

theorem extract123_inv {buf : Bytes} {g k : Nat} (hk : 1 ≤ k ∧ k ≤ 3) {r : Bare123 × Nat}
    (h : extract123 buf (attrOf g k) (dataAt g k (bitsOf buf)).hdrObj
      (193 + nsatAt (bitsOf buf) * nsigAt (bitsOf buf)) = .ok r) :
    0 < ncellAt (bitsOf buf) ∧
    buf.length = 6 + (169 + nsatAt (bitsOf buf) * nsigAt (bitsOf buf) + satWidth k * nsatAt (bitsOf buf) +
      cellWidth k * ncellAt (bitsOf buf) + 7) / 8 ∧
    buf.length = 6 + (169 + nsatAt (bitsOf buf) * nsigAt (bitsOf buf) + satWidth k * nsatAt (bitsOf buf) +
      estWidth k * ncellAt (bitsOf buf) + 7) / 8 := by
  obtain ⟨c1, c2, c3⟩ := hdrObj_counts g k (bitsOf buf)
  unfold extract123 at h
  dsimp only at h
  rw [c1, c2, c3] at h
  split at h
  · cases h
  rename_i h0
  split at h
  · cases h
  rename_i he
  refine ⟨by omega, ?_⟩
  have : k = 1 ∨ k = 2 ∨ k = 3 := by omega
  rcases this with rfl | rfl | rfl
  · have e1 : (attrOf g 1).is_msm1 = true := by rfl
    simp only [plan123, e1, shift3, satWidth, cellWidth, msmWidths, estWidth] at he ⊢
    simp only [if_true] at he
    simp (decide := true) only [if_false]
    omega
  · have e1 : (attrOf g 2).is_msm1 = false := by rfl
    have e2 : (attrOf g 2).is_msm2 = true := by rfl
    have e3 : (attrOf g 2).is_msm3 = false := by rfl
    simp only [plan123, e1, e2, e3, BIT_WIDTH_2, shift3, satWidth, cellWidth, msmWidths, estWidth] at he h ⊢
    simp only [Bool.false_eq_true, if_false, if_true] at he h
    simp (decide := true) only [if_true]
    simp (disch := omega) only [nextW, ok_bind, pure_ok, tupleU_ok, tupleS_ok] at h
    split at h
    · cases h
    omega
  · have e1 : (attrOf g 3).is_msm1 = false := by rfl
    have e2 : (attrOf g 3).is_msm2 = false := by rfl
    have e3 : (attrOf g 3).is_msm3 = true := by rfl
    simp only [plan123, e1, e2, e3, BIT_WIDTH_3, shift3, satWidth, cellWidth, msmWidths, estWidth] at he h ⊢
    simp only [Bool.false_eq_true, if_false, if_true] at he h
    simp (decide := true) only [if_true, if_false]
    simp (disch := omega) only [nextW, ok_bind, pure_ok, tupleU_ok, tupleS_ok] at h
    split at h
    · cases h
    omega

end Verif
