import Verif.Lemmas.CRCDetect
import Verif.Lemmas.Framer

/-!
# C11, C12, C13: the checksum
-/

namespace Verif
open Spec Polynomial

/-- A real 1029 message (tests of /repo), used as concrete example. -/
def sample1029 : Bytes :=
  [0xD3, 0x00, 0x27, 0x40, 0x50, 0x17, 0x00, 0x84, 0x73, 0x6E, 0x15, 0x1E, 0x55, 0x54, 0x46, 0x2D,
   0x38, 0x20, 0xD0, 0xBF, 0xD1, 0x80, 0xD0, 0xBE, 0xD0, 0xB2, 0xD0, 0xB5, 0xD1, 0x80, 0xD0, 0xBA,
   0xD0, 0xB0, 0x20, 0x77, 0xC3, 0xB6, 0x72, 0x74, 0x65, 0x72, 0xED, 0xA3, 0x3B]

theorem sample1029_valid : ValidFrame sample1029 := by decide +kernel

/-- **C11** `CRC24Q.calc` never raises; its result is below 2^24 and, read as a polynomial over
GF(2), it is the remainder of (message · x^24) modulo the CRC-24Q generator. -/
theorem C11_crc_remainder (data : Bytes) :
    ∃ r, CRC24Q.crcCalc data = .ok r ∧ r < 2 ^ 24 ∧
      bitsPoly (bitsOfNat 24 r) = (bitsPoly (bitsOf data) * X ^ 24) %ₘ genPoly :=
  ⟨_, calc_eq data, crc24q_lt data, regPoly_crcOfBits _⟩

/-- **C11** the same against the executable bit-by-bit definition. -/
theorem C11_crc_bitwise (data : Bytes) : CRC24Q.crcCalc data = .ok (crc24q data) := calc_eq data

example : CRC24Q.crcCalc (sample1029.take 42) = .ok 0xEDA33B := by decide +kernel

theorem diff_dvd {f g : Bytes} (hf : ValidFrame f) (hg : ValidFrame g) (hl : f.length = g.length) :
    genPoly ∣ bitsPoly (diffBits f g) := by
  have h1 := (crc_iff_dvd f (by have := hf.length; omega)).1 hf.crc
  have h2 := (crc_iff_dvd g (by have := hg.length; omega)).1 hg.crc
  unfold diffBits
  rw [bitsPoly_zipWith _ _ (by simp [hl])]
  exact dvd_add h1 h2

theorem bits_eq_of_diff {a b : List Bool} (hl : a.length = b.length)
    (h : ∀ x ∈ List.zipWith (fun x y => x != y) a b, x = false) : a = b := by
  induction a generalizing b with
  | nil => cases b <;> simp_all
  | cons x a ih =>
    cases b with
    | nil => simp at hl
    | cons y b =>
      simp only [List.zipWith_cons_cons, List.mem_cons] at h
      have hxy := h _ (Or.inl rfl)
      rw [ih (by simpa using hl) (fun z hz => h z (Or.inr hz))]
      simp only [bne_eq_false_iff_eq] at hxy
      rw [hxy]

theorem bitsOf_inj {f g : Bytes} (h : bitsOf f = bitsOf g) : f = g := by
  induction f generalizing g with
  | nil =>
    have := congrArg List.length h
    simp at this
    exact (List.length_eq_zero_iff.1 (by simpa using this)).symm
  | cons a f ih =>
    cases g with
    | nil => have := congrArg List.length h; simp at this
    | cons b g =>
      rw [bitsOf_cons, bitsOf_cons] at h
      have h2 := List.append_inj h rfl
      rw [ih h2.2]
      have := congrArg natOfBits h2.1
      rw [natOfBits_byteBits, natOfBits_byteBits] at this
      rw [UInt8.toNat_inj.1 this]

/-- **C12** a frame altered within 24 consecutive bits is not a valid frame any more. -/
theorem C12_burst (f f' : Bytes) (hf : ValidFrame f) (hl : f'.length = f.length) (hne : f' ≠ f)
    (hb : IsBurst 24 (diffBits f f')) : ¬ ValidFrame f' := by
  intro hf'
  have hd := diff_dvd hf hf' hl.symm
  have h0 := burst_not_dvd hb hd
  exact hne (bitsOf_inj (bits_eq_of_diff (by simp [hl]) h0)).symm

/-- **C12** the CRC check itself (`mcrc`, decoder_top.py:350-357) fails on it, if the altered frame still
has an intact header (otherwise it is not even looked at as a frame of this length). -/
theorem C12_burst_mcrc (f f' : Bytes) (hf : ValidFrame f) (hl : f'.length = f.length) (hne : f' ≠ f)
    (hb : IsBurst 24 (diffBits f f')) (hh : f'.take 3 = f.take 3) : Framer.mcrc f' ≠ some true := by
  have hp : payloadLen f' = payloadLen f := by
    rw [← payloadLen_take f' 3 (by omega), hh, payloadLen_take f 3 (by omega)]
  have hlen := hf.length
  have h1 : (f'.getD 1 0).toNat < 4 := by
    rw [← getD_take f' 3 1 (by omega), hh, getD_take f 3 1 (by omega)]; exact hf.reserved
  have h0 : f'[0]? = some 0xD3 := by
    rw [← List.getElem?_take_of_lt (show 0 < 3 by omega), hh, List.getElem?_take_of_lt (by omega)]
    exact hf.sync
  intro hc
  have := (mcrc_eq h1 h0 (by omega)).1 hc
  rw [List.take_of_length_le (by omega)] at this
  exact C12_burst f f' hf hl hne hb this

-- three corrupted bytes at positions 10..12
example : ValidFrame sample1029 ∧ IsBurst 24 (diffBits sample1029
      (sample1029.take 10 ++ [0x00, 0xFF, 0x54] ++ sample1029.drop 13)) ∧
    sample1029.take 10 ++ [0x00, 0xFF, 0x54] ++ sample1029.drop 13 ≠ sample1029 := by
  refine ⟨sample1029_valid, ⟨80, ?_⟩, by decide⟩
  have : ∀ j, j < 360 → (diffBits sample1029
      (sample1029.take 10 ++ [0x00, 0xFF, 0x54] ++ sample1029.drop 13))[j]? = some true →
      80 ≤ j ∧ j < 80 + 24 := by decide +kernel
  intro j hj
  by_cases h : j < 360
  · exact this j h hj
  · rw [List.getElem?_eq_none (by simp [diffBits, sample1029]; omega)] at hj
    simp at hj

/-- **C13** a frame with an odd number of flipped bits is not a valid frame. -/
theorem C13_odd (f f' : Bytes) (hf : ValidFrame f) (hl : f'.length = f.length)
    (hodd : (diffBits f f').count true % 2 = 1) : ¬ ValidFrame f' := by
  intro hf'
  have := even_count_of_dvd (diff_dvd hf hf' hl.symm)
  omega

/-- **C13** a frame with exactly two flipped bits is not a valid frame. -/
theorem C13_two (f f' : Bytes) (hf : ValidFrame f) (hl : f'.length = f.length)
    (h2 : (diffBits f f').count true = 2) : ¬ ValidFrame f' := by
  intro hf'
  refine two_bits_not_dvd ?_ h2 (diff_dvd hf hf' hl.symm)
  have := hf.length
  have h3 := payloadLen_le hf.reserved
  simp [diffBits, hl]
  omega

/-- **C13** hence any one to three flipped bits are detected. -/
theorem C13_up_to_three (f f' : Bytes) (hf : ValidFrame f) (hl : f'.length = f.length)
    (h1 : 1 ≤ (diffBits f f').count true) (h3 : (diffBits f f').count true ≤ 3) : ¬ ValidFrame f' := by
  by_cases h : (diffBits f f').count true = 2
  · exact C13_two f f' hf hl h
  · exact C13_odd f f' hf hl (by omega)

-- one bit, and two bits in distant bytes
example : (diffBits sample1029 (sample1029.set 20 0xD0)).count true = 1 := by decide +kernel
example : (diffBits sample1029 ((sample1029.set 5 0x16).set 40 0x64)).count true = 2 := by decide +kernel

end Verif
