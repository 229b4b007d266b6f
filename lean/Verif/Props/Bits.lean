import Verif.Lemmas.Bits

/-!
# C14, C15, C16: bit field readers
-/

namespace Verif
open Spec

/-- **C14** `getbitu` returns the big-endian value of the addressed bits exactly when the field is
legal, and raises `ExceptionBitsError` otherwise. -/
theorem C14_getbitu (buf : Bytes) (start length : Int) :
    Bits.getbitu buf start length =
      if 1 ≤ length ∧ length ≤ 128 ∧ 0 ≤ start ∧ start + length ≤ 8 * buf.length then
        .ok (natOfBits (slice (bitsOf buf) start.toNat length.toNat))
      else .error .bitsError :=
  getbitu_eq buf start length

example : Bits.getbitu [0xD3, 0x01, 0x27, 0x40] 14 10 = .ok 295 := by decide
example : Bits.getbitu [0xD3, 0x01, 0x27, 0x40] 24 9 = .error .bitsError := by decide
example : natOfBits (slice (bitsOf [0xD3, 0x01, 0x27, 0x40]) 14 10) = 295 := by decide

/-- **C14** the same, bit by bit: bit `i` (from the top) of the result is bit `start + i` of the
buffer, and there are no other bits. -/
theorem C14_getbitu_bits (buf : Bytes) (start length v : Nat)
    (h : Bits.getbitu buf start length = .ok v) :
    v < 2 ^ length ∧
      ∀ i, i < length → (bitsOf buf)[start + i]? = some (v.testBit (length - 1 - i)) := by
  rw [getbitu_eq] at h
  split_ifs at h with hc
  simp only [Int.toNat_natCast, Except.ok.injEq] at h
  have hl := slice_length (bitsOf buf) start length (by simp; omega)
  subst h
  refine ⟨by simpa [hl] using natOfBits_lt (slice (bitsOf buf) start length), fun i hi => ?_⟩
  have hb := bitsOfNat_natOfBits (slice (bitsOf buf) start length)
  rw [hl] at hb
  have h1 : (bitsOf buf)[start + i]? = (slice (bitsOf buf) start length)[i]? := by
    rw [slice, List.getElem?_take_of_lt hi, List.getElem?_drop]
  rw [h1, ← bitsOfNat_getElem? _ _ _ hi, hb]

/-- **C15** `getbits` is the two's complement reader. -/
theorem C15_getbits (buf : Bytes) (start length : Int) :
    Bits.getbits buf start length =
      if 1 ≤ length ∧ length ≤ 128 ∧ 0 ≤ start ∧ start + length ≤ 8 * buf.length then
        .ok (intOfBits (slice (bitsOf buf) start.toNat length.toNat))
      else .error .bitsError :=
  getbits_eq buf start length

example : Bits.getbits [0xD3, 0xF1] 8 4 = .ok (-1) := by decide
example : Bits.getbits [0xD3, 0x71] 8 4 = .ok 7 := by decide

/-- **C15** `getbitS` is the sign-magnitude reader. -/
theorem C15_getbitS (buf : Bytes) (start length : Int) :
    Bits.getbitS buf start length =
      if length < 1 then .error .valueError
      else if length ≤ 128 ∧ 0 ≤ start ∧ start + length ≤ 8 * buf.length then
        .ok (smOfBits (slice (bitsOf buf) start.toNat length.toNat))
      else .error .bitsError := by
  split_ifs with h1 h2
  · simp [Bits.getbitS, h1]
  · rw [getbitS_eq _ _ _ (by omega), if_pos h2]
  · rw [getbitS_eq _ _ _ (by omega), if_neg h2]

example : Bits.getbitS [0xD3, 0xF1] 8 4 = .ok (-7) := by decide
example : Bits.getbitS [0xD3, 0x81] 8 4 = .ok 0 := by decide

/-- **C15** range of the two's complement reader. -/
theorem C15_getbits_range (buf : Bytes) (start length : Nat) (x : Int)
    (h : Bits.getbits buf start length = .ok x) :
    -(2 ^ (length - 1) : Int) ≤ x ∧ x < 2 ^ (length - 1) := by
  rw [getbits_eq] at h
  split_ifs at h with hc
  simp only [Int.toNat_natCast, Except.ok.injEq] at h
  have hl := slice_length (bitsOf buf) start length (by simp; omega)
  subst h
  simpa [hl] using intOfBits_range (slice (bitsOf buf) start length) (by omega)

/-- **C15** range of the sign-magnitude reader. -/
theorem C15_getbitS_range (buf : Bytes) (start length : Nat) (x : Int)
    (h : Bits.getbitS buf start length = .ok x) :
    -(2 ^ (length - 1) : Int) < x ∧ x < 2 ^ (length - 1) := by
  rw [C15_getbitS] at h
  split_ifs at h with h0 hc
  simp only [Int.toNat_natCast, Except.ok.injEq] at h
  have hl := slice_length (bitsOf buf) start length (by simp; omega)
  subst h
  simpa [hl] using smOfBits_range (slice (bitsOf buf) start length) (by omega)

/-- **C15** reading back a two's complement code: if the addressed bits are the `n`-bit code of a
representable `x`, then `getbits` returns `x`. -/
theorem C15_getbits_roundtrip (buf : Bytes) (pre post : List Bool) (n : Nat) (x : Int)
    (hn : 1 ≤ n) (hn2 : n ≤ 128)
    (hx1 : -(2 ^ (n - 1) : Int) ≤ x) (hx2 : x < 2 ^ (n - 1))
    (hbuf : bitsOf buf = pre ++ bitsOfNat n (twosCode n x) ++ post) :
    Bits.getbits buf pre.length n = .ok x := by
  have hlen := congrArg List.length hbuf
  simp only [bitsOf_length, List.length_append, bitsOfNat_length] at hlen
  rw [getbits_eq, if_pos (by omega)]
  simp only [Int.toNat_natCast]
  rw [hbuf, slice, List.append_assoc, List.drop_left, List.take_left' (by simp),
    intOfBits_twos n x hn hx1 hx2]

example : bitsOf [0xD3, 0xF1] = [true, true, false, true, false, false, true, true] ++
    bitsOfNat 4 (twosCode 4 (-1)) ++ [false, false, false, true] := by decide

/-- **C15** reading back a sign-magnitude code. -/
theorem C15_getbitS_roundtrip (buf : Bytes) (pre post : List Bool) (n : Nat) (x : Int)
    (hn : 1 ≤ n) (hn2 : n ≤ 128)
    (hx1 : -(2 ^ (n - 1) : Int) < x) (hx2 : x < 2 ^ (n - 1))
    (hbuf : bitsOf buf = pre ++ bitsOfNat n (smCode n x) ++ post) :
    Bits.getbitS buf pre.length n = .ok x := by
  have hlen := congrArg List.length hbuf
  simp only [bitsOf_length, List.length_append, bitsOfNat_length] at hlen
  rw [getbitS_eq _ _ _ (by omega), if_pos (by omega)]
  simp only [Int.toNat_natCast]
  rw [hbuf, slice, List.append_assoc, List.drop_left, List.take_left' (by simp),
    smOfBits_smCode n x hn hx1 hx2]

example : bitsOf [0xD3, 0xF1] = [true, true, false, true, false, false, true, true] ++
    bitsOfNat 4 (smCode 4 (-7)) ++ [false, false, false, true] := by decide

/-- **C16** `revbitu` reverses the `n`-bit representation of `a >> ofs`, and raises exactly when
`n + ofs` exceeds 128. -/
theorem C16_revbitu (a n ofs : Nat) :
    (128 < n + ofs → Bits.revbitu a n ofs = .error .bitsError) ∧
    (n + ofs ≤ 128 → ∃ r, Bits.revbitu a n ofs = .ok r ∧ r < 2 ^ n ∧
      (∀ i, i < n → r.testBit i = a.testBit (ofs + (n - 1 - i))) ∧
      bitsOfNat n r = (bitsOfNat n (a >>> ofs)).reverse) := by
  unfold Bits.revbitu Bits.MAX_BIT_WIDTH
  constructor
  · intro h; rw [if_pos (by omega)]
  · intro h
    rw [if_neg (by omega)]
    refine ⟨_, rfl, revLoop_lt _ _, ?_, bitsOfNat_revLoop _ _⟩
    intro i hi
    rw [revLoop_testBit, if_pos hi, Nat.testBit_shiftRight]

example : Bits.revbitu 0b0001011 7 = .ok 0b1101000 := by decide

/-- **C16** reversing twice gives `a mod 2^n`. -/
theorem C16_revbitu_involutive (a n r : Nat) (h : Bits.revbitu a n = .ok r) :
    Bits.revbitu r n = .ok (a % 2 ^ n) := by
  unfold Bits.revbitu Bits.MAX_BIT_WIDTH at *
  split_ifs at h with hc
  rw [if_neg hc]
  simp only [Except.ok.injEq, Nat.shiftRight_zero] at h ⊢
  subst h
  apply bitsOfNat_inj (w := n) (revLoop_lt _ _) (Nat.mod_lt _ (by positivity))
  rw [bitsOfNat_revLoop, bitsOfNat_revLoop, bitsOfNat_mod, List.reverse_reverse]

/-- **C16** the number of set bits among the `n` lowest is preserved. -/
theorem C16_revbitu_popcount (a n r : Nat) (h : Bits.revbitu a n = .ok r) :
    (bitsOfNat n r).count true = (bitsOfNat n a).count true := by
  unfold Bits.revbitu at *
  split_ifs at h with hc
  simp only [Except.ok.injEq, Nat.shiftRight_zero] at h
  subst h
  rw [bitsOfNat_revLoop, List.count_reverse]

example : (bitsOfNat 7 0b0001011).count true = 3 := by decide

end Verif
