import Verif.Lemmas.MsmBare

/-!
# Bare decoding of multiple signal messages: the decoder
-/

namespace Verif
open Spec Bits Msm RtcmUtil

/-- The length field of the frame header. -/
def lenField (buf : Bytes) : Nat := natOfBits (slice (bitsOf buf) 14 10)

theorem extractHdr_ok {buf : Bytes} (g k : Nat) (hb : 193 + nsatAt (bitsOf buf) * nsigAt (bitsOf buf) ≤ 8 * buf.length)
    (hl : 169 + nsatAt (bitsOf buf) * nsigAt (bitsOf buf) + 24 ≤ 8 * lenField buf)
    (hN : 0 < nsatAt (bitsOf buf)) (hM : 0 < nsigAt (bitsOf buf))
    (hs : nsatAt (bitsOf buf) * nsigAt (bitsOf buf) ≤ 64) :
    extractHdr buf 24 =
      .ok ((dataAt g k (bitsOf buf)).hdrObj, 193 + nsatAt (bitsOf buf) * nsigAt (bitsOf buf)) := by
  have hpos : 0 < nsatAt (bitsOf buf) * nsigAt (bitsOf buf) := Nat.mul_pos hN hM
  have hbl := bitsOf_length buf
  have hN' : List.count true (slice (bitsOf buf) 97 64) = nsatAt (bitsOf buf) := rfl
  have hM' : List.count true (slice (bitsOf buf) 161 32) = nsigAt (bitsOf buf) := rfl
  unfold extractHdr MIN_HDR_LEN
  have e1 : revbitu (natOfBits (slice (bitsOf buf) 97 64)) 64 = .ok (maskInt (slice (bitsOf buf) 97 64)) :=
    revbitu_mask _ _ (slice_length _ _ _ (by omega)) (by omega)
  have e2 : revbitu (natOfBits (slice (bitsOf buf) 161 32)) 32 = .ok (maskInt (slice (bitsOf buf) 161 32)) :=
    revbitu_mask _ _ (slice_length _ _ _ (by omega)) (by omega)
  have e3 : revbitu (natOfBits (slice (bitsOf buf) 193 (nsatAt (bitsOf buf) * nsigAt (bitsOf buf))))
      (nsatAt (bitsOf buf) * nsigAt (bitsOf buf)) = .ok (maskInt (cellsAt (bitsOf buf))) :=
    revbitu_mask _ _ (slice_length _ _ _ (by omega)) (by omega)
  rw [gbu_ok (by omega) (by omega) (by omega), ok_bind]
  dsimp only
  rw [if_neg (by unfold lenField at hl; omega)]
  simp (disch := omega) only [gbu_ok, ok_bind, e1, e2, bitCount_maskInt, hN', hM']
  rw [if_neg (by omega), if_neg (by omega), if_neg (by unfold lenField at hl; omega), e3, ok_bind]
  rfl

theorem extractHdr_inv {buf : Bytes} (g k : Nat) {r : BareHdr × Nat} (h : extractHdr buf 24 = .ok r)
    (hr : r.1.sat_mask ≠ 0) :
    193 + nsatAt (bitsOf buf) * nsigAt (bitsOf buf) ≤ 8 * buf.length ∧
    169 + nsatAt (bitsOf buf) * nsigAt (bitsOf buf) + 24 ≤ 8 * lenField buf ∧
    0 < nsatAt (bitsOf buf) ∧ 0 < nsigAt (bitsOf buf) ∧ nsatAt (bitsOf buf) * nsigAt (bitsOf buf) ≤ 64 ∧
    r = ((dataAt g k (bitsOf buf)).hdrObj, 193 + nsatAt (bitsOf buf) * nsigAt (bitsOf buf)) := by
  have h' := h
  unfold extractHdr MIN_HDR_LEN at h'
  dsimp only at h'
  obtain ⟨len, h1, h'⟩ := bind_ok h'
  split at h'
  · cases h'
  rename_i hlen
  obtain ⟨_, _, h'⟩ := bind_ok h'
  obtain ⟨_, _, h'⟩ := bind_ok h'
  obtain ⟨_, _, h'⟩ := bind_ok h'
  obtain ⟨_, _, h'⟩ := bind_ok h'
  obtain ⟨_, _, h'⟩ := bind_ok h'
  obtain ⟨_, _, h'⟩ := bind_ok h'
  obtain ⟨_, _, h'⟩ := bind_ok h'
  obtain ⟨_, _, h'⟩ := bind_ok h'
  obtain ⟨_, _, h'⟩ := bind_ok h'
  obtain ⟨x, hx, h'⟩ := bind_ok h'
  obtain ⟨y, hy, h'⟩ := bind_ok h'
  obtain ⟨z, hz, h'⟩ := bind_ok h'
  obtain ⟨u, hu, h'⟩ := bind_ok h'
  obtain ⟨rfl, hb1, _⟩ := gbu_inv hx
  obtain ⟨rfl, hb2, _⟩ := gbu_inv hz
  have hbl := bitsOf_length buf
  rw [revbitu_mask _ _ (slice_length _ _ _ (by omega)) (by omega)] at hy hu
  cases hy
  cases hu
  obtain ⟨rfl, _⟩ := gbu_inv h1
  simp only [bitCount_maskInt] at h'
  split at h'
  · rename_i h0
    split at h'
    · cases h'
    · cases h'
      exact absurd ((maskInt_zero _).2 h0) hr
  rename_i h0
  split at h'
  · cases h'
  rename_i hs
  split at h'
  · cases h'
  rename_i hc
  obtain ⟨v, hv, _⟩ := bind_ok h'
  obtain ⟨_, hb3, hb4, _⟩ := gbu_inv hv
  have hN : 0 < nsatAt (bitsOf buf) := by
    unfold nsatAt; exact Nat.pos_of_ne_zero h0
  have hM : 0 < nsigAt (bitsOf buf) := by
    have : 0 < nsatAt (bitsOf buf) * nsigAt (bitsOf buf) := hb4
    exact Nat.pos_of_mul_pos_left this
  have hs' : nsatAt (bitsOf buf) * nsigAt (bitsOf buf) ≤ 64 := Nat.le_of_not_lt hs
  have hb' : 193 + nsatAt (bitsOf buf) * nsigAt (bitsOf buf) ≤ 8 * buf.length := hb3
  have hl' : 169 + nsatAt (bitsOf buf) * nsigAt (bitsOf buf) + 24 ≤ 8 * lenField buf := by
    have hc' : ¬((nsatAt (bitsOf buf) * nsigAt (bitsOf buf) : Nat) : Int) >
        ((lenField buf : Int) - 3) * 8 - ((169 : Nat) : Int) := hc
    omega
  refine ⟨hb', hl', hN, hM, hs', ?_⟩
  have := extractHdr_ok g k hb' hl' hN hM hs'
  rw [h] at this
  exact Except.ok.inj this

end Verif
