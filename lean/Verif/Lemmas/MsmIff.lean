import Verif.Lemmas.MsmExtract

/-!
# Bare decoding of multiple signal messages: exact condition
-/

namespace Verif
open Spec Bits Msm RtcmUtil

theorem subset_msm {g k : Nat} (hg : g < 7) (hk : 1 ≤ k ∧ k ≤ 7) :
    msmSubset ((1070 + 10 * g + k : Nat) : Int) = (gnssLetter g, msmName k) := by
  have : ∀ g, g < 7 → ∀ k, k < 8 → 1 ≤ k → msmSubset ((1070 + 10 * g + k : Nat) : Int) = (gnssLetter g, msmName k) := by
    decide +kernel
  exact this g hg k (by omega) hk.1

theorem attributes_ok {buf : Bytes} {g k : Nat} (hg : g < 7) (hk : 1 ≤ k ∧ k ≤ 7) (hb : 5 ≤ buf.length)
    (hn : natOfBits (slice (bitsOf buf) 24 12) = 1070 + 10 * g + k) : attributes buf = attrOf g k := by
  have e : Msm.getMsgNum buf = some (1070 + 10 * g + k) := by
    unfold Msm.getMsgNum
    rw [gbu_ok (by omega) (by omega) (by omega), hn]; rfl
  simp only [attributes, e, subsetOf, subset_msm hg hk, attrOf]

theorem attributes_inv {buf : Bytes} (h : (attributes buf).subset ≠ "") :
    ∃ g k, g < 7 ∧ 1 ≤ k ∧ k ≤ 7 ∧ 5 ≤ buf.length ∧ natOfBits (slice (bitsOf buf) 24 12) = 1070 + 10 * g + k ∧
      attributes buf = attrOf g k := by
  have h' := h
  simp only [attributes, Msm.getMsgNum] at h
  cases hx : gbu buf 24 12 with
  | error e => rw [hx] at h; exact absurd rfl h
  | ok n =>
    rw [hx] at h
    obtain ⟨rfl, hb, _⟩ := gbu_inv hx
    obtain ⟨g, k, hg, hk, hn⟩ := C20_msm_only (natOfBits (slice (bitsOf buf) 24 12)) (by
      intro h0
      apply h
      simp only [catchBits, subsetOf, h0])
    exact ⟨g, k + 1, hg, by omega, by omega, by omega, by omega,
      attributes_ok hg ⟨by omega, by omega⟩ (by omega) (by omega)⟩

theorem hdrObj_mask (g k : Nat) (bits : List Bool) (h : 0 < nsatAt bits) : (dataAt g k bits).hdrObj.sat_mask ≠ 0 := by
  intro h0
  have := (maskInt_zero _).1 h0
  unfold nsatAt at h
  have h2 : (dataAt g k bits).sats.count true = (slice bits 97 64).count true := rfl
  omega

/-- What the length field of the frame must admit. -/
def LenOk (buf : Bytes) : Prop := 169 + nsatAt (bitsOf buf) * nsigAt (bitsOf buf) + 24 ≤ 8 * lenField buf

/-- The estimated length is right. -/
def EstOk (k : Nat) (buf : Bytes) : Prop :=
  buf.length = 6 + (169 + nsatAt (bitsOf buf) * nsigAt (bitsOf buf) + satWidth k * nsatAt (bitsOf buf) +
    estWidth k * ncellAt (bitsOf buf) + 7) / 8

theorem decode_ok {buf : Bytes} {g k : Nat} (h : GoodBits g k buf) (hl : LenOk buf) (he : EstOk k buf) :
    Msm.decode buf = .ok (dataAt g k (bitsOf buf)).bareObj := by
  have hb := h.bits_len
  rw [bitsOf_length] at hb
  have ha := attributes_ok h.hg h.hk (by omega) h.num
  obtain ⟨hN, hM⟩ := h.pos
  have hh := extractHdr_ok g k (by omega) hl hN hM h.size
  have hm := hdrObj_mask g k _ hN
  unfold Msm.decode
  dsimp only
  rw [ha]
  by_cases hk3 : k ≤ 3
  · have : k = 1 ∨ k = 2 ∨ k = 3 := by have := h.hk; omega
    have e : ((attrOf g k).is_msm1 || (attrOf g k).is_msm2 || (attrOf g k).is_msm3) = true := by
      rcases this with rfl | rfl | rfl <;> rfl
    rw [if_pos e, hh, ok_bind]
    dsimp only
    rw [if_neg hm]
    obtain ⟨b, o, h1, h2⟩ := extract123_ok (g := g) ⟨h.hk.1, hk3⟩ hN hM h.ne h.len he
    rw [h1, ok_bind, ← h2]; rfl
  · have : k = 4 ∨ k = 5 ∨ k = 6 ∨ k = 7 := by have := h.hk; omega
    have e : ((attrOf g k).is_msm1 || (attrOf g k).is_msm2 || (attrOf g k).is_msm3) = false := by
      rcases this with rfl | rfl | rfl | rfl <;> rfl
    have e' : ((attrOf g k).is_msm4 || (attrOf g k).is_msm5 || (attrOf g k).is_msm6 || (attrOf g k).is_msm7) = true := by
      rcases this with rfl | rfl | rfl | rfl <;> rfl
    rw [if_neg (by rw [e]; decide), if_pos e', hh, ok_bind]
    dsimp only
    rw [if_neg hm]
    obtain ⟨b, o, h1, h2⟩ := extract4567_ok (g := g) ⟨by omega, h.hk.2⟩ hN hM h.ne h.len
    rw [h1, ok_bind, ← h2]; rfl

/-- The header of an empty message is accepted only if the length field announces at least 25 bytes. -/
theorem extractHdr_empty {buf : Bytes} {r : BareHdr × Nat} (h : extractHdr buf 24 = .ok r) (hr : r.1.sat_mask = 0) :
    nsatAt (bitsOf buf) = 0 ∧ buf.length = 28 ∧ 25 ≤ lenField buf := by
  unfold extractHdr MIN_HDR_LEN at h
  dsimp only at h
  obtain ⟨len, h1, h⟩ := bind_ok h
  split at h
  · cases h
  rename_i hlen
  obtain ⟨_, _, h⟩ := bind_ok h
  obtain ⟨_, _, h⟩ := bind_ok h
  obtain ⟨_, _, h⟩ := bind_ok h
  obtain ⟨_, _, h⟩ := bind_ok h
  obtain ⟨_, _, h⟩ := bind_ok h
  obtain ⟨_, _, h⟩ := bind_ok h
  obtain ⟨_, _, h⟩ := bind_ok h
  obtain ⟨_, _, h⟩ := bind_ok h
  obtain ⟨_, _, h⟩ := bind_ok h
  obtain ⟨x, hx, h⟩ := bind_ok h
  obtain ⟨y, hy, h⟩ := bind_ok h
  obtain ⟨z, hz, h⟩ := bind_ok h
  obtain ⟨u, hu, h⟩ := bind_ok h
  obtain ⟨rfl, hb1, _⟩ := gbu_inv hx
  obtain ⟨rfl, hb2, _⟩ := gbu_inv hz
  have hbl := bitsOf_length buf
  rw [revbitu_mask _ _ (slice_length _ _ _ (by omega)) (by omega)] at hy hu
  cases hy
  cases hu
  obtain ⟨rfl, _⟩ := gbu_inv h1
  have hL : 25 ≤ lenField buf := by unfold lenField; omega
  simp only [bitCount_maskInt] at h
  split at h
  · rename_i h0
    split at h
    · cases h
    · rename_i hn
      rw [shift3] at hn
      exact ⟨h0, by omega, hL⟩
  rename_i h0
  split at h
  · cases h
  split at h
  · cases h
  obtain ⟨v, hv, h⟩ := bind_ok h
  obtain ⟨w, hw, h⟩ := bind_ok h
  cases h
  exact absurd ((maskInt_zero _).1 hr) h0

theorem decode_inv {buf : Bytes} {o : Bare} (h : Msm.decode buf = .ok o) :
    (∃ g k, GoodBits g k buf ∧ LenOk buf ∧ EstOk k buf ∧ o = (dataAt g k (bitsOf buf)).bareObj) ∨
    (nsatAt (bitsOf buf) = 0 ∧ buf.length = 28 ∧ 25 ≤ lenField buf) := by
  have h' := h
  unfold Msm.decode at h'
  dsimp only at h'
  by_cases hs : (attributes buf).subset = ""
  · simp [Attributes.is_msm1, Attributes.is_msm2, Attributes.is_msm3, Attributes.is_msm4, Attributes.is_msm5,
      Attributes.is_msm6, Attributes.is_msm7, hs] at h'
  obtain ⟨g, k, hg, hk1, hk7, hb, hn, ha⟩ := attributes_inv hs
  rw [ha] at h'
  by_cases hk3 : k ≤ 3
  · have : k = 1 ∨ k = 2 ∨ k = 3 := by omega
    have e : ((attrOf g k).is_msm1 || (attrOf g k).is_msm2 || (attrOf g k).is_msm3) = true := by
      rcases this with rfl | rfl | rfl <;> rfl
    rw [if_pos e] at h'
    obtain ⟨⟨hdr, off⟩, h1, h'⟩ := bind_ok h'
    dsimp only at h'
    split at h'
    · rename_i h0
      exact .inr (extractHdr_empty h1 h0)
    rename_i h0
    obtain ⟨b1, b2, b3, b4, b5, b6⟩ := extractHdr_inv g k h1 h0
    cases b6
    obtain ⟨⟨b, o'⟩, h2, h'⟩ := bind_ok h'
    obtain ⟨i1, i2, i3⟩ := extract123_inv ⟨hk1, hk3⟩ h2
    have hG : GoodBits g k buf := ⟨hg, ⟨hk1, hk7⟩, hn, b5, i1, i2⟩
    refine .inl ⟨g, k, hG, b2, i3, ?_⟩
    rw [decode_ok hG b2 i3] at h
    exact (Except.ok.inj h).symm
  · have : k = 4 ∨ k = 5 ∨ k = 6 ∨ k = 7 := by omega
    have e : ((attrOf g k).is_msm1 || (attrOf g k).is_msm2 || (attrOf g k).is_msm3) = false := by
      rcases this with rfl | rfl | rfl | rfl <;> rfl
    have e' : ((attrOf g k).is_msm4 || (attrOf g k).is_msm5 || (attrOf g k).is_msm6 || (attrOf g k).is_msm7) = true := by
      rcases this with rfl | rfl | rfl | rfl <;> rfl
    rw [if_neg (by rw [e]; decide), if_pos e'] at h'
    obtain ⟨⟨hdr, off⟩, h1, h'⟩ := bind_ok h'
    dsimp only at h'
    split at h'
    · rename_i h0
      exact .inr (extractHdr_empty h1 h0)
    rename_i h0
    obtain ⟨b1, b2, b3, b4, b5, b6⟩ := extractHdr_inv g k h1 h0
    cases b6
    obtain ⟨⟨b, o'⟩, h2, h'⟩ := bind_ok h'
    obtain ⟨i1, i2⟩ := extract4567_inv ⟨by omega, hk7⟩ h2
    have hG : GoodBits g k buf := ⟨hg, ⟨hk1, hk7⟩, hn, b5, i1, i2⟩
    have hE : EstOk k buf := by
      unfold EstOk estWidth
      rw [if_neg (by omega), if_neg (by omega)]
      exact i2
    refine .inl ⟨g, k, hG, b2, hE, ?_⟩
    rw [decode_ok hG b2 hE] at h
    exact (Except.ok.inj h).symm

/-! ## Valid frames -/

theorem lenField_valid {buf : Bytes} (h : ValidFrame buf) : lenField buf = buf.length - 6 := by
  obtain ⟨h1, h2, h3, h4⟩ := h
  have hb : 6 ≤ buf.length := by omega
  match buf, hb with
  | a :: b :: c :: rest, _ =>
    have e : lenField (a :: b :: c :: rest) = b.toNat % 4 * 256 + c.toNat := by
      unfold lenField slice
      simp only [bitsOf_cons]
      have : (byteBits a ++ (byteBits b ++ (byteBits c ++ bitsOf rest))).drop 14 =
          (byteBits b).drop 6 ++ (byteBits c ++ bitsOf rest) := by
        rfl
      rw [this]
      have : ((byteBits b).drop 6 ++ (byteBits c ++ bitsOf rest)).take 10 = (byteBits b).drop 6 ++ byteBits c := by
        rfl
      rw [this, natOfBits_append, natOfBits_byteBits, natOfBits_drop, natOfBits_byteBits, byteBits_length, byteBits_length]
      norm_num
    rw [e]
    simp only [payloadLen, List.getD_cons_succ, List.getD_cons_zero] at h3
    simp only [List.getD_cons_succ, List.getD_cons_zero] at h2
    simp only [List.length_cons] at h3 ⊢
    omega

theorem lenOk_valid {buf : Bytes} {g k : Nat} (hv : ValidFrame buf) (h : GoodBits g k buf) : LenOk buf := by
  unfold LenOk
  rw [lenField_valid hv]
  have hl := h.len
  obtain ⟨hN, hM⟩ := h.pos
  have hC := h.ne
  have : k = 1 ∨ k = 2 ∨ k = 3 ∨ k = 4 ∨ k = 5 ∨ k = 6 ∨ k = 7 := by have := h.hk; omega
  rcases this with rfl | rfl | rfl | rfl | rfl | rfl | rfl <;>
    simp only [satWidth, cellWidth, msmWidths] at hl <;> omega

end Verif
