import Verif.Lemmas.CRC

namespace Verif
open Spec Polynomial

theorem bitsPoly_append (a b : List Bool) :
    bitsPoly (a ++ b) = bitsPoly a * X ^ b.length + bitsPoly b := by
  induction a with
  | nil => simp [bitsPoly]
  | cons x a ih =>
    simp only [List.cons_append, bitsPoly, ih, List.length_append, pow_add]
    cases x
    · simp
    · simp only [if_true]; ring

theorem bitsPoly_zipWith (a b : List Bool) (h : a.length = b.length) :
    bitsPoly (List.zipWith (fun x y => x != y) a b) = bitsPoly a + bitsPoly b := by
  induction a generalizing b with
  | nil => cases b <;> simp_all [bitsPoly]
  | cons x a ih =>
    cases b with
    | nil => simp at h
    | cons y b =>
      have hl : a.length = b.length := by simpa using h
      simp only [List.zipWith_cons_cons, bitsPoly, ih b hl, List.length_zipWith, hl, Nat.min_self]
      cases x <;> cases y <;> simp
      · ring
      · ring
      · have : (X ^ b.length : (ZMod 2)[X]) + X ^ b.length = 0 := CharTwo.add_self_eq_zero _
        linear_combination -this

theorem bitsPoly_replicate_false (n : Nat) : bitsPoly (List.replicate n false) = 0 := by
  induction n with
  | zero => rfl
  | succ n ih => simp [List.replicate_succ, bitsPoly, ih]

theorem bitsPoly_allFalse (l : List Bool) (h : ∀ b ∈ l, b = false) : bitsPoly l = 0 := by
  rw [List.eq_replicate_of_mem h, bitsPoly_replicate_false]

theorem bitsPoly_coeff (l : List Bool) (i : Nat) :
    (bitsPoly l).coeff i = if i < l.length then c2 ((natOfBits l).testBit i) else 0 := by
  conv_lhs => rw [← bitsOfNat_natOfBits l]
  exact bitsPoly_bitsOfNat_coeff _ _ _

theorem bitsPoly_eq_zero {l : List Bool} (h : bitsPoly l = 0) : ∀ b ∈ l, b = false := by
  have h0 : natOfBits l = 0 := by
    apply Nat.eq_of_testBit_eq
    intro i
    rw [Nat.zero_testBit]
    by_cases hi : i < l.length
    · have := congrArg (fun p => p.coeff i) h
      simp only [bitsPoly_coeff, hi, if_true, coeff_zero] at this
      revert this
      cases (natOfBits l).testBit i <;> decide
    · apply Nat.testBit_lt_two_pow
      exact lt_of_lt_of_le (natOfBits_lt l) (Nat.pow_le_pow_right (by omega) (by omega))
  clear h
  induction l with
  | nil => simp
  | cons b l ih =>
    simp only [natOfBits] at h0
    have hp : 0 < 2 ^ l.length := by positivity
    cases b
    · simp at h0 ⊢
      simpa using ih h0
    · simp at h0

theorem bitsPoly_degree_lt (l : List Bool) (h : l.length ≤ 24) : (bitsPoly l).degree < genPoly.degree := by
  rw [degree_eq_natDegree genPoly_monic.ne_zero, genPoly_natDegree, degree_lt_iff_coeff_zero]
  intro m hm
  rw [bitsPoly_coeff, if_neg (by omega)]

/-- A frame passes the CRC check iff its polynomial is divisible by the generator. -/
theorem crc_iff_dvd (f : Bytes) (h3 : 3 ≤ f.length) :
    natOfBits (bitsOf (f.drop (f.length - 3))) = crc24q (f.take (f.length - 3)) ↔
      genPoly ∣ bitsPoly (bitsOf f) := by
  have hsplit : bitsOf f = bitsOf (f.take (f.length - 3)) ++ bitsOf (f.drop (f.length - 3)) := by
    rw [← bitsOf_append, List.take_append_drop]
  have hlen : (bitsOf (f.drop (f.length - 3))).length = 24 := by simp; omega
  have hmod := foldl_crcBit_poly (bitsOf (f.take (f.length - 3))) 0
  rw [regPoly_zero, mul_zero, zero_add] at hmod
  have hL : bitsPoly (bitsOf (f.drop (f.length - 3))) =
      regPoly (natOfBits (bitsOf (f.drop (f.length - 3)))) := by
    rw [regPoly, ← hlen, bitsOfNat_natOfBits]
  have htwo : ∀ p : (ZMod 2)[X], p + p = 0 := fun p => CharTwo.add_self_eq_zero p
  rw [hsplit, bitsPoly_append, hlen, hL]
  constructor
  · intro h
    rw [h]
    have := htwo (X ^ 24 * bitsPoly (bitsOf (f.take (f.length - 3))))
    refine dvd_trans hmod (dvd_of_eq ?_)
    show regPoly (crc24q _) - _ = _
    linear_combination -this
  · intro h
    apply regPoly_eq_of_dvd
    · have := natOfBits_lt (bitsOf (f.drop (f.length - 3)))
      rwa [hlen] at this
    · exact crc24q_lt _
    · have := dvd_sub h hmod
      refine dvd_trans this (dvd_of_eq ?_)
      have h2 := htwo (X ^ 24 * bitsPoly (bitsOf (f.take (f.length - 3))))
      show _ - (regPoly (crc24q _) - _) = _
      linear_combination h2

theorem genPoly_coprime_X : IsCoprime genPoly (X : (ZMod 2)[X]) := by
  refine ⟨1, -(X ^ 23 + X ^ 22 + X ^ 17 + X ^ 16 + X ^ 13 + X ^ 10 + X ^ 9 + X ^ 6 + X ^ 5 + X ^ 4 + X ^ 3
    + X ^ 2 + 1), ?_⟩
  unfold genPoly
  ring

theorem dvd_of_dvd_mul_X_pow {p : (ZMod 2)[X]} {n : Nat} (h : genPoly ∣ p * X ^ n) : genPoly ∣ p :=
  (genPoly_coprime_X.pow_right (n := n)).dvd_of_dvd_mul_right h

theorem dvd_eq_zero_of_short {l : List Bool} (hl : l.length ≤ 24) (h : genPoly ∣ bitsPoly l) :
    ∀ b ∈ l, b = false := by
  apply bitsPoly_eq_zero
  by_contra hne
  exact absurd (bitsPoly_degree_lt l hl) (not_lt.2 (degree_le_of_dvd h hne))

/-- Bursts of at most 24 bits are not divisible. -/
theorem burst_not_dvd {e : List Bool} (hb : IsBurst 24 e) (h : genPoly ∣ bitsPoly e) :
    ∀ b ∈ e, b = false := by
  obtain ⟨i, hi⟩ := hb
  have hsplit : e = e.take i ++ ((e.drop i).take 24 ++ e.drop (i + 24)) := by
    rw [← List.drop_drop, List.take_append_drop, List.take_append_drop]
  have hpre : ∀ b ∈ e.take i, b = false := by
    intro b hbm
    obtain ⟨j, hj⟩ := List.mem_iff_getElem?.1 hbm
    by_contra hne
    have hbt : b = true := by simpa using hne
    subst hbt
    have hji : j < i := by
      by_contra hc
      rw [List.getElem?_eq_none (by simp; omega)] at hj
      simp at hj
    rw [List.getElem?_take_of_lt hji] at hj
    have := hi j hj
    omega
  have hpost : ∀ b ∈ e.drop (i + 24), b = false := by
    intro b hbm
    obtain ⟨j, hj⟩ := List.mem_iff_getElem?.1 hbm
    by_contra hne
    have hbt : b = true := by simpa using hne
    subst hbt
    rw [List.getElem?_drop] at hj
    have := hi _ hj
    omega
  have hmid : ∀ b ∈ (e.drop i).take 24, b = false := by
    apply dvd_eq_zero_of_short (by simp)
    rw [hsplit, bitsPoly_append, bitsPoly_append, bitsPoly_allFalse _ hpre,
      bitsPoly_allFalse _ hpost, zero_mul, zero_add, add_zero] at h
    exact dvd_of_dvd_mul_X_pow h
  intro b hbm
  rw [hsplit] at hbm
  simp only [List.mem_append] at hbm
  rcases hbm with h1 | h1 | h1
  · exact hpre b h1
  · exact hmid b h1
  · exact hpost b h1

theorem eval_one_bitsPoly (l : List Bool) : (bitsPoly l).eval 1 = (l.count true : ZMod 2) := by
  induction l with
  | nil => simp [bitsPoly]
  | cons b l ih =>
    cases b
    · simp [bitsPoly, ih]
    · simp [bitsPoly, ih]; ring

theorem eval_one_genPoly : genPoly.eval 1 = 0 := by
  simp [genPoly]
  decide

/-- A multiple of the generator has an even number of terms. -/
theorem even_count_of_dvd {l : List Bool} (h : genPoly ∣ bitsPoly l) : l.count true % 2 = 0 := by
  obtain ⟨q, hq⟩ := h
  have := congrArg (fun p => p.eval 1) hq
  simp only [eval_one_bitsPoly, eval_mul, eval_one_genPoly, zero_mul] at this
  exact (ZMod.natCast_eq_zero_iff _ _).1 this |> Nat.mod_eq_zero_of_dvd

/-- The register, started at 1 and clocked with zeros, does not return to 1 within `n` steps. -/
def orbitOk : Nat → Nat → Bool
  | 0, _ => true
  | n + 1, r => (crcBit r false != 1) && orbitOk n (crcBit r false)

theorem orbitOk_spec (n r : Nat) (h : orbitOk n r = true) :
    ∀ d, 1 ≤ d → d ≤ n → (List.replicate d false).foldl crcBit r ≠ 1 := by
  induction n generalizing r with
  | zero => intro d h1 h2; omega
  | succ n ih =>
    intro d h1 h2
    simp only [orbitOk, Bool.and_eq_true, bne_iff_ne, ne_eq] at h
    obtain ⟨k, rfl⟩ : ∃ k, d = k + 1 := ⟨d - 1, by omega⟩
    rw [List.replicate_succ, List.foldl_cons]
    by_cases hk : k = 0
    · subst hk; simpa using h.1
    · exact ih _ h.2 k (by omega) (by omega)

theorem orbit_check : orbitOk 8240 1 = true := by decide +kernel

theorem regPoly_one : regPoly 1 = 1 := by
  ext i
  rw [regPoly_coeff, coeff_one]
  cases i with
  | zero => decide
  | succ k =>
    rw [if_neg (show ¬ k + 1 = 0 by omega)]
    have : Nat.testBit 1 (k + 1) = false := by simp [Nat.testBit_succ]
    rw [this]; simp [c2]

/-- `x^d + 1` is not a multiple of the generator for `0 < d ≤ 8240`. -/
theorem two_not_dvd {d : Nat} (h1 : 1 ≤ d) (h2 : d ≤ 8240) : ¬ genPoly ∣ (1 + X ^ d : (ZMod 2)[X]) := by
  intro h
  have hm := foldl_crcBit_poly (List.replicate d false) 1
  rw [bitsPoly_replicate_false, mul_zero, add_zero, regPoly_one, mul_one, List.length_replicate] at hm
  apply orbitOk_spec _ _ orbit_check d h1 h2
  apply regPoly_eq_of_dvd (foldl_crcBit_lt _ _ (by decide)) (by decide)
  rw [regPoly_one]
  have htwo : (1 : (ZMod 2)[X]) + 1 = 0 := CharTwo.add_self_eq_zero _
  refine dvd_trans (dvd_add hm h) (dvd_of_eq ?_)
  linear_combination htwo

theorem count_succ_split {l : List Bool} {n : Nat} (h : l.count true = n + 1) :
    ∃ k post, l = List.replicate k false ++ true :: post ∧ post.count true = n := by
  induction l with
  | nil => simp at h
  | cons b l ih =>
    cases b
    · obtain ⟨k, post, rfl, hp⟩ := ih (by simpa using h)
      exact ⟨k + 1, post, by simp [List.replicate_succ], hp⟩
    · exact ⟨0, l, by simp, by simpa using h⟩

theorem allFalse_of_count_zero {l : List Bool} (h : l.count true = 0) : bitsPoly l = 0 := by
  apply bitsPoly_allFalse
  intro b hb
  cases b
  · rfl
  · exact absurd hb (List.count_eq_zero.1 h)

/-- Two-bit errors are not divisible. -/
theorem two_bits_not_dvd {e : List Bool} (hlen : e.length ≤ 8240) (h2 : e.count true = 2) :
    ¬ genPoly ∣ bitsPoly e := by
  intro h
  obtain ⟨k, p1, rfl, h1⟩ := count_succ_split h2
  obtain ⟨m, p2, rfl, h0⟩ := count_succ_split h1
  have hp2 := allFalse_of_count_zero h0
  simp only [List.length_append, List.length_replicate, List.length_cons] at hlen
  have e1 : bitsPoly (List.replicate k false ++ true :: (List.replicate m false ++ true :: p2)) =
      (1 + X ^ (m + 1)) * X ^ p2.length := by
    rw [bitsPoly_append, bitsPoly_replicate_false]
    simp only [bitsPoly, if_true, zero_mul, zero_add, bitsPoly_append, bitsPoly_replicate_false, hp2,
      add_zero, List.length_append, List.length_replicate, List.length_cons]
    ring
  rw [e1] at h
  exact two_not_dvd (by omega) (by omega) (dvd_of_dvd_mul_X_pow h)

end Verif
