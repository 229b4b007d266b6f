import Verif.Model.CRC24Q
import Verif.Spec.Frame
import Verif.Spec.CRCPoly
import Verif.Lemmas.Bits
import Mathlib.Algebra.CharP.Two
import Mathlib.RingTheory.Coprime.Lemmas
import Mathlib.Tactic.LinearCombination
import Mathlib.Tactic.ComputeDegree

namespace Verif
open Spec Polynomial

/-! ## Polynomials of bit strings -/

/-- Bit as element of GF(2). -/
def c2 (b : Bool) : ZMod 2 := if b then 1 else 0

theorem c2_xor (a b : Bool) : c2 (a != b) = c2 a + c2 b := by
  cases a <;> cases b <;> decide

theorem bitsPoly_bitsOfNat_coeff (w v i : Nat) :
    (bitsPoly (bitsOfNat w v)).coeff i = if i < w then c2 (v.testBit i) else 0 := by
  induction w with
  | zero => simp [bitsPoly, bitsOfNat]
  | succ w ih =>
    simp only [bitsOfNat, bitsPoly, coeff_add, ih, bitsOfNat_length]
    rcases Nat.lt_trichotomy i w with h | h | h
    · have : (if v.testBit w = true then (X ^ w : (ZMod 2)[X]) else 0).coeff i = 0 := by
        split_ifs
        · rw [coeff_X_pow, if_neg (by omega)]
        · simp
      rw [this, if_pos h, if_pos (by omega)]; simp
    · subst h
      rw [if_neg (show ¬ i < i by omega), if_pos (show i < i + 1 by omega)]
      simp only [c2, add_zero]
      split_ifs <;> simp
    · have : (if v.testBit w = true then (X ^ w : (ZMod 2)[X]) else 0).coeff i = 0 := by
        split_ifs
        · rw [coeff_X_pow, if_neg (by omega)]
        · simp
      rw [this, if_neg (by omega), if_neg (by omega)]; simp

theorem genPoly_eq : genPoly = bitsPoly (bitsOfNat 25 crcGen) := by
  have : bitsOfNat 25 crcGen = [true, true, false, false, false, false, true, true, false, false,
    true, false, false, true, true, false, false, true, true, true, true, true, false, true, true] := by
    decide
  rw [this, genPoly]
  simp [bitsPoly]
  ring

/-- The polynomial of a 24-bit register. -/
noncomputable def regPoly (r : Nat) : (ZMod 2)[X] := bitsPoly (bitsOfNat 24 r)

theorem regPoly_coeff (r i : Nat) : (regPoly r).coeff i = if i < 24 then c2 (r.testBit i) else 0 :=
  bitsPoly_bitsOfNat_coeff 24 r i

theorem regPoly_zero : regPoly 0 = 0 := by
  ext i; rw [regPoly_coeff]; simp [c2]

theorem regPoly_xor (a b : Nat) : regPoly (a ^^^ b) = regPoly a + regPoly b := by
  ext i
  simp only [regPoly_coeff, coeff_add, Nat.testBit_xor]
  split_ifs
  · rw [← c2_xor]
  · simp

theorem regPoly_inj {a b : Nat} (ha : a < 2 ^ 24) (hb : b < 2 ^ 24) (h : regPoly a = regPoly b) : a = b := by
  apply Nat.eq_of_testBit_eq
  intro i
  by_cases hi : i < 24
  · have := congrArg (fun p => p.coeff i) h
    simp only [regPoly_coeff, hi, if_true] at this
    revert this
    cases a.testBit i <;> cases b.testBit i <;> decide
  · have hp : 2 ^ 24 ≤ 2 ^ i := Nat.pow_le_pow_right (by omega) (by omega)
    rw [Nat.testBit_lt_two_pow (by omega), Nat.testBit_lt_two_pow (by omega)]

theorem testBit_genLow (i : Nat) (hi : i < 24) : (crcGen % 2 ^ 24).testBit i = crcGen.testBit i := by
  rw [Nat.testBit_mod_two_pow]; simp [hi]

theorem regPoly_crcBit (r : Nat) (b : Bool) :
    regPoly (crcBit r b) =
      X * regPoly r + (if b then X ^ 24 else 0) + (if (r.testBit 23 != b) then genPoly else 0) := by
  ext i
  have hG : genPoly.coeff i = if i < 25 then c2 (crcGen.testBit i) else 0 := by
    rw [genPoly_eq, bitsPoly_bitsOfNat_coeff]
  have hX : (X * regPoly r).coeff i = if 0 < i ∧ i < 25 then c2 (r.testBit (i - 1)) else 0 := by
    cases i with
    | zero => simp
    | succ k => rw [coeff_X_mul, regPoly_coeff]; simp [show k + 1 < 25 ↔ k < 24 by omega]
  have hb : (if b = true then (X ^ 24 : (ZMod 2)[X]) else 0).coeff i = if i = 24 then c2 b else 0 := by
    cases b
    · simp [c2]
    · simp only [if_true]; rw [coeff_X_pow]; simp [c2]
  have h2 : i < 24 → ((2 * r) % 2 ^ 24).testBit i = if i = 0 then false else r.testBit (i - 1) := by
    intro hi
    rw [Nat.testBit_mod_two_pow]
    have h3 := Nat.testBit_mul_two_pow r i 1
    rw [Nat.pow_one, Nat.mul_comm] at h3
    rw [h3]
    cases i with
    | zero => simp
    | succ k => simp [hi]
  have hsplit : crcBit r b = (2 * r) % 2 ^ 24 ^^^ (if (r.testBit 23 != b) then crcGen % 2 ^ 24 else 0) := by
    unfold crcBit
    split_ifs <;> simp
  have hGc : (if (r.testBit 23 != b) = true then genPoly else 0).coeff i =
      if (r.testBit 23 != b) = true then (if i < 25 then c2 (crcGen.testBit i) else 0) else 0 := by
    split_ifs <;> simp_all
  rw [coeff_add, coeff_add, hX, hb, hGc, regPoly_coeff]
  rcases Nat.lt_trichotomy i 24 with h | h | h
  · have h' := h2 h
    rw [if_pos h, if_neg (show ¬ i = 24 by omega), if_pos (show i < 25 by omega), hsplit,
      Nat.testBit_xor, h', add_zero]
    have e : (if (r.testBit 23 != b) = true then crcGen % 2 ^ 24 else 0).testBit i =
        (if (r.testBit 23 != b) = true then crcGen.testBit i else false) := by
      split_ifs
      · exact testBit_genLow i h
      · simp
    rw [e, show ∀ x y : Bool, (x ^^ y) = (x != y) from fun x y => rfl, c2_xor]
    congr 1
    · by_cases h0 : i = 0
      · simp [h0, c2]
      · rw [if_neg h0, if_pos (by omega)]
    · split_ifs <;> simp [c2]
  · subst h
    have hg : crcGen.testBit 24 = true := by decide
    rw [hg]
    simp only [show ¬ (24 : Nat) < 24 by omega, show (24 : Nat) < 25 by omega, if_true, if_false,
      show (0 : Nat) < 24 by omega, and_self, show 24 - 1 = 23 by omega]
    cases r.testBit 23 <;> cases b <;> decide
  · rw [if_neg (show ¬ i < 24 by omega), if_neg (show ¬ (0 < i ∧ i < 25) by omega),
      if_neg (show ¬ i = 24 by omega), if_neg (show ¬ i < 25 by omega)]
    simp

/-! ## Congruences modulo the generator -/

theorem crcBit_lt (r : Nat) (b : Bool) : crcBit r b < 2 ^ 24 := by
  unfold crcBit
  have h : (2 * r) % 2 ^ 24 < 2 ^ 24 := Nat.mod_lt _ (by decide)
  split_ifs
  · exact Nat.xor_lt_two_pow h (by decide)
  · exact h

theorem foldl_crcBit_lt (bits : List Bool) (r : Nat) (h : r < 2 ^ 24) : bits.foldl crcBit r < 2 ^ 24 := by
  induction bits generalizing r with
  | nil => simpa using h
  | cons b bits ih => exact ih _ (crcBit_lt r b)

theorem crcOfBits_lt (bits : List Bool) : crcOfBits bits < 2 ^ 24 := foldl_crcBit_lt _ _ (by decide)

theorem foldl_crcBit_poly (bits : List Bool) (r : Nat) :
    genPoly ∣ regPoly (bits.foldl crcBit r) - (X ^ bits.length * regPoly r + X ^ 24 * bitsPoly bits) := by
  induction bits generalizing r with
  | nil => simp [bitsPoly]
  | cons b bits ih =>
    have h1 := ih (crcBit r b)
    have h2 := regPoly_crcBit r b
    simp only [List.foldl_cons, List.length_cons, bitsPoly]
    have h3 : genPoly ∣ (if (r.testBit 23 != b) = true then genPoly else 0) * X ^ bits.length := by
      split_ifs
      · exact Dvd.intro _ rfl
      · simp
    have h4 := dvd_add h1 h3
    refine (dvd_of_eq ?_).trans (dvd_trans h4 (dvd_of_eq ?_))
    · rfl
    · rw [h2]
      have : (if b = true then (X ^ bits.length : (ZMod 2)[X]) else 0) * X ^ 24
          = (if b = true then (X ^ 24 : (ZMod 2)[X]) else 0) * X ^ bits.length := by
        cases b
        · simp
        · simp only [if_true]; ring
      linear_combination this

theorem genPoly_monic : genPoly.Monic := by
  unfold genPoly; monicity!

theorem genPoly_natDegree : genPoly.natDegree = 24 := by
  unfold genPoly; compute_degree!

theorem regPoly_degree_lt (r : Nat) : (regPoly r).degree < genPoly.degree := by
  rw [degree_eq_natDegree genPoly_monic.ne_zero, genPoly_natDegree, degree_lt_iff_coeff_zero]
  intro m hm
  rw [regPoly_coeff, if_neg (by omega)]

theorem regPoly_eq_of_dvd {a b : Nat} (ha : a < 2 ^ 24) (hb : b < 2 ^ 24)
    (h : genPoly ∣ regPoly a - regPoly b) : a = b := by
  apply regPoly_inj ha hb
  by_contra hne
  have := degree_le_of_dvd h (sub_ne_zero.2 hne)
  have h2 : (regPoly a - regPoly b).degree < genPoly.degree :=
    lt_of_le_of_lt (degree_sub_le _ _) (max_lt (regPoly_degree_lt a) (regPoly_degree_lt b))
  exact absurd h2 (not_lt.2 this)

/-- The shift register computes the polynomial remainder. -/
theorem regPoly_crcOfBits (bits : List Bool) :
    regPoly (crcOfBits bits) = (bitsPoly bits * X ^ 24) %ₘ genPoly := by
  have h := foldl_crcBit_poly bits 0
  rw [regPoly_zero, mul_zero, zero_add] at h
  have h2 : regPoly (crcOfBits bits) %ₘ genPoly = (X ^ 24 * bitsPoly bits) %ₘ genPoly :=
    (modByMonic_eq_of_dvd_sub genPoly_monic h)
  rw [(modByMonic_eq_self_iff genPoly_monic).2 (regPoly_degree_lt _)] at h2
  rw [h2, mul_comm]

/-! ## The table -/

theorem crcBit_xor (r s : Nat) (a b : Bool) :
    crcBit (r ^^^ s) (a != b) = crcBit r a ^^^ crcBit s b := by
  apply regPoly_inj (crcBit_lt _ _) (Nat.xor_lt_two_pow (crcBit_lt _ _) (crcBit_lt _ _))
  have e1 : (if (a != b) = true then (X ^ 24 : (ZMod 2)[X]) else 0) =
      (if a = true then X ^ 24 else 0) + (if b = true then X ^ 24 else 0) := by
    cases a <;> cases b <;> simp [CharTwo.add_self_eq_zero]
  have e2 : ∀ x y : Bool, (if ((x ^^ y) != (a != b)) = true then genPoly else 0) =
      (if (x != a) = true then genPoly else 0) + (if (y != b) = true then genPoly else 0) := by
    intro x y
    cases a <;> cases b <;> cases x <;> cases y <;> simp [CharTwo.add_self_eq_zero]
  rw [regPoly_xor, regPoly_crcBit, regPoly_crcBit, regPoly_crcBit, regPoly_xor, Nat.testBit_xor, e1, e2]
  ring

theorem foldl_crcBit_xor (x y : List Bool) (r s : Nat) (h : x.length = y.length) :
    (List.zipWith (· != ·) x y).foldl crcBit (r ^^^ s) = x.foldl crcBit r ^^^ y.foldl crcBit s := by
  induction x generalizing y r s with
  | nil => cases y <;> simp_all
  | cons a x ih =>
    cases y with
    | nil => simp at h
    | cons b y =>
      simp only [List.zipWith_cons_cons, List.foldl_cons, crcBit_xor]
      exact ih _ _ _ (by simpa using h)

/-- Eight zero bits. -/
def zeros8 : List Bool := List.replicate 8 false

theorem tab_check : ∀ i, i < 256 → CRC24Q.crcTab[i]? = some (zeros8.foldl crcBit (i <<< 16)) := by
  decide +kernel

theorem feed_check : ∀ i, i < 256 →
    (byteBits (UInt8.ofNat i)).foldl crcBit 0 = zeros8.foldl crcBit (i <<< 16) := by
  decide +kernel

theorem crcBit_small (r : Nat) (h : r < 2 ^ 23) : crcBit r false = 2 * r := by
  unfold crcBit
  rw [Nat.testBit_lt_two_pow h]
  simp
  omega

theorem zeros8_small (r : Nat) (h : r < 2 ^ 16) : zeros8.foldl crcBit r = r <<< 8 := by
  simp only [zeros8, List.replicate, List.foldl_cons, List.foldl_nil]
  rw [crcBit_small (r) (by omega),
    crcBit_small (2 * (r)) (by omega),
    crcBit_small (2 * (2 * (r))) (by omega),
    crcBit_small (2 * (2 * (2 * (r)))) (by omega),
    crcBit_small (2 * (2 * (2 * (2 * (r))))) (by omega),
    crcBit_small (2 * (2 * (2 * (2 * (2 * (r)))))) (by omega),
    crcBit_small (2 * (2 * (2 * (2 * (2 * (2 * (r))))))) (by omega),
    crcBit_small (2 * (2 * (2 * (2 * (2 * (2 * (2 * (r)))))))) (by omega), Nat.shiftLeft_eq]
  omega

theorem zipWith_zero_left (x : List Bool) (h : x.length = 8) : List.zipWith (· != ·) zeros8 x = x := by
  match x, h with
  | [a, b, c, d, e, f, g, i], _ => simp [zeros8, List.replicate]

theorem zipWith_zeros : List.zipWith (· != ·) zeros8 zeros8 = zeros8 := by decide

theorem split16 (r : Nat) : r = ((r >>> 16) <<< 16) ^^^ (r % 2 ^ 16) := by
  apply Nat.eq_of_testBit_eq
  intro i
  rw [Nat.testBit_xor, Nat.testBit_shiftLeft, Nat.testBit_shiftRight, Nat.testBit_mod_two_pow]
  by_cases h : i < 16
  · simp [h, show ¬ 16 ≤ i by omega]
  · simp [h, show 16 ≤ i by omega]

theorem shl8_mask (r : Nat) : (r % 2 ^ 16) <<< 8 = (r <<< 8) &&& 0xFFFFFF := by
  have : (0xFFFFFF : Nat) = 2 ^ 24 - 1 := by decide
  rw [this, Nat.and_two_pow_sub_one_eq_mod, Nat.shiftLeft_eq, Nat.shiftLeft_eq]
  omega

theorem calcStep_eq (r : Nat) (hr : r < 2 ^ 24) (d : UInt8) :
    CRC24Q.calcStep r d = .ok ((byteBits d).foldl crcBit r) := by
  have hhi : r >>> 16 < 256 := by rw [Nat.shiftRight_eq_div_pow]; omega
  have hd : d.toNat < 256 := d.toNat_lt
  have hx : (r >>> 16) ^^^ d.toNat < 256 := Nat.xor_lt_two_pow (n := 8) hhi hd
  unfold CRC24Q.calcStep
  rw [tab_check _ hx]
  simp only
  congr 1
  have e1 : zeros8.foldl crcBit (((r >>> 16) ^^^ d.toNat) <<< 16) =
      zeros8.foldl crcBit ((r >>> 16) <<< 16) ^^^ zeros8.foldl crcBit (d.toNat <<< 16) := by
    rw [Nat.shiftLeft_xor_distrib]
    have := foldl_crcBit_xor zeros8 zeros8 ((r >>> 16) <<< 16) (d.toNat <<< 16) rfl
    rwa [zipWith_zeros] at this
  have e2 : (byteBits d).foldl crcBit r =
      zeros8.foldl crcBit r ^^^ (byteBits d).foldl crcBit 0 := by
    have := foldl_crcBit_xor zeros8 (byteBits d) r 0 rfl
    rwa [zipWith_zero_left _ rfl, Nat.xor_zero] at this
  have e3 : zeros8.foldl crcBit r =
      zeros8.foldl crcBit ((r >>> 16) <<< 16) ^^^ zeros8.foldl crcBit (r % 2 ^ 16) := by
    have := foldl_crcBit_xor zeros8 zeros8 ((r >>> 16) <<< 16) (r % 2 ^ 16) rfl
    rwa [zipWith_zeros, ← split16] at this
  have e4 := feed_check d.toNat hd
  rw [UInt8.ofNat_toNat] at e4
  rw [e1, e2, e3, e4, zeros8_small _ (Nat.mod_lt _ (by decide)), shl8_mask, ← Nat.xor_assoc,
    Nat.xor_comm _ (zeros8.foldl crcBit ((r >>> 16) <<< 16))]

theorem calc_aux (data : Bytes) (r : Nat) (hr : r < 2 ^ 24) :
    data.foldlM CRC24Q.calcStep r = .ok ((bitsOf data).foldl crcBit r) := by
  induction data generalizing r with
  | nil => rfl
  | cons d data ih =>
    rw [List.foldlM_cons, calcStep_eq r hr, bitsOf_cons, List.foldl_append]
    exact ih _ (foldl_crcBit_lt _ _ hr)

theorem calc_eq (data : Bytes) : CRC24Q.crcCalc data = .ok (crc24q data) :=
  calc_aux data 0 (by decide)

theorem crc24q_lt (data : Bytes) : crc24q data < 2 ^ 24 := crcOfBits_lt _

end Verif
